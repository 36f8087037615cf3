import Verif.Model.FloatCode
import Verif.Lemmas.Float
import Verif.Props.Load
import Verif.Props.Sampling

/-!
# C96 - C98: loads and margins in binary64 arithmetic
-/

namespace Narp.Props
open Narp Narp.Spec

theorem isF64_one : IsF64 1 := ⟨1, 0, by norm_num, by norm_num, by norm_num⟩

/-- The largest raw load of an area, as the program finds it. -/
def rawPeakF (H : ℕ → ℕ → ℚ) (j : ℕ) : ℚ := ((List.range 8760).map (H j)).foldl max (f64 (1/1000))

theorem f64_milli : (1/1000 : ℚ) ≤ f64 (1/1000) ∧ 0 < f64 (1/1000) := by decide +kernel

theorem rawPeakF_pos (H : ℕ → ℕ → ℚ) (j : ℕ) : 0 < rawPeakF H j :=
  lt_of_lt_of_le f64_milli.2 (le_foldl_max _ _).1

theorem le_rawPeakF (H : ℕ → ℕ → ℚ) (j : ℕ) {h : ℕ} (hh : h < 8760) : H j h ≤ rawPeakF H j :=
  (le_foldl_max _ _).2 _ (List.mem_map.2 ⟨h, List.mem_range.2 hh, rfl⟩)

/-- When a load reaches 0.001 the largest raw load is one of the loads. -/
theorem rawPeakF_mem (H : ℕ → ℕ → ℚ) (j : ℕ) (h0 : ∃ h < 8760, f64 (1/1000) ≤ H j h) :
    ∃ h < 8760, H j h = rawPeakF H j := by
  rcases foldl_max_mem ((List.range 8760).map (H j)) (f64 (1/1000)) with h | h
  · obtain ⟨k, hk, hk2⟩ := h0
    refine ⟨k, hk, le_antisymm (le_rawPeakF H j hk) ?_⟩
    rw [rawPeakF, h]; exact hk2
  · obtain ⟨k, hk, hk2⟩ := List.mem_map.1 h
    exact ⟨k, List.mem_range.1 hk, hk2⟩

/-- The exact program finds the same largest raw load. -/
theorem rawPeakF_exact (H : ℕ → ℕ → ℚ) (j : ℕ) (h0 : ∃ h < 8760, f64 (1/1000) ≤ H j h) :
    ((List.range 8760).map (H j)).foldl max (1/1000) = rawPeakF H j := by
  obtain ⟨h, hh, hm⟩ := rawPeakF_mem H j h0
  have h1 := (le_foldl_max ((List.range 8760).map (H j)) (1/1000))
  apply le_antisymm
  · rcases foldl_max_mem ((List.range 8760).map (H j)) (1/1000) with h | h
    · rw [h]; exact f64_milli.1.trans (le_foldl_max _ _).1
    · exact (le_foldl_max _ _).2 _ h
  · rw [← hm]; exact h1.2 _ (List.mem_map.2 ⟨h, List.mem_range.2 hh, rfl⟩)

/-- A rounded number times a number, rounded. -/
theorem two_roundings (x : ℚ) {P : ℚ} (hP0 : 0 ≤ P) :
    |f64 (f64 x * P) - x * P| ≤ |x * P| / 2 ^ 51 + (P + 1) * 2 ^ (-1074 : ℤ) := by
  have a1 := f64_err_abs x
  have a2 := f64_err_abs (f64 x * P)
  have ht : (2 : ℚ) ^ (-1074 : ℤ) = 2 * 2 ^ (-1075 : ℤ) := by
    rw [show (-1074 : ℤ) = 1 + -1075 by norm_num, zpow_add₀ (by norm_num)]; norm_num
  rw [ht]
  have t0 : (0 : ℚ) < 2 ^ (-1075 : ℤ) := by positivity
  generalize (2 : ℚ) ^ (-1075 : ℤ) = t at a1 a2 t0
  have b1 : |f64 x * P - x * P| ≤ (|x| / 2 ^ 53 + t) * P := by
    rw [← sub_mul, abs_mul, abs_of_nonneg hP0]
    exact mul_le_mul_of_nonneg_right a1 hP0
  have b2 := abs_sub_abs_le_abs_sub (f64 x * P) (x * P)
  have b3 : |f64 (f64 x * P) - x * P| ≤ |f64 (f64 x * P) - f64 x * P| + |f64 x * P - x * P| := abs_sub_le _ _ _
  have e5 : |x * P| = |x| * P := by rw [abs_mul, abs_of_nonneg hP0]
  have hxP : 0 ≤ |x| * P := mul_nonneg (abs_nonneg x) hP0
  have htP : 0 ≤ t * P := mul_nonneg t0.le hP0
  rw [e5] at b2 ⊢
  have e6 : (|x| / 2 ^ 53 + t) * P = |x| * P / 2 ^ 53 + t * P := by ring
  have e7 : (P + 1) * (2 * t) = 2 * (t * P) + 2 * t := by ring
  rw [e6] at b1
  rw [e7]
  generalize |x| * P = A at *
  generalize t * P = B at *
  norm_num at *
  linarith

/-- C96 (scaling in binary64). For an area with card peak `PKLOAD j ≥ 0` and a load file with some load of at least
0.001: some hour of the year has exactly the card's peak, no hour is above it, the order of the hours is kept, and every
load is the exactly scaled one up to a relative error of 2^-51 (and an absolute one of 2^-1074 per MW of the peak). -/
theorem C96_scaled (PKLOAD : ℕ → ℚ) (H : ℕ → ℕ → ℚ) (j : ℕ) (hP : IsF64 (PKLOAD j)) (hP0 : 0 ≤ PKLOAD j)
    (h0 : ∃ h < 8760, f64 (1/1000) ≤ H j h) :
    (∃ h < 8760, leeiScaleF PKLOAD H j h = PKLOAD j) ∧ (∀ h < 8760, leeiScaleF PKLOAD H j h ≤ PKLOAD j) ∧
      (∀ h h', H j h ≤ H j h' → leeiScaleF PKLOAD H j h ≤ leeiScaleF PKLOAD H j h') ∧
      (∀ h, |leeiScaleF PKLOAD H j h - leeiScale PKLOAD H j h| ≤
        |leeiScale PKLOAD H j h| / 2 ^ 51 + (PKLOAD j + 1) * 2 ^ (-1074 : ℤ)) := by
  have hM := rawPeakF_pos H j
  have e : ∀ h, leeiScaleF PKLOAD H j h = f64 (f64 (H j h / rawPeakF H j) * PKLOAD j) := fun _ => rfl
  have ex : ∀ h, leeiScale PKLOAD H j h = H j h / rawPeakF H j * PKLOAD j := by
    intro h; unfold leeiScale; rw [rawPeakF_exact H j h0]
  refine ⟨?_, ?_, ?_, ?_⟩
  · obtain ⟨h, hh, hm⟩ := rawPeakF_mem H j h0
    refine ⟨h, hh, ?_⟩
    rw [e, hm, div_self hM.ne', f64_of_isF64 isF64_one, one_mul, f64_of_isF64 hP]
  · intro h hh
    rw [e]
    apply f64_le_of_isF64 hP
    have : f64 (H j h / rawPeakF H j) ≤ 1 :=
      f64_le_of_isF64 isF64_one ((div_le_one hM).2 (le_rawPeakF H j hh))
    nlinarith
  · intro h h' hle
    rw [e, e]
    apply f64_mono
    exact mul_le_mul_of_nonneg_right (f64_mono (div_le_div_of_nonneg_right hle hM.le)) hP0
  · intro h
    rw [e, ex]
    exact two_roundings _ hP0

/-- a year in which every hour has the load 100, but the second one 29 -/
def hundred (_j h : ℕ) : ℚ := if h = 1 then 29 else 100

theorem milli_le : f64 (1/1000) ≤ 100 := by decide +kernel

theorem hundred_peak (j : ℕ) : rawPeakF hundred j = 100 := by
  obtain ⟨h, _, hm⟩ := rawPeakF_mem hundred j ⟨0, by norm_num, milli_le⟩
  have h0 : (100 : ℚ) ≤ rawPeakF hundred j := le_rawPeakF hundred j (h := 0) (by norm_num)
  have : hundred j h ≤ 100 := by unfold hundred; split <;> norm_num
  linarith

/-- the hypotheses of `C96_scaled` -/
example : IsF64 ((fun _ => 100 : ℕ → ℚ) 0) ∧ (∃ h < 8760, f64 (1/1000) ≤ hundred 0 h) :=
  ⟨isF64_int (m := 100) (by norm_num), 0, by norm_num, by decide +kernel⟩

/-- C97 (refuted). A load file whose largest load is the card's peak is not used as written: the load 29 of a file with
peak 100 becomes 28.999999999999996 for the card peak 100. -/
theorem C97_as_written_refuted : ∃ (H : ℕ → ℕ → ℚ) (PKLOAD : ℕ → ℚ), rawPeakF H 0 = PKLOAD 0 ∧
    leeiScale PKLOAD H 0 1 = H 0 1 ∧ leeiScaleF PKLOAD H 0 1 < H 0 1 := by
  refine ⟨hundred, fun _ => 100, hundred_peak 0, ?_, ?_⟩
  · unfold leeiScale
    rw [rawPeakF_exact hundred 0 ⟨0, by norm_num, by decide +kernel⟩, hundred_peak]
    decide +kernel
  · change f64 (f64 (hundred 0 1 / rawPeakF hundred 0) * 100) < _
    rw [hundred_peak]
    decide +kernel

/-- C97 (refuted, effect). An area with this load (29 MW) and 28 MW of capacity is 1 MW short, and exact arithmetic
records 1 MW; the program finds the margin 0, no shortage. -/
theorem C97_missed_refuted : ∃ (H : ℕ → ℕ → ℚ) (PKLOAD : ℕ → ℚ) (SYSCON : Fin 1 → ℚ),
    marginInt (fun j => SYSCON j - findld 2 1 (fun j h => leeiScale PKLOAD H j h) (fun _ _ => 1) j) 0 = -1 ∧
    tierMarginF SYSCON (fun j h => leeiScaleF PKLOAD H j h) (fun _ _ => 1) 1 2 0 = 0 := by
  refine ⟨hundred, fun _ => 100, fun _ => 28, ?_, ?_⟩
  · have : leeiScale (fun _ => 100) hundred 0 1 = 29 := by
      unfold leeiScale
      rw [rawPeakF_exact hundred 0 ⟨0, by norm_num, by decide +kernel⟩, hundred_peak]
      decide +kernel
    simp only [marginInt, findld, Fin.val_zero]
    rw [this]
    decide +kernel
  · have : leeiScaleF (fun _ => 100) hundred 0 1 = f64 (f64 (29 / 100) * 100) := by
      change f64 (f64 (hundred 0 1 / rawPeakF hundred 0) * 100) = _
      rw [hundred_peak]; rfl
    simp only [tierMarginF, marginInt, findldF, Fin.val_zero]
    rw [this]
    decide +kernel

/-! ## C98 -/

theorem pyInt_eq_zero {x : ℚ} (h1 : -1 < x) (h2 : x < 1) : pyInt x = 0 := by
  unfold pyInt
  split
  · rw [Int.floor_eq_iff]; constructor <;> push_cast <;> linarith
  · rw [Int.ceil_eq_iff]; constructor <;> push_cast <;> linarith

theorem pyInt_eq_pos {x : ℚ} {n : ℤ} (hn : 1 ≤ n) (h1 : n ≤ x) (h2 : x < n + 1) : pyInt x = n := by
  have : (1 : ℚ) ≤ n := by exact_mod_cast hn
  unfold pyInt
  rw [if_pos (by linarith), Int.floor_eq_iff]; constructor <;> linarith

theorem pyInt_eq_neg {x : ℚ} {n : ℤ} (hn : n ≤ -1) (h1 : x ≤ n) (h2 : n - 1 < x) : pyInt x = n := by
  have : (n : ℚ) ≤ -1 := by exact_mod_cast hn
  unfold pyInt
  rw [if_neg (by linarith), Int.ceil_eq_iff]; constructor <;> linarith

/-- Where a number is cut to. -/
theorem pyInt_cases (x : ℚ) : (pyInt x = 0 ∧ -1 < x ∧ x < 1) ∨ (1 ≤ pyInt x ∧ (pyInt x : ℚ) ≤ x ∧ x < pyInt x + 1) ∨
    (pyInt x ≤ -1 ∧ x ≤ pyInt x ∧ (pyInt x : ℚ) - 1 < x) := by
  rcases lt_or_ge x 1 with h1 | h1
  · rcases lt_or_ge (-1) x with h2 | h2
    · exact Or.inl ⟨pyInt_eq_zero h2 h1, h2, h1⟩
    · right; right
      have e : pyInt x = ⌈x⌉ := by unfold pyInt; rw [if_neg (by linarith)]
      rw [e]
      have a := Int.le_ceil x
      have b := Int.ceil_lt_add_one x
      exact ⟨Int.ceil_le.2 (by push_cast; exact h2), a, by linarith⟩
  · right; left
    have e : pyInt x = ⌊x⌋ := by unfold pyInt; rw [if_pos (by linarith)]
    rw [e]
    have a := Int.floor_le x
    have b := Int.lt_floor_add_one x
    exact ⟨Int.le_floor.2 (by push_cast; exact h1), a, b⟩

/-- Cutting a number that is off by less than 1 is off by at most 1, and by nothing unless the number is within the
error of a whole number other than 0. -/
theorem pyInt_near {x y e : ℚ} (h : |y - x| ≤ e) (he : e < 1) :
    |pyInt y - pyInt x| ≤ 1 ∧ ((∀ k : ℤ, k ≠ 0 → e < |x - k|) → pyInt y = pyInt x) := by
  rw [abs_le] at h
  constructor
  · rw [abs_le]
    rcases pyInt_cases x with ⟨a, b, c⟩ | ⟨a, b, c⟩ | ⟨a, b, c⟩ <;>
    rcases pyInt_cases y with ⟨a', b', c'⟩ | ⟨a', b', c'⟩ | ⟨a', b', c'⟩ <;>
    constructor <;> (try rw [a]) <;> (try rw [a']) <;> (try norm_num) <;>
    first
      | omega
      | (by_contra hc
         push Not at hc
         first
           | (have q : (pyInt x : ℚ) + 2 ≤ pyInt y := by exact_mod_cast (by omega : pyInt x + 2 ≤ pyInt y)
              linarith)
           | (have q : (pyInt y : ℚ) + 2 ≤ pyInt x := by exact_mod_cast (by omega : pyInt y + 2 ≤ pyInt x)
              linarith)
           | (have q : (2 : ℚ) ≤ pyInt y := by exact_mod_cast (by omega : 2 ≤ pyInt y)
              linarith)
           | (have q : (2 : ℚ) ≤ pyInt x := by exact_mod_cast (by omega : 2 ≤ pyInt x)
              linarith)
           | (have q : (pyInt y : ℚ) ≤ -2 := by exact_mod_cast (by omega : pyInt y ≤ -2)
              linarith)
           | (have q : (pyInt x : ℚ) ≤ -2 := by exact_mod_cast (by omega : pyInt x ≤ -2)
              linarith))
  · intro hk
    rcases pyInt_cases x with ⟨a, b, c⟩ | ⟨a, b, c⟩ | ⟨a, b, c⟩
    · rw [a]
      have k1 := hk 1 (by norm_num)
      have k2 := hk (-1) (by norm_num)
      push_cast at k1 k2
      rw [abs_of_nonpos (by linarith)] at k1
      rw [abs_of_nonneg (by linarith)] at k2
      exact pyInt_eq_zero (by linarith) (by linarith)
    · have k1 := hk (pyInt x) (by omega)
      have k2 := hk (pyInt x + 1) (by omega)
      push_cast at k2
      rw [abs_of_nonneg (by linarith)] at k1
      rw [abs_of_nonpos (by linarith)] at k2
      exact pyInt_eq_pos a (by linarith) (by linarith)
    · have k1 := hk (pyInt x) (by omega)
      have k2 := hk (pyInt x - 1) (by omega)
      push_cast at k2
      rw [abs_of_nonpos (by linarith)] at k1
      rw [abs_of_nonneg (by linarith)] at k2
      exact pyInt_eq_neg a (by linarith) (by linarith)

/-- The exact margin of a tier: capacity less the exactly scaled load times the forecast factor. -/
def exactMargin {n : ℕ} (SYSCON : Fin n → ℚ) (PKLOAD : ℕ → ℚ) (H : ℕ → ℕ → ℚ) (FCTERR : Fin n → Fin 5 → ℚ) (hr : ℕ)
    (NST : Fin 5) (j : Fin n) : ℚ :=
  SYSCON j - H j hr / rawPeakF H j * PKLOAD j * FCTERR j NST

theorem zpow_tiny : (2 : ℚ) ^ (-1075 : ℤ) ≤ 2 ^ (-60 : ℤ) := zpow_le_zpow_right₀ (by norm_num) (by norm_num)

/-- The margin in binary64, before it is cut to whole MW, is within 2^-28 MW of the exact one. -/
theorem margin_err {n : ℕ} (SYSCON : Fin n → ℚ) (PKLOAD : ℕ → ℚ) (H : ℕ → ℕ → ℚ) (FCTERR : Fin n → Fin 5 → ℚ)
    (hr : ℕ) (NST : Fin 5) (j : Fin n) (hhr : hr < 8760)
    (hS : -1 ≤ SYSCON j ∧ SYSCON j ≤ 2 ^ 20) (hP : 0 ≤ PKLOAD j ∧ PKLOAD j ≤ 2 ^ 20)
    (hH : 0 ≤ H j hr) (hF : 0 ≤ FCTERR j NST ∧ FCTERR j NST ≤ 2) :
    |f64 (SYSCON j - findldF NST hr (fun j h => leeiScaleF PKLOAD H j h) FCTERR j) -
      exactMargin SYSCON PKLOAD H FCTERR hr NST j| ≤ 1 / 2 ^ 28 := by
  have hM := rawPeakF_pos H j
  have hle := le_rawPeakF H j hhr
  have e : leeiScaleF PKLOAD H j hr = f64 (f64 (H j hr / rawPeakF H j) * PKLOAD j) := rfl
  have t1 := two_roundings (H j hr / rawPeakF H j) hP.1
  have q0 : 0 ≤ H j hr / rawPeakF H j := div_nonneg hH hM.le
  have q1 : H j hr / rawPeakF H j ≤ 1 := (div_le_one hM).2 hle
  unfold exactMargin findldF
  simp only
  rw [e]
  generalize H j hr / rawPeakF H j = q at *
  generalize f64 (f64 q * PKLOAD j) = L at *
  generalize PKLOAD j = P at *
  generalize FCTERR j NST = F at *
  generalize SYSCON j = S at *
  have t2 := f64_err_abs (L * F)
  have t3 := f64_err_abs (S - f64 (L * F))
  have hts : (2 : ℚ) ^ (-1074 : ℤ) = 2 * 2 ^ (-1075 : ℤ) := by
    rw [show (-1074 : ℤ) = 1 + -1075 by norm_num, zpow_add₀ (by norm_num)]; norm_num
  rw [hts] at t1
  have ht := zpow_tiny
  have ht0 : (0 : ℚ) < 2 ^ (-1075 : ℤ) := by positivity
  generalize (2 : ℚ) ^ (-1075 : ℤ) = t at *
  generalize f64 (L * F) = A at *
  generalize f64 (S - A) = B at *
  have x0 : 0 ≤ q * P := mul_nonneg q0 hP.1
  have x1 : q * P ≤ P := by nlinarith
  rw [abs_of_nonneg x0] at t1
  norm_num at ht
  have t1' : |L - q * P| ≤ 1 / 2 ^ 31 + 1 / 2 ^ 38 := by
    refine t1.trans ?_
    have : (P + 1) * (2 * t) ≤ (2 ^ 20 + 1) * (2 * t) := mul_le_mul_of_nonneg_right (by linarith [hP.2]) (by linarith)
    norm_num at *
    linarith [hP.2]
  rw [abs_le] at t1'
  have y1 : |L * F - q * P * F| ≤ (1 / 2 ^ 31 + 1 / 2 ^ 38) * 2 := by
    rw [← sub_mul, abs_mul, abs_of_nonneg hF.1]
    exact mul_le_mul (abs_le.2 t1') hF.2 hF.1 (by norm_num)
  have z0 : 0 ≤ q * P * F := mul_nonneg x0 hF.1
  have z1 : q * P * F ≤ 2 ^ 21 := by
    calc q * P * F ≤ 2 ^ 20 * 2 := mul_le_mul (x1.trans hP.2) hF.2 hF.1 (by norm_num)
      _ = 2 ^ 21 := by norm_num
  rw [abs_le] at y1
  have w : |L * F| ≤ 2 ^ 22 := by rw [abs_le]; norm_num at *; constructor <;> linarith [y1.1, y1.2]
  have y2 : |A - L * F| ≤ 1 / 2 ^ 31 + 1 / 2 ^ 38 := by
    refine t2.trans ?_
    norm_num at *
    linarith
  rw [abs_le] at y2
  have w2 : |S - A| ≤ 2 ^ 22 := by
    rw [abs_le]; norm_num at *
    constructor <;> linarith [y1.1, y1.2, y2.1, y2.2, hS.1, hS.2]
  have y3 : |B - (S - A)| ≤ 1 / 2 ^ 31 + 1 / 2 ^ 38 := by
    refine t3.trans ?_
    norm_num at *
    linarith
  rw [abs_le] at y3 ⊢
  norm_num at *
  constructor <;> linarith [y1.1, y1.2, y2.1, y2.2, y3.1, y3.2]

/-- C98 (margins in binary64). For capacities and card peaks up to 2^20 MW (a million), raw loads that are not
negative and forecast factors between 0 and 2, the whole-MW margin the program forms for an area in a tier differs from
the exact one by at most 1 MW, and not at all unless the exact margin is within 2^-28 MW of a whole number other than 0. -/
theorem C98_margin {n : ℕ} (SYSCON : Fin n → ℚ) (PKLOAD : ℕ → ℚ) (H : ℕ → ℕ → ℚ) (FCTERR : Fin n → Fin 5 → ℚ)
    (hr : ℕ) (NST : Fin 5) (j : Fin n) (hhr : hr < 8760)
    (hS : 0 ≤ SYSCON j ∧ SYSCON j ≤ 2 ^ 20) (hP : 0 ≤ PKLOAD j ∧ PKLOAD j ≤ 2 ^ 20)
    (hH : 0 ≤ H j hr) (hF : 0 ≤ FCTERR j NST ∧ FCTERR j NST ≤ 2) :
    |tierMarginF SYSCON (fun j h => leeiScaleF PKLOAD H j h) FCTERR hr NST j -
        pyInt (exactMargin SYSCON PKLOAD H FCTERR hr NST j)| ≤ 1 ∧
      ((∀ k : ℤ, k ≠ 0 → 1 / 2 ^ 28 < |exactMargin SYSCON PKLOAD H FCTERR hr NST j - k|) →
        tierMarginF SYSCON (fun j h => leeiScaleF PKLOAD H j h) FCTERR hr NST j =
          pyInt (exactMargin SYSCON PKLOAD H FCTERR hr NST j)) :=
  pyInt_near (margin_err SYSCON PKLOAD H FCTERR hr NST j hhr ⟨by linarith [hS.1], hS.2⟩ hP hH hF) (by norm_num)

/-- the hypotheses of `C98_margin`, with a margin far from whole numbers -/
example : (∀ k : ℤ, k ≠ 0 → (1 / 2 ^ 28 : ℚ) < |exactMargin (fun _ : Fin 1 => 57/2) (fun _ => 100) hundred (fun _ _ => 1) 1 2 0 - k|) ∧
    (0 : ℚ) ≤ hundred 0 1 := by
  constructor
  · intro k _
    have : exactMargin (fun _ : Fin 1 => 57/2) (fun _ => 100) hundred (fun _ _ => 1) 1 2 0 = -1/2 := by
      change 57 / 2 - hundred 0 1 / rawPeakF hundred 0 * 100 * 1 = _
      rw [hundred_peak]; decide +kernel
    rw [this, lt_abs]
    rcases le_or_gt 0 k with h | h
    · right; have : (0 : ℚ) ≤ k := by exact_mod_cast h
      norm_num; linarith
    · left; have : (k : ℚ) ≤ -1 := by exact_mod_cast (by omega : k ≤ -1)
      norm_num; linarith
  · decide +kernel

end Narp.Props
