import Verif.Props.FloatSampling
import Verif.Props.FloatLoad
import Verif.Props.Capacity

/-!
# C101: the margins of an hour in binary64 arithmetic, from the draw on
-/

namespace Narp.Props
open Narp Narp.Spec

theorem f64_err_20 {x : ℚ} (h : |x| ≤ 2 ^ 21) : |f64 x - x| ≤ 2 / 2 ^ 32 := by
  have h1 := f64_err_abs x
  have h2 := zpow_tiny
  generalize (2 : ℚ) ^ (-1075 : ℤ) = t at *
  norm_num at *
  linarith

/-- Errors of a running sum by areas. -/
theorem sysconF_err {n m : ℕ} (CAPCON : Fin m → Fin n) (A A' : Fin m → ℚ) (hA : ∀ i, 0 ≤ A i) {η : ℚ} (hη0 : 0 ≤ η)
    (hη : η ≤ 1 / 2 ^ 30) (hAA : ∀ i, |A' i - A i| ≤ η) (j : Fin n) : ∀ (l : List (Fin m)) (S S' : Fin n → ℚ) (k : ℕ),
    0 ≤ S j → S j + (l.map fun i => if CAPCON i = j then A i else 0).sum ≤ 2 ^ 20 → k + l.length ≤ 2 ^ 13 →
    |S' j - S j| ≤ k * (η + 2 / 2 ^ 32) →
    |l.foldl (fun S i => Function.update S (CAPCON i) (f64 (S (CAPCON i) + A' i))) S' j -
      l.foldl (fun S i => addAt S (CAPCON i) (A i)) S j| ≤ (k + l.length : ℕ) * (η + 2 / 2 ^ 32) := by
  intro l
  induction l with
  | nil => intro S S' k _ _ _ h; simpa using h
  | cons i l ih =>
    intro S S' k h0 hs hk h
    simp only [List.foldl_cons, List.map_cons, List.sum_cons, List.length_cons] at hs hk ⊢
    have hl : 0 ≤ (l.map fun i => if CAPCON i = j then A i else 0).sum := by
      apply List.sum_nonneg
      intro x hx
      obtain ⟨z, _, rfl⟩ := List.mem_map.1 hx
      split
      · exact hA z
      · exact le_refl _
    have hd : 0 ≤ η + 2 / 2 ^ 32 := by positivity
    have hlen : k + (l.length + 1) = k + 1 + l.length := by omega
    rw [hlen]
    by_cases hij : CAPCON i = j
    · rw [if_pos hij] at hs
      apply ih _ _ (k + 1)
      · rw [addAt, hij, Function.update_self]; linarith [hA i]
      · rw [addAt, hij, Function.update_self]; linarith
      · omega
      · rw [addAt, hij, Function.update_self, Function.update_self]
        have hkq : (k : ℚ) ≤ 8192 := by exact_mod_cast (by omega : k ≤ 8192)
        have hAi := hAA i
        have hkd : (k : ℚ) * (η + 2 / 2 ^ 32) ≤ 1 := by
          have := mul_le_mul_of_nonneg_right hkq hd
          norm_num at *
          linarith
        rw [abs_le] at h hAi
        have hA0 := hA i
        have r := f64_err_20 (x := S' j + A' i) (by
          rw [abs_le]; norm_num at *
          constructor <;> linarith [h.1, h.2, hAi.1, hAi.2])
        rw [abs_le] at r ⊢
        push_cast
        rw [add_mul, one_mul]
        constructor <;> linarith [h.1, h.2, hAi.1, hAi.2, r.1, r.2]
    · rw [if_neg hij, zero_add] at hs
      have hji : j ≠ CAPCON i := fun h => hij h.symm
      apply ih _ _ (k + 1)
      · rw [addAt, Function.update_of_ne hji]; exact h0
      · rw [addAt, Function.update_of_ne hji]; exact hs
      · omega
      · rw [addAt, Function.update_of_ne hji, Function.update_of_ne hji]
        refine h.trans ?_
        push_cast
        rw [add_mul, one_mul]
        linarith

/-- The capacity of an area in binary64. -/
theorem syscon_err {n m : ℕ} (hm : m ≤ 2 ^ 13) (CAPOWN : Fin n → Fin m → ℚ) (CAPCON : Fin m → Fin n) (A A' : Fin m → ℚ)
    (hA : ∀ i, 0 ≤ A i) {η : ℚ} (hη0 : 0 ≤ η) (hη : η ≤ 1 / 2 ^ 30) (hAA : ∀ i, |A' i - A i| ≤ η) (j : Fin n)
    (hcap : ((List.finRange m).map fun i => if CAPCON i = j then A i else 0).sum ≤ 2 ^ 20) :
    |sysconF A' CAPCON j - (sumcap A CAPOWN CAPCON).2.2.1 j| ≤ m * (η + 2 / 2 ^ 32) := by
  have := sysconF_err CAPCON A A' hA hη0 hη hAA j (List.finRange m) (fun _ => 0) (fun _ => 0) 0 (le_refl _)
    (by rw [zero_add]; exact hcap) (by rw [List.length_finRange]; omega) (by simp)
  rw [List.length_finRange, zero_add] at this
  exact this

/-- Derating in binary64. -/
theorem derF_err {pct : ℚ} (h0 : 0 ≤ pct) (h1 : pct ≤ 100) : |dataxDERATEF pct - (1 - pct / 100)| ≤ 4 / 2 ^ 53 := by
  have e1 := f64_err_one (x := pct / 100) (by rw [abs_of_nonneg (by positivity)]; linarith)
  rw [abs_le] at e1
  have e2 := f64_err_one (x := 1 - f64 (pct / 100)) (by
    rw [abs_le]; norm_num at *; constructor <;> linarith [e1.1, e1.2])
  unfold dataxDERATEF
  rw [abs_le] at e2 ⊢
  norm_num at *
  constructor <;> linarith [e1.1, e1.2, e2.1, e2.2]

theorem unitPct_cases (p0 p1 der v : ℚ) : unitPct p0 p1 der v = 1 ∨ unitPct p0 p1 der v = der ∨ unitPct p0 p1 der v = 0 := by
  unfold unitPct; split_ifs <;> simp

theorem unitPct_der (p0 p1 d d' v : ℚ) : |unitPct p0 p1 d' v - unitPct p0 p1 d v| ≤ |d' - d| := by
  unfold unitPct
  split_ifs <;> simp

/-- The available capacity of a unit in binary64: from a state that is the same in both arithmetics. -/
theorem avail_err {pct d R PL : ℚ} {p0 p1 v : ℚ} (h0 : 0 ≤ pct) (h1 : pct ≤ 100) (hd : d = 1 - pct / 100)
    (hR : 0 ≤ R ∧ R ≤ 2 ^ 13) (hPL : PL = 0 ∨ PL = 1) :
    |f64 (f64 (unitPct p0 p1 (dataxDERATEF pct) v * R) * PL) - unitPct p0 p1 d v * R * PL| ≤ 1 / 2 ^ 37 := by
  have e0 := derF_err h0 h1
  rw [← hd] at e0
  have e1 := (unitPct_der p0 p1 d (dataxDERATEF pct) v).trans e0
  have hd0 : 0 ≤ d := by rw [hd]; linarith
  have hd1 : d ≤ 1 := by rw [hd]; linarith
  have hu : 0 ≤ unitPct p0 p1 d v ∧ unitPct p0 p1 d v ≤ 1 := by
    rcases unitPct_cases p0 p1 d v with h | h | h <;> rw [h] <;> constructor <;> linarith
  generalize unitPct p0 p1 (dataxDERATEF pct) v = x' at *
  generalize unitPct p0 p1 d v = x at *
  have e2 : |x' * R - x * R| ≤ 4 / 2 ^ 53 * 2 ^ 13 := by
    rw [← sub_mul, abs_mul, abs_of_nonneg hR.1]
    exact mul_le_mul e1 hR.2 hR.1 (by norm_num)
  have hxR0 : 0 ≤ x * R := mul_nonneg hu.1 hR.1
  have hxR1 : x * R ≤ 2 ^ 13 := by
    calc x * R ≤ 1 * 2 ^ 13 := mul_le_mul hu.2 hR.2 hR.1 (by norm_num)
      _ = 2 ^ 13 := by norm_num
  have e3 := f64_err_abs (x' * R)
  have ht := zpow_tiny
  generalize (2 : ℚ) ^ (-1075 : ℤ) = t at *
  rw [abs_le] at e2
  have e4 : |x' * R| ≤ 2 ^ 13 + 1 := by
    rw [abs_le]; norm_num at *; constructor <;> linarith [e2.1, e2.2]
  have e5 : |f64 (x' * R) - x' * R| ≤ 1 / 2 ^ 39 := by
    refine e3.trans ?_
    norm_num at *
    linarith
  rcases hPL with rfl | rfl
  · rw [mul_zero, mul_zero, f64_zero]; norm_num
  · rw [mul_one, mul_one, f64_f64]
    rw [abs_le] at e5 ⊢
    norm_num at *
    constructor <;> linarith [e2.1, e2.2, e5.1, e5.2]

theorem sumcap_syscon {n m : ℕ} (A : Fin m → ℚ) (CAPOWN : Fin n → Fin m → ℚ) (CAPCON : Fin m → Fin n) (j : Fin n) :
    (sumcap A CAPOWN CAPCON).2.2.1 j = ((List.finRange m).map fun i => if CAPCON i = j then A i else 0).sum := by
  have : ∀ (l : List (Fin m)) (S : Fin n → ℚ), l.foldl (fun S i => addAt S (CAPCON i) (A i)) S j =
      S j + (l.map fun i => if CAPCON i = j then A i else 0).sum := by
    intro l
    induction l with
    | nil => intro S; simp
    | cons i l ih =>
      intro S
      rw [List.foldl_cons, ih, List.map_cons, List.sum_cons, addAt]
      by_cases h : CAPCON i = j
      · rw [if_pos h, h, Function.update_self]; ring
      · rw [if_neg h, Function.update_of_ne (fun e => h e.symm)]; ring
  have h := this (List.finRange m) (fun _ => 0)
  rw [zero_add] at h
  exact h

/-- C101 (the margins of an hour). In a run of the program, whatever has been drawn before: up to 8192 units of up to
8192 MW each, at most 2^19 MW in the area, outage rates written with at most nine decimals, deratings between 0 and 100
per cent, card peaks up to 2^20 MW, raw loads that are not negative, forecast factors between 0 and 2. The margin the
program records for an area in a forecast tier - binary64 arithmetic in the random variates, thresholds, deratings,
capacities, their sum, the scaled load and the subtraction - differs from the margin of exact arithmetic by at most 1 MW,
and not at all unless the exact margin is within 2^-16 MW of a whole number other than 0. -/
theorem C101_margin (userSeed : ℤ) (NUNITS NLINES : ℕ) (hm : NUNITS ≤ 2 ^ 13) (hist : List (UnitData NUNITS))
    (a b : Fin NUNITS → ℕ) (hab : ∀ i, a i + b i ≤ 10 ^ 9) (RATING PCT PLNDST : Fin NUNITS → ℚ)
    (hR : ∀ i, 0 ≤ RATING i ∧ RATING i ≤ 2 ^ 13) (hpct : ∀ i, 0 ≤ PCT i ∧ PCT i ≤ 100)
    (hpl : ∀ i, PLNDST i = 0 ∨ PLNDST i = 1)
    {n : ℕ} (CAPOWN : Fin n → Fin NUNITS → ℚ) (CAPCON : Fin NUNITS → Fin n) (j : Fin n)
    (hcap : ((List.finRange NUNITS).map fun i => if CAPCON i = j then RATING i else 0).sum ≤ 2 ^ 19)
    (PKLOAD : ℕ → ℚ) (H : ℕ → ℕ → ℚ) (FCTERR : Fin n → Fin 5 → ℚ) (hr : ℕ) (NST : Fin 5) (hhr : hr < 8760)
    (hP : 0 ≤ PKLOAD j ∧ PKLOAD j ≤ 2 ^ 20) (hH : 0 ≤ H j hr) (hF : 0 ≤ FCTERR j NST ∧ FCTERR j NST ≤ 2) :
    let S := unitSeeds (fun i : Fin NUNITS => (programSeeds userSeed NUNITS NLINES).1 i) hist
    let gF := gstateF S (fun i => dataxPROBGF (f64 (a i / 10 ^ 9)) (f64 (b i / 10 ^ 9))) RATING
      (fun i => dataxDERATEF (PCT i)) PLNDST
    let g := gstate S (fun i => dataxPROBG (a i / 10 ^ 9) (b i / 10 ^ 9)) RATING (fun i => 1 - PCT i / 100) PLNDST
    let MF := tierMarginF (sysconF gF.2.2 CAPCON) (fun j h => leeiScaleF PKLOAD H j h) FCTERR hr NST j
    let M := exactMargin (sumcap g.2.2 CAPOWN CAPCON).2.2.1 PKLOAD H FCTERR hr NST j
    |MF - pyInt M| ≤ 1 ∧ ((∀ k : ℤ, k ≠ 0 → 1 / 2 ^ 16 < |M - k|) → MF = pyInt M) := by
  intro S gF g MF M
  obtain ⟨m1, _⟩ := seeds_mod userSeed NUNITS NLINES
  have st : ∀ x : ℤ, x % 128 = 64 → 0 ≤ mul31 65539 x ∧ mul31 65539 x < 2 ^ 31 ∧ mul31 65539 x % 128 = 64 := by
    intro x hx; rw [mul31_eq]; omega
  have hA0 : ∀ i, 0 ≤ g.2.2 i ∧ g.2.2 i ≤ RATING i := by
    intro i
    have hd0 : 0 ≤ 1 - PCT i / 100 := by linarith [(hpct i).2]
    have hd1 : 1 - PCT i / 100 ≤ 1 := by linarith [(hpct i).1]
    have e : g.2.2 i = unitPct (dataxPROBG (a i / 10 ^ 9) (b i / 10 ^ 9) 0) (dataxPROBG (a i / 10 ^ 9) (b i / 10 ^ 9) 1)
      (1 - PCT i / 100) (variate (mul31 65539 (S i))) * RATING i * PLNDST i := rfl
    have hu : ∀ p0 p1 v, 0 ≤ unitPct p0 p1 (1 - PCT i / 100) v ∧ unitPct p0 p1 (1 - PCT i / 100) v ≤ 1 := by
      intro p0 p1 v
      rcases unitPct_cases p0 p1 (1 - PCT i / 100) v with h | h | h <;> rw [h] <;> constructor <;> linarith
    rw [e]
    have := hu (dataxPROBG (a i / 10 ^ 9) (b i / 10 ^ 9) 0) (dataxPROBG (a i / 10 ^ 9) (b i / 10 ^ 9) 1)
      (variate (mul31 65539 (S i)))
    generalize unitPct _ _ _ _ = x at *
    have hRi := (hR i).1
    rcases hpl i with h | h <;> rw [h]
    · rw [mul_zero]; exact ⟨le_refl _, hRi⟩
    · rw [mul_one]; exact ⟨mul_nonneg this.1 hRi, by nlinarith [this.2]⟩
  have hAA : ∀ i, |gF.2.2 i - g.2.2 i| ≤ 1 / 2 ^ 37 := by
    intro i
    obtain ⟨h0, h1, h2⟩ := st (S i) (m1 hist i)
    have hs := C95_unit (a i) (b i) (hab i) h0 h1 h2 (dataxDERATEF (PCT i))
    have e1 : gF.2.2 i = f64 (f64 (unitPct (dataxPROBGF (f64 (a i / 10 ^ 9)) (f64 (b i / 10 ^ 9)) 0)
      (dataxPROBGF (f64 (a i / 10 ^ 9)) (f64 (b i / 10 ^ 9)) 1) (dataxDERATEF (PCT i))
      (variateF (mul31 65539 (S i))) * RATING i) * PLNDST i) := rfl
    have e2 : g.2.2 i = unitPct (dataxPROBG (a i / 10 ^ 9) (b i / 10 ^ 9) 0) (dataxPROBG (a i / 10 ^ 9) (b i / 10 ^ 9) 1)
      (1 - PCT i / 100) (variate (mul31 65539 (S i))) * RATING i * PLNDST i := rfl
    dsimp only at hs
    rw [e1, e2, hs]
    exact avail_err (hpct i).1 (hpct i).2 rfl (hR i) (hpl i)
  have hsum : ((List.finRange NUNITS).map fun i => if CAPCON i = j then g.2.2 i else 0).sum ≤ 2 ^ 19 := by
    refine le_trans (List.sum_le_sum ?_) hcap
    intro i _
    split
    · exact (hA0 i).2
    · exact le_refl _
  have hc := syscon_err hm CAPOWN CAPCON g.2.2 gF.2.2 (fun i => (hA0 i).1) (η := 1 / 2 ^ 37) (by norm_num) (by norm_num) hAA j
    (hsum.trans (by norm_num))
  have hex : (sumcap g.2.2 CAPOWN CAPCON).2.2.1 j =
      ((List.finRange NUNITS).map fun i => if CAPCON i = j then g.2.2 i else 0).sum := sumcap_syscon _ _ _ j
  have hS0 : 0 ≤ (sumcap g.2.2 CAPOWN CAPCON).2.2.1 j := by
    rw [hex]
    apply List.sum_nonneg
    intro x hx
    obtain ⟨z, _, rfl⟩ := List.mem_map.1 hx
    split
    · exact (hA0 z).1
    · exact le_refl _
  have hS1 : (sumcap g.2.2 CAPOWN CAPCON).2.2.1 j ≤ 2 ^ 19 := by rw [hex]; exact hsum
  have hmq : (NUNITS : ℚ) ≤ 8192 := by exact_mod_cast hm
  have hc' : |sysconF gF.2.2 CAPCON j - (sumcap g.2.2 CAPOWN CAPCON).2.2.1 j| ≤ 1 / 2 ^ 17 := by
    refine hc.trans ?_
    refine (mul_le_mul_of_nonneg_right hmq (by norm_num)).trans ?_
    norm_num
  rw [abs_le] at hc'
  have me := margin_err (sysconF gF.2.2 CAPCON) PKLOAD H FCTERR hr NST j hhr
    (by norm_num at *; constructor <;> linarith [hc'.1, hc'.2]) hP hH hF
  refine pyInt_near (x := M) (e := 1 / 2 ^ 16) ?_ (by norm_num)
  have e : exactMargin (sysconF gF.2.2 CAPCON) PKLOAD H FCTERR hr NST j - M =
      sysconF gF.2.2 CAPCON j - (sumcap g.2.2 CAPOWN CAPCON).2.2.1 j := by
    simp only [M, exactMargin]; ring
  rw [abs_le] at me ⊢
  norm_num at *
  constructor <;> linarith [me.1, me.2, hc'.1, hc'.2]

/-- the hypotheses of `C101_margin`: two units of 400 and 155 MW with 5 and 10 per cent outage rates and a derating of 30
per cent, an area with a peak of 480 MW -/
example : let a : Fin 2 → ℕ := ![50000000, 20000000]
    let b : Fin 2 → ℕ := ![100000000, 0]
    let R : Fin 2 → ℚ := ![400, 155]
    let pct : Fin 2 → ℚ := ![30, 0]
    (∀ i, a i + b i ≤ 10 ^ 9) ∧ (∀ i, 0 ≤ R i ∧ R i ≤ 2 ^ 13) ∧ (∀ i, 0 ≤ pct i ∧ pct i ≤ 100) ∧
      ((List.finRange 2).map fun i => if (0 : Fin 1) = 0 then R i else 0).sum ≤ 2 ^ 19 := by
  decide +kernel

end Narp.Props
