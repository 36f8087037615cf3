import Verif.Model.Float
import Verif.Spec.Float
import Mathlib.Tactic.Linarith
import Mathlib.Tactic.Positivity
import Mathlib.Tactic.Ring
import Mathlib.Tactic.NormNum
import Mathlib.Tactic.FieldSimp
import Mathlib.Algebra.Order.Field.Power

/-!
# Rounding to binary64 is correct rounding
-/

namespace Narp
open Narp.Spec

theorem pow2_eq (k : ℤ) : pow2 k = (2 : ℚ) ^ k := by
  cases k with
  | ofNat n => simp [pow2]
  | negSucc n => simp [pow2, zpow_negSucc]

theorem pow2_pos (k : ℤ) : 0 < pow2 k := by rw [pow2_eq]; positivity

theorem ulp_pos (x : ℚ) : 0 < ulp x := pow2_pos _

theorem ulp_neg (x : ℚ) : ulp (-x) = ulp x := by simp [ulp]

/-- Nearest integer: at most one half away. -/
theorem rne_err (x : ℚ) : |(rne x : ℚ) - x| ≤ 1 / 2 := by
  have h1 := Int.floor_le x
  have h2 := Int.lt_floor_add_one x
  unfold rne
  split
  · rw [abs_le]; constructor <;> push_cast <;> linarith
  · split
    · rw [abs_le]; constructor <;> push_cast <;> linarith
    · split <;> rw [abs_le] <;> constructor <;> push_cast <;> linarith

/-- Nearest integer: no integer is nearer. -/
theorem rne_nearest (x : ℚ) (z : ℤ) : |(rne x : ℚ) - x| ≤ |(z : ℚ) - x| := by
  by_cases hz : z = rne x
  · rw [hz]
  have h := rne_err x
  have h1 : (1 : ℚ) ≤ |(z : ℚ) - rne x| := by
    have : (1 : ℤ) ≤ |z - rne x| := Int.one_le_abs (sub_ne_zero.mpr hz)
    exact_mod_cast this
  have h2 : |(z : ℚ) - rne x| ≤ |(z : ℚ) - x| + |(rne x : ℚ) - x| := by
    have := abs_sub_le (z : ℚ) x (rne x)
    rwa [abs_sub_comm x] at this
  linarith

theorem rne_int (z : ℤ) : rne (z : ℚ) = z := by
  have := rne_nearest z z
  simp only [sub_self, abs_zero] at this
  have h := abs_nonpos_iff.mp this
  have : (rne (z : ℚ) : ℚ) = z := by linarith
  exact_mod_cast this

/-- On a tie the even integer is taken. -/
theorem rne_tie (x : ℚ) (h : x - ⌊x⌋ = 1 / 2) : rne x % 2 = 0 := by
  unfold rne
  rw [h]
  simp only [lt_irrefl, if_false]
  split
  · assumption
  · omega

theorem rne_neg (x : ℚ) : rne (-x) = -rne x := by
  by_cases hi : x = ⌊x⌋
  · rw [hi, ← Int.cast_neg, rne_int, rne_int]
  have hfl : ⌊-x⌋ = -⌊x⌋ - 1 := by
    rw [Int.floor_eq_iff]
    have h1 := Int.floor_le x
    have h2 := Int.lt_floor_add_one x
    have h3 : (⌊x⌋ : ℚ) < x := lt_of_le_of_ne h1 (fun h => hi h.symm)
    constructor <;> push_cast <;> linarith
  unfold rne
  rw [hfl]
  push_cast
  rcases lt_trichotomy (x - ⌊x⌋) (1 / 2) with h | h | h
  · rw [if_neg (by linarith), if_pos (by linarith), if_pos h]; ring
  · have h' : -x - (-(⌊x⌋ : ℚ) - 1) = 1 / 2 := by linarith
    rw [h, h']
    simp only [lt_irrefl, if_false]
    split <;> split <;> omega
  · rw [if_pos (by linarith), if_neg (by linarith), if_pos h]; ring

theorem f64_neg (x : ℚ) : f64 (-x) = -f64 x := by
  unfold f64
  rw [ulp_neg, neg_div, rne_neg]
  push_cast; ring

theorem f64_zero : f64 0 = 0 := by
  unfold f64
  simp [rne]

/-- Half a unit in the last place. -/
theorem f64_err_ulp (x : ℚ) : |f64 x - x| ≤ ulp x / 2 := by
  have h := rne_err (x / ulp x)
  have hu := ulp_pos x
  have : f64 x - x = ((rne (x / ulp x) : ℚ) - x / ulp x) * ulp x := by
    unfold f64; field_simp
  rw [this, abs_mul, abs_of_pos hu]
  nlinarith

/-- Rounding to a multiple of the last place takes a nearest multiple. -/
theorem f64_nearest_mul (x : ℚ) (z : ℤ) : |f64 x - x| ≤ |z * ulp x - x| := by
  have h := rne_nearest (x / ulp x) z
  have hu := ulp_pos x
  have e1 : f64 x - x = ((rne (x / ulp x) : ℚ) - x / ulp x) * ulp x := by
    unfold f64; field_simp
  have e2 : z * ulp x - x = ((z : ℚ) - x / ulp x) * ulp x := by field_simp
  rw [e1, e2, abs_mul, abs_mul]
  exact mul_le_mul_of_nonneg_right h (abs_nonneg _)

theorem log_le (x : ℚ) (hx : x ≠ 0) : (2 : ℚ) ^ Int.log 2 |x| ≤ |x| := by
  have := Int.zpow_log_le_self (b := 2) (r := |x|) (by norm_num) (abs_pos.mpr hx)
  exact_mod_cast this

theorem lt_log (x : ℚ) : |x| < (2 : ℚ) ^ (Int.log 2 |x| + 1) := by
  have := Int.lt_zpow_succ_log_self (b := 2) (by norm_num) |x|
  exact_mod_cast this

theorem two_zpow_mul (a b : ℤ) : (2 : ℚ) ^ a * 2 ^ b = 2 ^ (a + b) := (zpow_add₀ (by norm_num) a b).symm

/-- The result is a binary64 number. -/
theorem f64_isF64 (x : ℚ) : IsF64 (f64 x) := by
  refine ⟨rne (x / ulp x), max (Int.log 2 |x|) (-1022) - 52, ?_, by omega, by rw [← pow2_eq]; rfl⟩
  have hu := ulp_pos x
  have hx : |x / ulp x| ≤ 2 ^ 53 := by
    rw [abs_div, abs_of_pos hu, div_le_iff₀ hu]
    have h1 := (lt_log x).le
    have h2 : (2 : ℚ) ^ 53 * ulp x = 2 ^ (max (Int.log 2 |x|) (-1022) + 1) := by
      rw [ulp, pow2_eq, show (2 : ℚ) ^ 53 = 2 ^ (53 : ℤ) from rfl, two_zpow_mul]
      congr 1; ring
    rw [h2]
    exact h1.trans (zpow_le_zpow_right₀ (by norm_num) (by omega))
  have h := rne_nearest (x / ulp x)
  rw [abs_le] at hx
  rw [abs_le]
  have ha := h (2 ^ 53)
  have hb := h (-2 ^ 53)
  push_cast at ha hb
  constructor
  · by_contra hc
    push Not at hc
    have hc' : (rne (x / ulp x) : ℚ) < -2 ^ 53 := by exact_mod_cast hc
    rw [abs_of_nonpos (by linarith), abs_of_nonpos (by linarith)] at hb
    linarith
  · by_contra hc
    push Not at hc
    have hc' : (2 : ℚ) ^ 53 < rne (x / ulp x) := by exact_mod_cast hc
    rw [abs_of_nonneg (by linarith), abs_of_nonneg (by linarith)] at ha
    linarith

/-- `f64` is correct rounding: the result is a nearest binary64 number. -/
theorem f64_isNearest (x : ℚ) : IsNearest x (f64 x) := by
  refine ⟨f64_isF64 x, fun z hz => ?_⟩
  obtain ⟨m, k, hm, hk, rfl⟩ := hz
  by_cases hx : x = 0
  · subst hx; rw [f64_zero]; simp only [sub_zero, abs_zero]; exact abs_nonneg _
  set q := max (Int.log 2 |x|) (-1022) - 52 with hq
  have hulp : ulp x = 2 ^ q := by rw [ulp, pow2_eq]
  by_cases hkq : q ≤ k
  · -- a multiple of the last place
    have : (m : ℚ) * 2 ^ k = ((m * 2 ^ (k - q).toNat : ℤ) : ℚ) * ulp x := by
      rw [hulp]; push_cast
      rw [mul_assoc, ← zpow_natCast, two_zpow_mul]
      congr 2; omega
    rw [this]
    exact f64_nearest_mul x _
  · -- a number of smaller magnitude than the power of two below `x`
    have hlog : max (Int.log 2 |x|) (-1022) = Int.log 2 |x| := by omega
    set e := Int.log 2 |x| with he
    have hz : |(m : ℚ) * 2 ^ k| ≤ 2 ^ e := by
      rw [abs_mul, abs_of_pos (show (0 : ℚ) < 2 ^ k by positivity)]
      have hm' : |(m : ℚ)| ≤ 2 ^ 53 := by exact_mod_cast hm
      calc |(m : ℚ)| * 2 ^ k ≤ 2 ^ 53 * 2 ^ k := mul_le_mul_of_nonneg_right hm' (by positivity)
        _ = 2 ^ (53 + k) := by rw [show (2 : ℚ) ^ 53 = 2 ^ (53 : ℤ) from rfl, two_zpow_mul]
        _ ≤ 2 ^ e := zpow_le_zpow_right₀ (by norm_num) (by omega)
    have hle := log_le x hx
    rw [← he] at hle
    have hpe : (2 : ℚ) ^ e = ((2 ^ 52 : ℤ) : ℚ) * ulp x := by
      rw [hulp, Int.cast_pow, show ((2 : ℤ) : ℚ) ^ 52 = 2 ^ (52 : ℤ) from rfl, two_zpow_mul]
      congr 1; omega
    rw [abs_le] at hz
    rcases lt_or_gt_of_ne hx with h0 | h0
    · rw [abs_of_neg h0] at hle
      have := f64_nearest_mul x (-2 ^ 52)
      have e1 : ((-2 ^ 52 : ℤ) : ℚ) * ulp x = -2 ^ e := by rw [hpe]; push_cast; ring
      rw [e1] at this
      refine this.trans ?_
      rw [abs_of_nonneg (by linarith), abs_of_nonneg (by linarith)]
      linarith
    · rw [abs_of_pos h0] at hle
      have := f64_nearest_mul x (2 ^ 52)
      rw [← hpe] at this
      refine this.trans ?_
      rw [abs_of_nonpos (by linarith), abs_of_nonpos (by linarith)]
      linarith

/-- Binary64 numbers are not changed. -/
theorem f64_of_isF64 {x : ℚ} (h : IsF64 x) : f64 x = x := by
  have := (f64_isNearest x).2 x h
  simp only [sub_self, abs_zero] at this
  have := abs_nonpos_iff.mp this
  linarith

theorem f64_f64 (x : ℚ) : f64 (f64 x) = f64 x := f64_of_isF64 (f64_isF64 x)

/-- Rounding keeps the order. -/
theorem f64_mono {x y : ℚ} (h : x ≤ y) : f64 x ≤ f64 y := by
  by_contra hc
  push Not at hc
  have h1 := (f64_isNearest x).2 _ (f64_isF64 y)
  have h2 := (f64_isNearest y).2 _ (f64_isF64 x)
  have e : x = y := by
    rcases abs_cases (f64 x - x) with ⟨a, _⟩ | ⟨a, _⟩ <;> rcases abs_cases (f64 y - x) with ⟨b, _⟩ | ⟨b, _⟩ <;>
      rcases abs_cases (f64 y - y) with ⟨c, _⟩ | ⟨c, _⟩ <;> rcases abs_cases (f64 x - y) with ⟨d, _⟩ | ⟨d, _⟩ <;>
      rw [a, b] at h1 <;> rw [c, d] at h2 <;> linarith
  rw [e] at hc
  exact lt_irrefl _ hc

theorem isF64_zero : IsF64 0 := ⟨0, 0, by norm_num, by norm_num, by norm_num⟩

/-- Integers of at most 53 bits are binary64 numbers. -/
theorem isF64_int {m : ℤ} (h : |m| ≤ 2 ^ 53) : IsF64 (m : ℚ) := ⟨m, 0, h, by norm_num, by simp⟩

theorem isF64_neg {x : ℚ} (h : IsF64 x) : IsF64 (-x) := by
  obtain ⟨m, k, hm, hk, rfl⟩ := h
  exact ⟨-m, k, by rwa [abs_neg], hk, by push_cast; ring⟩

theorem f64_nonneg {x : ℚ} (h : 0 ≤ x) : 0 ≤ f64 x := by
  have := f64_mono h; rwa [f64_zero] at this

theorem f64_nonpos {x : ℚ} (h : x ≤ 0) : f64 x ≤ 0 := by
  have := f64_mono h; rwa [f64_zero] at this

theorem f64_le_of_isF64 {x y : ℚ} (hy : IsF64 y) (h : x ≤ y) : f64 x ≤ y := by
  have := f64_mono h; rwa [f64_of_isF64 hy] at this

theorem le_f64_of_isF64 {x y : ℚ} (hy : IsF64 y) (h : y ≤ x) : y ≤ f64 x := by
  have := f64_mono h; rwa [f64_of_isF64 hy] at this

/-- Relative error of one rounding, above the subnormal range. -/
theorem f64_err {x : ℚ} (h : (2 : ℚ) ^ (-1022 : ℤ) ≤ |x|) : |f64 x - x| ≤ |x| / 2 ^ 53 := by
  have hx : x ≠ 0 := by
    rintro rfl
    rw [abs_zero] at h
    exact absurd h (not_le.mpr (by positivity))
  have h1 := f64_err_ulp x
  have hl : (-1022 : ℤ) ≤ Int.log 2 |x| := by
    have := Int.zpow_le_iff_le_log (b := 2) (by norm_num) (r := |x|) (x := -1022) (abs_pos.mpr hx)
    exact this.mp (by exact_mod_cast h)
  have h2 : ulp x / 2 = 2 ^ (Int.log 2 |x|) / 2 ^ 53 := by
    rw [ulp, max_eq_left hl, pow2_eq, zpow_sub₀ (by norm_num)]
    norm_num
    ring
  rw [h2] at h1
  have := log_le x hx
  refine h1.trans ?_
  gcongr

/-- Absolute error of one rounding, all numbers. -/
theorem f64_err_abs (x : ℚ) : |f64 x - x| ≤ |x| / 2 ^ 53 + 2 ^ (-1075 : ℤ) := by
  by_cases h : (2 : ℚ) ^ (-1022 : ℤ) ≤ |x|
  · have := f64_err h
    have : (0 : ℚ) < 2 ^ (-1075 : ℤ) := by positivity
    linarith
  · push Not at h
    have h1 := f64_err_ulp x
    have h0 : 0 ≤ |x| / 2 ^ 53 := by positivity
    by_cases hx : x = 0
    · subst hx; rw [f64_zero]; simp
    have hl : Int.log 2 |x| < -1022 := by
      have := Int.lt_zpow_iff_log_lt (b := 2) (by norm_num) (r := |x|) (x := -1022) (abs_pos.mpr hx)
      exact this.mp (by exact_mod_cast h)
    have h2 : ulp x / 2 = 2 ^ (-1075 : ℤ) := by
      rw [ulp, max_eq_right (by omega), pow2_eq, div_eq_mul_inv, ← zpow_neg_one, two_zpow_mul]
      norm_num
    linarith

end Narp
