import Verif.Model.FloatCode
import Verif.Lemmas.Float
import Verif.Props.CardStop
import Verif.Props.FloatLoad

/-!
# C99: the convergence test in binary64 arithmetic
-/

namespace Narp.Props
open Narp Narp.Spec

/-- `root` computes square roots of numbers that are not negative to within two units of relative size 2^-53. -/
def RootOk (root : ℚ → ℚ) : Prop := ∀ v : ℚ, 0 ≤ v → |((root v : ℚ) : ℝ) - Real.sqrt v| ≤ Real.sqrt v / 2 ^ 52

/-- There are such functions. -/
example : ∃ root, RootOk root := by
  have : ∀ v : ℚ, ∃ r : ℚ, 0 ≤ v → |((r : ℚ) : ℝ) - Real.sqrt v| ≤ Real.sqrt v / 2 ^ 52 := by
    intro v
    by_cases h : 0 < v
    · have hp : 0 < Real.sqrt v := Real.sqrt_pos.2 (by exact_mod_cast h)
      obtain ⟨r, h1, h2⟩ := exists_rat_btwn (show Real.sqrt v < Real.sqrt v + Real.sqrt v / 2 ^ 52 by
        have : 0 < Real.sqrt v / 2 ^ 52 := by positivity
        linarith)
      exact ⟨r, fun _ => by rw [abs_le]; constructor <;> linarith [show 0 < Real.sqrt v / 2 ^ 52 by positivity]⟩
    · refine ⟨0, fun h0 => ?_⟩
      have : v = 0 := le_antisymm (not_lt.1 h) h0
      subst this; simp
  choose root hr using this
  exact ⟨root, hr⟩

/-! ## Sums of whole numbers -/

theorem sq_nonconst : ∀ xs : List ℤ, (∀ a, ∃ x ∈ xs, x ≠ a) →
    (xs.length : ℤ) - 1 ≤ xs.length * (xs.map fun x => x ^ 2).sum - xs.sum ^ 2 := by
  have key : ∀ (a : ℤ) (xs : List ℤ), (xs.map fun x => (x - a) ^ 2).sum =
      (xs.map fun x => x ^ 2).sum - 2 * a * xs.sum + xs.length * a ^ 2 := by
    intro a xs
    induction xs with
    | nil => simp
    | cons y ys ih => simp only [List.map_cons, List.sum_cons, List.length_cons, ih]; push_cast; ring
  have one : ∀ (a : ℤ) (xs : List ℤ), (∃ x ∈ xs, x ≠ a) → 1 ≤ (xs.map fun x => (x - a) ^ 2).sum := by
    intro a xs ⟨x, hx, hne⟩
    have h1 : (x - a) ^ 2 ≤ (xs.map fun x => (x - a) ^ 2).sum :=
      List.single_le_sum (by intro y hy; obtain ⟨z, _, rfl⟩ := List.mem_map.1 hy; positivity) _ (List.mem_map.2 ⟨x, hx, rfl⟩)
    have : 0 < (x - a) ^ 2 := by have := sub_ne_zero.2 hne; positivity
    omega
  intro xs
  induction xs with
  | nil => intro h; obtain ⟨x, hx, _⟩ := h 0; simp at hx
  | cons a ys ih =>
    intro h
    obtain ⟨x, hx, hxa⟩ := h a
    have hx' : x ∈ ys := by
      rcases List.mem_cons.1 hx with h | h
      · exact absurd h hxa
      · exact h
    have k := key a ys
    simp only [List.map_cons, List.sum_cons, List.length_cons]
    push_cast
    by_cases hc : ∀ b, ∃ y ∈ ys, y ≠ b
    · have := ih hc
      have o := one a ys ⟨x, hx', hxa⟩
      nlinarith
    · push Not at hc
      obtain ⟨b, hb⟩ := hc
      have e : ys = List.replicate ys.length b := List.eq_replicate_of_mem hb
      have hab : b ≠ a := by rw [← hb x hx']; exact hxa
      have h2 : 0 < (b - a) ^ 2 := by have := sub_ne_zero.2 hab; positivity
      generalize ys.length = k at e
      subst e
      simp only [List.map_replicate, List.sum_replicate, nsmul_eq_mul]
      nlinarith

set_option maxHeartbeats 1000000 in
/-- The rounding errors of the number under the root: `A = Q/n`, `M = S/n`. -/
theorem rad_err {n S Q A M u t : ℚ} (hn : 1 ≤ n) (hA : A = Q / n) (hM : M = S / n) (hu : u = 1 / 2 ^ 53)
    (hMA : M ^ 2 ≤ A) (hMA' : |M| ≤ A) (ht0 : 0 < t) (ht1 : t ≤ u / 32) (ht2 : t ≤ u * A / 32)
    (ht3 : t ≤ u * (A / n) / 32) (hf : ∀ x, |f64 x - x| ≤ |x| * u + t) :
    |f64 (f64 (f64 (Q / n) - f64 (f64 (S / n) ^ 2)) / n) - (A - M ^ 2) / n| ≤ 128 / 10 * u * (A / n) := by
  have hA0 : 0 ≤ A := (sq_nonneg M).trans hMA
  have hu0 : 0 < u := by rw [hu]; positivity
  have huu : u ≤ 1 / 1000000 := by rw [hu]; norm_num
  have hn0 : 0 < n := by linarith
  rw [← hA, ← hM]
  clear hu
  have huA : 0 ≤ u * A := mul_nonneg hu0.le hA0
  have huuA : u * (u * A) ≤ u * A / 1000000 := by nlinarith
  -- A'
  have a1 := hf A
  rw [abs_of_nonneg hA0, abs_le] at a1
  -- M'
  have m1 := hf M
  have d1 : |f64 M ^ 2 - M ^ 2| ≤ 3 * (u * A) := by
    set δ := f64 M - M with hδ
    have e : f64 M ^ 2 - M ^ 2 = 2 * M * δ + δ ^ 2 := by rw [hδ]; ring
    have b1 : |2 * M * δ| ≤ 2 * (u * A) + 2 * (t * A) := by
      rw [abs_mul, abs_mul, abs_two]
      have q1 : |M| * |δ| ≤ |M| * (|M| * u + t) := mul_le_mul_of_nonneg_left m1 (abs_nonneg M)
      have q2 : |M| * |M| = M ^ 2 := by rw [← pow_two, sq_abs]
      have q3 : |M| * t ≤ A * t := mul_le_mul_of_nonneg_right hMA' ht0.le
      have q4 : M ^ 2 * u ≤ A * u := mul_le_mul_of_nonneg_right hMA hu0.le
      have q5 : |M| * (|M| * u + t) = (|M| * |M|) * u + |M| * t := by ring
      rw [q5, q2] at q1
      linarith
    have b2 : δ ^ 2 ≤ 2 * (u * (u * A)) + 2 * (t * t) := by
      have q1 : δ ^ 2 ≤ (|M| * u + t) ^ 2 := by rw [← sq_abs]; exact pow_le_pow_left₀ (abs_nonneg _) m1 2
      have q2 : (|M| * u + t) ^ 2 ≤ 2 * (|M| * u) ^ 2 + 2 * t ^ 2 := by nlinarith [sq_nonneg (|M| * u - t)]
      have q3 : (|M| * u) ^ 2 = M ^ 2 * (u * u) := by rw [mul_pow, sq_abs]; ring
      have q4 : M ^ 2 * (u * u) ≤ A * (u * u) := mul_le_mul_of_nonneg_right hMA (by positivity)
      nlinarith
    have b3 : t * A ≤ u * A / 32 := by nlinarith
    have b4 : t * t ≤ u * A / 32 := by
      have : t * t ≤ t * 1 := mul_le_mul_of_nonneg_left (by linarith) ht0.le
      linarith
    rw [e]
    refine (abs_add_le _ _).trans ?_
    rw [abs_of_nonneg (sq_nonneg δ)]
    linarith
  rw [abs_le] at d1
  have m2 := hf (f64 M ^ 2)
  have m2a : |f64 M ^ 2| * u ≤ 11 / 10 * (u * A) := by
    rw [abs_of_nonneg (sq_nonneg _)]
    have : f64 M ^ 2 ≤ A + 3 * (u * A) := by linarith [d1.2]
    have := mul_le_mul_of_nonneg_right this hu0.le
    nlinarith
  rw [abs_le] at m2
  generalize f64 (f64 M ^ 2) = M2 at *
  generalize f64 A = A' at *
  have d0 : |(A' - M2) - (A - M ^ 2)| ≤ 6 * (u * A) := by
    rw [abs_le]; constructor <;> linarith [a1.1, a1.2, m2.1, m2.2, d1.1, d1.2]
  rw [abs_le] at d0
  have hM2 := sq_nonneg M
  have d2 := hf (A' - M2)
  have d2a : |A' - M2| * u ≤ 2 * (u * A) := by
    have : |A' - M2| ≤ 2 * A := by
      rw [abs_le]; constructor <;> nlinarith [d0.1, d0.2]
    have := mul_le_mul_of_nonneg_right this hu0.le
    linarith
  rw [abs_le] at d2
  generalize f64 (A' - M2) = D at *
  have d3 : |D - (A - M ^ 2)| ≤ 9 * (u * A) := by
    rw [abs_le]; constructor <;> linarith [d0.1, d0.2, d2.1, d2.2]
  have d4 : |D / n - (A - M ^ 2) / n| ≤ 9 * (u * (A / n)) := by
    rw [← sub_div, abs_div, abs_of_pos hn0, div_le_iff₀ hn0]
    refine d3.trans (le_of_eq ?_)
    field_simp
  have d5 : |D / n| * u ≤ 2 * (u * (A / n)) := by
    rw [abs_le] at d3
    have : |D| ≤ 2 * A := by
      rw [abs_le]; constructor <;> nlinarith [d3.1, d3.2]
    rw [abs_div, abs_of_pos hn0]
    have h1 := mul_le_mul_of_nonneg_right (div_le_div_of_nonneg_right this hn0.le) hu0.le
    refine h1.trans (le_of_eq ?_)
    field_simp
  have d6 := hf (D / n)
  have := abs_sub_le (f64 (D / n)) (D / n) ((A - M ^ 2) / n)
  nlinarith

/-- Whole annual values as numbers. -/
def rats (xs : List ℤ) : List ℚ := xs.map fun x : ℤ => (x : ℚ)

theorem rats_append (xs : List ℤ) (x : ℤ) : rats (xs ++ [x]) = rats xs ++ [(x : ℚ)] := by simp [rats]

/-- Sum of the squares of the annual values. -/
def sqSum (xs : List ℤ) : ℤ := (xs.map fun x => x ^ 2).sum

theorem abs_le_sq_int (a : ℤ) : |a| ≤ a ^ 2 := by
  rcases abs_cases a with ⟨h, _⟩ | ⟨h, _⟩ <;> rw [h] <;> nlinarith

theorem sum_le_sq : ∀ xs : List ℤ, |xs.sum| ≤ sqSum xs := by
  intro xs
  induction xs with
  | nil => simp [sqSum]
  | cons a ys ih =>
    have : |a| ≤ a ^ 2 := abs_le_sq_int a
    simp only [sqSum, List.map_cons, List.sum_cons] at *
    exact (abs_add_le _ _).trans (add_le_add this ih)

theorem f64_err_u {u : ℚ} (hu : u = 1 / 2 ^ 53) (x : ℚ) : |f64 x - x| ≤ |x| * u + 2 ^ (-1075 : ℤ) := by
  have := f64_err_abs x
  rw [hu]
  refine this.trans (le_of_eq ?_)
  ring

theorem tiny_le : (2 : ℚ) ^ (-1075 : ℤ) ≤ 1 / 2 ^ 200 := by
  have : (2 : ℚ) ^ (-1075 : ℤ) ≤ 2 ^ (-200 : ℤ) := zpow_le_zpow_right₀ (by norm_num) (by norm_num)
  refine this.trans (le_of_eq ?_)
  rw [zpow_neg]; norm_num

theorem sqSum_nonneg (xs : List ℤ) : 0 ≤ sqSum xs := by
  apply List.sum_nonneg
  intro y hy
  obtain ⟨z, _, rfl⟩ := List.mem_map.1 hy
  positivity

/-- The number under the root of whole annual values is off by at most a fraction `e`, if their squares are not too
large. -/
theorem rad_near_of (xs : List ℤ) (e : ℚ) (h1y : 1 ≤ xs.length) (hn : xs.length ≤ 2 ^ 53) (he : e ≤ 1 / 4)
    (hQ : (sqSum xs : ℚ) ≤ e * 2 ^ 49)
    (hk : xs.length = 1 ∨ 128 / 10 * (1 / 2 ^ 53) * (sqSum xs : ℚ) * xs.length ≤ e * (1 * (xs.length - 1))) :
    |cvRadF xs.length xs.sum (sqSum xs) - ((sqSum xs : ℚ) / xs.length - ((xs.sum : ℚ) / xs.length) ^ 2) / xs.length| ≤
      e * (((sqSum xs : ℚ) / xs.length - ((xs.sum : ℚ) / xs.length) ^ 2) / xs.length) := by
  have hn1 : (1 : ℚ) ≤ xs.length := by exact_mod_cast h1y
  have hn53 : (xs.length : ℚ) ≤ 2 ^ 53 := by exact_mod_cast hn
  have hn0 : (0 : ℚ) < xs.length := by linarith
  by_cases hc : ∀ a, ∃ x ∈ xs, x ≠ a
  · have h2y : xs.length ≠ 1 := by
      intro h
      obtain ⟨a, rfl⟩ := List.length_eq_one_iff.mp h
      obtain ⟨x, hx, hne⟩ := hc a
      exact hne (List.mem_singleton.mp hx)
    have hn2 : (2 : ℚ) ≤ xs.length := by exact_mod_cast (show 2 ≤ xs.length by omega)
    replace hk := hk.resolve_left h2y
    have h1 := sq_nonconst xs hc
    have h2 := sum_le_sq xs
    have hQ1 : (1 : ℚ) ≤ sqSum xs := by
      have : 1 ≤ sqSum xs := by
        by_contra hlt
        have h0 : sqSum xs ≤ 0 := by omega
        change _ ≤ (xs.length : ℤ) * sqSum xs - xs.sum ^ 2 at h1
        have h2z : (2 : ℤ) ≤ xs.length := by exact_mod_cast (show 2 ≤ xs.length by omega)
        nlinarith [sq_nonneg xs.sum]
      exact_mod_cast this
    have h1' : (xs.length : ℚ) - 1 ≤ xs.length * sqSum xs - (xs.sum : ℚ) ^ 2 := by
      have : (xs.length : ℤ) - 1 ≤ xs.length * sqSum xs - xs.sum ^ 2 := h1
      exact_mod_cast this
    have h2' : |(xs.sum : ℚ)| ≤ sqSum xs := by
      have := h2
      have h : ((|xs.sum| : ℤ) : ℚ) ≤ sqSum xs := by exact_mod_cast this
      rwa [Int.cast_abs] at h
    unfold cvRadF
    simp only [Int.cast_natCast]
    generalize (xs.length : ℚ) = n at *
    generalize (sqSum xs : ℚ) = Q at *
    generalize (xs.sum : ℚ) = S at *
    have hA0 : 1 / 2 ^ 53 ≤ Q / n := by
      rw [div_le_div_iff₀ (by norm_num) hn0]; nlinarith
    have hAn0 : 1 / 2 ^ 106 ≤ Q / n / n := by
      rw [le_div_iff₀ hn0]
      refine le_trans ?_ hA0
      norm_num at *
      linarith
    have key : 1 * (n - 1) / n ^ 2 ≤ Q / n - (S / n) ^ 2 := by
      rw [div_pow, div_le_iff₀ (by positivity), sub_mul, div_mul_cancel₀ _ (by positivity)]
      have : Q / n * n ^ 2 = n * Q := by field_simp
      rw [this]; linarith
    have hT := tiny_le
    have hT0 : (0 : ℚ) < 2 ^ (-1075 : ℤ) := by positivity
    have hf := f64_err_u (u := 1 / 2 ^ 53) rfl
    generalize (2 : ℚ) ^ (-1075 : ℤ) = t at *
    have r := rad_err (n := n) (S := S) (Q := Q) (t := t) (by linarith) rfl rfl rfl
      (by
        have : 0 ≤ 1 * (n - 1) / n ^ 2 := by apply div_nonneg <;> nlinarith
        linarith)
      (by rw [abs_div, abs_of_pos hn0]; exact div_le_div_of_nonneg_right h2' hn0.le) hT0
      (by norm_num at *; linarith) (by norm_num at *; linarith) (by norm_num at *; linarith) hf
    refine r.trans ?_
    rw [← mul_div_assoc, ← mul_div_assoc e]
    apply div_le_div_of_nonneg_right _ hn0.le
    have e0 : 0 ≤ e := by
      by_contra hneg
      push Not at hneg
      nlinarith
    refine le_trans ?_ (mul_le_mul_of_nonneg_left key e0)
    rw [← mul_div_assoc, ← mul_div_assoc e, div_le_div_iff₀ hn0 (by positivity)]
    have := mul_le_mul_of_nonneg_right hk hn0.le
    nlinarith
  · push Not at hc
    obtain ⟨a, ha⟩ := hc
    have ex : xs = List.replicate xs.length a := List.eq_replicate_of_mem ha
    have hs : (xs.sum : ℚ) = xs.length * a := by
      conv_lhs => rw [ex]
      simp
    have hq : (sqSum xs : ℚ) = xs.length * a ^ 2 := by
      conv_lhs => rw [ex]
      simp [sqSum]
    have hsq : (a : ℚ) ^ 2 ≤ 2 ^ 49 := by
      rw [hq] at hQ
      nlinarith [sq_nonneg (a : ℚ)]
    have hsq' : a ^ 2 ≤ 2 ^ 49 := by exact_mod_cast hsq
    have hF2 : IsF64 ((a : ℚ) ^ 2) := by
      have := isF64_int (m := a ^ 2) (by rw [abs_of_nonneg (sq_nonneg a)]; omega)
      exact_mod_cast this
    have hF : IsF64 (a : ℚ) := isF64_int (by
      have := abs_le_sq_int a; omega)
    have d1 : (xs.length : ℚ) * a ^ 2 / xs.length = a ^ 2 := by field_simp
    have d2 : (xs.length : ℚ) * a / xs.length = a := by field_simp
    unfold cvRadF
    simp only [Int.cast_natCast]
    rw [hs, hq, d1, d2, f64_of_isF64 hF2, f64_of_isF64 hF, f64_of_isF64 hF2]
    simp [f64_zero]

/-- The same for at least five annual values whose squares add up to at most `e * 2^49`. -/
theorem rad_near (xs : List ℤ) (e : ℚ) (h5 : 5 ≤ xs.length) (hn : xs.length ≤ 2 ^ 53) (he : e ≤ 1 / 4)
    (hQ : (sqSum xs : ℚ) ≤ e * 2 ^ 49) :
    |cvRadF xs.length xs.sum (sqSum xs) - ((sqSum xs : ℚ) / xs.length - ((xs.sum : ℚ) / xs.length) ^ 2) / xs.length| ≤
      e * (((sqSum xs : ℚ) / xs.length - ((xs.sum : ℚ) / xs.length) ^ 2) / xs.length) := by
  refine rad_near_of xs e (by omega) hn he hQ (.inr ?_)
  have hn5 : (5 : ℚ) ≤ xs.length := by exact_mod_cast h5
  have e0 : 0 ≤ e := by
    have : (0 : ℚ) ≤ sqSum xs := by exact_mod_cast sqSum_nonneg xs
    by_contra hneg
    push Not at hneg
    nlinarith
  generalize (xs.length : ℚ) = n at *
  generalize (sqSum xs : ℚ) = Q at *
  have a : 128 / 10 * (1 / 2 ^ 53) * Q ≤ 128 / 10 * (1 / 2 ^ 53) * (e * 2 ^ 49) :=
    mul_le_mul_of_nonneg_left hQ (by norm_num)
  have b : 128 / 10 * (1 / 2 ^ 53) * (e * 2 ^ 49) = 4 / 5 * e := by ring
  rw [b] at a
  have c := mul_le_mul_of_nonneg_right a (show 0 ≤ n by linarith)
  nlinarith

/-- The same for any number of annual values whose squares add up to at most `e * 2^48`. -/
theorem rad_near_any (xs : List ℤ) (e : ℚ) (h1 : 1 ≤ xs.length) (hn : xs.length ≤ 2 ^ 53) (he : e ≤ 1 / 4)
    (hQ : (sqSum xs : ℚ) ≤ e * 2 ^ 48) :
    |cvRadF xs.length xs.sum (sqSum xs) - ((sqSum xs : ℚ) / xs.length - ((xs.sum : ℚ) / xs.length) ^ 2) / xs.length| ≤
      e * (((sqSum xs : ℚ) / xs.length - ((xs.sum : ℚ) / xs.length) ^ 2) / xs.length) := by
  have e0 : 0 ≤ e := by
    have : (0 : ℚ) ≤ sqSum xs := by exact_mod_cast sqSum_nonneg xs
    by_contra hneg
    push Not at hneg
    nlinarith
  refine rad_near_of xs e h1 hn he (by nlinarith) ?_
  by_cases h : xs.length = 1
  · exact .inl h
  refine .inr ?_
  have hn2 : (2 : ℚ) ≤ xs.length := by exact_mod_cast (show 2 ≤ xs.length by omega)
  generalize (xs.length : ℚ) = n at *
  generalize (sqSum xs : ℚ) = Q at *
  have a : 128 / 10 * (1 / 2 ^ 53) * Q ≤ 128 / 10 * (1 / 2 ^ 53) * (e * 2 ^ 48) :=
    mul_le_mul_of_nonneg_left hQ (by norm_num)
  have b : 128 / 10 * (1 / 2 ^ 53) * (e * 2 ^ 48) = 2 / 5 * e := by ring
  rw [b] at a
  have c := mul_le_mul_of_nonneg_right a (show 0 ≤ n by linarith)
  nlinarith

/-! ## The run of the test -/

theorem cvRunF_append (root : ℚ → ℚ) (tol : ℚ) (xs : List ℚ) (x : ℚ) :
    cvRunF root tol (xs ++ [x]) = cvStepF root tol (cvRunF root tol xs) x := by
  unfold cvRunF
  rw [List.foldl_append, List.foldl_cons, List.foldl_nil]

theorem cvRunF_years (root : ℚ → ℚ) (tol : ℚ) (xs : List ℚ) : (cvRunF root tol xs).years = xs.length := by
  induction xs using List.reverseRecOn with
  | nil => rfl
  | append_singleton xs x ih => rw [cvRunF_append, List.length_append, ← ih]; rfl

theorem cvchkF_state (root : ℚ → ℚ) (C F : ℚ) (Y : ℤ) (tol SUM XLAST SSQ : ℚ) :
    (cvchkF root C F Y tol SUM XLAST SSQ).2 = (f64 (SSQ + f64 (f64 (SUM - XLAST) ^ 2)), SUM) := by
  unfold cvchkF
  simp only
  split_ifs <;> rfl

theorem sqSum_append (xs : List ℤ) (x : ℤ) : sqSum (xs ++ [x]) = sqSum xs + x ^ 2 := by simp [sqSum]

/-- The sums of whole annual values are exact. -/
theorem cvRunF_sums (root : ℚ → ℚ) (tol : ℚ) (xs : List ℤ) (hQ : sqSum xs ≤ 2 ^ 53) :
    let r := cvRunF root tol (rats xs)
    r.SUM = (xs.sum : ℚ) ∧ r.XLAST = (xs.sum : ℚ) ∧ r.SSQ = (sqSum xs : ℚ) := by
  induction xs using List.reverseRecOn with
  | nil => exact ⟨rfl, rfl, rfl⟩
  | append_singleton xs x ih =>
    rw [sqSum_append] at hQ
    have hx := sq_nonneg x
    have hp := sqSum_nonneg xs
    have ih := ih (by omega)
    dsimp only at ih ⊢
    obtain ⟨i1, i2, i3⟩ := ih
    rw [rats_append, cvRunF_append]
    have a1 : IsF64 ((xs.sum : ℚ) + x) := by
      have := isF64_int (m := xs.sum + x) (by
        have := sum_le_sq (xs ++ [x])
        rw [sqSum_append] at this
        simp only [List.sum_append, List.sum_singleton] at this
        omega)
      exact_mod_cast this
    have a2 : IsF64 (x : ℚ) := isF64_int (by have := abs_le_sq_int x; omega)
    have a3 : IsF64 ((x : ℚ) ^ 2) := by
      have := isF64_int (m := x ^ 2) (by rw [abs_of_nonneg hx]; omega)
      exact_mod_cast this
    have a4 : IsF64 ((sqSum xs : ℚ) + (x : ℚ) ^ 2) := by
      have := isF64_int (m := sqSum xs + x ^ 2) (by rw [abs_of_nonneg (by omega)]; omega)
      exact_mod_cast this
    have e : (xs.sum : ℚ) + x - xs.sum = x := by ring
    generalize cvRunF root tol (rats xs) = s at *
    have st := cvchkF_state root 0 1 ((s.years + 1 : ℕ) : ℤ) tol (f64 (s.SUM + x)) s.XLAST s.SSQ
    have e1 : (xs ++ [x]).sum = xs.sum + x := by simp
    unfold cvStepF
    dsimp only
    rw [st, i1, i2, i3, f64_of_isF64 a1, e, f64_of_isF64 a2, f64_of_isF64 a3, f64_of_isF64 a4, sqSum_append, e1]
    push_cast
    exact ⟨rfl, rfl, rfl⟩

theorem rats_sum (xs : List ℤ) : (rats xs).sum = (xs.sum : ℚ) := by
  induction xs with
  | nil => rfl
  | cons a l ih =>
    have : rats (a :: l) = (a : ℚ) :: rats l := rfl
    rw [this, List.sum_cons, List.sum_cons, ih]; push_cast; rfl

theorem rats_sq (xs : List ℤ) : ((rats xs).map fun x => x ^ 2).sum = (sqSum xs : ℚ) := by
  induction xs with
  | nil => rfl
  | cons a l ih =>
    have : rats (a :: l) = (a : ℚ) :: rats l := rfl
    have h2 : sqSum (a :: l) = a ^ 2 + sqSum l := rfl
    rw [this, List.map_cons, List.sum_cons, ih, h2]; push_cast; rfl

theorem rats_length (xs : List ℤ) : (rats xs).length = xs.length := by simp [rats]

/-- The flag of the last year end. -/
theorem cvRunF_flag (root : ℚ → ℚ) (tol : ℚ) (xs : List ℤ) (h5 : 5 ≤ xs.length) (hQ : sqSum xs ≤ 2 ^ 53) :
    (cvRunF root tol (rats xs)).flag = 1 ↔
      f64 ((xs.sum : ℚ) / xs.length) ≠ 0 ∧ 0 ≤ cvRadF xs.length xs.sum (sqSum xs) ∧
        root (cvRadF xs.length xs.sum (sqSum xs)) <
          f64 ((if tol ≠ 0 then tol else f64 0.025) * f64 ((xs.sum : ℚ) / xs.length)) := by
  rcases List.eq_nil_or_concat xs with rfl | ⟨ys, y, rfl⟩
  · simp at h5
  · rw [List.concat_eq_append] at *
    have hall := cvRunF_sums root tol (ys ++ [y]) hQ
    have hy := cvRunF_years root tol (rats ys)
    rw [rats_length] at hy
    rw [rats_append, cvRunF_append] at *
    generalize cvRunF root tol (rats ys) = s at *
    unfold cvStepF at hall ⊢
    dsimp only at hall ⊢
    obtain ⟨h1, h2, h3⟩ := hall
    rw [h1] at h2 h3 ⊢
    have st := cvchkF_state root 0 1 ((s.years + 1 : ℕ) : ℤ) tol ((ys ++ [y]).sum : ℚ) s.XLAST s.SSQ
    rw [st] at h3
    dsimp only at h3
    have hl : s.years + 1 = (ys ++ [y]).length := by rw [hy]; simp
    rw [hl]
    unfold cvchkF
    dsimp only
    rw [h3]
    have hlt : ¬ (((ys ++ [y]).length : ℕ) : ℤ) < 5 := by omega
    rw [if_neg hlt, if_neg (show ¬ (0 : ℚ) ≥ 1 by norm_num)]
    simp only [Int.cast_natCast]
    have e : (if tol ≠ 0 then f64 (tol * f64 (((ys ++ [y]).sum : ℚ) / ((ys ++ [y]).length : ℚ)))
        else f64 (f64 0.025 * f64 (((ys ++ [y]).sum : ℚ) / ((ys ++ [y]).length : ℚ)))) =
        f64 ((if tol ≠ 0 then tol else f64 0.025) * f64 (((ys ++ [y]).sum : ℚ) / ((ys ++ [y]).length : ℚ))) := by
      split_ifs <;> rfl
    rw [e]
    generalize (if tol ≠ 0 then tol else f64 0.025) = w
    split_ifs with c1 c2
    · exact ⟨fun h => absurd h (by norm_num), fun h => absurd c1 h.1⟩
    · exact ⟨fun _ => ⟨c1, c2⟩, fun _ => rfl⟩
    · exact ⟨fun h => absurd h (by norm_num), fun h => absurd h.2 c2⟩

theorem big_of {x : ℚ} (h : 1 / 2 ^ 900 ≤ |x|) : |f64 x - x| ≤ |x| * (1 / 2 ^ 53) := by
  have : (2 : ℚ) ^ (-1022 : ℤ) ≤ 2 ^ (-900 : ℤ) := zpow_le_zpow_right₀ (by norm_num) (by norm_num)
  have e : (2 : ℚ) ^ (-900 : ℤ) = 1 / 2 ^ 900 := by rw [zpow_neg]; norm_num
  rw [e] at this
  refine (f64_err (this.trans h)).trans (le_of_eq ?_)
  ring

/-- The rounding errors of the threshold. -/
theorem thr_near {w w0 M : ℚ} (hw0 : 1 / 2 ^ 100 ≤ w0) (hw : |w - w0| ≤ w0 * (1 / 2 ^ 53)) (hM : 1 / 2 ^ 53 ≤ M) :
    |f64 (w * f64 M) - w0 * M| ≤ 4 / 2 ^ 53 * (w0 * M) := by
  have hMp : 0 < M := lt_of_lt_of_le (by norm_num) hM
  have hwp : 0 < w0 := lt_of_lt_of_le (by norm_num) hw0
  have m1 := big_of (x := M) (by
    rw [abs_of_pos hMp]
    refine le_trans ?_ hM
    apply one_div_le_one_div_of_le (by norm_num)
    exact pow_le_pow_right₀ (by norm_num) (by norm_num))
  rw [abs_of_pos hMp, abs_le] at m1
  rw [abs_le] at hw
  generalize f64 M = M' at *
  have hp : 1 / 2 ^ 153 ≤ w0 * M := by
    calc (1 : ℚ) / 2 ^ 153 = 1 / 2 ^ 100 * (1 / 2 ^ 53) := by norm_num
      _ ≤ w0 * M := mul_le_mul hw0 hM (by norm_num) hwp.le
  have p1 : |w * M' - w0 * M| ≤ 21 / 10 / 2 ^ 53 * (w0 * M) := by
    have e : w * M' - w0 * M = w0 * (M' - M) + (w - w0) * M + (w - w0) * (M' - M) := by ring
    have q1 : |w0 * (M' - M)| ≤ 1 / 2 ^ 53 * (w0 * M) := by
      rw [abs_mul, abs_of_pos hwp]
      have := mul_le_mul_of_nonneg_left (abs_le.2 m1) hwp.le
      linarith
    have q2 : |(w - w0) * M| ≤ 1 / 2 ^ 53 * (w0 * M) := by
      rw [abs_mul, abs_of_pos hMp]
      have := mul_le_mul_of_nonneg_right (abs_le.2 hw) hMp.le
      linarith
    have q3 : |(w - w0) * (M' - M)| ≤ 1 / 2 ^ 53 * (1 / 2 ^ 53 * (w0 * M)) := by
      rw [abs_mul]
      have := mul_le_mul (abs_le.2 hw) (abs_le.2 m1) (abs_nonneg _) (by positivity)
      linarith
    rw [e]
    have := abs_add_le (w0 * (M' - M) + (w - w0) * M) ((w - w0) * (M' - M))
    have := abs_add_le (w0 * (M' - M)) ((w - w0) * M)
    generalize w0 * M = z at *
    norm_num at *
    linarith
  rw [abs_le] at p1
  generalize w0 * M = z at *
  generalize w * M' = y at *
  have hz : 0 < z := lt_of_lt_of_le (by norm_num) hp
  have hy : 0 < y := by norm_num at *; linarith [p1.1]
  have p2 := big_of (x := y) (by
    rw [abs_of_pos hy]
    have : (1 : ℚ) / 2 ^ 900 ≤ 1 / 2 ^ 154 := by
      apply one_div_le_one_div_of_le (by norm_num)
      exact pow_le_pow_right₀ (by norm_num) (by norm_num)
    refine this.trans ?_
    norm_num at *; linarith [p1.1])
  rw [abs_of_pos hy, abs_le] at p2
  rw [abs_le]
  norm_num at *
  constructor <;> linarith [p1.1, p1.2, p2.1, p2.2]

theorem w_near (tol : ℚ) : |(if tol ≠ 0 then tol else f64 0.025) - (if tol = 0 then 0.025 else tol)| ≤
    (if tol = 0 then 0.025 else |tol|) * (1 / 2 ^ 53) := by
  by_cases h : tol = 0
  · simp only [h, ne_eq, not_true_eq_false, if_false, if_true]; decide +kernel
  · simp only [h, ne_eq, not_false_eq_true, if_true, if_false, sub_self, abs_zero]; positivity

/-- C99 (whole annual values). Let the tested statistic take whole values (hours, days or MWh of one forecast tier),
none negative, whose squares add up to at most `e * 2^49`, `e` between 2^-49 and 1/4. Then the test in binary64 never
takes the root of a negative number; it stops the run if the standard error of the mean is below the threshold by more
than a fraction `2 e`, and if it stops the run the standard error exceeds the threshold at most by such a fraction. -/
theorem C99_whole (root : ℚ → ℚ) (hroot : RootOk root) (tol e : ℚ) (xs : List ℤ) (h0 : ∀ x ∈ xs, 0 ≤ x)
    (h5 : 5 ≤ xs.length) (hn : xs.length ≤ 2 ^ 53) (htol : tol = 0 ∨ 1 / 2 ^ 100 ≤ tol)
    (he0 : 1 / 2 ^ 49 ≤ e) (he : e ≤ 1 / 4) (hQ : (((rats xs).map fun x => x ^ 2).sum) ≤ e * 2 ^ 49) :
    0 ≤ cvRadF xs.length (rats xs).sum ((rats xs).map fun x => x ^ 2).sum ∧
    ((1 + 2 * e) * stdErr (rats xs) < (((if tol = 0 then 0.025 else tol) * mean (rats xs) : ℚ) : ℝ) →
      (cvRunF root tol (rats xs)).flag = 1) ∧
    ((cvRunF root tol (rats xs)).flag = 1 →
      (1 - 2 * e) * stdErr (rats xs) < (((if tol = 0 then 0.025 else tol) * mean (rats xs) : ℚ) : ℝ)) := by
  rw [rats_sq] at hQ ⊢
  rw [rats_sum]
  have hQ53 : sqSum xs ≤ 2 ^ 53 := by
    have : (sqSum xs : ℚ) ≤ 2 ^ 53 := by norm_num at *; linarith
    exact_mod_cast this
  have rn := rad_near xs e h5 hn he hQ
  have hne : rats xs ≠ [] := by
    intro h; have := rats_length xs; rw [h] at this; simp at this; omega
  have hvar : variance (rats xs) / ((rats xs).length : ℚ) =
      ((sqSum xs : ℚ) / xs.length - ((xs.sum : ℚ) / xs.length) ^ 2) / xs.length := by
    rw [variance_eq _ hne, rats_sq, mean, rats_sum, rats_length]
  have hV0 : 0 ≤ variance (rats xs) / ((rats xs).length : ℚ) := div_nonneg (variance_nonneg _) (Nat.cast_nonneg _)
  have hstd : stdErr (rats xs) = Real.sqrt ((variance (rats xs) / ((rats xs).length : ℚ) : ℚ) : ℝ) := by
    unfold stdErr; push_cast; rfl
  rw [cvRunF_flag root tol xs h5 hQ53, hstd]
  rw [← hvar] at rn
  have hmean : mean (rats xs) = (xs.sum : ℚ) / xs.length := by rw [mean, rats_sum, rats_length]
  rw [hmean]
  have hS0 : 0 ≤ xs.sum := List.sum_nonneg h0
  have hnq : (0 : ℚ) < xs.length := by exact_mod_cast (by omega : 0 < xs.length)
  have hnq' : (xs.length : ℚ) ≤ 2 ^ 53 := by exact_mod_cast hn
  generalize variance (rats xs) / ((rats xs).length : ℚ) = V at *
  generalize cvRadF xs.length xs.sum (sqSum xs) = V' at *
  rw [abs_le] at rn
  have hV' : 0 ≤ V' := by nlinarith [rn.1]
  refine ⟨hV', ?_⟩
  have hr := hroot V' hV'
  have hVr : (0 : ℝ) ≤ (V : ℝ) := by exact_mod_cast hV0
  have her : (0 : ℝ) < e := by
    have : 0 < e := lt_of_lt_of_le (by norm_num) he0
    exact_mod_cast this
  have her0 : (1 / 2 ^ 49 : ℝ) ≤ e := by
    have : ((1 / 2 ^ 49 : ℚ) : ℝ) ≤ (e : ℝ) := by exact_mod_cast he0
    push_cast at this; exact this
  have her4 : (e : ℝ) ≤ 1 / 4 := by
    have : (e : ℝ) ≤ ((1 / 4 : ℚ) : ℝ) := by exact_mod_cast he
    push_cast at this; exact this
  have hup : (V' : ℝ) ≤ (1 + e) * V := by
    have : V' ≤ (1 + e) * V := by linarith [rn.2]
    exact_mod_cast this
  have hlo : (1 - e) * V ≤ (V' : ℝ) := by
    have : (1 - e) * V ≤ V' := by linarith [rn.1]
    exact_mod_cast this
  have hs0 := Real.sqrt_nonneg (V : ℝ)
  have hss := Real.sq_sqrt hVr
  have s1 : Real.sqrt V' ≤ (1 + e) * Real.sqrt V := by
    apply Real.sqrt_le_iff.2 ⟨by positivity, ?_⟩
    rw [mul_pow, hss]
    refine hup.trans ?_
    apply mul_le_mul_of_nonneg_right _ hVr
    nlinarith
  have s2 : (1 - e) * Real.sqrt V ≤ Real.sqrt V' := by
    apply Real.le_sqrt_of_sq_le
    rw [mul_pow, hss]
    refine le_trans ?_ hlo
    apply mul_le_mul_of_nonneg_right _ hVr
    nlinarith
  generalize Real.sqrt (V : ℝ) = σ at *
  have hs0' := Real.sqrt_nonneg (V' : ℝ)
  generalize Real.sqrt (V' : ℝ) = σ' at *
  rw [abs_le] at hr
  by_cases hz : xs.sum = 0
  · have ez : (xs.sum : ℚ) / xs.length = 0 := by rw [hz]; simp
    rw [ez, f64_zero]
    simp only [mul_zero, Rat.cast_zero, ne_eq, not_true_eq_false, false_and, imp_false]
    refine ⟨?_, fun h => h.elim⟩
    have : 0 ≤ (1 + 2 * (e : ℝ)) * σ := by positivity
    exact not_lt.2 this
  · have hM : 1 / 2 ^ 53 ≤ (xs.sum : ℚ) / xs.length := by
      rw [div_le_div_iff₀ (by norm_num) hnq]
      have : (1 : ℚ) ≤ xs.sum := by exact_mod_cast (by omega : 1 ≤ xs.sum)
      nlinarith
    have hw0 : 1 / 2 ^ 100 ≤ (if tol = 0 then 0.025 else tol : ℚ) := by
      split
      · norm_num
      · rcases htol with h | h
        · contradiction
        · exact h
    have hw : |(if tol ≠ 0 then tol else f64 0.025) - (if tol = 0 then 0.025 else tol : ℚ)| ≤
        (if tol = 0 then 0.025 else tol : ℚ) * (1 / 2 ^ 53) := by
      have := w_near tol
      by_cases h : tol = 0
      · simpa [h] using this
      · have hp : 0 < tol := by
          rcases htol with h' | h'
          · contradiction
          · exact lt_of_lt_of_le (by norm_num) h'
        simpa [h, abs_of_pos hp] using this
    have th := thr_near hw0 hw hM
    have hne0 : f64 ((xs.sum : ℚ) / xs.length) ≠ 0 := by
      have : 0 < f64 ((xs.sum : ℚ) / xs.length) := by
        have hF : IsF64 (1 / 2 ^ 53 : ℚ) := ⟨1, -53, by norm_num, by norm_num, by rw [zpow_neg]; norm_num⟩
        exact lt_of_lt_of_le (by norm_num) (le_f64_of_isF64 hF hM)
      exact this.ne'
    have hpos : (0 : ℚ) < (if tol = 0 then 0.025 else tol) * ((xs.sum : ℚ) / xs.length) :=
      mul_pos (lt_of_lt_of_le (by norm_num) hw0) (lt_of_lt_of_le (by norm_num) hM)
    generalize f64 ((xs.sum : ℚ) / xs.length) = M' at *
    generalize f64 ((if tol ≠ 0 then tol else f64 0.025) * M') = X' at *
    generalize (if tol = 0 then 0.025 else tol) * ((xs.sum : ℚ) / xs.length) = X at *
    have thr : -(4 / 2 ^ 53 * (X : ℝ)) ≤ (X' : ℝ) - X ∧ (X' : ℝ) - X ≤ 4 / 2 ^ 53 * X := by
      rw [abs_le] at th
      have t1 : ((-(4 / 2 ^ 53 * X) : ℚ) : ℝ) ≤ ((X' - X : ℚ) : ℝ) := by exact_mod_cast th.1
      have t2 : ((X' - X : ℚ) : ℝ) ≤ ((4 / 2 ^ 53 * X : ℚ) : ℝ) := by exact_mod_cast th.2
      push_cast at t1 t2
      exact ⟨t1, t2⟩
    have hXr : (0 : ℝ) < X := by exact_mod_cast hpos
    generalize root V' = ρ at *
    constructor
    · intro h
      refine ⟨hne0, hV', ?_⟩
      have : (ρ : ℝ) < X' := by
        have f1 : (ρ : ℝ) ≤ (1 + 1 / 2 ^ 52) * ((1 + e) * σ) := by
          have := mul_le_mul_of_nonneg_left s1 (show (0 : ℝ) ≤ 1 + 1 / 2 ^ 52 by norm_num)
          linarith [hr.2]
        have f2 : (1 + 1 / 2 ^ 52) * ((1 + (e : ℝ)) * σ) ≤ (1 - 4 / 2 ^ 53) * ((1 + 2 * e) * σ) := by
          have : (1 + 1 / 2 ^ 52) * (1 + (e : ℝ)) ≤ (1 - 4 / 2 ^ 53) * (1 + 2 * e) := by
            norm_num at *; linarith
          have := mul_le_mul_of_nonneg_right this hs0
          linarith
        have f3 : (1 - 4 / 2 ^ 53) * ((1 + 2 * (e : ℝ)) * σ) < (1 - 4 / 2 ^ 53) * X :=
          mul_lt_mul_of_pos_left h (by norm_num)
        linarith [thr.1]
      exact_mod_cast this
    · rintro ⟨_, _, h⟩
      have h : (ρ : ℝ) < X' := by exact_mod_cast h
      have f1 : (1 - 1 / 2 ^ 52) * ((1 - e) * σ) ≤ (ρ : ℝ) := by
        have := mul_le_mul_of_nonneg_left s2 (show (0 : ℝ) ≤ 1 - 1 / 2 ^ 52 by norm_num)
        linarith [hr.1]
      have f2 : (1 + 4 / 2 ^ 53) * ((1 - 2 * (e : ℝ)) * σ) ≤ (1 - 1 / 2 ^ 52) * ((1 - e) * σ) := by
        have : (1 + 4 / 2 ^ 53) * (1 - 2 * (e : ℝ)) ≤ (1 - 1 / 2 ^ 52) * (1 - e) := by
          norm_num at *; linarith
        have := mul_le_mul_of_nonneg_right this hs0
        linarith
      have f3 : (1 + 4 / 2 ^ 53) * ((1 - 2 * (e : ℝ)) * σ) < (1 + 4 / 2 ^ 53) * X := by linarith [thr.2]
      exact lt_of_mul_lt_mul_left f3 (by norm_num)

/-- the hypotheses of `C99_whole` -/
example : let xs : List ℤ := [3, 0, 7, 4, 5, 2]
    (∀ x ∈ xs, 0 ≤ x) ∧ 5 ≤ xs.length ∧ (((rats xs).map fun x => x ^ 2).sum) ≤ (1 / 2 ^ 30 : ℚ) * 2 ^ 49 := by
  decide +kernel

/-! ## The test can fail for ever -/

/-- Seven hours in the outer forecast tier (weight 0.0668, `initfl.py`), none in the others: the annual value of the
weighted statistic. -/
def sevenHours : ℚ := f64 (7 * f64 0.0668)

/-- The state of the test does not depend on the root or the tolerance. -/
theorem cvRunF_root (root root' : ℚ → ℚ) (tol tol' : ℚ) (xs : List ℚ) :
    (cvRunF root tol xs).SUM = (cvRunF root' tol' xs).SUM ∧ (cvRunF root tol xs).XLAST = (cvRunF root' tol' xs).XLAST ∧
      (cvRunF root tol xs).SSQ = (cvRunF root' tol' xs).SSQ := by
  induction xs using List.reverseRecOn with
  | nil => exact ⟨rfl, rfl, rfl⟩
  | append_singleton xs x ih =>
    obtain ⟨i1, i2, i3⟩ := ih
    have y1 := cvRunF_years root tol xs
    have y2 := cvRunF_years root' tol' xs
    rw [cvRunF_append, cvRunF_append]
    generalize cvRunF root tol xs = s at *
    generalize cvRunF root' tol' xs = s' at *
    have s1 := cvchkF_state root 0 1 ((s.years + 1 : ℕ) : ℤ) tol (f64 (s.SUM + x)) s.XLAST s.SSQ
    have s2 := cvchkF_state root' 0 1 ((s'.years + 1 : ℕ) : ℤ) tol' (f64 (s'.SUM + x)) s'.XLAST s'.SSQ
    unfold cvStepF
    dsimp only
    rw [s1, s2, i1, i2, i3]
    exact ⟨rfl, rfl, rfl⟩

/-- A year end with a negative number under the root raises no flag. -/
theorem cvStepF_neg (root : ℚ → ℚ) (tol : ℚ) (s : CvF) (x : ℚ)
    (h : cvRadF ((s.years + 1 : ℕ) : ℤ) (f64 (s.SUM + x)) (f64 (s.SSQ + f64 (f64 (f64 (s.SUM + x) - s.XLAST) ^ 2))) < 0) :
    (cvStepF root tol s x).flag = 0 := by
  unfold cvStepF
  dsimp only
  unfold cvchkF
  dsimp only
  rw [if_neg (show ¬ (0 : ℚ) ≥ 1 by norm_num)]
  split_ifs with c1 c2 c3 c4 <;> first | rfl | exact absurd h (not_lt.2 (by assumption : _ ∧ _).1)

/-- The numbers under the root of a run with a constant annual value. -/
def radsF (x : ℚ) (k : ℕ) : ℚ :=
  let s := cvRunF (fun _ => 0) 1 (List.replicate k x)
  cvRadF ((k + 1 : ℕ) : ℤ) (f64 (s.SUM + x)) (f64 (s.SSQ + f64 (f64 (f64 (s.SUM + x) - s.XLAST) ^ 2)))

theorem sevenHours_rads : ∀ k ∈ List.range 39, 4 ≤ k → radsF sevenHours k < 0 := by decide +kernel

theorem sevenHours_pos : 0 < sevenHours := by decide +kernel

/-- C99 (refuted for weighted statistics). A weighted annual value that is the same every year: after 5 to 39 years
the standard error is 0 and the rule of the user's guide is met for every tolerance, but the number under the root is
negative in binary64 arithmetic, so the comparison fails and the run is not stopped - whatever the root function and the
tolerance. -/
theorem C99_stuck_refuted (root : ℚ → ℚ) (tol : ℚ) (k : ℕ) (hk : 5 ≤ k) (hk' : k ≤ 39) :
    (cvRunF root tol (List.replicate k sevenHours)).flag = 0 ∧
      ∀ t : ℚ, 0 < t → Converged t (List.replicate k sevenHours) := by
  refine ⟨?_, fun t ht => converged_const ht sevenHours_pos hk⟩
  obtain ⟨m, rfl⟩ : ∃ m, k = m + 1 := ⟨k - 1, by omega⟩
  rw [List.replicate_succ', cvRunF_append]
  apply cvStepF_neg
  have h := sevenHours_rads m (List.mem_range.2 (by omega)) (by omega)
  unfold radsF at h
  dsimp only at h
  obtain ⟨h1, h2, h3⟩ := cvRunF_root (fun _ => 0) root 1 tol (List.replicate m sevenHours)
  rw [h1, h2, h3] at h
  rw [cvRunF_years, List.length_replicate]
  exact h

end Narp.Props
