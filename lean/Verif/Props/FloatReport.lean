import Verif.Model.FloatReport
import Verif.Props.FloatConv
import Verif.Props.AnnualText

/-!
# C118, C119: the figures of the final report in binary64 arithmetic
-/

namespace Narp.Props
open Narp Narp.Spec

/-! ## Numbers that differ by a few roundings -/

/-- `y` differs from `x` by at most `k` factors between `1 - 2^-53` and its inverse. -/
def Near (k : ℕ) (x y : ℚ) : Prop := x * (1 - 1 / 2 ^ 53) ^ k ≤ y ∧ y * (1 - 1 / 2 ^ 53) ^ k ≤ x

theorem Near.refl' {x : ℚ} (h : 0 ≤ x) (k : ℕ) : Near k x x := by
  have : (1 - 1 / 2 ^ 53 : ℚ) ^ k ≤ 1 := pow_le_one₀ (by norm_num) (by norm_num)
  exact ⟨mul_le_of_le_one_right h this, mul_le_of_le_one_right h this⟩

theorem Near.trans {j k : ℕ} {x y z : ℚ} (h : Near j x y) (h' : Near k y z) : Near (j + k) x z := by
  have p : ∀ i, (0 : ℚ) < (1 - 1 / 2 ^ 53) ^ i := fun i => pow_pos (by norm_num) i
  constructor
  · rw [pow_add, ← mul_assoc]
    exact (mul_le_mul_of_nonneg_right h.1 (p k).le).trans h'.1
  · rw [Nat.add_comm, pow_add, ← mul_assoc]
    exact (mul_le_mul_of_nonneg_right h'.2 (p j).le).trans h.2

theorem Near.mono {j k : ℕ} {x y : ℚ} (h : Near j x y) (hx : 0 ≤ x) (hy : 0 ≤ y) (hjk : j ≤ k) : Near k x y := by
  have : (1 - 1 / 2 ^ 53 : ℚ) ^ k ≤ (1 - 1 / 2 ^ 53) ^ j := pow_le_pow_of_le_one (by norm_num) (by norm_num) hjk
  exact ⟨(mul_le_mul_of_nonneg_left this hx).trans h.1, (mul_le_mul_of_nonneg_left this hy).trans h.2⟩

theorem Near.add {k : ℕ} {x y x' y' : ℚ} (h : Near k x y) (h' : Near k x' y') : Near k (x + x') (y + y') := by
  obtain ⟨a, b⟩ := h
  obtain ⟨c, d⟩ := h'
  exact ⟨by rw [add_mul]; exact add_le_add a c, by rw [add_mul]; exact add_le_add b d⟩

theorem Near.mul_left {k : ℕ} {x y c : ℚ} (h : Near k x y) (hc : 0 ≤ c) : Near k (c * x) (c * y) := by
  obtain ⟨a, b⟩ := h
  exact ⟨by rw [mul_assoc]; exact mul_le_mul_of_nonneg_left a hc, by rw [mul_assoc]; exact mul_le_mul_of_nonneg_left b hc⟩

theorem Near.div {j k : ℕ} {a b c d : ℚ} (h : Near j a b) (h' : Near k c d) (hc : 0 < c) (hd : 0 < d) (ha : 0 ≤ a) (hb : 0 ≤ b) :
    Near (j + k) (a / c) (b / d) := by
  have p : ∀ i, (0 : ℚ) < (1 - 1 / 2 ^ 53) ^ i := fun i => pow_pos (by norm_num) i
  obtain ⟨h1, h2⟩ := h
  obtain ⟨h3, h4⟩ := h'
  constructor
  · rw [pow_add, div_mul_eq_mul_div, div_le_div_iff₀ hc hd]
    have := mul_le_mul h1 h4 (mul_nonneg hd.le (p k).le) hb
    calc a * ((1 - 1 / 2 ^ 53) ^ j * (1 - 1 / 2 ^ 53) ^ k) * d = a * (1 - 1 / 2 ^ 53) ^ j * (d * (1 - 1 / 2 ^ 53) ^ k) := by ring
      _ ≤ b * c := this
  · rw [pow_add, div_mul_eq_mul_div, div_le_div_iff₀ hd hc]
    have := mul_le_mul h2 h3 (mul_nonneg hc.le (p k).le) ha
    calc b * ((1 - 1 / 2 ^ 53) ^ j * (1 - 1 / 2 ^ 53) ^ k) * c = b * (1 - 1 / 2 ^ 53) ^ j * (c * (1 - 1 / 2 ^ 53) ^ k) := by ring
      _ ≤ a * d := this

/-- `0` or not very small. -/
def Solid (x : ℚ) : Prop := x = 0 ∨ 1 / 32 ≤ x

theorem Solid.nonneg {x : ℚ} (h : Solid x) : 0 ≤ x := by
  rcases h with rfl | h
  · exact le_rfl
  · exact le_trans (by norm_num) h

theorem Solid.add {x y : ℚ} (h : Solid x) (h' : Solid y) : Solid (x + y) := by
  rcases h with rfl | h
  · rwa [zero_add]
  · exact .inr (by linarith [h'.nonneg])

theorem isF64_32 : IsF64 (1 / 32) := ⟨1, -5, by norm_num, by norm_num, by norm_num⟩

theorem Solid.f64 {x : ℚ} (h : Solid x) : Solid (f64 x) := by
  rcases h with rfl | h
  · exact .inl f64_zero
  · exact .inr (le_f64_of_isF64 isF64_32 h)

theorem near_f64 {x : ℚ} (h : x = 0 ∨ 1 / 2 ^ 900 ≤ x) : Near 1 x (f64 x) := by
  rcases h with rfl | h
  · rw [f64_zero]; exact Near.refl' le_rfl 1
  · have h0 : (0 : ℚ) < x := lt_of_lt_of_le (by positivity) h
    have := big_of (x := x) (by rwa [abs_of_pos h0])
    rw [abs_of_pos h0, abs_le] at this
    generalize Narp.f64 x = y at *
    obtain ⟨a, b⟩ := this
    have hu : (0 : ℚ) < 1 / 2 ^ 53 := by norm_num
    have hu1 : (1 / 2 ^ 53 : ℚ) < 1 := by norm_num
    unfold Near
    generalize (1 / 2 ^ 53 : ℚ) = u at *
    rw [pow_one]
    constructor
    · linarith
    · have : y ≤ x * (1 + u) := by linarith
      have := mul_le_mul_of_nonneg_right this (show 0 ≤ 1 - u by linarith)
      nlinarith [mul_pos h0 (mul_pos hu hu)]

theorem Solid.near {x : ℚ} (h : Solid x) : Near 1 x (Narp.f64 x) := by
  apply near_f64
  rcases h with h | h
  · exact .inl h
  · refine .inr (le_trans ?_ h)
    have e : (1 / 32 : ℚ) = 1 / 2 ^ 5 := by norm_num
    rw [e]
    exact one_div_le_one_div_of_le (by norm_num) (pow_le_pow_right₀ (by norm_num) (by norm_num))

/-! ## Averages over the tiers -/

/-- The products of the pairs, added up. -/
def dot (l : List (ℚ × ℚ)) : ℚ := (l.map fun p => p.1 * p.2).sum

theorem dot_append (l l' : List (ℚ × ℚ)) : dot (l ++ l') = dot l + dot l' := by simp [dot]

theorem dotF_near {l : List (ℚ × ℚ)} {v : ℚ} (h : DotF l v) : (∀ p ∈ l, Solid (p.1 * p.2)) →
    Solid (dot l) ∧ Solid v ∧ Near l.length (dot l) v := by
  induction h with
  | nil => exact fun _ => ⟨.inl rfl, .inl rfl, Near.refl' le_rfl 0⟩
  | one c w =>
    intro h
    have h := h (c, w) (by simp)
    have e : dot [(c, w)] = c * w := by simp [dot]
    rw [e]
    exact ⟨h, h.f64, h.near⟩
  | @add l₁ l₂ a b h1 h2 _ _ ih1 ih2 =>
    intro h
    obtain ⟨s1, v1, n1⟩ := ih1 fun p hp => h p (List.mem_append_left _ hp)
    obtain ⟨s2, v2, n2⟩ := ih2 fun p hp => h p (List.mem_append_right _ hp)
    have l1 := List.length_pos_iff.mpr h1
    have l2 := List.length_pos_iff.mpr h2
    rw [dot_append, List.length_append]
    refine ⟨s1.add s2, (v1.add v2).f64, ?_⟩
    have := ((n1.mono s1.nonneg v1.nonneg (k := l₁.length + l₂.length - 1) (by omega)).add
      (n2.mono s2.nonneg v2.nonneg (k := l₁.length + l₂.length - 1) (by omega))).trans (v1.add v2).near
    rwa [show l₁.length + l₂.length - 1 + 1 = l₁.length + l₂.length by omega] at this
  | @fma l a c w _ ih =>
    intro h
    obtain ⟨s1, v1, n1⟩ := ih fun p hp => h p (List.mem_cons_of_mem _ hp)
    have hc := h (c, w) (by simp)
    have e : dot ((c, w) :: l) = dot l + c * w := by simp [dot, add_comm]
    rw [e]
    exact ⟨s1.add hc, (v1.add hc).f64, (n1.add (Near.refl' hc.nonneg _)).trans (v1.add hc).near⟩
  | @perm l₁ l₂ a hp _ ih =>
    intro h
    have e : dot l₂ = dot l₁ := ((hp.map _).sum_eq).symm
    rw [e, ← hp.length_eq]
    exact ih fun p hp' => h p (hp.mem_iff.mp hp')

/-- Some order exists. -/
theorem dotF_exists : ∀ l, ∃ v, DotF l v
  | [] => ⟨0, .nil⟩
  | (c, w) :: l => ⟨_, .fma c w (dotF_exists l).choose_spec⟩

theorem xprobF_near (tiers : ℕ) (t : Fin 5) : Near 1 (XPROB tiers t) (XPROBF tiers t) ∧ 1 / 32 ≤ XPROB tiers t ∧ 1 / 32 ≤ XPROBF tiers t := by
  have h : 1 / 32 ≤ XPROB tiers t := by
    unfold XPROB
    split_ifs <;> fin_cases t <;> norm_num
  exact ⟨Solid.near (.inr h), h, le_f64_of_isF64 isF64_32 h⟩

theorem solid_mul_nat {w : ℚ} (h : 1 / 32 ≤ w) (k : ℕ) : Solid ((k : ℚ) * w) := by
  rcases Nat.eq_zero_or_pos k with rfl | hk
  · left; simp
  · right
    have : (1 : ℚ) ≤ k := by exact_mod_cast hk
    nlinarith

theorem xprob_weight {tiers : ℕ} (ht : tiers = 1 ∨ tiers = 5) (t : Fin 5) (h : t.val < tiers) : XPROB tiers t = weight tiers t.val := by
  rcases ht with rfl | rfl
  · have : t = 0 := by apply Fin.ext; simp; omega
    subst this; rfl
  · fin_cases t <;> rfl

/-- The average over the tiers, in any order of the operations, is off by at most six roundings. -/
theorem tierF_near {tiers : ℕ} (ht : tiers = 1 ∨ tiers = 5) (x : Fin 5 → ℕ) {v : ℚ} (h : DotF (tierPairs tiers x) v) :
    Solid v ∧ Solid (weighted tiers fun t => (x t : ℚ)) ∧ Near 6 (weighted tiers fun t => (x t : ℚ)) v := by
  have hl : ∀ l : List (Fin 5), (∀ t ∈ l, t.val < tiers) → Solid (l.map fun t => weight tiers t.val * (x t : ℚ)).sum ∧
      Near 1 (l.map fun t => weight tiers t.val * (x t : ℚ)).sum (dot (l.map fun t => ((x t : ℚ), XPROBF tiers t))) := by
    intro l
    induction l with
    | nil => exact fun _ => ⟨.inl rfl, Near.refl' le_rfl 1⟩
    | cons t l ih =>
      intro hl
      obtain ⟨i1, i2⟩ := ih fun s hs => hl s (List.mem_cons_of_mem _ hs)
      obtain ⟨a, b, c⟩ := xprobF_near tiers t
      rw [xprob_weight ht t (hl t (by simp))] at a b
      have e : dot ((t :: l).map fun t => ((x t : ℚ), XPROBF tiers t)) =
          (x t : ℚ) * XPROBF tiers t + dot (l.map fun t => ((x t : ℚ), XPROBF tiers t)) := by simp [dot]
      rw [List.map_cons, List.sum_cons, e, mul_comm (weight _ _)]
      exact ⟨(solid_mul_nat b _).add i1, (a.mul_left (Nat.cast_nonneg _)).add i2⟩
  have hm : ∀ t ∈ (List.finRange 5).take tiers, t.val < tiers := by
    rcases ht with rfl | rfl <;> decide
  obtain ⟨w1, w2⟩ := hl _ hm
  obtain ⟨d1, d2, d3⟩ := dotF_near h (by
    intro p hp
    obtain ⟨t, _, rfl⟩ := List.mem_map.mp hp
    exact solid_mul_nat (xprobF_near tiers t).2.2 _)
  refine ⟨d2, w1, ?_⟩
  have hlen : (tierPairs tiers x).length ≤ 5 := by
    unfold tierPairs; rw [List.length_map, List.length_take, List.length_finRange]; omega
  exact (w2.trans d3).mono w1.nonneg d2.nonneg (by omega)

/-! ## Sums over the years -/

theorem sumF_append (xs : List ℚ) (x : ℚ) : sumF (xs ++ [x]) = f64 (sumF xs + x) := by
  unfold sumF; rw [List.foldl_append]; rfl

theorem sumF_near {xs ys : List ℚ} {k : ℕ} (h : List.Forall₂ (fun x y => Solid x ∧ Solid y ∧ Near k x y) xs ys) :
    Solid xs.sum ∧ Solid (sumF ys) ∧ Near (k + ys.length) xs.sum (sumF ys) := by
  induction ys using List.reverseRecOn generalizing xs with
  | nil =>
    cases h
    exact ⟨.inl rfl, .inl rfl, Near.refl' le_rfl _⟩
  | append_singleton ys y ih =>
    obtain ⟨xs', x', h1, h2, rfl⟩ : ∃ xs' x', List.Forall₂ (fun x y => Solid x ∧ Solid y ∧ Near k x y) xs' ys ∧
        (Solid x' ∧ Solid y ∧ Near k x' y) ∧ xs = xs' ++ [x'] := by
      have := List.forall₂_reverse_iff.mpr h
      rw [List.reverse_append] at this
      cases hx : xs.reverse with
      | nil => rw [hx] at this; cases this
      | cons a l =>
        rw [hx] at this
        rcases this with _ | ⟨h1, h2⟩
        refine ⟨l.reverse, a, ?_, h1, ?_⟩
        · have := List.forall₂_reverse_iff.mpr h2
          simpa using this
        · rw [← List.reverse_reverse xs, hx]; simp
    obtain ⟨i1, i2, i3⟩ := ih h1
    obtain ⟨a, b, c⟩ := h2
    rw [sumF_append, List.sum_append, List.sum_singleton, List.length_append, List.length_singleton, ← Nat.add_assoc]
    refine ⟨i1.add a, (i2.add b).f64, ?_⟩
    exact (i3.add (c.mono a.nonneg b.nonneg (by omega))).trans (i2.add b).near

/-- The distance of near numbers. -/
theorem Near.dist {k : ℕ} {x y : ℚ} (h : Near k x y) (hx : 0 ≤ x) (hk : k ≤ 2 ^ 50) : |y - x| ≤ x * (k / 2 ^ 52) := by
  have b := one_add_mul_le_pow (show (-2 : ℚ) ≤ -(1 / 2 ^ 53) by norm_num) k
  rw [← sub_eq_add_neg] at b
  obtain ⟨h1, h2⟩ := h
  have hk' : (k : ℚ) ≤ 2 ^ 50 := by exact_mod_cast hk
  have hk0 : (0 : ℚ) ≤ k := Nat.cast_nonneg _
  generalize ((1 : ℚ) - 1 / 2 ^ 53) ^ k = r at *
  have b' : 1 - (k : ℚ) / 2 ^ 53 ≤ r := by
    have : (k : ℚ) * -(1 / 2 ^ 53) = -((k : ℚ) / 2 ^ 53) := by ring
    linarith
  have e : (k : ℚ) / 2 ^ 52 = 2 * (k / 2 ^ 53) := by norm_num; ring
  have hs : (k : ℚ) / 2 ^ 53 ≤ 1 / 8 := by
    rw [div_le_iff₀ (by norm_num)]; norm_num at *; linarith
  have hs0 : 0 ≤ (k : ℚ) / 2 ^ 53 := by positivity
  rw [e]
  generalize (k : ℚ) / 2 ^ 53 = s at *
  rw [abs_le]
  constructor
  · nlinarith
  · by_cases hy : 0 ≤ y
    · have : y * (1 - s) ≤ x := (mul_le_mul_of_nonneg_left b' hy).trans h2
      have : y * (1 - s) ≤ x * (1 + 2 * s) * (1 - s) := by nlinarith [mul_nonneg hx (mul_nonneg hs0 (show 0 ≤ 1 - 2 * s by linarith))]
      have := le_of_mul_le_mul_right this (by linarith)
      linarith
    · nlinarith [mul_nonneg hx hs0]

/-! ## The printed means -/

/-- The annual values of `Y` years as the program computes them: `v t y` is the count of year `y` in tier `t`. -/
def Computed (tiers : ℕ) (v : Fin 5 → ℕ → ℕ) (Y : ℕ) (xs : List ℚ) : Prop :=
  List.Forall₂ (fun y x => DotF (tierPairs tiers fun t => v t y) x) (List.range Y) xs

/-- The exact annual values. -/
def exactly (tiers : ℕ) (v : Fin 5 → ℕ → ℕ) (Y : ℕ) : List ℚ :=
  (List.range Y).map fun y => weighted tiers fun t => (v t y : ℚ)

theorem computed_near {tiers : ℕ} (ht : tiers = 1 ∨ tiers = 5) {v : Fin 5 → ℕ → ℕ} {Y : ℕ} {xs : List ℚ} (h : Computed tiers v Y xs) :
    xs.length = Y ∧ Solid (exactly tiers v Y).sum ∧ Solid (sumF xs) ∧ Near (6 + Y) (exactly tiers v Y).sum (sumF xs) := by
  have hl : xs.length = Y := by rw [← h.length_eq, List.length_range]
  have : List.Forall₂ (fun x y => Solid x ∧ Solid y ∧ Near 6 x y) (exactly tiers v Y) xs := by
    unfold exactly
    rw [List.forall₂_map_left_iff]
    refine h.imp fun y x hd => ?_
    obtain ⟨a, b, c⟩ := tierF_near ht _ hd
    exact ⟨b, a, c⟩
  have := sumF_near this
  rw [hl] at this
  exact ⟨hl, this⟩

theorem solid_div {x n : ℚ} (h : Solid x) (hn : 0 < n) (hn' : n ≤ 2 ^ 200) : x / n = 0 ∨ 1 / 2 ^ 900 ≤ x / n := by
  rcases h with rfl | h
  · left; simp
  · right
    rw [le_div_iff₀ hn]
    refine le_trans ?_ h
    have e : (1 / 32 : ℚ) = 1 / 2 ^ 900 * 2 ^ 895 := by
      rw [show (2 : ℚ) ^ 900 = 2 ^ 895 * 2 ^ 5 by rw [← pow_add]]
      have : (2 : ℚ) ^ 895 ≠ 0 := by positivity
      generalize (2 : ℚ) ^ 895 = z at *
      field_simp
      norm_num
    rw [e]
    refine mul_le_mul_of_nonneg_left (hn'.trans ?_) (by positivity)
    exact pow_le_pow_right₀ (by norm_num) (by norm_num)

/-- The mean over the years is off by at most `Y + 7` roundings. -/
theorem meanF_near {tiers : ℕ} (ht : tiers = 1 ∨ tiers = 5) {v : Fin 5 → ℕ → ℕ} {Y : ℕ} (h1 : 1 ≤ Y) (hY : Y ≤ 2 ^ 49) {xs : List ℚ}
    (h : Computed tiers v Y xs) : Near (Y + 7) (mean (exactly tiers v Y)) (meanF xs) := by
  obtain ⟨hl, s1, s2, n⟩ := computed_near ht h
  have hY0 : (0 : ℚ) < Y := by exact_mod_cast h1
  have hY' : (Y : ℚ) ≤ 2 ^ 200 := le_trans (b := 2 ^ 49) (by exact_mod_cast hY) (by norm_num)
  unfold mean meanF
  have e : (exactly tiers v Y).length = Y := by simp [exactly]
  rw [hl, e]
  have := (n.div (Near.refl' hY0.le 0) hY0 hY0 s1.nonneg s2.nonneg).trans (near_f64 (solid_div s2 hY0 hY'))
  rwa [show 6 + Y + 0 + 1 = Y + 7 by omega] at this

theorem exactly_nonneg (tiers : ℕ) (v : Fin 5 → ℕ → ℕ) (Y : ℕ) : 0 ≤ mean (exactly tiers v Y) := by
  unfold mean
  refine div_nonneg (List.sum_nonneg ?_) (Nat.cast_nonneg _)
  intro x hx
  obtain ⟨y, _, rfl⟩ := List.mem_map.mp hx
  refine List.sum_nonneg ?_
  intro z hz
  obtain ⟨t, _, rfl⟩ := List.mem_map.mp hz
  refine mul_nonneg ?_ (Nat.cast_nonneg _)
  unfold weight
  split_ifs
  · norm_num
  · have : ∀ s : Fin 5, (0 : ℚ) ≤ [0.0668, 0.2417, 0.383, 0.2417, 0.0668].getD s.val 0 := by decide +kernel
    exact this t

/-- A number that is printed and read back is off by half a unit and by what it was off before. -/
theorem printed_off {p : ℕ} {x y b : ℚ} (h : |y - x| ≤ b) : ∃ d, pyFloat (fixedText p y) = .ok d ∧ |d - x| ≤ 1 / 2 / 10 ^ p + b := by
  obtain ⟨d, h1, h2⟩ := C116_read_back (fixedText_shown p y)
  exact ⟨d, h1, (abs_sub_le d y x).trans (add_le_add h2 h)⟩

/-- C118. The mean printed for `Y` years of counts in the forecast tiers, computed in double precision in any order of the
additions: read back it is off from the true mean by at most half a unit of the last printed digit and a fraction
`(Y + 7) / 2^52` of the mean. -/
theorem C118_mean {tiers : ℕ} (ht : tiers = 1 ∨ tiers = 5) {v : Fin 5 → ℕ → ℕ} {Y : ℕ} (h1 : 1 ≤ Y) (hY : Y ≤ 2 ^ 49) {xs : List ℚ}
    (h : Computed tiers v Y xs) (p : ℕ) : ∃ d, pyFloat (fixedText p (meanF xs)) = .ok d ∧
      |d - mean (exactly tiers v Y)| ≤ 1 / 2 / 10 ^ p + mean (exactly tiers v Y) * (((Y + 7 : ℕ) : ℚ) / 2 ^ 52) :=
  printed_off ((meanF_near ht h1 hY h).dist (exactly_nonneg _ _ _) (by omega))

theorem tierAvg_le {tiers : ℕ} (ht : tiers = 1 ∨ tiers = 5) {x : Fin 5 → ℕ} {N : ℕ} (h : ∀ t, x t ≤ N) :
    weighted tiers (fun t => (x t : ℚ)) ≤ N := by
  have h' : ∀ t, (x t : ℚ) ≤ N := fun t => by exact_mod_cast h t
  rcases ht with rfl | rfl
  · have e : weighted 1 (fun t => (x t : ℚ)) = 1 * (x 0 : ℚ) + 0 := rfl
    rw [e]
    linarith [h' 0]
  · have e : weighted 5 (fun t => (x t : ℚ)) = 0.0668 * (x 0 : ℚ) + (0.2417 * (x 1 : ℚ) + (0.383 * (x 2 : ℚ) + (0.2417 * (x 3 : ℚ) +
        (0.0668 * (x 4 : ℚ) + 0)))) := rfl
    rw [e]
    linarith [h' 0, h' 1, h' 2, h' 3, h' 4]

theorem exactly_sum_le {tiers : ℕ} (ht : tiers = 1 ∨ tiers = 5) {v : Fin 5 → ℕ → ℕ} {Y N : ℕ} (hv : ∀ t y, v t y ≤ N) :
    (exactly tiers v Y).sum ≤ Y * N := by
  have : ∀ l : List ℕ, (l.map fun y => weighted tiers fun t => (v t y : ℚ)).sum ≤ l.length * N := by
    intro l
    induction l with
    | nil => simp
    | cons y l ih =>
      have := tierAvg_le (x := fun t => v t y) ht (fun t => hv t y)
      rw [List.map_cons, List.sum_cons, List.length_cons]
      push_cast
      linarith
  have := this (List.range Y)
  rwa [List.length_range] at this

/-- C118, in figures: hours a year, up to a million years, three decimals. -/
theorem C118_hours {tiers : ℕ} (ht : tiers = 1 ∨ tiers = 5) {v : Fin 5 → ℕ → ℕ} {Y : ℕ} (h1 : 1 ≤ Y) (hY : Y ≤ 1000000) {xs : List ℚ}
    (hv : ∀ t y, v t y ≤ 8760) (h : Computed tiers v Y xs) :
    ∃ d, pyFloat (fixedText 3 (meanF xs)) = .ok d ∧ |d - mean (exactly tiers v Y)| ≤ 0.000502 := by
  obtain ⟨d, h2, h3⟩ := C118_mean ht h1 (by omega) h 3
  refine ⟨d, h2, h3.trans ?_⟩
  have hm : mean (exactly tiers v Y) ≤ 8760 := by
    unfold mean
    have e : (exactly tiers v Y).length = Y := by simp [exactly]
    rw [e, div_le_iff₀ (by exact_mod_cast h1)]
    have := exactly_sum_le (Y := Y) ht hv
    push_cast at this
    linarith
  have hk : ((Y + 7 : ℕ) : ℚ) / 2 ^ 52 ≤ 1000007 / 2 ^ 52 := by
    apply div_le_div_of_nonneg_right _ (by norm_num)
    exact_mod_cast (by omega : Y + 7 ≤ 1000007)
  have hk0 : 0 ≤ ((Y + 7 : ℕ) : ℚ) / 2 ^ 52 := by positivity
  have := mul_le_mul hm hk hk0 (by norm_num)
  norm_num at *
  linarith

/-- The mean shortage: energy over hours. -/
def shortage (N L : List ℚ) : ℚ := if L.sum > 0 then N.sum / L.sum else 0

/-- C118. The mean shortage printed (`w` are the annual energies, `v` the annual hours in the tiers). -/
theorem C118_shortage {tiers : ℕ} (ht : tiers = 1 ∨ tiers = 5) {v w : Fin 5 → ℕ → ℕ} {Y : ℕ} (hY : Y ≤ 2 ^ 48) {xs ns : List ℚ}
    (hv : ∀ t y, v t y ≤ 2 ^ 53) (h : Computed tiers v Y xs) (h' : Computed tiers w Y ns) (p : ℕ) :
    ∃ d, pyFloat (fixedText p (ratioF ns xs)) = .ok d ∧ |d - shortage (exactly tiers w Y) (exactly tiers v Y)| ≤
      1 / 2 / 10 ^ p + shortage (exactly tiers w Y) (exactly tiers v Y) * (((2 * Y + 13 : ℕ) : ℚ) / 2 ^ 52) := by
  obtain ⟨_, s1, s2, n⟩ := computed_near ht h
  obtain ⟨_, t1, t2, m⟩ := computed_near ht h'
  have hu := exactly_sum_le (Y := Y) ht hv
  apply printed_off
  unfold ratioF shortage
  by_cases hL : 0 < (exactly tiers v Y).sum
  · have hL' : 0 < sumF xs := lt_of_lt_of_le (mul_pos hL (pow_pos (by norm_num) _)) n.1
    rw [if_pos hL, if_pos hL']
    have hbig : sumF xs ≤ 2 ^ 200 := by
      have := n.dist hL.le (by omega)
      rw [abs_le] at this
      have hk : (((6 + Y : ℕ) : ℚ)) / 2 ^ 52 ≤ 1 := by
        rw [div_le_one (by norm_num)]
        exact_mod_cast (by omega : 6 + Y ≤ 2 ^ 52)
      have hY' : (Y : ℚ) ≤ 2 ^ 48 := by exact_mod_cast hY
      have h3 := mul_le_mul_of_nonneg_left hk hL.le
      push_cast at hu
      norm_num at *
      linarith
    have := ((m.div n hL hL' t1.nonneg t2.nonneg).trans (near_f64 (solid_div t2 hL' hbig))).dist (div_nonneg t1.nonneg hL.le) (by omega)
    rwa [show 6 + Y + (6 + Y) + 1 = 2 * Y + 13 by omega] at this
  · have e : (exactly tiers v Y).sum = 0 := le_antisymm (not_lt.1 hL) s1.nonneg
    have e' : sumF xs ≤ 0 := by
      have := n.2
      rw [e] at this
      by_contra hc
      exact absurd this (not_le.mpr (mul_pos (not_le.1 hc) (pow_pos (by norm_num) _)))
    rw [if_neg hL, if_neg (not_lt.mpr e')]
    simp

/-- Every order of the additions gives such annual values. -/
example (v : Fin 5 → ℕ → ℕ) (Y : ℕ) : ∃ xs, Computed 5 v Y xs := by
  unfold Computed
  generalize List.range Y = l
  induction l with
  | nil => exact ⟨[], .nil⟩
  | cons y l ih =>
    obtain ⟨xs, h⟩ := ih
    obtain ⟨x, hx⟩ := dotF_exists (tierPairs 5 fun t => v t y)
    exact ⟨x :: xs, .cons hx h⟩

/-- The roundings are real: three hours in the second tier are not 0.7251 exactly. -/
example : f64 (3 * f64 0.2417) ≠ weighted 5 fun t => if t = 1 then 3 else 0 := by decide +kernel

/-! ## The printed standard errors -/

/-- If at most one product is not zero, the order does not matter. -/
theorem dotF_single {l : List (ℚ × ℚ)} {v : ℚ} (h : DotF l v) :
    l.countP (fun p => p.1 * p.2 ≠ 0) ≤ 1 → v = f64 (dot l) := by
  have z : ∀ l : List (ℚ × ℚ), l.countP (fun p => p.1 * p.2 ≠ 0) = 0 → dot l = 0 := by
    intro l hl
    refine List.sum_eq_zero ?_
    intro x hx
    obtain ⟨p, hp, rfl⟩ := List.mem_map.mp hx
    have := List.countP_eq_zero.mp hl p hp
    simpa [or_iff_not_imp_left] using this
  induction h with
  | nil => intro _; simp [dot, f64_zero]
  | one c w => intro _; simp [dot]
  | @add l₁ l₂ a b _ _ _ _ ih1 ih2 =>
    intro h
    rw [List.countP_append] at h
    rw [dot_append, ih1 (by omega), ih2 (by omega)]
    rcases Nat.eq_zero_or_pos (l₁.countP fun p => p.1 * p.2 ≠ 0) with h0 | h0
    · rw [z _ h0, f64_zero, zero_add, zero_add, f64_f64]
    · rw [z l₂ (by omega), f64_zero, add_zero, add_zero, f64_f64]
  | @fma l a c w _ ih =>
    intro h
    have e : dot ((c, w) :: l) = dot l + c * w := by simp [dot, add_comm]
    rw [List.countP_cons] at h
    rw [e, ih (by omega)]
    by_cases hc : c * w = 0
    · rw [hc, add_zero, add_zero, f64_f64]
    · have h0 : l.countP (fun p => p.1 * p.2 ≠ 0) = 0 := by
        simp only [ne_eq, hc, not_false_eq_true, decide_true, if_true] at h
        simp only [ne_eq]
        omega
      rw [z _ h0, f64_zero]
  | @perm l₁ l₂ a hp _ ih =>
    intro h
    rw [← hp.countP_eq] at h
    rw [ih h]
    exact congrArg f64 (hp.map _).sum_eq

/-- `sq` computes squares to within one unit in the last place. -/
def SqOk (sq : ℚ → ℚ) : Prop := ∀ x, 1 / 2 ^ 400 ≤ x → |sq x - x ^ 2| ≤ x ^ 2 / 2 ^ 52

/-- Rounding the exact square is such a function. -/
theorem sqOk_f64 : SqOk fun x => f64 (x ^ 2) := by
  intro x hx
  have h1 : 1 / 2 ^ 900 ≤ x ^ 2 := by
    have a : (0 : ℚ) < 1 / 2 ^ 400 := by positivity
    have b : (1 / 2 ^ 900 : ℚ) ≤ (1 / 2 ^ 400) ^ 2 := by
      rw [div_pow, ← pow_mul, one_pow]
      exact one_div_le_one_div_of_le (by positivity) (pow_le_pow_right₀ (by norm_num) (by norm_num))
    exact b.trans (pow_le_pow_left₀ a.le hx 2)
  have := big_of (x := x ^ 2) (by rwa [abs_of_nonneg (sq_nonneg x)])
  rw [abs_of_nonneg (sq_nonneg x)] at this
  refine this.trans ?_
  rw [mul_one_div]
  exact div_le_div_of_nonneg_left (sq_nonneg x) (by norm_num) (by norm_num)

/-- Three hours a year in the second tier, eleven years. -/
def elevenYears : Fin 5 → ℕ → ℕ := fun t _ => if t = 1 then 3 else 0

theorem eleven_values {xs : List ℚ} (h : Computed 5 elevenYears 11 xs) : xs = List.replicate 11 (f64 (3 * f64 0.2417)) := by
  have hl : xs.length = 11 := by rw [← h.length_eq]; rfl
  refine List.eq_replicate_iff.mpr ⟨hl, fun x hx => ?_⟩
  obtain ⟨i, hi, rfl⟩ := List.getElem_of_mem hx
  have := (List.forall₂_iff_get.mp h).2 i (by simpa using by omega) hi
  have := dotF_single this (by
    show List.countP _ [((0 : ℚ), _), ((3 : ℕ), _), ((0 : ℕ), _), ((0 : ℕ), _), ((0 : ℕ), _)] ≤ 1
    simp only [List.countP_cons, List.countP_nil]
    simp only [Nat.cast_zero, zero_mul, ne_eq, not_true_eq_false, decide_false]
    split_ifs <;> simp_all)
  simp only [List.get_eq_getElem] at this
  rw [this]
  show f64 (0 * _ + (3 * f64 0.2417 + (0 * _ + (0 * _ + (0 * _ + 0))))) = _
  simp

theorem eleven_rad : f64 (f64 (f64 (sumSqF (List.replicate 11 (f64 (3 * f64 0.2417))) / 11) -
    (meanF (List.replicate 11 (f64 (3 * f64 0.2417))) ^ 2 - meanF (List.replicate 11 (f64 (3 * f64 0.2417))) ^ 2 / 2 ^ 52)) / 11) < 0 := by
  decide +kernel

/-- C119 fails with forecast tiers: every year has the same weighted value, so the standard error is 0, and the program
prints `nan` in its place, whatever the order of its additions and however `** 2` and `** 0.5` are rounded. -/
theorem C119_nan_refuted (root sq : ℚ → ℚ) (hsq : SqOk sq) (p : ℕ) {xs : List ℚ} (h : Computed 5 elevenYears 11 xs) :
    sdTextF root sq p xs = ['n', 'a', 'n'] ∧ 0 < mean (exactly 5 elevenYears 11) ∧ stdErr (exactly 5 elevenYears 11) = 0 := by
  refine ⟨?_, by decide +kernel, ?_⟩
  · rw [eleven_values h]
    have e1 : 0 < meanF (List.replicate 11 (f64 (3 * f64 0.2417))) := by decide +kernel
    have e2 := eleven_rad
    have hs := hsq (meanF (List.replicate 11 (f64 (3 * f64 0.2417)))) (by
      have : (1 / 2 : ℚ) ≤ meanF (List.replicate 11 (f64 (3 * f64 0.2417))) := by decide +kernel
      refine le_trans ?_ this
      exact one_div_le_one_div_of_le (by norm_num) (le_self_pow₀ (by norm_num) (by norm_num)))
    unfold sdTextF
    rw [if_pos e1, if_pos]
    unfold repRadF
    rw [List.length_replicate]
    generalize sumSqF (List.replicate 11 (f64 (3 * f64 0.2417))) = Q at *
    generalize meanF (List.replicate 11 (f64 (3 * f64 0.2417))) = M at *
    refine lt_of_le_of_lt ?_ e2
    push_cast
    apply f64_mono
    apply div_le_div_of_nonneg_right _ (by norm_num)
    apply f64_mono
    have := (abs_le.mp hs).1
    linarith
  · have e : variance (exactly 5 elevenYears 11) = 0 := by decide +kernel
    unfold stdErr
    rw [e]
    simp

/-- Sums of whole numbers are exact. -/
theorem whole_sums (xs : List ℤ) (hQ : sqSum xs ≤ 2 ^ 53) : sumF (rats xs) = xs.sum ∧ sumSqF (rats xs) = sqSum xs := by
  induction xs using List.reverseRecOn with
  | nil => exact ⟨by simp [sumF, rats], by simp [sumSqF, rats, sqSum]⟩
  | append_singleton xs x ih =>
    rw [sqSum_append] at hQ
    have hx := sq_nonneg x
    have h0 := sqSum_nonneg xs
    obtain ⟨i1, i2⟩ := ih (by omega)
    have a1 : IsF64 ((xs.sum : ℚ) + x) := by
      have := isF64_int (m := xs.sum + x) (by
        have := sum_le_sq (xs ++ [x])
        rw [sqSum_append] at this
        simp only [List.sum_append, List.sum_singleton] at this
        omega)
      exact_mod_cast this
    have a3 : IsF64 ((x : ℚ) ^ 2) := by
      have := isF64_int (m := x ^ 2) (by rw [abs_of_nonneg hx]; omega)
      exact_mod_cast this
    have a4 : IsF64 ((sqSum xs : ℚ) + (x : ℚ) ^ 2) := by
      have := isF64_int (m := sqSum xs + x ^ 2) (by rw [abs_of_nonneg (by omega)]; omega)
      exact_mod_cast this
    have e1 : (xs ++ [x]).sum = xs.sum + x := by simp
    have e2 : sumSqF (rats xs ++ [(x : ℚ)]) = f64 (sumSqF (rats xs) + f64 ((x : ℚ) ^ 2)) := by
      unfold sumSqF; rw [List.foldl_append]; rfl
    rw [rats_append, sumF_append, e2, i1, i2, f64_of_isF64 a1, f64_of_isF64 a3, f64_of_isF64 a4, sqSum_append, e1]
    push_cast
    exact ⟨rfl, rfl⟩

theorem sqrt_near {V V0 e : ℝ} (hV : 0 ≤ V) (hV0 : 0 ≤ V0) (h : |V - V0| ≤ e * V0) : |Real.sqrt V - Real.sqrt V0| ≤ e * Real.sqrt V0 := by
  have a := Real.sq_sqrt hV
  have b := Real.sq_sqrt hV0
  have c := Real.sqrt_nonneg V
  have d := Real.sqrt_nonneg V0
  rcases d.eq_or_lt with d0 | d0
  · rw [← d0] at b
    have : V0 = 0 := by rw [← b]; norm_num
    rw [this, mul_zero, sub_zero] at h
    have : V = 0 := abs_nonpos_iff.mp h
    rw [← d0, this]
    simp
  · generalize Real.sqrt V = s at *
    generalize Real.sqrt V0 = t at *
    have k : |s - t| * (s + t) ≤ e * t * t := by
      rw [← abs_of_nonneg (show 0 ≤ s + t by linarith), ← abs_mul]
      have : (s - t) * (s + t) = V - V0 := by rw [← a, ← b]; ring
      rw [this]
      refine h.trans (le_of_eq ?_)
      rw [← b]; ring
    have k2 : |s - t| * t ≤ e * t * t := by
      refine le_trans ?_ k
      exact mul_le_mul_of_nonneg_left (by linarith) (abs_nonneg _)
    exact le_of_mul_le_mul_right k2 d0

/-- The last operations on the way to the printed percentage. -/
theorem pct_near {R M M0 : ℚ} (hM : Near 1 M0 M) (hM0 : 0 < M0) (hMpos : 0 < M) (hR : R = 0 ∨ 1 / 2 ^ 100 ≤ R) (hb : M ≤ 2 ^ 200) :
    |f64 (f64 (R / M) * 100) - R / M0 * 100| ≤ R / M0 * 100 * (3 / 2 ^ 52) := by
  have hR0 : 0 ≤ R := by
    rcases hR with rfl | h
    · exact le_rfl
    · exact le_trans (by positivity) h
  have q : R / M = 0 ∨ 1 / 2 ^ 300 ≤ R / M := by
    rcases hR with rfl | h
    · left; simp
    · right
      rw [le_div_iff₀ hMpos]
      refine le_trans (mul_le_mul_of_nonneg_left hb (by positivity)) (le_trans (le_of_eq ?_) h)
      rw [show (2 : ℚ) ^ 300 = 2 ^ 200 * 2 ^ 100 by rw [← pow_add]]
      have : (2 : ℚ) ^ 200 ≠ 0 := by positivity
      have : (2 : ℚ) ^ 100 ≠ 0 := by positivity
      field_simp
  have p300 : (1 / 2 ^ 900 : ℚ) ≤ 1 / 2 ^ 300 := one_div_le_one_div_of_le (by positivity) (pow_le_pow_right₀ (by norm_num) (by norm_num))
  have n1 : Near 1 (R / M) (f64 (R / M)) := near_f64 (q.imp id p300.trans)
  have q2 : f64 (R / M) * 100 = 0 ∨ 1 / 2 ^ 900 ≤ f64 (R / M) * 100 := by
    rcases q with h | h
    · left; rw [h, f64_zero]; norm_num
    · right
      have p : (0 : ℚ) < 1 / 2 ^ 300 := by positivity
      have h1 := n1.1
      rw [pow_one] at h1
      have h2 : R / M * (1 - 1 / 2 ^ 53) * 100 ≤ f64 (R / M) * 100 := mul_le_mul_of_nonneg_right h1 (by norm_num)
      have h3 : R / M ≤ R / M * (1 - 1 / 2 ^ 53) * 100 := by
        have : (0 : ℚ) ≤ R / M := p.le.trans h
        norm_num at *
        linarith
      exact p300.trans (h.trans (h3.trans h2))
  have n2 := near_f64 q2
  have n0 : Near 1 (R / M0) (R / M) := by
    have := (Near.refl' hR0 0).div hM hM0 hMpos hR0 hR0
    rwa [Nat.zero_add] at this
  have n3 : Near 2 (R / M0) (f64 (R / M)) := n0.trans n1
  have n4 : Near 2 (R / M0 * 100) (f64 (R / M) * 100) := by
    have := n3.mul_left (c := 100) (by norm_num)
    rwa [mul_comm 100, mul_comm 100] at this
  have := (n4.trans n2).dist (by have := div_nonneg hR0 hM0.le; linarith) (by norm_num)
  exact_mod_cast this

/-- The standard error in percent of the mean. -/
noncomputable def errPct (xs : List ℚ) : ℝ := if mean xs > 0 then stdErr xs / (mean xs : ℝ) * 100 else 0

theorem combine {W X T e u : ℝ} (hT : 0 ≤ T) (he : 0 ≤ e) (he1 : e ≤ 1 / 4) (hu : 16 * u ≤ e) (hu0 : 0 ≤ u)
    (h1 : |X - T| ≤ (e + (1 + e) * u) * T) (h2 : |W - X| ≤ X * (3 * u)) : |W - T| ≤ 2 * e * T := by
  have h3 : X ≤ 2 * T := by
    have := (abs_le.mp h1).2
    have k : e + (1 + e) * u ≤ 1 := by nlinarith
    have := mul_le_mul_of_nonneg_right k hT
    linarith
  have h4 : |W - X| ≤ 6 * u * T := h2.trans (by nlinarith)
  refine (abs_sub_le W X T).trans ((add_le_add h4 h1).trans ?_)
  have : (6 * u + (e + (1 + e) * u)) ≤ 2 * e := by nlinarith
  nlinarith

/-- The root of a number that is off by a fraction `e`. -/
theorem root_near (root : ℚ → ℚ) (hroot : RootOk root) {V V0 e : ℚ} (hV0 : 0 ≤ V0) (hV : 0 ≤ V) (he0 : 0 ≤ e) (he : e ≤ 1 / 4)
    (hle : (1 - e) * V0 ≤ V) (h : |V - V0| ≤ e * V0) (hint : V0 = 0 ∨ 1 / 2 ^ 160 ≤ V0) :
    |((root V : ℚ) : ℝ) - Real.sqrt V0| ≤ ((e : ℝ) + (1 + e) * (1 / 2 ^ 52)) * Real.sqrt V0 ∧ (root V = 0 ∨ 1 / 2 ^ 100 ≤ root V) := by
  have r := hroot V hV
  have s : |Real.sqrt V - Real.sqrt V0| ≤ e * Real.sqrt V0 :=
    sqrt_near (by exact_mod_cast hV) (by exact_mod_cast hV0) (by exact_mod_cast h)
  constructor
  · have h1 : Real.sqrt V ≤ (1 + e) * Real.sqrt V0 := by have := (abs_le.mp s).2; linarith
    refine (abs_sub_le _ (Real.sqrt V) _).trans ((add_le_add r s).trans ?_)
    have : Real.sqrt V / 2 ^ 52 ≤ (1 + e) * Real.sqrt V0 / 2 ^ 52 := div_le_div_of_nonneg_right h1 (by positivity)
    refine (add_le_add this le_rfl).trans (le_of_eq ?_)
    ring
  · rcases hint with h0 | h0
    · left
      rw [h0, mul_zero, sub_zero] at h
      have : V = 0 := abs_nonpos_iff.mp h
      rw [this] at r ⊢
      simp only [Rat.cast_zero, Real.sqrt_zero, sub_zero, zero_div] at r
      exact_mod_cast abs_nonpos_iff.mp r
    · right
      have h1 : (1 / 2 ^ 162 : ℚ) ≤ V := by
        refine le_trans ?_ hle
        have : (1 / 2 : ℚ) * (1 / 2 ^ 160) ≤ (1 - e) * V0 := mul_le_mul (by linarith) h0 (by positivity) (by linarith)
        refine le_trans ?_ this
        norm_num
      have h2 : (1 / 2 ^ 81 : ℝ) ≤ Real.sqrt V := by
        apply Real.le_sqrt_of_sq_le
        have : ((1 / 2 ^ 162 : ℚ) : ℝ) ≤ V := by exact_mod_cast h1
        refine le_trans (le_of_eq ?_) this
        push_cast
        norm_num
      have h3 := (abs_le.mp r).1
      have h4 : (1 / 2 ^ 100 : ℝ) ≤ (root V : ℝ) := by
        generalize Real.sqrt (V : ℝ) = s at *
        norm_num at *
        linarith
      have : ((1 / 2 ^ 100 : ℚ) : ℝ) ≤ (root V : ℝ) := by push_cast; exact h4
      exact_mod_cast this

/-- Whole annual values. -/
theorem whole_err (root : ℚ → ℚ) (hroot : RootOk root) (zs : List ℤ) (hz : ∀ z ∈ zs, 0 ≤ z) (h1 : 1 ≤ zs.length)
    (hn : zs.length ≤ 2 ^ 53) (e : ℚ) (he0 : 1 / 2 ^ 48 ≤ e) (he : e ≤ 1 / 4) (hQ : (sqSum zs : ℚ) ≤ e * 2 ^ 48) (p : ℕ) :
    ∃ d : ℚ, pyFloat (sdTextF root (fun x => f64 (x ^ 2)) p (rats zs)) = .ok d ∧
      |(d : ℝ) - errPct (rats zs)| ≤ 1 / 2 / 10 ^ p + 2 * e * errPct (rats zs) := by
  have hQ53 : sqSum zs ≤ 2 ^ 53 := by
    have : (sqSum zs : ℚ) ≤ 2 ^ 53 := by norm_num at *; linarith
    exact_mod_cast this
  obtain ⟨w1, w2⟩ := whole_sums zs hQ53
  have rn := rad_near_any zs e h1 hn he hQ
  have hne : rats zs ≠ [] := by
    intro h; have := rats_length zs; rw [h] at this; simp at this; omega
  have hvar : variance (rats zs) / ((rats zs).length : ℚ) =
      ((sqSum zs : ℚ) / zs.length - ((zs.sum : ℚ) / zs.length) ^ 2) / zs.length := by
    rw [variance_eq _ hne, rats_sq, mean, rats_sum, rats_length]
  have hV0 : 0 ≤ variance (rats zs) / ((rats zs).length : ℚ) := div_nonneg (variance_nonneg _) (Nat.cast_nonneg _)
  have hstd : stdErr (rats zs) = Real.sqrt ((variance (rats zs) / ((rats zs).length : ℚ) : ℚ) : ℝ) := by
    unfold stdErr; push_cast; rfl
  have hrad : repRadF (fun x => f64 (x ^ 2)) (rats zs) = cvRadF zs.length zs.sum (sqSum zs) := by
    unfold repRadF cvRadF meanF
    rw [w1, w2, rats_length]
    simp only [Int.cast_natCast]
  have hm : mean (rats zs) = (zs.sum : ℚ) / zs.length := by rw [mean, rats_sum, rats_length]
  have hmF : meanF (rats zs) = f64 ((zs.sum : ℚ) / zs.length) := by rw [meanF, w1, rats_length]
  have hn0 : (0 : ℚ) < zs.length := by exact_mod_cast h1
  have hn53 : (zs.length : ℚ) ≤ 2 ^ 53 := by exact_mod_cast hn
  have hsum0 : 0 ≤ zs.sum := List.sum_nonneg hz
  have hsol : Solid (zs.sum : ℚ) := by
    rcases hsum0.eq_or_lt with h | h
    · left; exact_mod_cast h.symm
    · right
      have : (1 : ℚ) ≤ zs.sum := by exact_mod_cast h
      linarith
  have hnear : Near 1 (mean (rats zs)) (meanF (rats zs)) := by
    rw [hm, hmF]
    exact near_f64 (solid_div hsol hn0 (hn53.trans (by norm_num)))
  rw [← hvar, ← hrad] at rn
  have hint : variance (rats zs) / ((rats zs).length : ℚ) = 0 ∨ 1 / 2 ^ 160 ≤ variance (rats zs) / ((rats zs).length : ℚ) := by
    have e1 : variance (rats zs) / ((rats zs).length : ℚ) = ((zs.length * sqSum zs - zs.sum ^ 2 : ℤ) : ℚ) / (zs.length : ℚ) ^ 3 := by
      rw [hvar]; push_cast; field_simp
    rw [e1] at hV0 ⊢
    have h3 : (0 : ℚ) < (zs.length : ℚ) ^ 3 := by positivity
    have h4 : (0 : ℚ) ≤ ((zs.length * sqSum zs - zs.sum ^ 2 : ℤ) : ℚ) := by
      by_contra hc
      exact absurd hV0 (not_le.mpr (div_neg_of_neg_of_pos (not_le.1 hc) h3))
    generalize (zs.length * sqSum zs - zs.sum ^ 2 : ℤ) = k at *
    have h5 : 0 ≤ k := by exact_mod_cast h4
    rcases h5.eq_or_lt with h | h
    · left; rw [← h]; simp
    · right
      have h6 : (1 : ℚ) ≤ k := by exact_mod_cast h
      rw [le_div_iff₀ h3]
      have h7 : (zs.length : ℚ) ^ 3 ≤ (2 ^ 53) ^ 3 := pow_le_pow_left₀ hn0.le hn53 3
      refine le_trans (mul_le_mul_of_nonneg_left h7 (by positivity)) (le_trans ?_ h6)
      norm_num
  unfold sdTextF errPct
  rw [hstd]
  clear hstd hvar hrad
  generalize variance (rats zs) / ((rats zs).length : ℚ) = V0 at *
  generalize repRadF (fun x => f64 (x ^ 2)) (rats zs) = V at *
  have he00 : (0 : ℚ) ≤ e := le_trans (by norm_num) he0
  have hV : (1 - e) * V0 ≤ V := by have := (abs_le.mp rn).1; linarith
  have hVn : 0 ≤ V := le_trans (mul_nonneg (by linarith) hV0) hV
  by_cases hmp : 0 < mean (rats zs)
  · have hMp : 0 < meanF (rats zs) := lt_of_lt_of_le (mul_pos hmp (pow_pos (by norm_num) _)) hnear.1
    rw [if_pos hMp, if_neg (not_lt.mpr hVn), if_pos hmp]
    have hMb : meanF (rats zs) ≤ 2 ^ 200 := by
      have h2 := hnear.dist hmp.le (by norm_num)
      have h3 : mean (rats zs) ≤ 2 ^ 53 := by
        rw [hm, div_le_iff₀ hn0]
        have a : |zs.sum| ≤ sqSum zs := sum_le_sq zs
        have b : zs.sum ≤ 2 ^ 53 := (le_abs_self _).trans (a.trans hQ53)
        have c : (zs.sum : ℚ) ≤ 2 ^ 53 := by exact_mod_cast b
        have : (1 : ℚ) ≤ zs.length := by exact_mod_cast h1
        nlinarith
      rw [abs_le] at h2
      norm_num at *
      linarith
    obtain ⟨g1, g2⟩ := root_near root hroot hV0 hVn he00 he (by linarith) rn hint
    generalize mean (rats zs) = M0 at *
    generalize meanF (rats zs) = M at *
    have pn := pct_near hnear hmp hMp g2 hMb
    generalize root V = R at *
    obtain ⟨d, d1, d2⟩ := C116_read_back (fixedText_shown p (f64 (f64 (R / M) * 100)))
    refine ⟨d, d1, ?_⟩
    have pn' : |((f64 (f64 (R / M) * 100) : ℚ) : ℝ) - (R : ℝ) / M0 * 100| ≤ (R : ℝ) / M0 * 100 * (3 * (1 / 2 ^ 52)) := by
      have : ((|f64 (f64 (R / M) * 100) - R / M0 * 100| : ℚ) : ℝ) ≤ ((R / M0 * 100 * (3 / 2 ^ 52) : ℚ) : ℝ) := by exact_mod_cast pn
      push_cast at this
      refine this.trans (le_of_eq ?_)
      ring
    have d2' : |((d : ℚ) : ℝ) - ((f64 (f64 (R / M) * 100) : ℚ) : ℝ)| ≤ 1 / 2 / 10 ^ p := by
      have : ((|d - f64 (f64 (R / M) * 100)| : ℚ) : ℝ) ≤ ((1 / 2 / 10 ^ p : ℚ) : ℝ) := by exact_mod_cast d2
      push_cast at this
      exact this
    have hM0r : (0 : ℝ) < M0 := by exact_mod_cast hmp
    have hσ := Real.sqrt_nonneg (V0 : ℝ)
    generalize Real.sqrt (V0 : ℝ) = σ at *
    have hX : |(R : ℝ) / M0 * 100 - σ / M0 * 100| ≤ ((e : ℝ) + (1 + e) * (1 / 2 ^ 52)) * (σ / M0 * 100) := by
      have a : (R : ℝ) / M0 * 100 - σ / M0 * 100 = (R - σ) * (100 / M0) := by ring
      have b : ((e : ℝ) + (1 + e) * (1 / 2 ^ 52)) * (σ / M0 * 100) = ((e : ℝ) + (1 + e) * (1 / 2 ^ 52)) * σ * (100 / M0) := by ring
      rw [a, b, abs_mul, abs_of_pos (show 0 < 100 / (M0 : ℝ) by positivity)]
      exact mul_le_mul_of_nonneg_right g1 (by positivity)
    have he' : (1 / 2 ^ 48 : ℝ) ≤ e := by
      have : ((1 / 2 ^ 48 : ℚ) : ℝ) ≤ e := by exact_mod_cast he0
      push_cast at this
      exact this
    have he4 : (e : ℝ) ≤ 1 / 4 := by
      have : (e : ℝ) ≤ ((1 / 4 : ℚ) : ℝ) := by exact_mod_cast he
      push_cast at this
      exact this
    have c := combine (T := σ / M0 * 100) (by positivity) (by exact_mod_cast he00) he4 (by norm_num at *; linarith) (by positivity) hX pn'
    exact (abs_sub_le _ _ _).trans (add_le_add d2' c)
  · have e0 : mean (rats zs) = 0 := le_antisymm (not_lt.1 hmp) (by rw [hm]; exact div_nonneg hsol.nonneg hn0.le)
    have hMp : ¬ meanF (rats zs) > 0 := by
      have := hnear.2
      rw [e0, pow_one] at this
      intro hc
      exact absurd this (not_le.mpr (mul_pos hc (by norm_num)))
    rw [if_neg hMp, if_neg hmp]
    obtain ⟨d, d1, d2⟩ := C116_read_back (fixedText_shown p (0 : ℚ))
    refine ⟨d, d1, ?_⟩
    have : ((|d - 0| : ℚ) : ℝ) ≤ ((1 / 2 / 10 ^ p : ℚ) : ℝ) := by exact_mod_cast d2
    push_cast at this
    rw [mul_zero, add_zero]
    exact this

theorem single_values {v : Fin 5 → ℕ → ℕ} {Y : ℕ} {xs : List ℚ} (hv : ∀ y < Y, v 0 y ≤ 2 ^ 53) (h : Computed 1 v Y xs) :
    xs = rats ((List.range Y).map fun y => (v 0 y : ℤ)) ∧ exactly 1 v Y = xs := by
  have hl : xs.length = Y := by rw [← h.length_eq, List.length_range]
  have e1 : exactly 1 v Y = rats ((List.range Y).map fun y => (v 0 y : ℤ)) := by
    unfold exactly rats
    rw [List.map_map]
    refine List.map_congr_left fun y _ => ?_
    show (1 : ℚ) * (v 0 y : ℚ) + 0 = _
    simp
  have e2 : xs = rats ((List.range Y).map fun y => (v 0 y : ℤ)) := by
    refine List.ext_getElem (by simp [rats, hl]) fun i h1 h2 => ?_
    have := (List.forall₂_iff_get.mp h).2 i (by simpa using by omega) h1
    have := dotF_single this (by
      show List.countP _ [_] ≤ 1
      exact List.countP_le_length)
    simp only [List.get_eq_getElem, List.getElem_range] at this
    have w : XPROBF 1 0 = 1 := by decide +kernel
    have d : dot (tierPairs 1 fun t => v t i) = ((v 0 i : ℤ) : ℚ) := by
      show (v 0 i : ℚ) * XPROBF 1 0 + 0 = _
      rw [w]; simp
    have hi : v 0 i ≤ 2 ^ 53 := hv i (by omega)
    rw [this, d, f64_of_isF64 (isF64_int (by rw [abs_of_nonneg (by positivity)]; exact_mod_cast hi))]
    simp [rats]
  exact ⟨e2, e1.trans e2.symm⟩

/-- C119 (partial): without load forecast uncertainty the printed standard error is a number and right: if the squares of
the annual counts add up to at most `e * 2^48`, it is off by at most half a unit of the last printed digit and a fraction
`2 * e`. Missing: several forecast tiers, where it fails (`C119_nan_refuted`). -/
theorem C119_whole_partial (root : ℚ → ℚ) (hroot : RootOk root) {v : Fin 5 → ℕ → ℕ} {Y : ℕ} (h1 : 1 ≤ Y) (hY : Y ≤ 2 ^ 53) {xs : List ℚ}
    (h : Computed 1 v Y xs) (e : ℚ) (he0 : 1 / 2 ^ 48 ≤ e) (he : e ≤ 1 / 4)
    (hQ : ((exactly 1 v Y).map fun x => x ^ 2).sum ≤ e * 2 ^ 48) (p : ℕ) :
    ∃ d : ℚ, pyFloat (sdTextF root (fun x => f64 (x ^ 2)) p xs) = .ok d ∧
      |(d : ℝ) - errPct (exactly 1 v Y)| ≤ 1 / 2 / 10 ^ p + 2 * e * errPct (exactly 1 v Y) := by
  have hv : ∀ y < Y, v 0 y ≤ 2 ^ 53 := by
    intro y hy
    have a : ((v 0 y : ℚ)) ^ 2 ≤ ((exactly 1 v Y).map fun x => x ^ 2).sum := by
      refine List.single_le_sum ?_ _ ?_
      · intro z hz
        obtain ⟨x, _, rfl⟩ := List.mem_map.mp hz
        exact sq_nonneg x
      · refine List.mem_map.mpr ⟨(v 0 y : ℚ), List.mem_map.mpr ⟨y, List.mem_range.mpr hy, ?_⟩, rfl⟩
        show (1 : ℚ) * (v 0 y : ℚ) + 0 = _
        simp
    have b : ((v 0 y : ℚ)) ^ 2 ≤ 2 ^ 53 := by norm_num at *; linarith
    have c : (v 0 y) ^ 2 ≤ 2 ^ 53 := by exact_mod_cast b
    exact (Nat.le_self_pow (by norm_num) _).trans c
  obtain ⟨e1, e2⟩ := single_values hv h
  rw [e2, e1] at hQ ⊢
  rw [rats_sq] at hQ
  refine whole_err root hroot _ ?_ (by simpa using h1) (by simpa using hY) e he0 he hQ p
  intro z hz
  obtain ⟨y, _, rfl⟩ := List.mem_map.mp hz
  positivity

/-- the hypotheses of `C119_whole_partial`: ten years with 3 or 4 hours each -/
example : ((exactly 1 (fun _ y => 3 + y % 2) 10).map fun x => x ^ 2).sum ≤ (1 / 2 ^ 40 : ℚ) * 2 ^ 48 ∧ (1 / 2 ^ 48 : ℚ) ≤ 1 / 2 ^ 40 := by
  decide +kernel

end Narp.Props
