import Verif.Model.Variants
import Verif.Props.Lu
import Verif.Props.Sampling

/-!
# The implementations that the program does not call (C46, C94)
-/

namespace Narp.Props
open Narp Narp.Spec BigOperators

/-! ### `_dgedi` -/

theorem invUCols {n : ℕ} (K : Fin n) (l : List (Fin n)) (hl : l.Nodup) (A : SqM n) (i j : Fin n) :
    l.foldl (invUCol K) A i j = if j ∈ l ∧ K < j then
      (if i < K then A i j + A K j * A i K else if i = K then A K j * A K K else A i j) else A i j := by
  induction l generalizing A with
  | nil => simp
  | cons x xs ih =>
    simp only [List.foldl_cons]
    rw [List.nodup_cons] at hl
    rw [ih hl.2]
    by_cases hx : K < x
    · have e : ∀ a b, invUCol K A x a b = if b = x then
          (if a < K then A a x + A K x * A a K else if a = K then A K x * A K K else A a x) else A a b := by
        intro a b
        simp only [invUCol, hx, if_true]
        by_cases hb : b = x
        · subst hb
          have hK : K ≠ b := hx.ne
          rcases lt_trichotomy a K with ha | ha | ha
          · simp [ha, ha.le, ha.ne, hK]
          · subst ha; simp [hK]
          · simp [not_le.2 ha, not_lt.2 ha.le, ha.ne']
        · simp [hb]
      simp only [e]
      by_cases hj : j = x
      · subst hj
        simp [hl.1, hx]
      · by_cases hjm : j ∈ xs ∧ K < j
        · simp [hj, hjm, hx.ne]
        · rw [if_neg hjm, if_neg hj, if_neg]
          rintro ⟨h1, h2⟩
          rcases List.mem_cons.1 h1 with h1 | h1
          · exact hj h1
          · exact hjm ⟨h1, h2⟩
    · have : invUCol K A x = A := by funext a b; exact if_neg hx
      rw [this]
      by_cases hj : j = x
      · subst hj; simp [hx]
      · simp [hj]

theorem invUStep_eq {n : ℕ} (A : SqM n) (K : Fin n) : invUStep' A K = invUStep A K := by
  ext i j
  refine (invUCols K _ (List.nodup_finRange n) _ i j).trans ?_
  simp only [invUStep]
  by_cases hj : K < j
  · rcases lt_trichotomy i K with hi | hi | hi
    · simp [hj, hi, hi.le, hi.ne, hj.ne']; ring
    · subst hi; simp [hj, hj.ne']; ring
    · simp [hj, not_le.2 hi, not_lt.2 hi.le, hi.ne']
  · simp [hj]

theorem mulLCols {n : ℕ} (W : Fin n → ℚ) (K : Fin n) (l : List (Fin n)) (A : SqM n) (i j : Fin n) :
    l.foldl (mulLCol W K) A i j =
      if j = K then A i K + (l.map fun k => if K < k then A i k * W k else 0).sum else A i j := by
  induction l generalizing A with
  | nil =>
    by_cases hj : j = K
    · subst hj; simp
    · simp [hj]
  | cons x xs ih =>
    simp only [List.foldl_cons]
    rw [ih]
    by_cases hx : K < x
    · have e : ∀ a b, mulLCol W K A x a b = if b = K then A a K + W x * A a x else A a b := by
        intro a b; simp [mulLCol, hx]
      simp only [e]
      by_cases hj : j = K
      · subst hj
        simp only [if_true, List.map_cons, List.sum_cons, hx]
        have : (fun k => if j < k then (if k = j then A i j + W x * A i x else A i k) * W k else 0) =
            fun k => if j < k then A i k * W k else 0 := by
          funext k
          by_cases hk : j < k
          · simp [hk, hk.ne']
          · simp [hk]
        rw [this]; ring
      · simp [hj]
    · have : mulLCol W K A x = A := by funext a b; simp [mulLCol, hx]
      rw [this]
      by_cases hj : j = K
      · subst hj; simp [hx]
      · simp [hj]

theorem mulLStep_eq {n : ℕ} (IPVT : Fin n → Fin n) (A : SqM n) (K : Fin n) : mulLStep' IPVT A K = mulLStep IPVT A K := by
  have e : ∀ i j, (List.finRange n).foldl (mulLCol (fun i => A i K) K)
      ((fun i j => if j = K ∧ K < i then 0 else A i j) : SqM n) i j =
      if j = K then (if K < i then 0 else A i K) +
        ((List.finRange n).map fun k => if K < k then (if k = K ∧ K < i then 0 else A i k) * A k K else 0).sum
      else (if j = K ∧ K < i then 0 else A i j) := by
    intro i j
    refine (mulLCols _ K _ _ i j).trans ?_
    by_cases hj : j = K
    · simp [hj]
    · simp [hj]
  ext i j
  simp only [mulLStep', mulLStep, e]
  by_cases hL : IPVT K = K
  · simp [hL]
  · simp only [ne_eq, hL, not_false_eq_true, if_true]
    by_cases h1 : j = IPVT K
    · subst h1; simp
    · by_cases h2 : j = K
      · subst h2; simp [hL, Ne.symm hL]
      · simp [h1, h2, Equiv.swap_apply_of_ne_of_ne h2 h1]

/-- **C46, versions.** The column-by-column inversion (called for the inverse only, `JOB = 2`) gives exactly the same
result as the vectorised one. -/
theorem C46_inverse_versions {n : ℕ} (A : SqM (n + 1)) (IPVT : Fin (n + 1) → Fin (n + 1)) :
    dgedi' A IPVT 2 = .ok (dgedi A IPVT) := by
  have h1 : invU' A = invU A := by
    unfold invU' invU
    simp only [invUStep_eq]
  unfold dgedi' dgedi
  rw [h1]
  simp only [mulLStep_eq]
  rfl

/-- With `JOB = 1` or `3` it computes no determinant: it raises unless the second diagonal entry is 0. -/
theorem C46_determinant_refuted {n : ℕ} (A : SqM (n + 1)) (IPVT : Fin (n + 1) → Fin (n + 1)) (JOB : ℤ)
    (hJ : JOB = 1 ∨ JOB = 3) (hA : ∀ h : 1 < n + 1, A ⟨1, h⟩ ⟨1, h⟩ ≠ 0) :
    ∃ e, dgedi' A IPVT JOB = .error e := by
  unfold dgedi'
  rw [if_pos hJ]
  unfold dgediDet
  by_cases h : 1 < n + 1
  · rw [dif_pos h, if_neg (hA h)]; exact ⟨_, rfl⟩
  · rw [dif_neg h]; exact ⟨_, rfl⟩

/-- ... and if that entry is 0 it does not raise: with `JOB = 3` the matrix comes back as it is, with `JOB = 1` the
inversion is attempted. -/
theorem C46_determinant_zero {n : ℕ} (A : SqM (n + 1)) (IPVT : Fin (n + 1) → Fin (n + 1)) (h : 1 < n + 1)
    (hA : A ⟨1, h⟩ ⟨1, h⟩ = 0) : dgedi' A IPVT 3 = .ok (some A) ∧ dgedi' A IPVT 1 = dgedi' A IPVT 2 := by
  unfold dgedi' dgediDet
  rw [dif_pos h, if_pos hA]
  exact ⟨rfl, rfl⟩

example : dgedi' (dgefa luEx).A (dgefa luEx).IPVT 2 = .ok (luInverse luEx) := C46_inverse_versions _ _

/-! ### The other line samplers -/

theorem probDiff_sum (p : Fin 6 → ℚ) : ∑ k, probDiff p k = p 5 := by
  unfold probDiff
  simp [Fin.sum_univ_succ]

theorem probDiff_cum (p : Fin 6 → ℚ) (k : Fin 6) : ∑ j ∈ Finset.univ.filter (· ≤ k), probDiff p j = p k := by
  rw [Finset.sum_filter]
  fin_cases k <;> simp [Fin.sum_univ_succ, probDiff]

theorem choiceCdf_eq (p : Fin 6 → ℚ) (h5 : p 5 = 1) : choiceCdf (probDiff p) = p := by
  funext k
  unfold choiceCdf
  rw [probDiff_cum, probDiff_sum, h5, div_one]

theorem lineStateVec_eq (p : Fin 6 → ℚ) {u : ℚ} (hne : ∀ k, u ≠ p k) (h5 : u < p 5) :
    lineStateVec p u = lineState p u := (C15_variants p u).1 hne h5

/-- **C94.** For cumulative probabilities that do not decrease and end at 1, and any non-empty list of numbers below 1 of
which none equals a threshold, both functions return the states that the program's own sampler gives for these
numbers. -/
theorem C94_samplers_agree (p : Fin 6 → ℚ) (h0 : 0 ≤ p 0) (hmono : ∀ i j, i ≤ j → p i ≤ p j) (h5 : p 5 = 1)
    (u : List ℚ) (hu : u ≠ []) (hlt : ∀ x ∈ u, x < 1) (hne : ∀ x ∈ u, ∀ k, x ≠ p k) :
    lstateOriginal p u = .ok (u.map (lineState p)) ∧ discreteProbGen p u = .ok (u.map (lineState p)) := by
  have hlen : u.length ≠ 0 := fun h => hu (List.length_eq_zero_iff.1 h)
  have hc : isClose1 (∑ k, probDiff p k) = true := by
    rw [probDiff_sum, h5]; decide +kernel
  have hneg : ¬∃ k, probDiff p k < 0 := by
    rintro ⟨k, hk⟩
    have m01 := hmono 0 1 (by decide)
    have m12 := hmono 1 2 (by decide)
    have m23 := hmono 2 3 (by decide)
    have m34 := hmono 3 4 (by decide)
    have m45 := hmono 4 5 (by decide)
    fin_cases k <;> simp [probDiff] at hk <;> linarith
  constructor
  · unfold lstateOriginal
    rw [if_neg hlen, if_pos hc]
  · unfold discreteProbGen
    rw [if_neg hlen, if_neg (by rw [hc]; decide), if_neg hneg, choiceCdf_eq p h5]
    congr 1
    refine List.map_congr_left fun x hx => lineStateVec_eq p (hne x hx) ?_
    rw [h5]; exact hlt x hx

/-- **C94 (faulty tables).** A table whose last entry is not close to 1, or an empty list of lines, is rejected by both;
negative probabilities by the second. -/
theorem C94_rejected (p : Fin 6 → ℚ) (u : List ℚ) :
    (u = [] ∨ 1 / 1000000000 * max |p 5| 1 < |p 5 - 1| →
      lstateOriginal p u = .error .valueError ∧ discreteProbGen p u = .error .valueError) ∧
    ((∃ k : Fin 5, p k.succ < p k.castSucc) → discreteProbGen p u = .error .valueError) := by
  constructor
  · rintro (rfl | h)
    · exact ⟨rfl, rfl⟩
    · have hc : isClose1 (∑ k, probDiff p k) = false := by
        rw [probDiff_sum]; exact decide_eq_false (not_le.2 h)
      unfold lstateOriginal discreteProbGen
      rw [hc]
      by_cases hl : u.length = 0
      · rw [if_pos hl, if_pos hl]; exact ⟨rfl, rfl⟩
      · rw [if_neg hl, if_neg hl]; exact ⟨rfl, rfl⟩
  · rintro ⟨k, hk⟩
    unfold discreteProbGen
    by_cases hl : u.length = 0
    · rw [if_pos hl]
    by_cases hc : isClose1 (∑ k, probDiff p k) = false
    · rw [if_neg hl, if_pos hc]
    rw [if_neg hl, if_neg hc, if_pos]
    refine ⟨k.succ, ?_⟩
    fin_cases k <;> simp [probDiff] at hk ⊢ <;> exact hk

/-- **C94 (refuted in general).** When the table ends a little below 1, which is accepted, the second function rescales it:
the two functions draw different states for the same number. -/
theorem C94_rescaled_refuted : ∃ (p : Fin 6 → ℚ) (x : ℚ) (s t : List ℤ), 0 ≤ x ∧ x < 1 ∧ (∀ k, x ≠ p k) ∧
    lstateOriginal p [x] = .ok s ∧ discreteProbGen p [x] = .ok t ∧ s ≠ t := by
  refine ⟨![99999999989 / 199999999980 , 1 - 1/10000000000, 1 - 1/10000000000, 1 - 1/10000000000, 1 - 1/10000000000,
    1 - 1/10000000000], 1/2 + 1/1000000000000, [2], [1], by norm_num, by norm_num, by decide +kernel, ?_, ?_, by decide⟩
  · decide +kernel
  · decide +kernel

example : lstateOriginal ![1/2, 3/4, 7/8, 15/16, 31/32, 1] [1/10, 6/10, 98/100] = .ok [1, 2, 6] ∧
    discreteProbGen ![1/2, 3/4, 7/8, 15/16, 31/32, 1] [1/10, 6/10, 98/100] = .ok [1, 2, 6] := by
  have h := C94_samplers_agree ![1/2, 3/4, 7/8, 15/16, 31/32, 1] (by decide +kernel) (by decide +kernel) rfl
    [1/10, 6/10, 98/100] (by decide) (by decide +kernel) (by decide +kernel)
  have e : [1/10, 6/10, 98/100].map (lineState ![1/2, 3/4, 7/8, 15/16, 31/32, 1]) = [1, 2, 6] := by decide +kernel
  rw [e] at h
  exact h

end Narp.Props
