import Verif.Model.Lu
import Mathlib.LinearAlgebra.Matrix.Block
import Mathlib.LinearAlgebra.Matrix.NonsingularInverse

/-!
# Factorisation and inversion are exact (C46)
-/

namespace Narp.Props
open Narp Matrix

/-! ### Elementary matrices (used in the proofs only) -/

/-- Identity plus the multipliers `m` below the diagonal of column `K`. -/
def elimM {n : ℕ} (K : Fin n) (m : Fin n → ℚ) : SqM n :=
  fun i k => (if i = k then 1 else 0) + (if k = K ∧ K < i then m i else 0)

/-- The matrix exchanging rows (or columns) `L` and `K`. -/
def swapM {n : ℕ} (L K : Fin n) : SqM n := fun i k => if Equiv.swap L K i = k then 1 else 0

theorem elimM_mul {n : ℕ} (K : Fin n) (m : Fin n → ℚ) (X : SqM n) (i j : Fin n) :
    (elimM K m * X) i j = X i j + if K < i then m i * X K j else 0 := by
  simp only [Matrix.mul_apply, elimM, add_mul, Finset.sum_add_distrib]
  congr 1
  · simp
  · by_cases h : K < i <;> simp [h]

theorem mul_elimM {n : ℕ} (K : Fin n) (m : Fin n → ℚ) (X : SqM n) (i j : Fin n) :
    (X * elimM K m) i j = X i j + if j = K then ∑ k, (if K < k then X i k * m k else 0) else 0 := by
  simp only [Matrix.mul_apply, elimM, mul_add, Finset.sum_add_distrib]
  congr 1
  · simp
  · by_cases h : j = K <;> simp [h, mul_ite]

theorem swapM_mul {n : ℕ} (L K : Fin n) (X : SqM n) (i j : Fin n) :
    (swapM L K * X) i j = X (Equiv.swap L K i) j := by
  simp [Matrix.mul_apply, swapM]

theorem mul_swapM {n : ℕ} (L K : Fin n) (X : SqM n) (i j : Fin n) :
    (X * swapM L K) i j = X i (Equiv.swap L K j) := by
  simp only [Matrix.mul_apply, swapM]
  rw [Finset.sum_eq_single (Equiv.swap L K j)]
  · simp
  · intro b _ hb
    have : Equiv.swap L K b ≠ j := by
      rintro rfl; simp at hb
    simp [this]
  · simp

theorem elimM_unit {n : ℕ} (K : Fin n) (m : Fin n → ℚ) : IsUnit (elimM K m).det := by
  have h : elimM K m * elimM K (fun i => -m i) = 1 := by
    ext i j
    rw [elimM_mul]
    simp only [elimM, Matrix.one_apply]
    by_cases h1 : K < i
    · by_cases h2 : j = K
      · simp [h1, h2]
      · simp [h1, h2, Ne.symm h2]
    · simp [h1]
  exact (Matrix.isUnit_iff_isUnit_det _).1 ⟨⟨_, _, h, mul_eq_one_comm.1 h⟩, rfl⟩

theorem swapM_unit {n : ℕ} (L K : Fin n) : IsUnit (swapM L K).det := by
  have h : swapM L K * swapM L K = 1 := by
    ext i j
    rw [swapM_mul]
    simp [swapM, Matrix.one_apply]
  exact (Matrix.isUnit_iff_isUnit_det _).1 ⟨⟨_, _, h, h⟩, rfl⟩

/-- The operation that pass `K` of the factorisation applies, read off its results. -/
def luOp {n : ℕ} (A : SqM n) (IPVT : Fin n → Fin n) (K : Fin n) : SqM n :=
  elimM K (fun i => A i K) * swapM (IPVT K) K

theorem luOp_unit {n : ℕ} (A : SqM n) (IPVT : Fin n → Fin n) (K : Fin n) : IsUnit (luOp A IPVT K).det := by
  rw [luOp, Matrix.det_mul]
  exact (elimM_unit _ _).mul (swapM_unit _ _)

/-- The array without the multipliers stored in its first `k` columns. -/
def stripLow {n : ℕ} (k : ℕ) (A : SqM n) : SqM n := fun i j => if j.val < k ∧ j < i then 0 else A i j

/-! ### The pivot row -/

theorem pivot_aux {n : ℕ} (A : SqM n) (K : Fin n) (l : List (Fin n)) (b : Fin n) (hb : K ≤ b) :
    let r := l.foldl (fun best i => if K < i ∧ |A best K| < |A i K| then i else best) b
    K ≤ r ∧ |A b K| ≤ |A r K| ∧ (r = b ∨ |A b K| < |A r K|) ∧ ∀ i ∈ l, K < i → |A i K| ≤ |A r K| := by
  induction l generalizing b with
  | nil => simp [hb]
  | cons x xs ih =>
    simp only [List.foldl_cons]
    by_cases h : K < x ∧ |A b K| < |A x K|
    · rw [if_pos h]
      obtain ⟨h1, h2, h3, h4⟩ := ih x h.1.le
      refine ⟨h1, h.2.le.trans h2, Or.inr (h.2.trans_le h2), ?_⟩
      intro i hi hK
      rcases List.mem_cons.1 hi with rfl | hi
      · exact h2
      · exact h4 i hi hK
    · rw [if_neg h]
      obtain ⟨h1, h2, h3, h4⟩ := ih b hb
      refine ⟨h1, h2, h3, ?_⟩
      intro i hi hK
      rcases List.mem_cons.1 hi with rfl | hi
      · exact (not_lt.1 fun hh => h ⟨hK, hh⟩).trans h2
      · exact h4 i hi hK

theorem pivot_ge {n : ℕ} (A : SqM n) (K : Fin n) : K ≤ pivotRow A K :=
  (pivot_aux A K _ K le_rfl).1

theorem pivot_max {n : ℕ} (A : SqM n) (K i : Fin n) (h : K ≤ i) : |A i K| ≤ |A (pivotRow A K) K| := by
  obtain ⟨_, h2, _, h4⟩ := pivot_aux A K (List.finRange n) K le_rfl
  rcases h.lt_or_eq with h | rfl
  · exact h4 i (List.mem_finRange i) h
  · exact h2

theorem pivot_zero {n : ℕ} (A : SqM n) (K : Fin n) (h : A (pivotRow A K) K = 0) : pivotRow A K = K := by
  obtain ⟨_, _, h3, _⟩ := pivot_aux A K (List.finRange n) K le_rfl
  rcases h3 with h3 | h3
  · exact h3
  · exfalso
    have h3 : |A K K| < |A (pivotRow A K) K| := h3
    rw [h, abs_zero] at h3
    exact absurd h3 (not_lt.2 (abs_nonneg _))

/-! ### The factorisation -/

theorem luOp_mul {n : ℕ} (A : SqM n) (IPVT : Fin n → Fin n) (K : Fin n) (X : SqM n) (i j : Fin n) :
    (luOp A IPVT K * X) i j = X (Equiv.swap (IPVT K) K i) j +
      if K < i then A i K * X (Equiv.swap (IPVT K) K K) j else 0 := by
  rw [luOp, Matrix.mul_assoc, elimM_mul, swapM_mul, swapM_mul]

theorem swap_low {n : ℕ} {L K i : Fin n} (hL : K ≤ L) (h : i < K) : Equiv.swap L K i = i :=
  Equiv.swap_apply_of_ne_of_ne (h.trans_le hL).ne h.ne

theorem swap_high {n : ℕ} {L K i : Fin n} (hL : K ≤ L) (h : K ≤ i) : K ≤ Equiv.swap L K i := by
  by_contra hc
  have := swap_low hL (not_le.1 hc)
  rw [Equiv.swap_apply_self] at this
  rw [this] at h
  exact hc h

/-- One pass multiplies the stripped array by the operation stored. -/
theorem dgefaStep_mul {n : ℕ} (s : LuSt n) (K : Fin n) :
    luOp (dgefaStep s K).A (dgefaStep s K).IPVT K * stripLow K s.A = stripLow (K + 1) (dgefaStep s K).A := by
  have hge := pivot_ge s.A K
  ext i j
  rw [luOp_mul]
  unfold dgefaStep
  extract_lets L IPVT A1
  have hL : L = pivotRow s.A K := rfl
  rw [← hL] at hge
  by_cases h0 : s.A L K ≠ 0
  · rw [if_pos h0]
    have hA1 : A1 = swapRowsFrom s.A L K := by
      by_cases hLK : L ≠ K
      · exact if_pos hLK
      · rw [not_not] at hLK
        rw [show A1 = s.A from if_neg (by simp [hLK])]
        ext a b; simp [swapRowsFrom, hLK]
    have hI : IPVT K = L := by simp [IPVT]
    have hKK : A1 K K = s.A L K := by rw [hA1]; simp [swapRowsFrom]
    rw [← hKK] at h0
    dsimp only
    rw [hI]
    have e : ∀ a, K ≤ j → s.A (Equiv.swap L K a) j = A1 a j := by
      intro a hj; rw [hA1]; simp [swapRowsFrom, hj]
    rcases lt_trichotomy j K with hj | hj | hj
    · have hj' : j.val < K.val := hj
      have hne : j ≠ K := hj.ne
      simp only [stripLow, rankOne, scaleCol, hj', hj'.trans (Nat.lt_succ_self _), true_and,
        not_lt.2 hj.le, and_false, if_false, hne, false_and]
      have eA : A1 i j = s.A i j := by rw [hA1]; simp [swapRowsFrom, not_le.2 hj]
      rw [eA]
      have hsK : j < Equiv.swap L K K := hj.trans_le (swap_high hge le_rfl)
      simp only [hsK, if_true, mul_zero, ite_self, add_zero]
      by_cases hi : i < K
      · rw [swap_low hge hi]
      · rw [if_pos (hj.trans_le (swap_high hge (not_lt.1 hi))), if_pos (hj.trans_le (not_lt.1 hi))]
    · subst hj
      simp only [stripLow, lt_irrefl, false_and, if_false, Nat.lt_succ_self, true_and]
      rw [e i le_rfl, e _ le_rfl]
      by_cases hi : j < i
      · have hjj : ¬ j < j := lt_irrefl _
        simp only [hi, if_true, rankOne, scaleCol, and_false, if_false, true_and,
          lt_irrefl]
        field_simp
        ring
      · simp [hi, rankOne, scaleCol]
    · have hj' : ¬ j.val < K.val := not_lt.2 (le_of_lt hj)
      have hj2 : ¬ j.val < K.val + 1 := by
        have : K.val < j.val := hj
        omega
      simp only [stripLow, hj', hj2, false_and, if_false]
      rw [e i hj.le, e _ hj.le]
      have hne : j ≠ K := hj.ne'
      by_cases hi : K < i
      · simp [hi, hj, rankOne, scaleCol, hne]
      · simp [hi, rankOne, scaleCol, hne]
  · rw [if_neg h0]
    rw [not_not] at h0
    have hLK : L = K := pivot_zero s.A K h0
    have hI : IPVT K = K := by simp [IPVT, hLK]
    dsimp only
    rw [hI, Equiv.swap_self]
    have hz : ∀ a, K ≤ a → s.A a K = 0 := by
      intro a ha
      have := pivot_max s.A K a ha
      rw [show s.A (pivotRow s.A K) K = 0 from h0, abs_zero] at this
      exact abs_nonpos_iff.1 this
    simp only [Equiv.refl_apply]
    have : (if K < i then s.A i K * stripLow K.val s.A K j else 0) = 0 := by
      by_cases hi : K < i
      · rw [if_pos hi, hz i hi.le, zero_mul]
      · rw [if_neg hi]
    rw [this, add_zero]
    simp only [stripLow]
    rcases lt_trichotomy j K with hj | hj | hj
    · have hj' : j.val < K.val := hj
      simp [hj', hj'.trans (Nat.lt_succ_self _)]
    · subst hj
      by_cases hi : j < i
      · simp [hi, hz i hi.le]
      · simp [hi]
    · have hj' : K.val < j.val := hj
      have h1 : ¬ j.val < K.val := by omega
      have h2 : ¬ j.val < K.val + 1 := by omega
      simp [h1, h2]

/-- Columns before `K` are not touched by pass `K`. -/
theorem dgefaStep_low {n : ℕ} (s : LuSt n) (K : Fin n) (i j : Fin n) (h : j < K) :
    (dgefaStep s K).A i j = s.A i j := by
  unfold dgefaStep
  extract_lets L IPVT A1
  split
  · have : A1 i j = s.A i j := by
      simp only [A1]
      split
      · simp [swapRowsFrom, not_le.2 h]
      · rfl
    simp [rankOne, scaleCol, not_lt.2 h.le, h.ne, this]
  · rfl

theorem dgefaStep_ipvt {n : ℕ} (s : LuSt n) (K : Fin n) :
    (dgefaStep s K).IPVT = Function.update s.IPVT K (pivotRow s.A K) := by
  unfold dgefaStep
  extract_lets L IPVT A1
  split <;> rfl

/-- The product of the operations of the passes in the list, the last one leftmost. -/
def luProd {n : ℕ} (A : SqM n) (IPVT : Fin n → Fin n) (l : List (Fin n)) : SqM n :=
  l.foldl (fun P K => luOp A IPVT K * P) 1

theorem luProd_congr {n : ℕ} {A A' : SqM n} {I I' : Fin n → Fin n} {l : List (Fin n)}
    (h : ∀ K ∈ l, luOp A I K = luOp A' I' K) : luProd A I l = luProd A' I' l := by
  unfold luProd
  generalize (1 : SqM n) = P
  induction l generalizing P with
  | nil => rfl
  | cons x xs ih =>
    simp only [List.foldl_cons]
    rw [h x (by simp)]
    exact ih (fun K hK => h K (by simp [hK])) _

theorem luOp_congr {n : ℕ} {A A' : SqM n} {I I' : Fin n → Fin n} {K : Fin n} (h1 : ∀ i, A i K = A' i K)
    (h2 : I K = I' K) : luOp A I K = luOp A' I' K := by
  unfold luOp
  rw [h2, show (fun i => A i K) = fun i => A' i K from funext h1]

/-- State after the first `k` passes. -/
def LuInv {n : ℕ} (A0 : SqM n) (k : ℕ) (s : LuSt n) : Prop :=
  luProd s.A s.IPVT ((List.finRange n).take k) * A0 = stripLow k s.A ∧ ∀ K : Fin n, K.val < k → K ≤ s.IPVT K

theorem lu_mem_take {n k : ℕ} {K : Fin n} (h : K ∈ (List.finRange n).take k) : K.val < k := by
  rw [List.mem_take_iff_getElem] at h
  obtain ⟨i, hi, rfl⟩ := h
  simp only [List.getElem_finRange, Fin.cast_mk]
  omega

theorem dgefaStep_inv {n : ℕ} (A0 : SqM n) (s : LuSt n) (K : Fin n) (h : LuInv A0 K s) :
    LuInv A0 (K + 1) (dgefaStep s K) := by
  constructor
  · have ht : (List.finRange n).take (K.val + 1) = (List.finRange n).take K.val ++ [K] := by
      rw [List.take_add_one]
      congr 1
      simp
    rw [ht]
    unfold luProd
    rw [List.foldl_append]
    simp only [List.foldl_cons, List.foldl_nil]
    have := luProd_congr (A := (dgefaStep s K).A) (I := (dgefaStep s K).IPVT) (A' := s.A) (I' := s.IPVT)
      (l := (List.finRange n).take K.val) (fun K' hK' => by
        have hlt : K' < K := lu_mem_take hK'
        apply luOp_congr
        · intro i; exact dgefaStep_low s K i K' hlt
        · rw [dgefaStep_ipvt, Function.update_of_ne hlt.ne])
    unfold luProd at this
    rw [this, Matrix.mul_assoc]
    have h1 := h.1
    unfold luProd at h1
    rw [h1]
    exact dgefaStep_mul s K
  · intro K' hK'
    rw [dgefaStep_ipvt]
    by_cases e : K' = K
    · subst e; simp [pivot_ge]
    · rw [Function.update_of_ne e]
      refine h.2 K' ?_
      have : K'.val ≠ K.val := fun hh => e (Fin.ext hh)
      omega

theorem dgefa_loop {n : ℕ} (A0 : SqM (n + 1)) (k : ℕ) (hk : k ≤ n) :
    LuInv A0 k (((List.finRange n).take k).foldl (fun s K => dgefaStep s K.castSucc) ⟨A0, fun _ => 0, 0⟩) := by
  induction k with
  | zero =>
    refine ⟨?_, fun K h => absurd h (Nat.not_lt_zero _)⟩
    simp [luProd]
    ext i j; simp [stripLow]
  | succ k ih =>
    have ht : (List.finRange n).take (k + 1) = (List.finRange n).take k ++ [⟨k, hk⟩] := by
      rw [List.take_add_one]
      congr 1
      simp [Nat.lt_of_succ_le hk]
    rw [ht, List.foldl_append]
    exact dgefaStep_inv A0 _ (Fin.castSucc ⟨k, hk⟩) (ih (by omega))

theorem dgefa_inv {n : ℕ} (A0 : SqM (n + 1)) : LuInv A0 n (dgefa A0) := by
  have h := dgefa_loop A0 n le_rfl
  rw [List.take_of_length_le (by simp)] at h
  unfold dgefa
  extract_lets s
  change LuInv A0 n s at h
  refine ⟨?_, ?_⟩
  · dsimp only
    rw [← h.1]
    congr 1
    apply luProd_congr
    intro K hK
    apply luOp_congr (fun _ => rfl)
    have : K.val < n := lu_mem_take hK
    rw [Function.update_of_ne]
    rintro rfl
    simp at this
  · intro K hK
    dsimp only
    rw [Function.update_of_ne]
    · exact h.2 K hK
    · rintro rfl
      simp at hK

/-! ### Inverting the upper triangle -/

/-- The upper triangle of an array. -/
def upper {n : ℕ} (A : SqM n) : SqM n := fun i j => if j < i then 0 else A i j

theorem stripLow_upper {n : ℕ} (A : SqM (n + 1)) : stripLow n A = upper A := by
  ext i j
  simp only [stripLow, upper]
  by_cases h : j < i
  · have : j.val < n := by
      have := i.isLt
      have : j.val < i.val := h
      omega
    simp [h, this]
  · simp [h]

theorem upper_tri {n : ℕ} (A : SqM n) : BlockTriangular (upper A) id := by
  intro i j h
  simp only [id] at h
  simp [upper, h]

theorem upper_det {n : ℕ} (A : SqM n) : (upper A).det = ∏ i, A i i := by
  rw [Matrix.det_of_isUpperTriangular (upper_tri A)]
  simp [upper]

/-- State of the first loop of the inversion after `k` passes. `V` is the inverse of the upper triangle. -/
structure UInv {n : ℕ} (A0 V : SqM n) (k : ℕ) (T : SqM n) : Prop where
  low : ∀ i j, j < i → T i j = A0 i j
  done : ∀ i j : Fin n, i ≤ j → j.val < k → T i j = V i j
  mid : ∀ i j : Fin n, i ≤ j → i.val < k → ¬ j.val < k →
    T i j = ∑ m : Fin n, if m.val < k then V i m * upper A0 m j else 0
  rest : ∀ i j : Fin n, i ≤ j → ¬ i.val < k → T i j = A0 i j

theorem sum_lt_succ {n : ℕ} (K : Fin n) (f : Fin n → ℚ) :
    (∑ m : Fin n, if m.val < K.val + 1 then f m else 0) = (∑ m : Fin n, if m.val < K.val then f m else 0) + f K := by
  have : ∀ m : Fin n, (if m.val < K.val + 1 then f m else 0)
      = (if m.val < K.val then f m else 0) + if m = K then f m else 0 := by
    intro m
    by_cases h1 : m.val < K.val
    · have : m ≠ K := by rintro rfl; exact lt_irrefl _ h1
      simp [h1, h1.trans (Nat.lt_succ_self _), this]
    · by_cases h2 : m = K
      · subst h2; simp
      · have : ¬ m.val < K.val + 1 := by
          have : m.val ≠ K.val := fun h => h2 (Fin.ext h)
          omega
        simp [h1, h2, this]
  simp only [this, Finset.sum_add_distrib]
  simp

theorem invUStep_inv {n : ℕ} (A0 V : SqM n) (hV : V * upper A0 = 1) (htri : BlockTriangular V id)
    (K : Fin n) (T : SqM n) (h : UInv A0 V K T) (hd : A0 K K ≠ 0) : UInv A0 V (K + 1) (invUStep T K) := by
  have hTK : T K K = A0 K K := h.rest K K le_rfl (lt_irrefl _)
  -- products of V and U, restricted to the indices up to K
  have hprod : ∀ i, i ≤ K → (∑ m : Fin n, if m.val < K.val then V i m * upper A0 m K else 0) + V i K * A0 K K
      = if i = K then 1 else 0 := by
    intro i hi
    have e := congrFun (congrFun hV i) K
    rw [Matrix.mul_apply, Matrix.one_apply] at e
    rw [← e]
    have e2 := sum_lt_succ K (fun m => V i m * upper A0 m K)
    have hu : upper A0 K K = A0 K K := by simp [upper]
    rw [hu] at e2
    rw [← e2]
    apply Finset.sum_congr rfl
    intro m _
    by_cases hm : m.val < K.val + 1
    · simp [hm]
    · have : K < m := by
        have : K.val < m.val := by omega
        exact this
      simp [hm, upper, this]
  have hVK : V K K = 1 / A0 K K := by
    have e := hprod K le_rfl
    have z : (∑ m : Fin n, if m.val < K.val then V K m * upper A0 m K else 0) = 0 := by
      apply Finset.sum_eq_zero
      intro m _
      by_cases hm : m.val < K.val
      · have : V K m = 0 := htri (show id m < id K from hm)
        simp [this]
      · simp [hm]
    rw [z, zero_add, if_pos rfl] at e
    field_simp
    exact e
  have hcol : ∀ i, i < K → T i K * -(1 / A0 K K) = V i K := by
    intro i hi
    have e := hprod i hi.le
    rw [if_neg hi.ne] at e
    rw [h.mid i K hi.le hi (lt_irrefl _)]
    have : (∑ m : Fin n, if m.val < K.val then V i m * upper A0 m K else 0) = -(V i K * A0 K K) := by linarith
    rw [this]
    field_simp
  -- entries of the result
  have r1 : ∀ i, i ≤ K → (invUStep T K) i K = V i K := by
    intro i hi
    have hKK : ¬ K < K := lt_irrefl _
    simp only [invUStep, hKK, and_false, if_false, and_true]
    rcases hi.lt_or_eq with hi | rfl
    · simp only [hi, hi.ne, if_true, if_false, hTK]
      exact hcol i hi
    · simp only [lt_irrefl, if_false, if_true, hTK, hVK]
  have r2 : ∀ i j, i ≤ K → K < j → (invUStep T K) i j = (if i = K then 0 else T i j) + V i K * A0 K j := by
    intro i j hi hj
    have e := r1 i hi
    have hKK : ¬ K < K := lt_irrefl _
    have hT : T K j = A0 K j := h.rest K j hj.le (lt_irrefl _)
    simp only [invUStep, hKK, and_false, if_false, and_true, if_true] at e
    have h1 : ¬ (i = K ∧ j = K) := fun hh => hj.ne' hh.2
    have h2 : ¬ (i < K ∧ j = K) := fun hh => hj.ne' hh.2
    simp only [invUStep, hi, hj, and_self, if_true, hj.ne', and_false, if_false, and_true, hKK, hT]
    rw [e]
  have r3 : ∀ i j, ¬ (i ≤ K ∧ K ≤ j) → (invUStep T K) i j = T i j := by
    intro i j hij
    have h1 : ¬ (i = K ∧ j = K) := by rintro ⟨rfl, rfl⟩; exact hij ⟨le_rfl, le_rfl⟩
    have h2 : ¬ (i < K ∧ j = K) := by rintro ⟨a, rfl⟩; exact hij ⟨a.le, le_rfl⟩
    have h3 : ¬ (i = K ∧ K < j) := by rintro ⟨rfl, a⟩; exact hij ⟨le_rfl, a.le⟩
    have h4 : ¬ (i ≤ K ∧ K < j) := by rintro ⟨b, a⟩; exact hij ⟨b, a.le⟩
    simp [invUStep, h1, h2, h3, h4]
  refine ⟨?_, ?_, ?_, ?_⟩
  · intro i j hij
    rw [r3 i j (fun hh => absurd (hh.1.trans hh.2) (not_le.2 hij))]
    exact h.low i j hij
  · intro i j hij hj
    by_cases e : j = K
    · subst e; exact r1 i hij
    · have hj' : j.val < K.val := by
        have : j.val ≠ K.val := fun hh => e (Fin.ext hh)
        omega
      rw [r3 i j (fun hh => absurd hh.2 (not_le.2 hj'))]
      exact h.done i j hij hj'
  · intro i j hij hi hj
    have hiK : i ≤ K := Nat.lt_succ_iff.1 hi
    have hKj : K < j := by
      have : K.val < j.val := by omega
      exact this
    have hu : upper A0 K j = A0 K j := by simp [upper, not_lt.2 hKj.le]
    rw [r2 i j hiK hKj, sum_lt_succ, hu]
    congr 1
    by_cases e : i = K
    · subst e
      rw [if_pos rfl]
      symm
      apply Finset.sum_eq_zero
      intro m _
      by_cases hm : m.val < i.val
      · have : V i m = 0 := htri (show id m < id i from hm)
        simp [this]
      · simp [hm]
    · rw [if_neg e]
      have : i.val < K.val := lt_of_le_of_ne hiK (fun hh => e (Fin.ext hh))
      exact h.mid i j hij this (by omega)
  · intro i j hij hi
    have hKi : K < i := by
      have : K.val < i.val := by omega
      exact this
    rw [r3 i j (fun hh => absurd hh.1 (not_le.2 hKi))]
    exact h.rest i j hij (by omega)

theorem invU_loop {n : ℕ} (A0 V : SqM n) (hV : V * upper A0 = 1) (htri : BlockTriangular V id)
    (hd : ∀ K, A0 K K ≠ 0) (k : ℕ) (hk : k ≤ n) :
    ∃ T, ((List.finRange n).take k).foldlM
      (fun A K => if A K K = 0 then none else some (invUStep A K)) A0 = some T ∧ UInv A0 V k T := by
  induction k with
  | zero =>
    exact ⟨A0, by simp, ⟨fun _ _ _ => rfl, fun _ _ _ h => absurd h (Nat.not_lt_zero _),
      fun _ _ _ h => absurd h (Nat.not_lt_zero _), fun _ _ _ _ => rfl⟩⟩
  | succ k ih =>
    obtain ⟨T, hT, hI⟩ := ih (by omega)
    have ht : (List.finRange n).take (k + 1) = (List.finRange n).take k ++ [⟨k, hk⟩] := by
      rw [List.take_add_one]
      congr 1
      simp [Nat.lt_of_succ_le hk]
    refine ⟨invUStep T ⟨k, hk⟩, ?_, invUStep_inv A0 V hV htri ⟨k, hk⟩ T hI (hd _)⟩
    rw [ht, List.foldlM_append, hT]
    have : T ⟨k, hk⟩ ⟨k, hk⟩ ≠ 0 := by
      rw [hI.rest _ _ le_rfl (lt_irrefl _)]; exact hd _
    simp [this]

/-- If the loop succeeds, no diagonal entry was zero. -/
theorem invU_diag {n : ℕ} (A0 T : SqM n) (h : invU A0 = some T) (K : Fin n) : A0 K K ≠ 0 := by
  -- the diagonal entries from `k` on are untouched by the first `k` passes
  have main : ∀ k, k ≤ n → ∀ T', ((List.finRange n).take k).foldlM
      (fun A K => if A K K = 0 then none else some (invUStep A K)) A0 = some T' →
      (∀ K : Fin n, K.val < k → A0 K K ≠ 0) ∧ ∀ K : Fin n, ¬ K.val < k → T' K K = A0 K K := by
    intro k
    induction k with
    | zero =>
      intro _ T' hT'
      simp at hT'
      subst hT'
      exact ⟨fun K hK => absurd hK (Nat.not_lt_zero _), fun _ _ => rfl⟩
    | succ k ih =>
      intro hk T' hT'
      have ht : (List.finRange n).take (k + 1) = (List.finRange n).take k ++ [⟨k, hk⟩] := by
        rw [List.take_add_one]
        congr 1
        simp [Nat.lt_of_succ_le hk]
      rw [ht, List.foldlM_append] at hT'
      cases hT : ((List.finRange n).take k).foldlM
        (fun A K => if A K K = 0 then none else some (invUStep A K)) A0 with
      | none => rw [hT] at hT'; simp at hT'
      | some T1 =>
        obtain ⟨i1, i2⟩ := ih (by omega) T1 hT
        rw [hT] at hT'
        simp only [List.foldlM_cons, List.foldlM_nil, Option.bind_eq_bind, Option.bind_some] at hT'
        by_cases hz : T1 ⟨k, hk⟩ ⟨k, hk⟩ = 0
        · simp [hz] at hT'
        · simp [hz] at hT'
          subst hT'
          constructor
          · intro K hK
            by_cases hk2 : K.val < k
            · exact i1 K hk2
            · have : K = ⟨k, hk⟩ := Fin.ext (by simp; omega)
              rw [this, ← i2 ⟨k, hk⟩ (lt_irrefl _)]
              exact hz
          · intro K hK
            have hlt : (⟨k, hk⟩ : Fin n) < K := by
              change k < K.val
              omega
            rw [← i2 K (by omega)]
            simp [invUStep, not_le.2 hlt, not_lt.2 hlt.le, hlt.ne']
  have hm := main n le_rfl T (by
    rw [List.take_of_length_le (by simp)]
    exact h)
  exact hm.1 K K.isLt

/-! ### Multiplying by the operations -/

theorem mul_luOp {n : ℕ} (A : SqM n) (IPVT : Fin n → Fin n) (K : Fin n) (X : SqM n) (i j : Fin n) :
    (X * luOp A IPVT K) i j = X i (Equiv.swap (IPVT K) K j) +
      if Equiv.swap (IPVT K) K j = K then ∑ k, (if K < k then X i k * A k K else 0) else 0 := by
  rw [luOp, ← Matrix.mul_assoc, mul_swapM, mul_elimM]

/-- State of the second loop: passes down to `k` are done. -/
structure LInv {n : ℕ} (A0 : SqM n) (X : SqM n) (k : ℕ) (T : SqM n) : Prop where
  val : stripLow k T = X
  low : ∀ i j : Fin n, j < i → j.val < k → T i j = A0 i j

theorem mulLStep_inv {n : ℕ} (A0 X : SqM n) (IPVT : Fin n → Fin n) (K : Fin n) (hge : K ≤ IPVT K) (T : SqM n)
    (h : LInv A0 X (K + 1) T) : LInv A0 (X * luOp A0 IPVT K) K (mulLStep IPVT T K) := by
  obtain ⟨hX, hlow⟩ := h
  have hK : ∀ k, K < k → T k K = A0 k K := fun k hk => hlow k K hk (Nat.lt_succ_self _)
  -- the array before the exchange
  set A2 : SqM n := fun i j =>
    if j = K then (if K < i then 0 else T i K) + ((List.finRange n).map fun k =>
      if K < k then T i k * T k K else 0).sum
    else T i j with hA2
  have estep : ∀ i j, mulLStep IPVT T K i j = A2 i (Equiv.swap (IPVT K) K j) := by
    intro i j
    have aux : ∀ b : Fin n, (if b = K then (if K = K ∧ K < i then 0 else T i K) + ((List.finRange n).map fun k =>
        if K < k then (if k = K ∧ K < i then 0 else T i k) * T k K else 0).sum
        else (if b = K ∧ K < i then 0 else T i b)) = A2 i b := by
      intro b
      simp only [hA2]
      by_cases hb : b = K
      · simp only [hb, if_true, true_and]
        congr 2
        apply List.map_congr_left
        intro k _
        by_cases hk : K < k
        · simp [hk, hk.ne']
        · simp [hk]
      · simp [hb]
    by_cases e : IPVT K ≠ K
    · refine Eq.trans (if_pos e) ?_
      rw [Equiv.swap_comm]
      exact aux _
    · refine Eq.trans (if_neg e) ?_
      rw [not_not] at e
      rw [e, Equiv.swap_self]
      exact aux _
  have hsum : ∀ i, (∑ k, if K < k then X i k * A0 k K else 0)
      = ((List.finRange n).map fun k => if K < k then T i k * T k K else 0).sum := by
    intro i
    rw [← List.ofFn_eq_map, List.sum_ofFn]
    apply Finset.sum_congr rfl
    intro k _
    by_cases hk : K < k
    · have h1 : ¬ k.val < K.val + 1 := by
        have : K.val < k.val := hk
        omega
      rw [if_pos hk, if_pos hk, hK k hk, ← hX]
      simp [stripLow, h1]
    · simp [hk]
  constructor
  · ext i j
    rw [mul_luOp, hsum]
    by_cases hj : j < K
    · have hj' : j.val < K.val := hj
      have hs := swap_low hge hj
      rw [hs, if_neg hj.ne, add_zero, ← hX]
      simp only [stripLow, hj', hj'.trans (Nat.lt_succ_self _), true_and]
      rw [estep, hs]
      simp [hA2, hj.ne]
    · have hj' : ¬ j.val < K.val := hj
      have hh := swap_high hge (not_lt.1 hj)
      simp only [stripLow, hj', false_and, if_false]
      rw [estep]
      generalize Equiv.swap (IPVT K) K j = b at hh
      rcases hh.lt_or_eq with hb | hb
      · have hb' : ¬ b.val < K.val + 1 := by
          have : K.val < b.val := hb
          omega
        rw [← hX]
        simp [hA2, hb.ne', stripLow, hb']
      · subst hb
        rw [← hX]
        simp [hA2, stripLow]
  · intro i j hji hj
    have hjK : j < K := hj
    rw [estep, swap_low hge hjK]
    simp only [hA2, hjK.ne, if_false]
    exact hlow i j hji (by omega)

/-- The product taken in the order of the second loop. -/
theorem luProd_reverse {n : ℕ} (A : SqM n) (I : Fin n → Fin n) (l : List (Fin n)) (V : SqM n) :
    l.reverse.foldl (fun P K => P * luOp A I K) V = V * luProd A I l := by
  induction l using List.reverseRecOn generalizing V with
  | nil => simp [luProd]
  | append_singleton xs x ih =>
    rw [List.reverse_append, List.reverse_singleton, List.singleton_append, List.foldl_cons, ih, Matrix.mul_assoc]
    congr 1
    simp [luProd, List.foldl_append]

theorem mulL_loop {n : ℕ} (A0 V T : SqM (n + 1)) (I : Fin (n + 1) → Fin (n + 1))
    (hI : ∀ K : Fin (n + 1), K.val < n → K ≤ I K) (hT : LInv A0 V n T) (k : ℕ) (hk : k ≤ n) :
    LInv A0 ((((List.finRange n).map Fin.castSucc).drop k).reverse.foldl (fun P K => P * luOp A0 I K) V) k
      (((List.finRange n).drop k).reverse.foldl (fun A K => mulLStep I A K.castSucc) T) := by
  induction hm : n - k generalizing k with
  | zero =>
    have : k = n := by omega
    subst this
    rw [List.drop_of_length_le (by simp), List.drop_of_length_le (by simp)]
    simpa using hT
  | succ m ih =>
    have hkn : k < n := by omega
    have h1 : (List.finRange n).drop k = ⟨k, hkn⟩ :: (List.finRange n).drop (k + 1) := by
      rw [List.drop_eq_getElem_cons (by simpa using hkn)]
      simp
    have h2 : ((List.finRange n).map Fin.castSucc).drop k
        = Fin.castSucc ⟨k, hkn⟩ :: ((List.finRange n).map Fin.castSucc).drop (k + 1) := by
      rw [← List.map_drop, h1, List.map_cons, List.map_drop]
    rw [h1, h2, List.reverse_cons, List.reverse_cons, List.foldl_append, List.foldl_append]
    exact mulLStep_inv A0 _ I (Fin.castSucc ⟨k, hkn⟩) (hI _ hkn) _ (ih (k + 1) (by omega) (by omega))

theorem finRange_castSucc (n : ℕ) : (List.finRange n).map Fin.castSucc = (List.finRange (n + 1)).take n := by
  rw [List.finRange_succ_last, List.take_append_of_le_length (by simp), List.take_of_length_le (by simp)]

/-! ### The theorems -/

/-- **C46.** Whatever the size and the matrix: if it has an inverse, factorising and inverting returns that
inverse. -/
theorem C46_inverse {n : ℕ} (A : SqM (n + 1)) (h : A.det ≠ 0) :
    ∃ X, luInverse A = some X ∧ X * A = 1 ∧ A * X = 1 := by
  obtain ⟨hU, hI⟩ := dgefa_inv A
  set F := dgefa A with hF
  set Γ := luProd F.A F.IPVT ((List.finRange (n + 1)).take n) with hΓ
  rw [stripLow_upper] at hU
  have hΓu : IsUnit Γ.det := by
    rw [hΓ]
    unfold luProd
    have : ∀ (l : List (Fin (n + 1))) (P : SqM (n + 1)), IsUnit P.det →
        IsUnit (l.foldl (fun P K => luOp F.A F.IPVT K * P) P).det := by
      intro l
      induction l with
      | nil => exact fun _ h => h
      | cons x xs ih =>
        intro P hP
        exact ih _ (by rw [Matrix.det_mul]; exact (luOp_unit _ _ _).mul hP)
    exact this _ 1 (by simp)
  have hdU : (upper F.A).det ≠ 0 := by
    rw [← hU, Matrix.det_mul]
    exact mul_ne_zero hΓu.ne_zero h
  have hdiag : ∀ K, F.A K K ≠ 0 := by
    rw [upper_det] at hdU
    exact fun K => (Finset.prod_ne_zero_iff.1 hdU) K (Finset.mem_univ _)
  have hV : (upper F.A)⁻¹ * upper F.A = 1 := Matrix.nonsing_inv_mul _ (isUnit_iff_ne_zero.2 hdU)
  have hVt : BlockTriangular (upper F.A)⁻¹ id := by
    have := Matrix.invertibleOfIsUnitDet _ (isUnit_iff_ne_zero.2 hdU)
    exact Matrix.blockTriangular_inv_of_blockTriangular (upper_tri F.A)
  set V := (upper F.A)⁻¹ with hVdef
  obtain ⟨T, hT, hTI⟩ := invU_loop F.A V hV hVt hdiag (n + 1) le_rfl
  rw [List.take_of_length_le (by simp)] at hT
  have hL : LInv F.A V n T := by
    refine ⟨?_, fun i j hji _ => hTI.low i j hji⟩
    rw [stripLow_upper]
    ext i j
    by_cases hij : j < i
    · simp only [upper, hij, if_true]
      exact (hVt (show id j < id i from hij)).symm
    · simp only [upper, hij, if_false]
      exact hTI.done i j (not_lt.1 hij) j.isLt
  have hfin := mulL_loop F.A V T F.IPVT hI hL 0 (Nat.zero_le _)
  rw [List.drop_zero, List.drop_zero, finRange_castSucc, luProd_reverse] at hfin
  have hval := hfin.val
  set X := (List.finRange n).reverse.foldl (fun A K => mulLStep F.IPVT A K.castSucc) T with hX
  have hXV : X = V * Γ := by
    rw [← hval]
    ext i j
    simp [stripLow]
  have hXA : X * A = 1 := by
    rw [hXV, Matrix.mul_assoc, hU, hV]
  refine ⟨X, ?_, hXA, mul_eq_one_comm.1 hXA⟩
  unfold luInverse dgedi dgeco
  dsimp only
  rw [← hF, invU, hT]
  rfl

/-- **C46, the other half.** The inversion fails (in the program: fills the array with inf and nan) exactly for the
matrices that have no inverse. -/
theorem C46_singular {n : ℕ} (A : SqM (n + 1)) : luInverse A = none ↔ A.det = 0 := by
  constructor
  · intro h
    by_contra hd
    obtain ⟨X, hX, _⟩ := C46_inverse A hd
    rw [h] at hX
    exact absurd hX (by simp)
  · intro h
    cases hx : luInverse A with
    | none => rfl
    | some X =>
      exfalso
      unfold luInverse dgedi dgeco at hx
      dsimp only at hx
      rw [Option.map_eq_some_iff] at hx
      obtain ⟨T, hT, _⟩ := hx
      have hd := invU_diag _ _ hT
      obtain ⟨hU, _⟩ := dgefa_inv A
      rw [stripLow_upper] at hU
      have : (upper (dgefa A).A).det = 0 := by rw [← hU, Matrix.det_mul, h, mul_zero]
      rw [upper_det] at this
      exact (Finset.prod_ne_zero_iff.2 fun K _ => hd K) this

/-- Entries below the diagonal of the columns done, and the meaning of `INFO`. -/
def LuBound {n : ℕ} (k : ℕ) (s : LuSt n) : Prop :=
  (∀ i j : Fin n, j.val < k → j < i → |s.A i j| ≤ 1) ∧ (s.INFO ≠ 0 → ∃ K : Fin n, K.val < k ∧ s.A K K = 0)

theorem dgefaStep_bound {n : ℕ} (s : LuSt n) (K : Fin n) (h : LuBound K s) : LuBound (K + 1) (dgefaStep s K) := by
  obtain ⟨h1, h2⟩ := h
  have hge := pivot_ge s.A K
  by_cases h0 : s.A (pivotRow s.A K) K ≠ 0
  · constructor
    · intro i j hj hji
      by_cases e : j = K
      · subst e
        have hA : (dgefaStep s j).A i j =
            s.A (Equiv.swap (pivotRow s.A j) j i) j * (-1 / s.A (pivotRow s.A j) j) := by
          unfold dgefaStep
          extract_lets L IPVT A1
          have hA1 : A1 = swapRowsFrom s.A L j := by
            by_cases hLK : L ≠ j
            · exact if_pos hLK
            · rw [not_not] at hLK
              rw [show A1 = s.A from if_neg (by simp [hLK])]
              ext a b; simp [swapRowsFrom, hLK]
          rw [if_pos h0, hA1]
          simp [rankOne, scaleCol, hji, swapRowsFrom, L]
        rw [hA, abs_mul, abs_div, abs_neg, abs_one, mul_one_div]
        apply div_le_one_of_le₀ _ (abs_nonneg _)
        exact pivot_max s.A j _ (swap_high hge hji.le)
      · have hlt : j < K := by
          have : j.val ≠ K.val := fun hh => e (Fin.ext hh)
          change j.val < K.val
          omega
        rw [dgefaStep_low s K i j hlt]
        exact h1 i j hlt hji
    · intro hI
      have : (dgefaStep s K).INFO = s.INFO := by unfold dgefaStep; simp [h0]
      rw [this] at hI
      obtain ⟨K', hK', hz⟩ := h2 hI
      exact ⟨K', by omega, by rw [dgefaStep_low s K K' K' hK']; exact hz⟩
  · rw [not_not] at h0
    have hs : (dgefaStep s K).A = s.A := by unfold dgefaStep; simp [h0]
    have hz : ∀ a, K ≤ a → s.A a K = 0 := by
      intro a ha
      have := pivot_max s.A K a ha
      rw [h0, abs_zero] at this
      exact abs_nonpos_iff.1 this
    constructor
    · intro i j hj hji
      rw [hs]
      by_cases e : j = K
      · subst e; rw [hz i hji.le]; simp
      · have hlt : j < K := by
          have : j.val ≠ K.val := fun hh => e (Fin.ext hh)
          change j.val < K.val
          omega
        exact h1 i j hlt hji
    · intro _
      exact ⟨K, by omega, by rw [hs]; exact hz K le_rfl⟩

theorem dgefa_bound {n : ℕ} (A : SqM (n + 1)) :
    (∀ i j, j < i → |(dgefa A).A i j| ≤ 1) ∧ ((dgefa A).INFO ≠ 0 → ∃ K, (dgefa A).A K K = 0) := by
  have main : ∀ k, k ≤ n → LuBound k (((List.finRange n).take k).foldl
      (fun s K => dgefaStep s K.castSucc) ⟨A, fun _ => 0, 0⟩) := by
    intro k
    induction k with
    | zero => exact fun _ => ⟨fun _ _ h => absurd h (Nat.not_lt_zero _), fun h => absurd rfl h⟩
    | succ k ih =>
      intro hk
      have ht : (List.finRange n).take (k + 1) = (List.finRange n).take k ++ [⟨k, hk⟩] := by
        rw [List.take_add_one]
        congr 1
        simp [Nat.lt_of_succ_le hk]
      rw [ht, List.foldl_append]
      exact dgefaStep_bound _ (Fin.castSucc ⟨k, hk⟩) (ih (by omega))
  have h := main n le_rfl
  rw [List.take_of_length_le (by simp)] at h
  unfold dgefa
  extract_lets s
  change LuBound n s at h
  refine ⟨fun i j hji => h.1 i j ?_ hji, ?_⟩
  · have : j.val < i.val := hji
    have := i.isLt
    omega
  · dsimp only
    by_cases hz : s.A (Fin.last n) (Fin.last n) = 0
    · exact fun _ => ⟨_, hz⟩
    · rw [if_neg hz]
      intro hI
      obtain ⟨K, _, hK⟩ := h.2 hI
      exact ⟨K, hK⟩

/-- **C46, stability.** No multiplier that the factorisation stores exceeds 1 in magnitude. -/
theorem C46_multipliers {n : ℕ} (A : SqM (n + 1)) (i j : Fin (n + 1)) (h : j < i) : |(dgefa A).A i j| ≤ 1 :=
  (dgefa_bound A).1 i j h

/-- **C46, the indicator.** A non-zero `INFO` means that the matrix has no inverse. -/
theorem C46_info {n : ℕ} (A : SqM (n + 1)) (h : (dgefa A).INFO ≠ 0) : A.det = 0 := by
  obtain ⟨K, hK⟩ := (dgefa_bound A).2 h
  obtain ⟨hU, _⟩ := dgefa_inv A
  rw [stripLow_upper] at hU
  rw [← C46_singular]
  cases hx : luInverse A with
  | none => rfl
  | some X =>
    exfalso
    unfold luInverse dgedi dgeco at hx
    dsimp only at hx
    rw [Option.map_eq_some_iff] at hx
    obtain ⟨T, hT, _⟩ := hx
    exact invU_diag _ _ hT K hK

/-- **C46, the indicator is not reliable.** `INFO = 0` is documented as the normal value, but it is also what a zero
first pivot gives: the inversion then divides by zero. -/
theorem C46_info_refuted : ∃ A : SqM 2, (dgefa A).INFO = 0 ∧ luInverse A = none :=
  ⟨!![0, 0; 0, 1], by decide +kernel, by rw [C46_singular]; simp [Matrix.det_fin_two]⟩

/-! ### The loop version -/

theorem elimCol_entry {n : ℕ} (L K : Fin n) (A : SqM n) (J i j : Fin n) (hJ : K < J) :
    elimCol L K A J i j = if j = J then
      A (Equiv.swap L K i) J + (if K < i then A L J * A i K else 0) else A i j := by
  refine Eq.trans (if_pos hJ) ?_
  have hJK : K ≠ J := hJ.ne
  by_cases e : L = K
  · subst e
    by_cases hj : j = J
    · subst hj
      by_cases hi : L < i <;> simp [hi]
    · simp [hj]
  · by_cases hj : j = J
    · subst hj
      by_cases hi : K < i
      · by_cases hiL : i = L
        · subst hiL; simp [e, hi, hJK]
        · simp [e, hi, hiL, hi.ne', hJK, Equiv.swap_apply_of_ne_of_ne hiL hi.ne']
      · by_cases hiK : i = K
        · subst hiK; simp [e]
        · by_cases hiL : i = L
          · subst hiL; simp [e, hi]
          · simp [e, hi, hiK, hiL, Equiv.swap_apply_of_ne_of_ne hiL hiK]
    · simp [e, hj]

theorem elimCols {n : ℕ} (L K : Fin n) (l : List (Fin n)) (hl : l.Nodup) (A : SqM n) (i j : Fin n) :
    l.foldl (elimCol L K) A i j = if j ∈ l ∧ K < j then
      A (Equiv.swap L K i) j + (if K < i then A L j * A i K else 0) else A i j := by
  induction l generalizing A with
  | nil => simp
  | cons x xs ih =>
    simp only [List.foldl_cons]
    rw [List.nodup_cons] at hl
    rw [ih hl.2]
    by_cases hx : K < x
    · simp only [elimCol_entry L K A x _ _ hx]
      by_cases hj : j = x
      · subst hj
        simp [hl.1, hx]
      · by_cases hjm : j ∈ xs ∧ K < j
        · simp [hj, hjm, hx.ne]
        · rw [if_neg hjm, if_neg hj, if_neg]
          rintro ⟨h1, h2⟩
          rcases List.mem_cons.1 h1 with h1 | h1
          · exact hj h1
          · exact hjm ⟨h1, h2⟩
    · have : elimCol L K A x = A := by funext a b; exact if_neg hx
      rw [this]
      by_cases hj : j = x
      · subst hj; simp [hx]
      · simp [hj]

theorem dgefaStep_eq {n : ℕ} (s : LuSt n) (K : Fin n) : dgefaStep' s K = dgefaStep s K := by
  unfold dgefaStep' dgefaStep
  extract_lets L IPVT A1 A2 A3
  by_cases h0 : s.A L K ≠ 0
  · rw [if_pos h0, if_pos h0]
    congr 1
    have hA3 : A3 = swapRowsFrom s.A L K := by
      by_cases hLK : L ≠ K
      · exact if_pos hLK
      · rw [not_not] at hLK
        rw [show A3 = s.A from if_neg (by simp [hLK])]
        ext a b; simp [swapRowsFrom, hLK]
    have hA1 : ∀ a b, A1 a b = if b = K then s.A (Equiv.swap L K a) K else s.A a b := by
      intro a b
      by_cases hLK : L ≠ K
      · rw [show A1 = _ from if_pos hLK]
        by_cases hb : b = K
        · subst hb
          by_cases ha : a = L
          · subst ha; simp
          · by_cases ha2 : a = b
            · subst ha2; simp [ha]
            · simp [ha, ha2, Equiv.swap_apply_of_ne_of_ne ha ha2]
        · simp [hb]
      · rw [show A1 = s.A from if_neg hLK]
        rw [not_not] at hLK
        by_cases hb : b = K
        · subst hb; simp [hLK]
        · simp [hb]
    ext i j
    rw [elimCols L K _ (List.nodup_finRange n), hA3]
    simp only [A2, scaleCol, rankOne, hA1, swapRowsFrom, List.mem_finRange, true_and]
    rcases lt_trichotomy j K with hj | hj | hj
    · simp [hj.ne, not_lt.2 hj.le, not_le.2 hj]
    · subst hj
      simp
    · by_cases hi : K < i
      · simp [hj, hj.ne', hi, hj.le]
        ring
      · simp [hj, hj.ne', hi, hj.le]
  · rw [if_neg h0, if_neg h0]

/-- **C46, versions.** The column-by-column factorisation gives exactly the same result as the vectorised one. -/
theorem C46_versions {n : ℕ} (A : SqM (n + 1)) : dgefa' A = dgefa A := by
  unfold dgefa' dgefa
  have : (fun (s : LuSt (n + 1)) (K : Fin n) => dgefaStep' s K.castSucc)
      = fun s K => dgefaStep s K.castSucc := by
    funext s K; exact dgefaStep_eq s _
  rw [this]

/-- A matrix whose first pivot is zero and which needs two row exchanges. -/
def luEx : SqM 3 := !![0, 2, 1; 1, 1, 0; 2, 0, 3]

example : luEx.det ≠ 0 := by simp [luEx, Matrix.det_fin_three]; norm_num

example : (luInverse luEx).map (fun X => X * luEx) = some 1 ∧ (dgefa luEx).IPVT 0 = 2 ∧ (dgefa luEx).IPVT 1 = 2 := by
  decide +kernel

example : luInverse (!![1, 2; 2, 4] : SqM 2) = none ∧ (dgefa (!![1, 2; 2, 4] : SqM 2)).INFO ≠ 0 := by
  decide +kernel

end Narp.Props
