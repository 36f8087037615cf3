import Verif.Model.Linp
import Verif.Spec.Lp
import Verif.Props.Lu
import Mathlib.LinearAlgebra.Matrix.Notation
import Mathlib.Data.Fintype.Pigeonhole
import Mathlib.Algebra.BigOperators.Field
import Mathlib.Tactic.FieldSimp

/-!
# The linear programming solver (C41)
-/

namespace Narp.Props
open Narp Matrix

/-- The basis columns of `p`, in the order of `IBAS`. -/
def basisOf {m q : ℕ} (p : LpProb m q) (IBAS : Fin (m + 1) → Fin q) : SqM (m + 1) := fun r k => p.A r (IBAS k)

/-- States the loop of `linp` passes through. -/
inductive LpReach {m q : ℕ} (p : LpProb m q) (IBAS : Fin (m + 1) → Fin q) (b : Fin (m + 1) → ℚ) : LpSt m q → Prop
  | start : LpReach p IBAS b (lpStart p IBAS b)
  | step {s s' : LpSt m q} : LpReach p IBAS b s → lpStep p b s = .ok (.next s') → LpReach p IBAS b s'

/-- The costs of phase 2: those of `XOBI[1]` for the columns below `N1`; the others keep those of `XOBI[0]`. -/
def cost2 {m q : ℕ} (p : LpProb m q) : Fin q → ℚ := fun j => if j.val < p.N1 then p.XOBI 1 j else p.XOBI 0 j

/-- What holds whenever the loop starts a pass. -/
structure LpInv {m q : ℕ} (p : LpProb m q) (b : Fin (m + 1) → ℚ) (s : LpSt m q) : Prop where
  inj : Function.Injective s.IBAS
  inv : s.TAB * basisOf p s.IBAS = 1
  bs : s.BS = s.TAB *ᵥ b
  cb : s.CB = fun k => s.XOB (s.IBAS k)
  flag : ∀ j, s.IBASF j = if ∃ k, s.IBAS k = j then 1 else 0
  phase : (s.IPH = 1 ∧ s.XOB = p.XOBI 0) ∨ (s.IPH = 2 ∧ s.XOB = cost2 p)

/-- The initial basis is made of the columns of the identity. -/
def UnitBasis {m q : ℕ} (p : LpProb m q) (IBAS : Fin (m + 1) → Fin q) : Prop :=
  ∀ r k, p.A r (IBAS k) = if r = k then 1 else 0

theorem markAll_fold {m q : ℕ} (idx : Fin (m + 1) → Fin q) (v : ℤ) (l : List (Fin (m + 1))) (a : Fin q → ℤ)
    (j : Fin q) :
    l.foldl (fun a k => Function.update a (idx k) v) a j = if ∃ k ∈ l, idx k = j then v else a j := by
  induction l generalizing a with
  | nil => simp
  | cons x l ih =>
    rw [List.foldl_cons, ih]
    by_cases h : ∃ k ∈ l, idx k = j
    · rw [if_pos h, if_pos]; obtain ⟨k, hk, e⟩ := h; exact ⟨k, List.mem_cons_of_mem _ hk, e⟩
    · rw [if_neg h]
      by_cases hx : idx x = j
      · subst hx; rw [Function.update_self, if_pos ⟨x, List.mem_cons_self, rfl⟩]
      · rw [Function.update_of_ne (Ne.symm hx), if_neg]
        rintro ⟨k, hk, e⟩
        rcases List.mem_cons.1 hk with rfl | hk
        · exact hx e
        · exact h ⟨k, hk, e⟩

theorem lpStart_inv {m q : ℕ} (p : LpProb m q) (IBAS : Fin (m + 1) → Fin q) (b : Fin (m + 1) → ℚ)
    (h : UnitBasis p IBAS) : LpInv p b (lpStart p IBAS b) where
  inj := by
    intro x y e
    have h1 := h x x
    have h2 := h x y
    change IBAS x = IBAS y at e
    rw [e, h2] at h1
    by_contra hne
    rw [if_neg hne, if_pos rfl] at h1
    exact absurd h1 (by norm_num)
  inv := by
    change (1 : SqM (m + 1)) * basisOf p IBAS = 1
    rw [Matrix.one_mul]; ext r k
    rw [Matrix.one_apply]; exact h r k
  bs := by change b = (1 : SqM (m + 1)) *ᵥ b; rw [Matrix.one_mulVec]
  cb := rfl
  flag j := by
    change markAll IBAS (fun _ => 0) 1 j = _
    unfold markAll
    rw [markAll_fold]; simp
    rfl
  phase := Or.inl ⟨rfl, rfl⟩

/-! ### The search for the entering column -/

theorem scan_fold {q : ℕ} (rcost : Fin q → ℚ) (l : List (Fin q)) (s : ℚ × Option (Fin q))
    (hs : (s = (0, none)) ∨ ∃ i, s = (rcost i, some i) ∧ rcost i < 0) :
    let t := l.foldl (scanStep rcost) s
    ((t = (0, none)) ∨ ∃ i, (i ∈ l ∨ s.2 = some i) ∧ t = (rcost i, some i) ∧ rcost i < 0) ∧
      t.1 ≤ s.1 ∧ ∀ j ∈ l, t.1 < rcost j + 1 / 10000000 := by
  induction l generalizing s with
  | nil =>
    refine ⟨?_, le_refl _, by simp⟩
    rcases hs with h | ⟨i, h, h'⟩
    · exact Or.inl h
    · exact Or.inr ⟨i, Or.inr (by rw [h]), h, h'⟩
  | cons x l ih =>
    have key : ((scanStep rcost s x = (0, none)) ∨
        ∃ i, (i = x ∨ s.2 = some i) ∧ scanStep rcost s x = (rcost i, some i) ∧ rcost i < 0) ∧
        (scanStep rcost s x).1 ≤ s.1 ∧ (scanStep rcost s x).1 < rcost x + 1 / 10000000 := by
      have hs0 : s.1 ≤ 0 := by
        rcases hs with h | ⟨i, h, h'⟩
        · rw [h]
        · rw [h]; exact h'.le
      have keep : ((s = (0, none)) ∨ ∃ i, (i = x ∨ s.2 = some i) ∧ s = (rcost i, some i) ∧ rcost i < 0) := by
        rcases hs with h | ⟨i, h, h'⟩
        · exact Or.inl h
        · exact Or.inr ⟨i, Or.inr (by rw [h]), h, h'⟩
      unfold scanStep
      dsimp only
      by_cases h1 : |rcost x| < 1 / 10000000
      · rw [if_pos h1]
        have h1' := abs_lt.1 h1
        split
        · exact ⟨keep, le_refl _, by linarith [h1'.1]⟩
        · rw [if_neg (not_lt.2 hs0)]
          exact ⟨keep, le_refl _, by linarith [h1'.1]⟩
      · rw [if_neg h1]
        split
        · rename_i h2
          exact ⟨keep, le_refl _, by have := abs_lt.1 h2; linarith [this.1]⟩
        · rename_i h2
          split
          · rename_i h3
            refine ⟨Or.inr ⟨x, Or.inl rfl, rfl, lt_of_lt_of_le h3 hs0⟩, h3.le, ?_⟩
            dsimp only; linarith
          · rename_i h3
            exact ⟨keep, le_refl _, by linarith [not_lt.1 h3]⟩
    obtain ⟨k1, k2, k3⟩ := key
    have hs' : (scanStep rcost s x = (0, none)) ∨ ∃ i, scanStep rcost s x = (rcost i, some i) ∧ rcost i < 0 := by
      rcases k1 with h | ⟨i, _, h, h'⟩
      · exact Or.inl h
      · exact Or.inr ⟨i, h, h'⟩
    obtain ⟨i1, i2, i3⟩ := ih _ hs'
    rw [List.foldl_cons]
    refine ⟨?_, i2.trans k2, ?_⟩
    · rcases i1 with h | ⟨i, hi, h, h'⟩
      · exact Or.inl h
      · refine Or.inr ⟨i, ?_, h, h'⟩
        rcases hi with hi | hi
        · exact Or.inl (List.mem_cons_of_mem _ hi)
        · rcases k1 with e | ⟨i', hi', e, _⟩
          · rw [e] at hi; simp at hi
          · rw [e] at hi
            obtain rfl : i' = i := by simpa using hi
            rcases hi' with rfl | hi'
            · exact Or.inl List.mem_cons_self
            · exact Or.inr hi'
    · intro j hj
      rcases List.mem_cons.1 hj with rfl | hj
      · exact lt_of_le_of_lt i2 k3
      · exact i3 j hj

/-- The search either finds nothing, all eligible reduced costs being above `-1e-7`, or an eligible column whose
negative reduced cost is within `1e-7` of the least one. -/
theorem lpScan_spec {m q : ℕ} (p : LpProb m q) (s : LpSt m q) :
    (lpScan p s = (0, none) ∧ ∀ j : Fin q, j.val < p.N1 → s.IBASF j ≠ 1 → -(1 / 10000000) < redCost p s j) ∨
    ∃ i : Fin q, lpScan p s = (redCost p s i, some i) ∧ redCost p s i < 0 ∧ i.val < p.N1 ∧ s.IBASF i ≠ 1 ∧
      ∀ j : Fin q, j.val < p.N1 → s.IBASF j ≠ 1 → redCost p s i < redCost p s j + 1 / 10000000 := by
  have h := scan_fold (redCost p s) ((List.finRange q).filter fun i => i.val < p.N1 ∧ s.IBASF i ≠ 1) (0, none)
    (Or.inl rfl)
  obtain ⟨h1, h2, h3⟩ := h
  have h3' : ∀ j : Fin q, j.val < p.N1 → s.IBASF j ≠ 1 → (lpScan p s).1 < redCost p s j + 1 / 10000000 := by
    intro j hj hf
    exact h3 j (List.mem_filter.2 ⟨List.mem_finRange _, by simp [hj, hf]⟩)
  rcases h1 with h | ⟨i, hi, h, h'⟩
  · left
    refine ⟨h, fun j hj hf => ?_⟩
    have := h3' j hj hf
    rw [show lpScan p s = (0, none) from h] at this
    dsimp only at this; linarith
  · right
    rcases hi with hi | hi
    · have hm := (List.mem_filter.1 hi).2
      simp only [decide_eq_true_eq] at hm
      refine ⟨i, h, h', hm.1, hm.2, fun j hj hf => ?_⟩
      have := h3' j hj hf
      rw [show lpScan p s = (redCost p s i, some i) from h] at this
      exact this
    · simp at hi

/-! ### The pivot -/

theorem exch_TAB {m q : ℕ} (s : LpSt m q) (P : Fin (m + 1) → ℚ) (IND : Fin q) (r i j : Fin (m + 1)) :
    (lpExchange s P IND r).TAB i j = if i = r then s.TAB r j / P r else s.TAB i j - s.TAB r j * P i / P r := by
  change (if i = r then s.TAB r j / P r else if P i ≠ 0 then s.TAB i j - s.TAB r j * P i / P r else s.TAB i j) = _
  split
  · rfl
  · split
    · rfl
    · rename_i h; rw [not_not.1 h]; simp

theorem exch_BS {m q : ℕ} (s : LpSt m q) (P : Fin (m + 1) → ℚ) (IND : Fin q) (r i : Fin (m + 1)) :
    (lpExchange s P IND r).BS i = if i = r then s.BS r / P r else s.BS i - s.BS r * P i / P r := by
  change (if i = r then s.BS r / P r else if P i ≠ 0 then s.BS i - s.BS r * P i / P r else s.BS i) = _
  split
  · rfl
  · split
    · rfl
    · rename_i h; rw [not_not.1 h]; simp

theorem exch_inv {m q : ℕ} (p : LpProb m q) (b : Fin (m + 1) → ℚ) (s : LpSt m q) (h : LpInv p b s) (IND : Fin q)
    (hI : s.IBASF IND ≠ 1) (r : Fin (m + 1)) (hr : lpColumn p s IND r ≠ 0) :
    LpInv p b (lpExchange s (lpColumn p s IND) IND r) := by
  set P := lpColumn p s IND with hP
  have hnot : ∀ k, s.IBAS k ≠ IND := by
    intro k hk
    apply hI
    rw [h.flag, if_pos ⟨k, hk⟩]
  refine ⟨?_, ?_, ?_, ?_, ?_, ?_⟩
  · change Function.Injective (Function.update s.IBAS r IND)
    intro x y e
    by_cases hx : x = r <;> by_cases hy : y = r
    · rw [hx, hy]
    · subst hx; rw [Function.update_self, Function.update_of_ne hy] at e; exact absurd e.symm (hnot y)
    · subst hy; rw [Function.update_self, Function.update_of_ne hx] at e; exact absurd e (hnot x)
    · rw [Function.update_of_ne hx, Function.update_of_ne hy] at e; exact h.inj e
  · have hB : ∀ i k, ∑ j, s.TAB i j * basisOf p (lpExchange s P IND r).IBAS j k =
        if k = r then P i else if i = k then 1 else 0 := by
      intro i k
      by_cases hk : k = r
      · subst hk
        rw [if_pos rfl]
        change _ = ∑ j, s.TAB i j * p.A j IND
        refine Finset.sum_congr rfl fun j _ => ?_
        change s.TAB i j * p.A j (Function.update s.IBAS k IND k) = _
        rw [Function.update_self]
      · rw [if_neg hk]
        have := congrFun (congrFun h.inv i) k
        rw [Matrix.mul_apply, Matrix.one_apply] at this
        rw [← this]
        refine Finset.sum_congr rfl fun j _ => ?_
        change s.TAB i j * p.A j (Function.update s.IBAS r IND k) = s.TAB i j * p.A j (s.IBAS k)
        rw [Function.update_of_ne hk]
    ext i k
    rw [Matrix.mul_apply, Matrix.one_apply]
    by_cases hi : i = r
    · subst hi
      have : ∀ j, (lpExchange s P IND i).TAB i j * basisOf p (lpExchange s P IND i).IBAS j k =
          (s.TAB i j * basisOf p (lpExchange s P IND i).IBAS j k) / P i := by
        intro j; rw [exch_TAB, if_pos rfl]; ring
      rw [Finset.sum_congr rfl fun j _ => this j, ← Finset.sum_div, hB]
      by_cases hk : k = i
      · subst hk; rw [if_pos rfl, if_pos rfl, div_self hr]
      · rw [if_neg hk, if_neg (Ne.symm hk), zero_div]
    · have : ∀ j, (lpExchange s P IND r).TAB i j * basisOf p (lpExchange s P IND r).IBAS j k =
          s.TAB i j * basisOf p (lpExchange s P IND r).IBAS j k -
            (s.TAB r j * basisOf p (lpExchange s P IND r).IBAS j k) * (P i / P r) := by
        intro j; rw [exch_TAB, if_neg hi]; ring
      rw [Finset.sum_congr rfl fun j _ => this j, Finset.sum_sub_distrib, ← Finset.sum_mul, hB, hB]
      by_cases hk : k = r
      · subst hk
        rw [if_pos rfl, if_pos rfl, if_neg hi, mul_div_cancel₀ _ hr, sub_self]
      · rw [if_neg hk, if_neg hk, if_neg (Ne.symm hk)]; ring
  · ext i
    have hb : ∀ i, s.BS i = ∑ j, s.TAB i j * b j := fun i => congrFun h.bs i
    change _ = ∑ j, (lpExchange s P IND r).TAB i j * b j
    rw [exch_BS]
    by_cases hi : i = r
    · subst hi
      rw [if_pos rfl, hb, Finset.sum_div]
      refine Finset.sum_congr rfl fun j _ => ?_
      rw [exch_TAB, if_pos rfl]; ring
    · rw [if_neg hi, hb i, hb r, mul_div_assoc, Finset.sum_mul, ← Finset.sum_sub_distrib]
      refine Finset.sum_congr rfl fun j _ => ?_
      rw [exch_TAB, if_neg hi]; ring
  · funext k
    change Function.update s.CB r (s.XOB IND) k = s.XOB (Function.update s.IBAS r IND k)
    by_cases hk : k = r
    · subst hk; simp
    · rw [Function.update_of_ne hk, Function.update_of_ne hk, h.cb]
  · intro j
    change Function.update (Function.update s.IBASF (s.IBAS r) 0) IND 1 j =
      if ∃ k, Function.update s.IBAS r IND k = j then 1 else 0
    by_cases hj : j = IND
    · subst hj
      rw [Function.update_self, if_pos ⟨r, Function.update_self ..⟩]
    · rw [Function.update_of_ne hj]
      by_cases hj' : j = s.IBAS r
      · subst hj'
        rw [Function.update_self, if_neg]
        rintro ⟨k, hk⟩
        by_cases hkr : k = r
        · subst hkr; rw [Function.update_self] at hk; exact hj hk.symm
        · rw [Function.update_of_ne hkr] at hk; exact hkr (h.inj hk)
      · rw [Function.update_of_ne hj', h.flag]
        refine if_congr ⟨?_, ?_⟩ rfl rfl
        · rintro ⟨k, hk⟩
          refine ⟨k, ?_⟩
          rw [Function.update_of_ne]
          · exact hk
          · rintro rfl; exact hj' hk.symm
        · rintro ⟨k, hk⟩
          by_cases hkr : k = r
          · subst hkr; rw [Function.update_self] at hk; exact absurd hk.symm hj
          · rw [Function.update_of_ne hkr] at hk; exact ⟨k, hk⟩
  · exact h.phase

theorem inv_unique {n : ℕ} {T B : SqM (n + 1)} (h : T * B = 1) : T = B⁻¹ :=
  (Matrix.inv_eq_left_inv h).symm

/-- Inverting the basis afresh changes nothing but `IR` (in exact arithmetic). -/
theorem lpReinvert_eq {m q : ℕ} (p : LpProb m q) (b : Fin (m + 1) → ℚ) (s : LpSt m q) (h : LpInv p b s) :
    lpReinvert p b s = .ok { s with IR := 1 } := by
  have hdet : (basisOf p s.IBAS).det ≠ 0 := by
    intro h0
    have := congrArg Matrix.det h.inv
    rw [Matrix.det_mul, h0, mul_zero, Matrix.det_one] at this
    exact absurd this (by norm_num)
  obtain ⟨T, hT, hT'⟩ := C46_inverse _ hdet
  have e : T = s.TAB := by
    rw [inv_unique h.inv]; exact inv_unique hT'.1
  unfold lpReinvert
  change (match luInverse (basisOf p s.IBAS) with
    | none => Except.error PyErr.zeroDivision
    | some T => .ok { s with TAB := T, BS := T *ᵥ b, IR := 1 }) = _
  rw [hT, e]
  dsimp only
  rw [← h.bs]

theorem LpInv.withIR {m q : ℕ} {p : LpProb m q} {b : Fin (m + 1) → ℚ} {s : LpSt m q} (h : LpInv p b s) (k : ℤ) :
    LpInv p b { s with IR := k } := ⟨h.inj, h.inv, h.bs, h.cb, h.flag, h.phase⟩

/-- A pass exchanges a column of negative reduced cost for a row, ... -/
def IsPivot {m q : ℕ} (p : LpProb m q) (s s' : LpSt m q) (IND : Fin q) (r : Fin (m + 1)) : Prop :=
  IND.val < p.N1 ∧ s.IBASF IND ≠ 1 ∧ redCost p s IND < 0 ∧ lpRatio s (lpColumn p s IND) = some r ∧
    lpColumn p s IND r ≠ 0 ∧ s' = lpExchange s (lpColumn p s IND) IND r

/-- ... or finds no such column. -/
def NoEntry {m q : ℕ} (p : LpProb m q) (s : LpSt m q) : Prop :=
  ∀ j : Fin q, j.val < p.N1 → s.IBASF j ≠ 1 → -(1 / 10000000) < redCost p s j

theorem lpPivot_ok {m q : ℕ} (p : LpProb m q) (s s' : LpSt m q) (IND : Fin q) (h : lpPivot p s IND = .ok s') :
    ∃ r, lpRatio s (lpColumn p s IND) = some r ∧ lpColumn p s IND r ≠ 0 ∧
      s' = lpExchange s (lpColumn p s IND) IND r := by
  unfold lpPivot at h
  dsimp only at h
  split at h
  · cases h
  · rename_i r hr
    split at h
    · cases h
    · rename_i h0
      cases h
      exact ⟨r, hr, h0, rfl⟩

/-- The possible outcomes of a pass. -/
theorem lpStep_cases {m q : ℕ} (p : LpProb m q) (b : Fin (m + 1) → ℚ) (s : LpSt m q) (h : LpInv p b s)
    (t : LpRes m q) (ht : lpStep p b s = .ok t) :
    (∃ s' IND r, t = .next s' ∧ IsPivot p s s' IND r) ∨
    (NoEntry p s ∧ t = lpPhaseEnd p { s with IR := 1 }) := by
  have hirr : redCost p { s with IR := 1 } = redCost p s := rfl
  rcases lpScan_spec p s with ⟨h1, h2⟩ | ⟨i, h1, h2, h3, h4, _⟩
  · right
    refine ⟨h2, ?_⟩
    unfold lpStep at ht
    rw [h1] at ht
    dsimp only at ht
    unfold lpNone at ht
    split at ht
    · rename_i hIR
      cases ht
      congr 1
      cases s; dsimp only at hIR; subst hIR; rfl
    · rw [lpReinvert_eq p b s h] at ht
      dsimp only at ht
      unfold lpRescan at ht
      have : lpScan p { s with IR := 1 } = (0, none) := h1
      rw [this] at ht
      dsimp only at ht
      cases ht; rfl
  · left
    unfold lpStep at ht
    rw [h1] at ht
    dsimp only at ht
    rw [if_pos h2] at ht
    generalize hp : lpPivot p s i = x at ht
    cases x with
    | error e => cases ht
    | ok s' =>
      cases ht
      obtain ⟨r, e1, e2, e3⟩ := lpPivot_ok p s s' i hp
      exact ⟨s', i, r, rfl, h3, h4, h2, e1, e2, e3⟩

theorem lpPhaseEnd_next {m q : ℕ} (p : LpProb m q) (b : Fin (m + 1) → ℚ) (s s' : LpSt m q) (h : LpInv p b s)
    (hs : lpPhaseEnd p s = .next s') :
    LpInv p b s' ∧ s.IPH = 1 ∧ s'.IPH = 2 ∧ s'.IBAS = s.IBAS ∧ s'.BS = s.BS ∧ s'.TAB = s.TAB := by
  unfold lpPhaseEnd at hs
  split at hs
  · cases hs
  · rename_i hne
    rcases h.phase with ⟨h1, h2⟩ | ⟨h1, h2⟩
    · dsimp only at hs
      cases hs
      refine ⟨⟨h.inj, h.inv, h.bs, rfl, h.flag, Or.inr ⟨rfl, ?_⟩⟩, h1, rfl, rfl, rfl, rfl⟩
      funext j
      unfold cost2
      dsimp only
      rw [h2]
    · exact absurd h1 hne

theorem lpStep_next {m q : ℕ} (p : LpProb m q) (b : Fin (m + 1) → ℚ) (s s' : LpSt m q) (h : LpInv p b s)
    (hs : lpStep p b s = .ok (.next s')) : LpInv p b s' := by
  rcases lpStep_cases p b s h _ hs with ⟨s'', IND, r, e, h1, h2, h3, h4, h5, h6⟩ | ⟨_, e⟩
  · cases e; rw [h6]; exact exch_inv p b s h IND h2 r h5
  · exact (lpPhaseEnd_next p b _ s' (h.withIR 1) e.symm).1

theorem lpReach_inv {m q : ℕ} (p : LpProb m q) (IBAS : Fin (m + 1) → Fin q) (b : Fin (m + 1) → ℚ)
    (hu : UnitBasis p IBAS) (s : LpSt m q) (hr : LpReach p IBAS b s) : LpInv p b s := by
  induction hr with
  | start => exact lpStart_inv p IBAS b hu
  | step _ hs ih => exact lpStep_next p b _ _ ih hs

theorem lpLoop_reach {m q : ℕ} (p : LpProb m q) (IBAS : Fin (m + 1) → Fin q) (b : Fin (m + 1) → ℚ) (fuel : ℕ)
    (s t : LpSt m q) (hr : LpReach p IBAS b s) (h : lpLoop p b fuel s = some (.ok t)) :
    ∃ s', LpReach p IBAS b s' ∧ lpStep p b s' = .ok (.exit t) := by
  induction fuel generalizing s with
  | zero => cases h
  | succ f ih =>
    unfold lpLoop at h
    split at h
    · cases h
    · rename_i s1 hs; cases h; exact ⟨s, hr, hs⟩
    · rename_i s1 hs; exact ih s1 (.step hr hs) h

theorem lpStep_exit {m q : ℕ} (p : LpProb m q) (b : Fin (m + 1) → ℚ) (s t : LpSt m q) (h : LpInv p b s)
    (hs : lpStep p b s = .ok (.exit t)) : LpInv p b t ∧ NoEntry p t ∧ t.IPH = 2 := by
  rcases lpStep_cases p b s h _ hs with ⟨s'', IND, r, e, _⟩ | ⟨hn, e⟩
  · cases e
  · unfold lpPhaseEnd at e
    split at e
    · rename_i h2; cases e; exact ⟨h.withIR 1, hn, h2⟩
    · cases e

/-! ### The basic solution -/

theorem basic_cost {m q : ℕ} (c : Fin q → ℚ) (col : Fin m → Fin q) (val : Fin m → ℚ) :
    Spec.lpCost c (Spec.basicSol col val) = ∑ k, c (col k) * val k := by
  unfold Spec.lpCost Spec.basicSol
  simp_rw [Finset.mul_sum]
  rw [Finset.sum_comm]
  refine Finset.sum_congr rfl fun k _ => ?_
  rw [Finset.sum_eq_single (col k)]
  · rw [if_pos rfl]
  · intro j _ hj; rw [if_neg (Ne.symm hj), mul_zero]
  · intro h; exact absurd (Finset.mem_univ _) h

theorem basic_rows {m q : ℕ} (p : LpProb m q) (b : Fin (m + 1) → ℚ) (s : LpSt m q) (h : LpInv p b s) :
    p.A *ᵥ Spec.basicSol s.IBAS s.BS = b := by
  have h2 : basisOf p s.IBAS * s.TAB = 1 := mul_eq_one_comm.1 h.inv
  have h3 : b = basisOf p s.IBAS *ᵥ s.BS := by rw [h.bs, Matrix.mulVec_mulVec, h2, Matrix.one_mulVec]
  conv_rhs => rw [h3]
  funext r
  exact basic_cost (fun j => p.A r j) s.IBAS s.BS

theorem lpObj_eq {m q : ℕ} (p : LpProb m q) (b : Fin (m + 1) → ℚ) (s : LpSt m q) (h : LpInv p b s) :
    Spec.lpCost s.XOB (Spec.basicSol s.IBAS s.BS) = (s.CB ᵥ* s.TAB) ⬝ᵥ b := by
  rw [basic_cost, ← Matrix.dotProduct_mulVec, ← h.bs, h.cb]; rfl

/-- Every solution of the rows costs the basic solution's cost plus its reduced costs. -/
theorem lp_cost_diff {m q : ℕ} (p : LpProb m q) (b : Fin (m + 1) → ℚ) (s : LpSt m q) (h : LpInv p b s)
    (y : Fin q → ℚ) (hy : p.A *ᵥ y = b) :
    Spec.lpCost s.XOB y = Spec.lpCost s.XOB (Spec.basicSol s.IBAS s.BS) + ∑ j, redCost p s j * y j := by
  rw [lpObj_eq p b s h]
  conv_rhs => rw [← hy]
  rw [Matrix.dotProduct_mulVec]
  unfold Spec.lpCost
  rw [dotProduct, ← Finset.sum_add_distrib]
  refine Finset.sum_congr rfl fun j _ => ?_
  unfold redCost
  change _ = ((s.CB ᵥ* s.TAB) ⬝ᵥ fun r => p.A r j) * y j + _
  ring

theorem redCost_basic {m q : ℕ} (p : LpProb m q) (b : Fin (m + 1) → ℚ) (s : LpSt m q) (h : LpInv p b s)
    (k : Fin (m + 1)) : redCost p s (s.IBAS k) = 0 := by
  unfold redCost
  have : ((s.CB ᵥ* s.TAB) ⬝ᵥ fun r => p.A r (s.IBAS k)) = s.CB k := by
    change ((s.CB ᵥ* s.TAB) ᵥ* basisOf p s.IBAS) k = _
    rw [Matrix.vecMul_vecMul, h.inv, Matrix.vecMul_one]
  rw [this, h.cb, sub_self]

theorem noEntry_all {m q : ℕ} (p : LpProb m q) (b : Fin (m + 1) → ℚ) (s : LpSt m q) (h : LpInv p b s)
    (hn : NoEntry p s) (j : Fin q) (hj : j.val < p.N1) : -(1 / 10000000) < redCost p s j := by
  by_cases hf : s.IBASF j = 1
  · rw [h.flag] at hf
    by_cases hk : ∃ k, s.IBAS k = j
    · obtain ⟨k, rfl⟩ := hk; rw [redCost_basic p b s h]; norm_num
    · rw [if_neg hk] at hf; cases hf
  · exact hn j hj hf

theorem noEntry_opt {m q : ℕ} (p : LpProb m q) (b : Fin (m + 1) → ℚ) (s : LpSt m q) (h : LpInv p b s)
    (hn : NoEntry p s) (y : Fin q → ℚ) (hy : Spec.LpFeasible p.A b y) (h0 : ∀ j : Fin q, p.N1 ≤ j.val → y j = 0) :
    Spec.lpCost s.XOB (Spec.basicSol s.IBAS s.BS) ≤ Spec.lpCost s.XOB y + 1 / 10000000 * ∑ j, y j := by
  have : -(1 / 10000000) * ∑ j, y j ≤ ∑ j, redCost p s j * y j := by
    rw [Finset.mul_sum]
    refine Finset.sum_le_sum fun j _ => ?_
    by_cases hj : j.val < p.N1
    · exact mul_le_mul_of_nonneg_right (noEntry_all p b s h hn j hj).le (hy.2 j)
    · rw [h0 j (not_lt.1 hj)]; simp
  have e := lp_cost_diff p b s h y hy.1
  linarith

theorem lpCost_congr {q : ℕ} {c c' y : Fin q → ℚ} (h : ∀ j, y j ≠ 0 → c j = c' j) : Spec.lpCost c y = Spec.lpCost c' y := by
  unfold Spec.lpCost
  refine Finset.sum_congr rfl fun j _ => ?_
  by_cases hj : y j = 0
  · rw [hj, mul_zero, mul_zero]
  · rw [h j hj]

/-! ### The theorems -/

/-- **C41 (basis).** Whatever the pivots so far: the stored matrix is the inverse of the basis columns, which are
distinct, the stored solution is that inverse times the right hand side, and solves the rows. -/
theorem C41_basis {m q : ℕ} (p : LpProb m q) (IBAS : Fin (m + 1) → Fin q) (b : Fin (m + 1) → ℚ)
    (hu : ∀ r k, p.A r (IBAS k) = if r = k then 1 else 0) (s : LpSt m q) (hr : LpReach p IBAS b s) :
    Function.Injective s.IBAS ∧ s.TAB = (basisOf p s.IBAS)⁻¹ ∧ s.TAB * basisOf p s.IBAS = 1 ∧
      s.BS = s.TAB *ᵥ b ∧ p.A *ᵥ Spec.basicSol s.IBAS s.BS = b :=
  have h := lpReach_inv p IBAS b hu s hr
  ⟨h.inj, inv_unique h.inv, h.inv, h.bs, basic_rows p b s h⟩

/-- **C41 (no breakdown by inversion).** The factorisation never meets a singular basis. -/
theorem C41_reinvert {m q : ℕ} (p : LpProb m q) (IBAS : Fin (m + 1) → Fin q) (b : Fin (m + 1) → ℚ)
    (hu : ∀ r k, p.A r (IBAS k) = if r = k then 1 else 0) (s : LpSt m q) (hr : LpReach p IBAS b s) :
    lpReinvert p b s = .ok { s with IR := 1 } :=
  lpReinvert_eq p b s (lpReach_inv p IBAS b hu s hr)

/-- **C41 (optimality).** When the solver returns, its solution satisfies the rows, and no non-negative solution
without artificial columns is cheaper by more than `1e-7` times its size. (The artificial columns, those from `N1` on,
count with their cost of phase 1.) -/
theorem C41_optimal {m q : ℕ} (p : LpProb m q) (IBAS : Fin (m + 1) → Fin q) (b : Fin (m + 1) → ℚ)
    (hu : ∀ r k, p.A r (IBAS k) = if r = k then 1 else 0) (fuel : ℕ) (t : LpSt m q)
    (ht : linp p IBAS b fuel = some (.ok t)) :
    p.A *ᵥ Spec.basicSol t.IBAS t.BS = b ∧
    ∀ y, Spec.LpFeasible p.A b y → (∀ j : Fin q, p.N1 ≤ j.val → y j = 0) →
      Spec.lpCost (fun j => if j.val < p.N1 then p.XOBI 1 j else p.XOBI 0 j) (Spec.basicSol t.IBAS t.BS) ≤
        Spec.lpCost (p.XOBI 1) y + 1 / 10000000 * ∑ j, y j := by
  obtain ⟨s, hs, he⟩ := lpLoop_reach p IBAS b fuel _ t .start ht
  obtain ⟨h1, h2, h3⟩ := lpStep_exit p b s t (lpReach_inv p IBAS b hu s hs) he
  refine ⟨basic_rows p b t h1, fun y hy h0 => ?_⟩
  have hX : t.XOB = cost2 p := by
    rcases h1.phase with ⟨e, _⟩ | ⟨_, e⟩
    · rw [h3] at e; exact absurd e (by norm_num)
    · exact e
  have := noEntry_opt p b t h1 h2 y hy h0
  rw [hX] at this
  have e : Spec.lpCost (p.XOBI 1) y = Spec.lpCost (cost2 p) y := by
    refine lpCost_congr fun j hj => ?_
    unfold cost2
    by_cases hj' : j.val < p.N1
    · rw [if_pos hj']
    · exact absurd (h0 j (not_lt.1 hj')) hj
  rw [e]
  exact this

/-- **C41 (phase 1).** When phase 1 ends, the artificial columns cost no more than `1e-7` times the size of any
solution without artificial columns. -/
theorem C41_phase1 {m q : ℕ} (p : LpProb m q) (IBAS : Fin (m + 1) → Fin q) (b : Fin (m + 1) → ℚ)
    (hu : ∀ r k, p.A r (IBAS k) = if r = k then 1 else 0) (hc : ∀ j : Fin q, j.val < p.N1 → p.XOBI 0 j = 0)
    (s s' : LpSt m q) (hr : LpReach p IBAS b s) (hs : lpStep p b s = .ok (.next s')) (h1 : s.IPH = 1)
    (h2 : s'.IPH = 2) (y : Fin q → ℚ) (hy : Spec.LpFeasible p.A b y) (h0 : ∀ j : Fin q, p.N1 ≤ j.val → y j = 0) :
    Spec.lpCost (p.XOBI 0) (Spec.basicSol s'.IBAS s'.BS) ≤ 1 / 10000000 * ∑ j, y j := by
  have h := lpReach_inv p IBAS b hu s hr
  rcases lpStep_cases p b s h _ hs with ⟨s'', IND, r, e, g⟩ | ⟨hn, e⟩
  · cases e
    have : s'.IPH = s.IPH := by rw [g.2.2.2.2.2]; rfl
    rw [h1, h2] at this; exact absurd this (by norm_num)
  · obtain ⟨_, _, _, e1, e2, _⟩ := lpPhaseEnd_next p b _ s' (h.withIR 1) e.symm
    have hX : s.XOB = p.XOBI 0 := by
      rcases h.phase with ⟨_, e⟩ | ⟨e, _⟩
      · exact e
      · rw [h1] at e; exact absurd e (by norm_num)
    have := noEntry_opt p b s h hn y hy h0
    rw [e1, e2]
    change Spec.lpCost (p.XOBI 0) (Spec.basicSol s.IBAS s.BS) ≤ _
    rw [hX] at this
    have z : Spec.lpCost (p.XOBI 0) y = 0 := by
      unfold Spec.lpCost
      refine Finset.sum_eq_zero fun j _ => ?_
      by_cases hj : j.val < p.N1
      · rw [hc j hj, zero_mul]
      · rw [h0 j (not_lt.1 hj), mul_zero]
    rw [z, zero_add] at this
    exact this

/-- **C41 (descent).** A pass that changes the basis changes the cost by the (negative) reduced cost of the entering
column times the level at which it enters. -/
theorem C41_descent {m q : ℕ} (p : LpProb m q) (IBAS : Fin (m + 1) → Fin q) (b : Fin (m + 1) → ℚ)
    (hu : ∀ r k, p.A r (IBAS k) = if r = k then 1 else 0) (s s' : LpSt m q) (hr : LpReach p IBAS b s)
    (hs : lpStep p b s = .ok (.next s')) (hB : s'.IBAS ≠ s.IBAS) :
    ∃ r, redCost p s (s'.IBAS r) < 0 ∧ s'.XOB = s.XOB ∧ s'.IBAS = Function.update s.IBAS r (s'.IBAS r) ∧
      Spec.lpCost s'.XOB (Spec.basicSol s'.IBAS s'.BS) =
        Spec.lpCost s.XOB (Spec.basicSol s.IBAS s.BS) + redCost p s (s'.IBAS r) * s'.BS r := by
  have h := lpReach_inv p IBAS b hu s hr
  have h' := lpStep_next p b s s' h hs
  rcases lpStep_cases p b s h _ hs with ⟨s'', IND, r, e, g1, g2, g3, g4, g5, g6⟩ | ⟨hn, e⟩
  · cases e
    have eI : s'.IBAS = Function.update s.IBAS r IND := by rw [g6]; rfl
    have er : s'.IBAS r = IND := by rw [eI, Function.update_self]
    have eX : s'.XOB = s.XOB := by rw [g6]; rfl
    refine ⟨r, by rw [er]; exact g3, eX, by rw [er]; exact eI, ?_⟩
    rw [eX, lp_cost_diff p b s h _ (basic_rows p b s' h')]
    congr 1
    have : ∑ j, redCost p s j * Spec.basicSol s'.IBAS s'.BS j = ∑ k, redCost p s (s'.IBAS k) * s'.BS k :=
      basic_cost _ _ _
    rw [this, Finset.sum_eq_single r]
    · intro k _ hk
      rw [eI, Function.update_of_ne hk, redCost_basic p b s h, zero_mul]
    · intro hh; exact absurd (Finset.mem_univ _) hh
  · obtain ⟨_, _, _, e1, _⟩ := lpPhaseEnd_next p b _ s' (h.withIR 1) e.symm
    exact absurd e1 hB

/-! ### Feasibility -/

/-- A level below `1e-13` counts as 0. -/
def lpLevel {m q : ℕ} (s : LpSt m q) (i : Fin (m + 1)) : ℚ := if |s.BS i| ≥ 1 / 10000000000000 then s.BS i else 0

theorem lpLevel_nonneg {m q : ℕ} (s : LpSt m q) (i : Fin (m + 1)) (h : 0 ≤ s.BS i) : 0 ≤ lpLevel s i := by
  unfold lpLevel; split
  · exact h
  · exact le_refl _

theorem ratio_fold {m q : ℕ} (s : LpSt m q) (h0 : ∀ i, 0 ≤ s.BS i) (P : Fin (m + 1) → ℚ) (l : List (Fin (m + 1)))
    (t : Option ℚ × Option (Fin (m + 1)))
    (ht : t.1 = none ∨ ∃ k, 1 / 10000000 < P k ∧ t = (some (lpLevel s k / P k), some k)) :
    let u := l.foldl (ratioStep s P) t
    ((u = t ∧ ∀ i ∈ l, t.1 = none → P i ≤ 1 / 10000000) ∨
      ∃ k, 1 / 10000000 < P k ∧ u = (some (lpLevel s k / P k), some k)) ∧
    (∀ k, u = (some (lpLevel s k / P k), some k) → 1 / 10000000 < P k →
      (∀ i ∈ l, 1 / 10000000 < P i → lpLevel s k / P k ≤ lpLevel s i / P i) ∧
      (∀ R, t.1 = some R → lpLevel s k / P k ≤ R)) := by
  induction l generalizing t with
  | nil =>
    refine ⟨Or.inl ⟨rfl, by simp⟩, fun k hk _ => ⟨by simp, fun R hR => ?_⟩⟩
    change t = _ at hk
    rw [hk] at hR
    simp only [Option.some.injEq] at hR
    exact hR.le
  | cons x l ih =>
    have key : ((ratioStep s P t x = t ∧ (t.1 = none → P x ≤ 1 / 10000000)) ∨
        ∃ k, 1 / 10000000 < P k ∧ ratioStep s P t x = (some (lpLevel s k / P k), some k)) ∧
        (∀ R, (ratioStep s P t x).1 = some R → (1 / 10000000 < P x → R ≤ lpLevel s x / P x) ∧
          ∀ R', t.1 = some R' → R ≤ R') := by
      unfold ratioStep
      by_cases hx : P x > 1 / 10000000
      · rw [if_pos hx]
        change (((match t.1 with
          | none => (some (lpLevel s x / P x), some x)
          | some RAT1 => if lpLevel s x / P x < RAT1 then (some (lpLevel s x / P x), some x)
            else if s.IPH ≠ 2 ∧ s.BS x = 0 ∧ s.XOB (s.IBAS x) = 1 then (some RAT1, some x) else t) = t ∧ _) ∨ _) ∧ _
        rcases ht with hn | ⟨k, hk, ht⟩
        · rw [hn]
          refine ⟨Or.inr ⟨x, hx, ?_⟩, ?_⟩
          · rfl
          · intro R hR
            have : lpLevel s x / P x = R := Option.some.inj hR
            exact ⟨fun _ => this.symm.le, by simp⟩
        · rw [ht]
          dsimp only
          change (_ ∨ ∃ k', 1 / 10000000 < P k' ∧ (if lpLevel s x / P x < lpLevel s k / P k then
              (some (lpLevel s x / P x), some x)
            else if s.IPH ≠ 2 ∧ s.BS x = 0 ∧ s.XOB (s.IBAS x) = 1 then (some (lpLevel s k / P k), some x)
            else (some (lpLevel s k / P k), some k)) = (some (lpLevel s k' / P k'), some k')) ∧
            ∀ R, (if lpLevel s x / P x < lpLevel s k / P k then
              (some (lpLevel s x / P x), some x)
            else if s.IPH ≠ 2 ∧ s.BS x = 0 ∧ s.XOB (s.IBAS x) = 1 then (some (lpLevel s k / P k), some x)
            else (some (lpLevel s k / P k), some k)).1 = some R → _
          by_cases h1 : lpLevel s x / P x < lpLevel s k / P k
          · rw [if_pos h1]
            refine ⟨Or.inr ⟨x, hx, rfl⟩, ?_⟩
            intro R hR
            have : lpLevel s x / P x = R := by simpa using hR
            refine ⟨fun _ => this.symm.le, fun R' hR' => ?_⟩
            have : lpLevel s k / P k = R' := by simpa using hR'
            linarith
          · rw [if_neg h1]
            have hle : ∀ R, lpLevel s k / P k = R → (1 / 10000000 < P x → R ≤ lpLevel s x / P x) ∧
                ∀ R', some (lpLevel s k / P k) = some R' → R ≤ R' := by
              intro R hR
              refine ⟨fun _ => by rw [← hR]; exact not_lt.1 h1, fun R' hR' => ?_⟩
              have : lpLevel s k / P k = R' := by simpa using hR'
              linarith
            by_cases h2 : s.IPH ≠ 2 ∧ s.BS x = 0 ∧ s.XOB (s.IBAS x) = 1
            · rw [if_pos h2]
              have z : lpLevel s x = 0 := by unfold lpLevel; rw [h2.2.1]; split <;> rfl
              have zk : lpLevel s k / P k = lpLevel s x / P x := by
                have a : 0 ≤ lpLevel s k / P k := div_nonneg (lpLevel_nonneg s k (h0 k)) (by linarith)
                rw [z, zero_div] at h1 ⊢
                exact le_antisymm (not_lt.1 h1) a
              refine ⟨Or.inr ⟨x, hx, by rw [zk]⟩, fun R hR => hle R (by simpa using hR)⟩
            · rw [if_neg h2]
              refine ⟨Or.inr ⟨k, hk, rfl⟩, fun R hR => hle R (by simpa using hR)⟩
      · rw [if_neg hx]
        refine ⟨Or.inl ⟨rfl, fun _ => not_lt.1 hx⟩, fun R hR => ⟨fun h => absurd h hx, fun R' hR' => ?_⟩⟩
        rw [hR] at hR'
        simp only [Option.some.injEq] at hR'
        exact hR'.le
    obtain ⟨k1, k2⟩ := key
    have hs' : (ratioStep s P t x).1 = none ∨
        ∃ k, 1 / 10000000 < P k ∧ ratioStep s P t x = (some (lpLevel s k / P k), some k) := by
      rcases k1 with ⟨e, _⟩ | h
      · rw [e]; exact ht
      · exact Or.inr h
    obtain ⟨i1, i2⟩ := ih _ hs'
    rw [List.foldl_cons]
    refine ⟨?_, ?_⟩
    · rcases i1 with ⟨e, hl⟩ | h
      · rcases k1 with ⟨e', hx⟩ | ⟨k, hk, e'⟩
        · left
          refine ⟨e.trans e', fun i hi hn => ?_⟩
          rcases List.mem_cons.1 hi with rfl | hi
          · exact hx hn
          · exact hl i hi (by rw [e']; exact hn)
        · exact Or.inr ⟨k, hk, e.trans e'⟩
      · exact Or.inr h
    · intro k hk hPk
      obtain ⟨j1, j2⟩ := i2 k hk hPk
      refine ⟨fun i hi hPi => ?_, fun R hR => ?_⟩
      · rcases List.mem_cons.1 hi with rfl | hi
        · cases hq : (ratioStep s P t i).1 with
          | none =>
            rcases k1 with ⟨e', hx⟩ | ⟨k', hk', e'⟩
            · rw [e'] at hq; exact absurd hPi (not_lt.2 (hx hq))
            · rw [e'] at hq; cases hq
          | some R => exact (j2 R hq).trans ((k2 R hq).1 hPi)
        · exact j1 i hi hPi
      · cases hq : (ratioStep s P t x).1 with
        | none =>
          rcases k1 with ⟨e', hx⟩ | ⟨k', hk', e'⟩
          · rw [e', hR] at hq; cases hq
          · rw [e'] at hq; cases hq
        | some R1 => exact (j2 R1 hq).trans ((k2 R1 hq).2 R hR)

/-- The leaving row has the least ratio among those with an entry above `1e-7`, if there is one. -/
theorem lpRatio_min {m q : ℕ} (s : LpSt m q) (h0 : ∀ i, 0 ≤ s.BS i) (P : Fin (m + 1) → ℚ) (r : Fin (m + 1))
    (hr : lpRatio s P = some r) (hex : ∃ i, 1 / 10000000 < P i) :
    1 / 10000000 < P r ∧ ∀ i, 1 / 10000000 < P i → lpLevel s r / P r ≤ lpLevel s i / P i := by
  obtain ⟨h1, h2⟩ := ratio_fold s h0 P (List.finRange (m + 1)) (none, s.IPIV) (Or.inl rfl)
  obtain ⟨i, hi⟩ := hex
  rcases h1 with ⟨_, h⟩ | ⟨k, hk, e⟩
  · exact absurd hi (not_lt.2 (h i (List.mem_finRange _) rfl))
  · have : k = r := by
      unfold lpRatio at hr
      rw [show List.foldl (ratioStep s P) (none, s.IPIV) (List.finRange (m + 1)) = _ from e] at hr
      simpa using hr
    subst this
    exact ⟨hk, fun i hi => (h2 k e hk).1 i (List.mem_finRange _) hi⟩

/-- **C41 (feasibility, with the tolerances).** If the solution is non-negative and the entering column has an entry
above `1e-7`, then after the pivot the entering column has a non-negative level, and no other level is below
`-1e-7` times it less `1e-13` times the ratio of the column's entries. -/
theorem C41_feasible {m q : ℕ} (p : LpProb m q) (IBAS : Fin (m + 1) → Fin q) (b : Fin (m + 1) → ℚ)
    (hu : ∀ r k, p.A r (IBAS k) = if r = k then 1 else 0) (s s' : LpSt m q) (hr : LpReach p IBAS b s)
    (hs : lpStep p b s = .ok (.next s')) (hB : s'.IBAS ≠ s.IBAS) (h0 : ∀ i, 0 ≤ s.BS i) :
    ∃ r, ∃ P : Fin (m + 1) → ℚ, P = s.TAB *ᵥ (fun i => p.A i (s'.IBAS r)) ∧ (∀ k, k ≠ r → s'.IBAS k = s.IBAS k) ∧
      ((∃ i, 1 / 10000000 < P i) → 1 / 10000000 < P r ∧ 0 ≤ s'.BS r ∧
        ∀ i, i ≠ r → -(1 / 10000000) * s'.BS r - 1 / 10000000000000 * (|P i| / P r) ≤ s'.BS i ∧
          ((P i ≤ 0 ∨ 1 / 10000000 < P i) → (∀ k, s.BS k = 0 ∨ 1 / 10000000000000 ≤ s.BS k) → 0 ≤ s'.BS i)) := by
  have h := lpReach_inv p IBAS b hu s hr
  rcases lpStep_cases p b s h _ hs with ⟨s'', IND, r, e, g1, g2, g3, g4, g5, g6⟩ | ⟨hn, e⟩
  · cases e
    have eI : s'.IBAS = Function.update s.IBAS r IND := by rw [g6]; rfl
    have er : s'.IBAS r = IND := by rw [eI, Function.update_self]
    refine ⟨r, lpColumn p s IND, by rw [er]; rfl, fun k hk => by rw [eI, Function.update_of_ne hk], fun hex => ?_⟩
    obtain ⟨hPr, hmin⟩ := lpRatio_min s h0 _ r g4 hex
    generalize lpColumn p s IND = P at *
    have hP0 : 0 < P r := by linarith
    have hb : ∀ i, s'.BS i = if i = r then s.BS r / P r else s.BS i - s.BS r * P i / P r := by
      intro i; rw [g6]; exact exch_BS s P IND r i
    have hbr : s'.BS r = s.BS r / P r := by rw [hb, if_pos rfl]
    have hbr0 : 0 ≤ s'.BS r := by rw [hbr]; exact div_nonneg (h0 r) hP0.le
    refine ⟨hPr, hbr0, fun i hi => ?_⟩
    have hbi : s'.BS i = s.BS i - s'.BS r * P i := by rw [hb, if_neg hi, hbr]; ring
    have hlow : s.BS r ≤ lpLevel s r + 1 / 10000000000000 := by
      unfold lpLevel; split
      · norm_num
      · rename_i hh; rw [abs_of_nonneg (h0 r), not_le] at hh; linarith
    have hup : ∀ k, lpLevel s k ≤ s.BS k := by
      intro k; unfold lpLevel; split
      · exact le_refl _
      · exact h0 k
    have habs : 0 ≤ |P i| / P r := div_nonneg (abs_nonneg _) hP0.le
    constructor
    · rw [hbi]
      by_cases c1 : P i ≤ 0
      · have := mul_nonneg hbr0 (neg_nonneg.2 c1)
        have := h0 i
        have : 0 ≤ 1 / 10000000000000 * (|P i| / P r) := mul_nonneg (by norm_num) habs
        linarith
      · have c1 := not_le.1 c1
        by_cases c2 : 1 / 10000000 < P i
        · have hm := hmin i c2
          rw [div_le_div_iff₀ hP0 c1] at hm
          rw [abs_of_pos c1, hbr]
          have e1 : s.BS r / P r * P i ≤ (lpLevel s r + 1 / 10000000000000) / P r * P i :=
            mul_le_mul_of_nonneg_right (div_le_div_of_nonneg_right hlow hP0.le) c1.le
          have e2 : (lpLevel s r + 1 / 10000000000000) / P r * P i =
              lpLevel s r * P i / P r + 1 / 10000000000000 * (P i / P r) := by ring
          have e3 : lpLevel s r * P i / P r ≤ lpLevel s i := by rw [div_le_iff₀ hP0]; exact hm
          have e4 := hup i
          have e5 : 0 ≤ s.BS r / P r := div_nonneg (h0 r) hP0.le
          have e6 : 0 ≤ 1 / 10000000 * (s.BS r / P r) := mul_nonneg (by norm_num) e5
          linarith
        · have : s'.BS r * P i ≤ s'.BS r * (1 / 10000000) := mul_le_mul_of_nonneg_left (not_lt.1 c2) hbr0
          have := h0 i
          have : 0 ≤ 1 / 10000000000000 * (|P i| / P r) := mul_nonneg (by norm_num) habs
          linarith
    · intro hPi hsz
      rw [hbi]
      have hL : ∀ k, lpLevel s k = s.BS k := by
        intro k; unfold lpLevel
        rcases hsz k with hk | hk
        · rw [hk]; split <;> rfl
        · rw [if_pos]; rw [abs_of_nonneg (h0 k)]; exact hk
      rcases hPi with c1 | c2
      · have := mul_nonneg hbr0 (neg_nonneg.2 c1)
        have := h0 i
        linarith
      · have c1 : 0 < P i := by linarith
        have hm := hmin i c2
        rw [hL, hL, div_le_div_iff₀ hP0 c1] at hm
        have e3 : s'.BS r * P i ≤ s.BS i := by
          rw [hbr, div_mul_eq_mul_div, div_le_iff₀ hP0]; exact hm
        linarith
  · obtain ⟨_, _, _, e1, _⟩ := lpPhaseEnd_next p b _ s' (h.withIR 1) e.symm
    exact absurd e1 hB

/-! ### Termination -/

theorem lpLoop_none {m q : ℕ} (p : LpProb m q) (b : Fin (m + 1) → ℚ) (s : LpSt m q)
    (h : ∀ fuel, lpLoop p b fuel s = none) : ∃ s', lpStep p b s = .ok (.next s') ∧ ∀ fuel, lpLoop p b fuel s' = none := by
  have h1 := h 1
  cases hs : lpStep p b s with
  | error e => simp [lpLoop, hs] at h1
  | ok t =>
    cases t with
    | exit t => simp [lpLoop, hs] at h1
    | next t =>
      refine ⟨t, rfl, fun fuel => ?_⟩
      have := h (fuel + 1)
      simpa [lpLoop, hs] using this

/-- The states of an execution, one after the other. -/
noncomputable def lpSeq {m q : ℕ} (p : LpProb m q) (b : Fin (m + 1) → ℚ) (s : LpSt m q) : ℕ → LpSt m q
  | 0 => s
  | n + 1 => match lpStep p b (lpSeq p b s n) with
    | .ok (.next s') => s'
    | _ => lpSeq p b s n

theorem lpSeq_step {m q : ℕ} (p : LpProb m q) (b : Fin (m + 1) → ℚ) (s : LpSt m q)
    (h : ∀ fuel, lpLoop p b fuel s = none) (n : ℕ) :
    lpStep p b (lpSeq p b s n) = .ok (.next (lpSeq p b s (n + 1))) ∧ ∀ fuel, lpLoop p b fuel (lpSeq p b s n) = none := by
  have key : ∀ n, (∀ fuel, lpLoop p b fuel (lpSeq p b s n) = none) →
      lpStep p b (lpSeq p b s n) = .ok (.next (lpSeq p b s (n + 1))) ∧
        ∀ fuel, lpLoop p b fuel (lpSeq p b s (n + 1)) = none := by
    intro n hn
    obtain ⟨s', h1, h2⟩ := lpLoop_none p b _ hn
    have e : lpSeq p b s (n + 1) = s' := by rw [lpSeq, h1]
    rw [e]; exact ⟨h1, h2⟩
  have all : ∀ n, ∀ fuel, lpLoop p b fuel (lpSeq p b s n) = none := by
    intro n
    induction n with
    | zero => exact h
    | succ n ih => exact (key n ih).2
  exact ⟨(key n (all n)).1, all n⟩

/-- **C41 (termination, partial).** If every pivot brings its column in at a positive level, the solver stops, within a
number of passes no input makes infinite. (With levels of 0 it need not: `C41_terminates_refuted`.) -/
theorem C41_terminates_partial {m q : ℕ} (p : LpProb m q) (IBAS : Fin (m + 1) → Fin q) (b : Fin (m + 1) → ℚ)
    (hu : ∀ r k, p.A r (IBAS k) = if r = k then 1 else 0)
    (hnd : ∀ s s', LpReach p IBAS b s → lpStep p b s = .ok (.next s') →
      ∀ r, s'.IBAS r ≠ s.IBAS r → 0 < s'.BS r) :
    ∃ fuel, linp p IBAS b fuel ≠ none := by
  by_contra hne
  push Not at hne
  set S := lpSeq p b (lpStart p IBAS b) with hS
  have hstep : ∀ n, lpStep p b (S n) = .ok (.next (S (n + 1))) := fun n => (lpSeq_step p b _ hne n).1
  have hreach : ∀ n, LpReach p IBAS b (S n) := by
    intro n
    induction n with
    | zero => exact .start
    | succ n ih => exact .step ih (hstep n)
  have hinv : ∀ n, LpInv p b (S n) := fun n => lpReach_inv p IBAS b hu _ (hreach n)
  let obj : ℕ → ℚ := fun n => Spec.lpCost (S n).XOB (Spec.basicSol (S n).IBAS (S n).BS)
  -- one pass: either the phase goes from 1 to 2, or the cost falls
  have one : ∀ n, ((S n).IPH = 1 ∧ (S (n + 1)).IPH = 2) ∨ ((S (n + 1)).IPH = (S n).IPH ∧ obj (n + 1) < obj n) := by
    intro n
    have h := hinv n
    have h' := hinv (n + 1)
    rcases lpStep_cases p b _ h _ (hstep n) with ⟨s'', IND, r, e, g1, g2, g3, g4, g5, g6⟩ | ⟨hn, e⟩
    · right
      injection e with e
      subst e
      have eI : (S (n + 1)).IBAS = Function.update (S n).IBAS r IND := by rw [g6]; rfl
      have er : (S (n + 1)).IBAS r = IND := by rw [eI, Function.update_self]
      have hne' : (S (n + 1)).IBAS r ≠ (S n).IBAS r := by
        rw [er]; intro hh
        apply g2
        rw [h.flag, if_pos ⟨r, hh.symm⟩]
      obtain ⟨r', d1, d2, d3, d4⟩ := C41_descent p IBAS b hu _ _ (hreach n) (hstep n)
        (fun hh => hne' (congrFun hh r))
      refine ⟨by rw [g6]; rfl, ?_⟩
      have hr' : r' = r := by
        by_contra hh
        have := congrFun d3 r
        rw [Function.update_of_ne (Ne.symm hh)] at this
        exact hne' this
      subst hr'
      change Spec.lpCost _ _ < Spec.lpCost _ _
      rw [d4]
      have := mul_neg_of_neg_of_pos d1 (hnd _ _ (hreach n) (hstep n) r' hne')
      linarith
    · left
      obtain ⟨_, e1, e2, _⟩ := lpPhaseEnd_next p b _ _ (h.withIR 1) e.symm
      exact ⟨e1, e2⟩
  -- from some pass on, the phase is constant
  have hph : ∃ n0, ∀ n, n0 ≤ n → (S n).IPH = (S n0).IPH := by
    by_cases hc : ∃ n, (S n).IPH = 2
    · obtain ⟨n0, h0⟩ := hc
      refine ⟨n0, fun n hn => ?_⟩
      induction n, hn using Nat.le_induction with
      | base => rfl
      | succ n _ ih =>
        rcases one n with ⟨a, _⟩ | ⟨a, _⟩
        · rw [ih, h0] at a; exact absurd a (by norm_num)
        · rw [a, ih]
    · push Not at hc
      refine ⟨0, fun n _ => ?_⟩
      have : ∀ n, (S n).IPH = 1 := fun n => by
        rcases (hinv n).phase with ⟨a, _⟩ | ⟨a, _⟩
        · exact a
        · exact absurd a (hc n)
      rw [this, this]
  obtain ⟨n0, hn0⟩ := hph
  have hdec : ∀ n, n0 ≤ n → obj (n + 1) < obj n := by
    intro n hn
    rcases one n with ⟨a, a'⟩ | ⟨_, a⟩
    · have := hn0 n hn
      have := hn0 (n + 1) (by omega)
      rw [a'] at this
      rw [hn0 n hn, ← this] at a
      exact absurd a (by norm_num)
    · exact a
  have hanti : ∀ k l, obj (n0 + (k + l + 1)) < obj (n0 + k) := by
    intro k l
    induction l with
    | zero => exact hdec (n0 + k) (Nat.le_add_right _ _)
    | succ l ih => exact lt_trans (hdec (n0 + (k + l + 1)) (Nat.le_add_right _ _)) ih
  -- two passes with the same basis have the same cost
  obtain ⟨x, y, hxy, hI⟩ := Finite.exists_ne_map_eq_of_infinite (fun k : ℕ => (S (n0 + k)).IBAS)
  have same : ∀ x y, (S (n0 + x)).IBAS = (S (n0 + y)).IBAS → obj (n0 + x) = obj (n0 + y) := by
    intro x y hI
    have e1 := inv_unique (hinv (n0 + x)).inv
    have e2 := inv_unique (hinv (n0 + y)).inv
    have e3 : (S (n0 + x)).TAB = (S (n0 + y)).TAB := by rw [e1, e2, hI]
    have e4 : (S (n0 + x)).BS = (S (n0 + y)).BS := by rw [(hinv (n0 + x)).bs, (hinv (n0 + y)).bs, e3]
    have p1 := hn0 (n0 + x) (by omega)
    have p2 := hn0 (n0 + y) (by omega)
    have e5 : (S (n0 + x)).XOB = (S (n0 + y)).XOB := by
      rcases (hinv (n0 + x)).phase with ⟨a, b1⟩ | ⟨a, b1⟩ <;> rcases (hinv (n0 + y)).phase with ⟨c, d⟩ | ⟨c, d⟩
      · rw [b1, d]
      · rw [a] at p1; rw [c] at p2; rw [← p1] at p2; exact absurd p2 (by norm_num)
      · rw [a] at p1; rw [c] at p2; rw [← p1] at p2; exact absurd p2 (by norm_num)
      · rw [b1, d]
    change Spec.lpCost _ _ = Spec.lpCost _ _
    rw [hI, e4, e5]
  rcases Nat.lt_or_gt_of_ne hxy with hlt | hlt
  · have := hanti x (y - x - 1)
    rw [show x + (y - x - 1) + 1 = y by omega, same y x hI.symm] at this
    exact absurd this (lt_irrefl _)
  · have := hanti y (x - y - 1)
    rw [show y + (x - y - 1) + 1 = x by omega, same x y hI] at this
    exact absurd this (lt_irrefl _)

/-! ### Where the solver fails -/

/-- Equality of two states, as a test. -/
def lpSame {m q : ℕ} (s t : LpSt m q) : Bool :=
  decide (s.TAB = t.TAB) && decide (s.BS = t.BS) && decide (s.CB = t.CB) && decide (s.IBAS = t.IBAS) &&
    decide (s.IBASF = t.IBASF) && decide (s.XOB = t.XOB) && decide (s.IPH = t.IPH) && decide (s.IR = t.IR) &&
    decide (s.IPIV = t.IPIV)

theorem lpSame_eq {m q : ℕ} {s t : LpSt m q} (h : lpSame s t = true) : s = t := by
  unfold lpSame at h
  simp only [Bool.and_eq_true, decide_eq_true_eq] at h
  cases s; cases t
  obtain ⟨⟨⟨⟨⟨⟨⟨⟨h1, h2⟩, h3⟩, h4⟩, h5⟩, h6⟩, h7⟩, h8⟩, h9⟩ := h
  dsimp only at *
  subst h1 h2 h3 h4 h5 h6 h7 h8 h9
  rfl

/-- The pass from `s` leads to `t`, as a test. -/
def lpNextIs {m q : ℕ} (p : LpProb m q) (b : Fin (m + 1) → ℚ) (s t : LpSt m q) : Bool :=
  match lpStep p b s with
  | .ok (.next u) => lpSame u t
  | _ => false

theorem lpNextIs_eq {m q : ℕ} {p : LpProb m q} {b : Fin (m + 1) → ℚ} {s t : LpSt m q}
    (h : lpNextIs p b s t = true) : lpStep p b s = .ok (.next t) := by
  unfold lpNextIs at h
  split at h
  · rename_i u hu; rw [hu, lpSame_eq h]
  · cases h

/-- Beale's linear program. -/
def beale : LpProb 2 7 where
  A := !![1, 0, 0, 1/4, -8, -1, 9; 0, 1, 0, 1/2, -12, -1/2, 3; 0, 0, 1, 0, 0, 1, 0]
  XOBI := ![fun _ => 0, ![0, 0, 0, -3/4, 20, -1/2, 6]]
  N1 := 7

/-- The states of phase 2 on it. -/
def bealeSt (TAB : SqM 3) (IBAS : Fin 3 → Fin 7) (IR : ℤ) (IPIV : Option (Fin 3)) : LpSt 2 7 where
  TAB := TAB
  BS := ![0, 0, 1]
  CB := fun k => ![0, 0, 0, -3/4, 20, -1/2, 6] (IBAS k)
  IBAS := IBAS
  IBASF := fun j => if ∃ k, IBAS k = j then 1 else 0
  XOB := ![0, 0, 0, -3/4, 20, -1/2, 6]
  IPH := 2
  IR := IR
  IPIV := IPIV

/-- The six states it cycles through. -/
def bealeSts : Fin 6 → LpSt 2 7 := ![
  bealeSt !![4, 0, 0; -2, 1, 0; 0, 0, 1] ![3, 1, 2] 0 (some 0),
  bealeSt !![-12, 8, 0; -1/2, 1/4, 0; 0, 0, 1] ![3, 4, 2] 0 (some 1),
  bealeSt !![-3/2, 1, 0; 1/16, -1/8, 0; 3/2, -1, 1] ![5, 4, 2] 0 (some 0),
  bealeSt !![2, -6, 0; 1/3, -2/3, 0; -2, 6, 1] ![5, 6, 2] 0 (some 1),
  bealeSt !![1, -3, 0; 0, 1/3, 0; 0, 0, 1] ![0, 6, 2] 0 (some 0),
  bealeSt 1 ![0, 1, 2] 0 (some 1)]

theorem beale_cycle (k : Fin 6) : lpStep beale ![0, 0, 1] (bealeSts k) = .ok (.next (bealeSts (k + 1))) := by
  have : ∀ k, lpNextIs beale ![0, 0, 1] (bealeSts k) (bealeSts (k + 1)) = true := by decide +kernel
  exact lpNextIs_eq (this k)

theorem beale_start1 : lpStep beale ![0, 0, 1] (lpStart beale ![0, 1, 2] ![0, 0, 1]) =
    .ok (.next (bealeSt 1 ![0, 1, 2] 1 none)) := lpNextIs_eq (by decide +kernel)

theorem beale_start2 : lpStep beale ![0, 0, 1] (bealeSt 1 ![0, 1, 2] 1 none) = .ok (.next (bealeSts 0)) :=
  lpNextIs_eq (by decide +kernel)

/-- **C41 (termination, refuted).** There is a linear program, with a non-negative right hand side, an identity to
start from and an optimum, on which the solver never stops. -/
theorem C41_terminates_refuted :
    ∃ (p : LpProb 2 7) (IBAS : Fin 3 → Fin 7) (b : Fin 3 → ℚ),
      (∀ r k, p.A r (IBAS k) = if r = k then 1 else 0) ∧ (∀ i, 0 ≤ b i) ∧
      (∃ x, Spec.LpFeasible p.A b x ∧ ∀ y, Spec.LpFeasible p.A b y → Spec.lpCost (p.XOBI 1) x ≤ Spec.lpCost (p.XOBI 1) y) ∧
      ∀ fuel, linp p IBAS b fuel = none := by
  refine ⟨beale, ![0, 1, 2], ![0, 0, 1], by decide +kernel, by decide +kernel, ?_, ?_⟩
  · refine ⟨![3 / 4, 0, 0, 1, 0, 1, 0], ⟨by decide +kernel, by decide +kernel⟩, fun y hy => ?_⟩
    have e : Spec.lpCost (beale.XOBI 1) ![3 / 4, 0, 0, 1, 0, 1, 0] = -5 / 4 := by
      unfold Spec.lpCost; decide +kernel
    have r1 := congrFun hy.1 1
    have r2 := congrFun hy.1 2
    have hy2 := hy.2
    rw [e]
    simp only [Matrix.mulVec, dotProduct, beale, Fin.sum_univ_succ, Matrix.of_apply, Spec.lpCost] at r1 r2 ⊢
    simp [Fin.succ] at r1 r2 ⊢
    have := hy2 1; have := hy2 2; have := hy2 4; have := hy2 6; have := hy2 5
    linarith
  · have cyc : ∀ fuel k, lpLoop beale ![0, 0, 1] fuel (bealeSts k) = none := by
      intro fuel
      induction fuel with
      | zero => intro k; rfl
      | succ f ih => intro k; unfold lpLoop; rw [beale_cycle]; exact ih _
    intro fuel
    match fuel with
    | 0 => rfl
    | 1 => unfold linp lpLoop; rw [beale_start1]; rfl
    | f + 2 =>
      unfold linp lpLoop; rw [beale_start1]; dsimp only
      unfold lpLoop; rw [beale_start2]; exact cyc _ _

/-- A column with an entry of `5e-8`. -/
def lpTiny : LpProb 1 3 := ⟨!![1, 0, 1; 0, 1, 1/20000000], ![fun _ => 0, ![0, 0, -1]], 3⟩

/-- **C41 (feasibility, refuted).** Entries up to `1e-7` are ignored in the choice of the row: from a non-negative
start the solver can return a solution with a negative level, far from 0. -/
theorem C41_feasible_refuted :
    ∃ (p : LpProb 1 3) (IBAS : Fin 2 → Fin 3) (b : Fin 2 → ℚ),
      (∀ r k, p.A r (IBAS k) = if r = k then 1 else 0) ∧ (∀ i, 0 ≤ b i) ∧
      ∃ fuel t, linp p IBAS b fuel = some (.ok t) ∧ t.BS 1 = -49 := by
  refine ⟨lpTiny, ![0, 1], ![1000000000, 1], by decide +kernel, by decide +kernel, 6, ?_⟩
  have h : (match linp lpTiny ![0, 1] ![1000000000, 1] 6 with
    | some (.ok t) => decide (t.BS 1 = -49)
    | _ => false) = true := by decide +kernel
  split at h
  · rename_i t ht; exact ⟨t, ht, by simpa using h⟩
  · cases h

/-- An unbounded program met after a first pivot. -/
def lpUnb : LpProb 1 4 := ⟨!![1, 0, 1, -1; 0, 1, 0, -1], ![fun _ => 0, ![0, 0, -2, -1]], 4⟩

/-- **C41 (unbounded programs).** An unbounded program is not reported: before the first pivot the solver dies of an
unset variable, later it pivots on the row of the previous pivot and makes the solution negative. -/
theorem C41_unbounded_refuted :
    (∃ (p : LpProb 0 2) (b : Fin 1 → ℚ), linp p ![0] b 6 = some (.error .unboundLocal)) ∧
    (∃ s, LpReach lpUnb ![0, 1] ![1, 1] s ∧ s.BS 0 = -1) := by
  constructor
  · refine ⟨⟨!![1, -1], ![fun _ => 0, ![0, -1]], 2⟩, ![1], ?_⟩
    have h : (match linp (m := 0) (q := 2) ⟨!![1, -1], ![fun _ => 0, ![0, -1]], 2⟩ ![0] ![1] 6 with
      | some (.error .unboundLocal) => true
      | _ => false) = true := by decide +kernel
    split at h
    · rename_i ht; exact ht
    · cases h
  · have h1 : lpStep lpUnb ![1, 1] (lpStart lpUnb ![0, 1] ![1, 1]) = .ok (.next
        ⟨1, ![1, 1], ![0, 0], ![0, 1], ![1, 1, 0, 0], ![0, 0, -2, -1], 2, 1, none⟩) := lpNextIs_eq (by decide +kernel)
    have h2 : lpStep lpUnb ![1, 1] ⟨1, ![1, 1], ![0, 0], ![0, 1], ![1, 1, 0, 0], ![0, 0, -2, -1], 2, 1, none⟩ =
        .ok (.next ⟨1, ![1, 1], ![-2, 0], ![2, 1], ![0, 1, 1, 0], ![0, 0, -2, -1], 2, 0, some 0⟩) :=
      lpNextIs_eq (by decide +kernel)
    have h3 : lpStep lpUnb ![1, 1] ⟨1, ![1, 1], ![-2, 0], ![2, 1], ![0, 1, 1, 0], ![0, 0, -2, -1], 2, 0, some 0⟩ =
        .ok (.next ⟨!![-1, 0; -1, 1], ![-1, 0], ![-1, 0], ![3, 1], ![0, 1, 0, 1], ![0, 0, -2, -1], 2, 0, some 0⟩) :=
      lpNextIs_eq (by decide +kernel)
    exact ⟨_, .step (.step (.step .start h1) h2) h3, rfl⟩

/-- A program without a solution, and one whose only solution is 0. -/
def lpInf : LpProb 0 2 := ⟨!![-1, 1], ![![0, 1], fun _ => 0], 1⟩
def lpArt : LpProb 1 3 := ⟨!![-1, 0, 1; 1, 1, 0], ![![0, 0, 1], ![-5, 0, 0]], 2⟩

/-- **C41 (artificial columns).** The solver returns normally on a program without solution; and on one that has a
solution it can return one that uses an artificial column, because those keep only cost 1 in phase 2. -/
theorem C41_artificial_refuted :
    ((¬ ∃ y, Spec.LpFeasible lpInf.A ![1] y ∧ ∀ j : Fin 2, lpInf.N1 ≤ j.val → y j = 0) ∧
      ∃ t, linp lpInf ![1] ![1] 6 = some (.ok t)) ∧
    ((∃ y, Spec.LpFeasible lpArt.A ![0, 1] y ∧ ∀ j : Fin 3, lpArt.N1 ≤ j.val → y j = 0) ∧
      ∃ t, linp lpArt ![2, 1] ![0, 1] 6 = some (.ok t) ∧ Spec.basicSol t.IBAS t.BS 2 = 1) := by
  refine ⟨⟨?_, ?_⟩, ?_, ?_⟩
  · rintro ⟨y, ⟨h1, h2⟩, h3⟩
    have e := congrFun h1 0
    simp only [Matrix.mulVec, dotProduct, lpInf, Fin.sum_univ_two, Matrix.of_apply] at e
    simp at e
    have := h3 1 (by decide)
    have := h2 0
    linarith
  · have h : (match linp lpInf ![1] ![1] 6 with
      | some (.ok _) => true
      | _ => false) = true := by decide +kernel
    split at h
    · rename_i t ht; exact ⟨t, ht⟩
    · cases h
  · exact ⟨![0, 1, 0], ⟨by decide +kernel, by decide +kernel⟩, by decide +kernel⟩
  · have h : (match linp lpArt ![2, 1] ![0, 1] 6 with
      | some (.ok t) => decide (Spec.basicSol t.IBAS t.BS 2 = 1)
      | _ => false) = true := by unfold Spec.basicSol; decide +kernel
    split at h
    · rename_i t ht; exact ⟨t, ht, by simpa using h⟩
    · cases h

/-! ### Examples -/

/-- A program with one pivot. -/
def lpEx : LpProb 1 3 := ⟨!![1, 0, 1; 0, 1, 2], ![fun _ => 0, ![0, 0, -1]], 3⟩

/-- The hypotheses of `C41_basis` and `C41_optimal`: an identity to start from, and a run that returns. -/
example : (∀ r k, lpEx.A r (![0, 1] k) = if r = k then 1 else 0) ∧
    (match linp lpEx ![0, 1] ![3, 4] 6 with
      | some (.ok t) => decide (t.IBAS = ![0, 2] ∧ t.BS = ![1, 2])
      | _ => false) = true := by
  constructor <;> decide +kernel

/-- The hypotheses of `C41_descent` and `C41_feasible`: a pass that changes the basis. -/
example : ∃ s s', LpReach lpEx ![0, 1] ![3, 4] s ∧ lpStep lpEx ![3, 4] s = .ok (.next s') ∧ s'.IBAS ≠ s.IBAS ∧
    (∀ i, 0 ≤ s.BS i) ∧ s'.BS 1 = 2 := by
  have h1 : lpStep lpEx ![3, 4] (lpStart lpEx ![0, 1] ![3, 4]) = .ok (.next
      ⟨1, ![3, 4], ![0, 0], ![0, 1], ![1, 1, 0], ![0, 0, -1], 2, 1, none⟩) := lpNextIs_eq (by decide +kernel)
  have h2 : lpStep lpEx ![3, 4] ⟨1, ![3, 4], ![0, 0], ![0, 1], ![1, 1, 0], ![0, 0, -1], 2, 1, none⟩ =
      .ok (.next ⟨!![1, -1/2; 0, 1/2], ![1, 2], ![0, -1], ![0, 2], ![1, 0, 1], ![0, 0, -1], 2, 0, some 1⟩) :=
    lpNextIs_eq (by decide +kernel)
  exact ⟨_, _, .step .start h1, h2, by decide +kernel, by decide +kernel, rfl⟩

/-- The hypothesis of `C41_terminates_partial`: on this program every pivot (there is one) is at a positive level. -/
example : ∀ s s', LpReach lpEx ![0, 1] ![3, 4] s → lpStep lpEx ![3, 4] s = .ok (.next s') →
    ∀ r, s'.IBAS r ≠ s.IBAS r → 0 < s'.BS r := by
  let s1 : LpSt 1 3 := ⟨1, ![3, 4], ![0, 0], ![0, 1], ![1, 1, 0], ![0, 0, -1], 2, 1, none⟩
  let s2 : LpSt 1 3 := ⟨!![1, -1/2; 0, 1/2], ![1, 2], ![0, -1], ![0, 2], ![1, 0, 1], ![0, 0, -1], 2, 0, some 1⟩
  have h1 : lpStep lpEx ![3, 4] (lpStart lpEx ![0, 1] ![3, 4]) = .ok (.next s1) := lpNextIs_eq (by decide +kernel)
  have h2 : lpStep lpEx ![3, 4] s1 = .ok (.next s2) := lpNextIs_eq (by decide +kernel)
  have h3 : ∀ t, lpStep lpEx ![3, 4] s2 ≠ .ok (.next t) := by
    intro t ht
    have : (match lpStep lpEx ![3, 4] s2 with | .ok (.next _) => true | _ => false) = false := by decide +kernel
    rw [ht] at this; cases this
  have cases3 : ∀ s, LpReach lpEx ![0, 1] ![3, 4] s → s = lpStart lpEx ![0, 1] ![3, 4] ∨ s = s1 ∨ s = s2 := by
    intro s hs
    induction hs with
    | start => exact Or.inl rfl
    | step _ hst ih =>
      rcases ih with rfl | rfl | rfl
      · rw [h1] at hst; cases hst; exact Or.inr (Or.inl rfl)
      · rw [h2] at hst; cases hst; exact Or.inr (Or.inr rfl)
      · exact absurd hst (h3 _)
  intro s s' hs hst
  rcases cases3 s hs with rfl | rfl | rfl
  · rw [h1] at hst; cases hst; decide +kernel
  · rw [h2] at hst; cases hst; decide +kernel
  · exact absurd hst (h3 _)

/-- A program with an artificial column: `x0 = 2`. -/
def lpEx1 : LpProb 0 2 := ⟨!![1, 1], ![![0, 1], ![1, 0]], 1⟩

/-- The hypotheses of `C41_phase1`: phase 1 makes one pivot, then ends; the program has a solution. -/
example : (∀ j : Fin 2, j.val < lpEx1.N1 → lpEx1.XOBI 0 j = 0) ∧
    (∃ s s', LpReach lpEx1 ![1] ![2] s ∧ lpStep lpEx1 ![2] s = .ok (.next s') ∧ s.IPH = 1 ∧ s'.IPH = 2) ∧
    ∃ y, Spec.LpFeasible lpEx1.A ![2] y ∧ ∀ j : Fin 2, lpEx1.N1 ≤ j.val → y j = 0 := by
  refine ⟨by decide +kernel, ?_, ![2, 0], ⟨by decide +kernel, by decide +kernel⟩, by decide +kernel⟩
  have h1 : lpStep lpEx1 ![2] (lpStart lpEx1 ![1] ![2]) = .ok (.next
      ⟨1, ![2], ![0], ![0], ![1, 0], ![0, 1], 1, 0, some 0⟩) := lpNextIs_eq (by decide +kernel)
  have h2 : lpStep lpEx1 ![2] ⟨1, ![2], ![0], ![0], ![1, 0], ![0, 1], 1, 0, some 0⟩ =
      .ok (.next ⟨1, ![2], ![1], ![0], ![1, 0], ![1, 1], 2, 1, some 0⟩) := lpNextIs_eq (by decide +kernel)
  exact ⟨_, _, .step .start h1, h2, rfl, rfl⟩

end Narp.Props
