import Verif.Model.Network
import Verif.Spec.Network
import Mathlib.LinearAlgebra.Matrix.NonsingularInverse
import Mathlib.LinearAlgebra.Matrix.ToLinearEquiv
import Mathlib.Algebra.BigOperators.Fin
import Mathlib.Algebra.Order.BigOperators.Group.Finset
import Mathlib.Tactic.Ring
import Mathlib.Tactic.Linarith
import Mathlib.Tactic.FieldSimp
import Mathlib.Tactic.FinCases

/-!
# C34 - C37: the network matrices and the load flow
-/

namespace Narp.Props
open Narp.Spec BigOperators Matrix

variable {n m : ℕ}

/-- Incidence: `1` at the first area of line `i`, `-1` at the second. -/
def inc {k : ℕ} (LP : Fin m → Fin k × Fin k) (i : Fin m) (a : Fin k) : ℚ :=
  (if a = (LP i).1 then 1 else 0) - if a = (LP i).2 then 1 else 0

theorem sum_inc {k : ℕ} (LP : Fin m → Fin k × Fin k) (i : Fin m) : ∑ a, inc LP i a = 0 := by
  unfold inc
  rw [Finset.sum_sub_distrib]
  simp

theorem inc_dot {k : ℕ} (LP : Fin m → Fin k × Fin k) (i : Fin m) (v : Fin k → ℚ) :
    ∑ a, inc LP i a * v a = v (LP i).1 - v (LP i).2 := by
  unfold inc
  simp only [sub_mul, Finset.sum_sub_distrib, ite_mul, one_mul, zero_mul]
  simp

/-- Lines run between different areas. -/
def Proper {k : ℕ} (LP : Fin m → Fin k × Fin k) : Prop := ∀ i, (LP i).1 ≠ (LP i).2

theorem nodal_eq {k : ℕ} (LP : Fin m → Fin k × Fin k) (hp : Proper LP) (b : Fin m → ℚ) (a c : Fin k) :
    nodal LP b a c = ∑ i, b i * inc LP i a * inc LP i c := by
  unfold nodal
  split
  · rename_i h
    subst h
    refine Finset.sum_congr rfl fun i _ => ?_
    have := hp i
    unfold inc
    by_cases h1 : a = (LP i).1 <;> by_cases h2 : a = (LP i).2
    · exact absurd (h1.symm.trans h2) this
    · rw [if_pos (show touches LP i a from Or.inl h1.symm), if_pos h1, if_neg h2]; ring
    · rw [if_pos (show touches LP i a from Or.inr h2.symm), if_neg h1, if_pos h2]; ring
    · rw [if_neg (show ¬ touches LP i a by rintro (h | h); exacts [h1 h.symm, h2 h.symm]), if_neg h1,
        if_neg h2]; ring
  · rename_i h
    rw [← Finset.sum_neg_distrib]
    refine Finset.sum_congr rfl fun i _ => ?_
    have hi := hp i
    by_cases hj : joins LP i a c
    · rw [if_pos hj]
      unfold inc
      rcases hj with ⟨h1, h2⟩ | ⟨h1, h2⟩
      · rw [if_pos h1.symm, if_neg (fun e => h (e.trans h2)), if_neg (fun e => h (h1.symm.trans e.symm)),
          if_pos h2.symm]
        ring
      · rw [if_neg (fun e => h (e.trans h1)), if_pos h2.symm, if_pos h1.symm,
          if_neg (fun e => h (h2.symm.trans e.symm))]
        ring
    · rw [if_neg hj, neg_zero]
      unfold joins at hj
      unfold inc
      by_cases h1 : a = (LP i).1
      · have h3 : c ≠ (LP i).1 := fun e => h (h1.trans e.symm)
        have h4 : c ≠ (LP i).2 := fun e => hj (Or.inl ⟨h1.symm, e.symm⟩)
        rw [if_neg h3, if_neg h4]; ring
      · by_cases h2 : a = (LP i).2
        · have h3 : c ≠ (LP i).2 := fun e => h (h2.trans e.symm)
          have h4 : c ≠ (LP i).1 := fun e => hj (Or.inr ⟨e.symm, h2.symm⟩)
          rw [if_neg h3, if_neg h4]; ring
        · rw [if_neg h1, if_neg h2]; ring

theorem put_apply {M : NMat n} {j k : Fin (n + 1)} {v : ℚ} (a b : Fin (n + 1)) :
    M.put j k v a b = if a = j ∧ b = k then v else M a b := rfl

theorem admitbStep_eq {LP : LEnds n m} (hp : Proper LP) (b : Fin m → ℚ) {BB : NMat n}
    (hs : ∀ a c, BB a c = BB c a) (i : Fin m) (a c : Fin (n + 1)) :
    admitbStep LP b BB i a c = BB a c + b i * inc LP i a * inc LP i c := by
  have hne := hp i
  have hne' := hne.symm
  unfold admitbStep inc
  simp only [put_apply]
  generalize (LP i).1 = j at *
  generalize (LP i).2 = k at *
  by_cases h1 : a = j
  · subst h1
    by_cases h3 : c = a
    · subst h3
      simp [hne]
    · by_cases h4 : c = k
      · subst h4
        simp [hne, hne']
      · simp [hne, h3, h4]
  · by_cases h2 : a = k
    · subst h2
      by_cases h3 : c = j
      · subst h3
        simp [hne, hne', hs a c]
      · by_cases h4 : c = a
        · subst h4
          simp [hne']
        · simp [hne', h3, h4]
    · simp [h1, h2]

theorem admitb_fold {LP : LEnds n m} (hp : Proper LP) (b : Fin m → ℚ) (l : List (Fin m)) :
    ∀ BB : NMat n, (∀ a c, BB a c = BB c a) → ∀ a c,
      l.foldl (admitbStep LP b) BB a c = BB a c + (l.map fun i => b i * inc LP i a * inc LP i c).sum := by
  induction l with
  | nil => intro BB _ a c; simp
  | cons i l ih =>
    intro BB hs a c
    rw [List.foldl_cons, ih _ (fun x y => by
      rw [admitbStep_eq hp b hs, admitbStep_eq hp b hs, hs x y]; ring), admitbStep_eq hp b hs]
    rw [List.map_cons, List.sum_cons]
    ring

theorem finRange_sum {α : Type} [AddCommMonoid α] {k : ℕ} (f : Fin k → α) :
    ((List.finRange k).map f).sum = ∑ i, f i := by
  rw [← List.ofFn_eq_map, List.sum_ofFn]

/-- C34: the matrix built from the line data is the nodal admittance matrix: total admittance of the lines at
the area on the diagonal, minus the total admittance of the lines between two areas off it, parallel lines
added up. -/
theorem C34_nodal {LP : LEnds n m} (hp : Proper LP) (b : Fin m → ℚ) : admitb LP b = nodal LP b := by
  funext a c
  unfold admitb
  rw [admitb_fold hp b _ _ (fun _ _ => rfl), finRange_sum, nodal_eq LP hp b]
  exact zero_add _

theorem nodal_symm {k : ℕ} (LP : Fin m → Fin k × Fin k) (hp : Proper LP) (b : Fin m → ℚ) (a c : Fin k) :
    nodal LP b a c = nodal LP b c a := by
  rw [nodal_eq LP hp, nodal_eq LP hp]
  exact Finset.sum_congr rfl fun i _ => by ring

theorem nodal_row {k : ℕ} (LP : Fin m → Fin k × Fin k) (hp : Proper LP) (b : Fin m → ℚ) (a : Fin k) :
    ∑ c, nodal LP b a c = 0 := by
  simp only [nodal_eq LP hp]
  rw [Finset.sum_comm]
  refine Finset.sum_eq_zero fun i _ => ?_
  rw [← Finset.mul_sum, sum_inc, mul_zero]

/-- C34: the admittance matrix is symmetric and every row sums to zero. -/
theorem C34_symm_rows {LP : LEnds n m} (hp : Proper LP) (b : Fin m → ℚ) :
    (∀ a c, admitb LP b a c = admitb LP b c a) ∧ ∀ a, ∑ c, admitb LP b a c = 0 := by
  rw [C34_nodal hp]
  exact ⟨nodal_symm LP hp b, nodal_row LP hp b⟩

/-- C34, why the lines must join different areas: a line from an area to itself gives a row that does not
sum to zero. -/
theorem C34_self_loop_refuted : ∃ (LP : LEnds 0 1) (b : Fin 1 → ℚ), ∑ c, admitb LP b 0 c ≠ 0 :=
  ⟨fun _ => (0, 0), fun _ => -5, by decide +kernel⟩

/-- The entries of a matrix, for the examples. -/
def rows (M : NMat n) : List (List ℚ) :=
  (List.finRange (n + 1)).map fun a => (List.finRange (n + 1)).map fun c => M a c

/-- Three areas, four lines, two of them parallel. -/
def triLP : LEnds 2 4 := ![(0, 1), (1, 2), (2, 0), (1, 0)]
/-- Their admittances. -/
def triB : Fin 4 → ℚ := ![-120, -60, -80, -20]

example : Proper triLP := by unfold Proper; decide
example : rows (admitb triLP triB) = [[-220, 140, 80], [140, -200, 60], [80, 60, -140]] := by
  decide +kernel

/-! ### C37: removing the reference area -/

/-- C37: the reduced matrix is the admittance matrix without the row and the column of the reference area
(the remaining areas keep their order), with a zero row and column appended. -/
theorem C37_reduced (BB : NMat n) (NR : Fin (n + 1)) :
    (∀ a c : Fin n, admitrB BB NR a.castSucc c.castSucc = BB (NR.succAbove a) (NR.succAbove c)) ∧
      ∀ x, admitrB BB NR (Fin.last n) x = 0 ∧ admitrB BB NR x (Fin.last n) = 0 := by
  refine ⟨fun a c => ?_, fun x => ⟨?_, ?_⟩⟩
  · simp [admitrB, delPad]
  · simp [admitrB, delPad]
  · unfold admitrB delPad
    split
    · simp
    · rfl

/-- C37: the index map lists every area exactly once, the reference area last, the others in order. -/
theorem C37_map (NR : Fin (n + 1)) :
    Function.Bijective (admitrLT id NR) ∧ admitrLT id NR (Fin.last n) = NR ∧
      (∀ a : Fin n, admitrLT id NR a.castSucc = NR.succAbove a) ∧
      ∀ a c : Fin n, a < c → admitrLT id NR a.castSucc < admitrLT id NR c.castSucc := by
  have h1 : admitrLT id NR (Fin.last n) = NR := by simp [admitrLT, delPad]
  have h2 : ∀ a : Fin n, admitrLT id NR a.castSucc = NR.succAbove a := fun a => by simp [admitrLT, delPad]
  refine ⟨Finite.injective_iff_bijective.1 fun x y => ?_, h1, h2, fun a c h => ?_⟩
  · induction x using Fin.lastCases with
    | last =>
      induction y using Fin.lastCases with
      | last => intro; rfl
      | cast y => rw [h1, h2]; intro h; exact absurd h.symm (Fin.succAbove_ne NR y)
    | cast x =>
      induction y using Fin.lastCases with
      | last => rw [h1, h2]; intro h; exact absurd h (Fin.succAbove_ne NR x)
      | cast y => rw [h2, h2]; intro h; rw [Fin.succAbove_right_injective h]
  · rw [h2, h2]
    exact Fin.strictMono_succAbove NR h

theorem filter_finRange (NR : Fin (n + 1)) :
    (List.finRange (n + 1)).filter (fun j => decide (j ≠ NR)) = (List.finRange n).map NR.succAbove := by
  apply List.Perm.eq_of_pairwise (le := (· < ·))
  · intro a b _ _ h1 h2; exact absurd h1 (lt_asymm h2)
  · exact (List.pairwise_lt_finRange (n + 1)).filter _
  · rw [List.pairwise_map]
    exact (List.pairwise_lt_finRange n).imp fun h => Fin.strictMono_succAbove NR h
  · rw [List.perm_ext_iff_of_nodup ((List.nodup_finRange _).filter _)
      ((List.nodup_finRange n).map Fin.succAbove_right_injective)]
    intro a
    simp only [List.mem_filter, List.mem_finRange, true_and, List.mem_map, decide_eq_true_eq]
    constructor
    · intro h
      obtain ⟨c, hc⟩ := Fin.exists_succAbove_eq h
      exact ⟨c, hc⟩
    · rintro ⟨c, rfl⟩
      exact Fin.succAbove_ne NR c

/-- A loop that appends `g j` at position `s.1` for every `j` of a list. -/
theorem append_loop {β γ : Type} (g : β → γ) (l : List β) : ∀ (k : ℕ) (f : ℕ → γ),
    (l.foldl (fun (s : ℕ × (ℕ → γ)) j => (s.1 + 1, fun c => if c = s.1 then g j else s.2 c)) (k, f)) =
      (k + l.length, fun c => if h : k ≤ c ∧ c < k + l.length then
        g (l[c - k]'(by omega)) else f c) := by
  induction l with
  | nil =>
    intro k f
    simp only [List.foldl_nil, List.length_nil, Nat.add_zero, Prod.mk.injEq, true_and]
    funext c
    rw [dif_neg (by omega)]
  | cons j l ih =>
    intro k f
    rw [List.foldl_cons, ih]
    simp only [List.length_cons, Prod.mk.injEq]
    refine ⟨by omega, ?_⟩
    funext c
    by_cases h1 : k + 1 ≤ c ∧ c < k + 1 + l.length
    · rw [dif_pos h1, dif_pos (by omega)]
      have : c - k = (c - (k + 1)) + 1 := by omega
      simp only [this, List.getElem_cons_succ]
    · rw [dif_neg h1]
      by_cases h2 : c = k
      · subst h2
        rw [if_pos rfl, dif_pos (by omega)]
        simp
      · rw [if_neg h2, dif_neg (by omega)]

theorem foldl_skip {α β : Type} (p : β → Prop) [DecidablePred p] (f : α → β → α) (l : List β) (s : α) :
    l.foldl (fun s j => if p j then s else f s j) s = (l.filter fun j => decide (¬ p j)).foldl f s := by
  induction l generalizing s with
  | nil => rfl
  | cons j l ih =>
    rw [List.foldl_cons, ih]
    by_cases h : p j
    · rw [if_pos h, List.filter_cons_of_neg (by simpa using h)]
    · rw [if_neg h, List.filter_cons_of_pos (by simpa using h), List.foldl_cons]

theorem inner_row (BB : NMat n) (NR i : Fin (n + 1)) (f : ℕ → ℚ) :
    ((List.finRange (n + 1)).foldl (admitrInner BB NR i) (0, f)).2 =
      fun c => if h : c < n then BB i (NR.succAbove ⟨c, h⟩) else f c := by
  have e : admitrInner BB NR i = fun s j => if j = NR then s else
      (fun (s : ℕ × (ℕ → ℚ)) j => (s.1 + 1, fun c => if c = s.1 then BB i j else s.2 c)) s j := rfl
  rw [e, foldl_skip]
  have := filter_finRange NR
  simp only [ne_eq] at this
  rw [this, append_loop (BB i)]
  funext c
  simp only [List.length_map, List.length_finRange, Nat.zero_le, true_and, Nat.zero_add, Nat.sub_zero,
    List.getElem_map, List.getElem_finRange, Fin.cast_mk]

theorem outer_loop (BB : NMat n) (BN0 : Fin (n + 1) → Fin (n + 1)) (NR : Fin (n + 1)) (l : List (Fin (n + 1))) :
    ∀ s : AdmSt n,
      let s' := l.foldl (fun s i => { ii := s.ii + 1
                                      BT := fun r => if r = s.ii then
                                        ((List.finRange (n + 1)).foldl (admitrInner BB NR i) (0, s.BT r)).2
                                        else s.BT r
                                      LT := fun r => if r = s.ii then BN0 i else s.LT r }) s
      (∀ r, (hr : s.ii ≤ r ∧ r < s.ii + l.length) → (∀ c, (hc : c < n) →
        s'.BT r c = BB (l[r - s.ii]'(by omega)) (NR.succAbove ⟨c, hc⟩)) ∧ s'.LT r = BN0 (l[r - s.ii]'(by omega))) ∧
      (∀ r, ¬ (s.ii ≤ r ∧ r < s.ii + l.length) → s'.BT r = s.BT r ∧ s'.LT r = s.LT r) := by
  induction l with
  | nil =>
    intro s
    refine ⟨fun r hr => absurd hr (by simp), fun r _ => ⟨rfl, rfl⟩⟩
  | cons i l ih =>
    intro s
    simp only [List.foldl_cons]
    obtain ⟨h1, h2⟩ := ih { ii := s.ii + 1
                            BT := fun r => if r = s.ii then
                              ((List.finRange (n + 1)).foldl (admitrInner BB NR i) (0, s.BT r)).2
                              else s.BT r
                            LT := fun r => if r = s.ii then BN0 i else s.LT r }
    simp only at h1 h2
    refine ⟨fun r hr => ?_, fun r hr => ?_⟩
    · by_cases h : s.ii + 1 ≤ r
      · have := h1 r ⟨h, by simp at hr; omega⟩
        have e : r - s.ii = (r - (s.ii + 1)) + 1 := by omega
        simp only [e, List.getElem_cons_succ]
        exact this
      · have hr' : r = s.ii := by omega
        obtain ⟨g1, g2⟩ := h2 r (by omega)
        rw [g1, g2]
        subst hr'
        simp only [if_true, Nat.sub_self, List.getElem_cons_zero]
        refine ⟨fun c hc => ?_, trivial⟩
        rw [inner_row]
        exact dif_pos hc
    · obtain ⟨g1, g2⟩ := h2 r (by simp at hr; omega)
      rw [g1, g2]
      have : r ≠ s.ii := by simp at hr; omega
      simp [this]

/-- C37: the loop version `_admitr` and the vectorised `admitr` return the same matrix, and, since the areas
are numbered by their position, the same map. -/
theorem C37_versions (BB : NMat n) (NR : Fin (n + 1)) :
    admitr' BB id NR = (admitrB BB NR, admitrLT id NR) := by
  have e : admitrOuter BB id NR = fun (s : AdmSt n) i => if i = NR then s else
      (fun (s : AdmSt n) i => { ii := s.ii + 1
                                BT := fun r => if r = s.ii then
                                  ((List.finRange (n + 1)).foldl (admitrInner BB NR i) (0, s.BT r)).2
                                  else s.BT r
                                LT := fun r => if r = s.ii then id i else s.LT r }) s i := rfl
  have hfl := filter_finRange NR
  simp only [ne_eq] at hfl
  obtain ⟨h1, -⟩ := outer_loop BB id NR ((List.finRange n).map NR.succAbove)
    ⟨0, fun _ _ => 0, fun _ => 0⟩
  unfold admitr'
  rw [e, foldl_skip, hfl]
  simp only at h1 ⊢
  refine Prod.ext (funext fun a => funext fun c => ?_) (funext fun a => ?_)
  · simp only [admitrB, delPad]
    by_cases ha : a.val < n
    · by_cases hc : c.val < n
      · rw [if_pos ⟨ha, hc⟩, dif_pos ha, dif_pos hc]
        rw [(h1 a ⟨by omega, by simpa using ha⟩).1 c hc]
        simp
      · rw [if_neg (by omega), dif_pos ha, dif_neg hc]
    · rw [if_neg (by omega), dif_neg ha]
  · simp only [admitrLT, delPad]
    by_cases ha : a.val < n
    · rw [if_pos ha, dif_pos ha, (h1 a ⟨by omega, by simpa using ha⟩).2]
      simp
    · rw [if_neg ha, dif_neg ha]
      rfl

example : rows (admitr' (admitb triLP triB) id 1).1 = [[-220, 80, 0], [80, -140, 0], [0, 0, 0]] := by
  decide +kernel

end Narp.Props
