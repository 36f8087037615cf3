import Verif.Props.Impedance
import Verif.Model.Transm
import Mathlib.Algebra.BigOperators.Fin
import Mathlib.Tactic.Linarith
import Mathlib.Tactic.FieldSimp

/-!
# The load flow, the limit test, the assignment of assistance
-/

namespace Narp.Props
open Narp Spec BigOperators Matrix

variable {n m : ℕ}

theorem netOut_eq {k : ℕ} (LP : Fin m → Fin k × Fin k) (F : Fin m → ℚ) (a : Fin k) :
    netOut LP F a = ∑ i, inc LP i a * F i := by
  unfold netOut inc
  rw [← Finset.sum_sub_distrib]
  refine Finset.sum_congr rfl fun i _ => ?_
  by_cases h1 : (LP i).1 = a <;> by_cases h2 : (LP i).2 = a
  · rw [if_pos h1, if_pos h2, if_pos h1.symm, if_pos h2.symm]; ring
  · rw [if_pos h1, if_neg h2, if_pos h1.symm, if_neg (Ne.symm h2)]; ring
  · rw [if_neg h1, if_pos h2, if_neg (Ne.symm h1), if_pos h2.symm]; ring
  · rw [if_neg h1, if_neg h2, if_neg (Ne.symm h1), if_neg (Ne.symm h2)]; ring

/-- What leaves one area enters another. -/
theorem sum_netOut {k : ℕ} (LP : Fin m → Fin k × Fin k) (F : Fin m → ℚ) : ∑ a, netOut LP F a = 0 := by
  simp only [netOut_eq]
  rw [Finset.sum_comm]
  refine Finset.sum_eq_zero fun i _ => ?_
  rw [← Finset.sum_mul, sum_inc, zero_mul]

theorem flo_fold (LP : LEnds n m) (b : Fin m → ℚ) (θ : Fin (n + 1) → ℚ) (l : List (Fin m)) :
    ∀ S, l.foldl (floStep LP b θ) S =
      fun a => S a - (l.map fun i => inc LP i a * ((θ (LP i).1 - θ (LP i).2) * b i)).sum := by
  induction l with
  | nil => intro S; simp
  | cons i l ih =>
    intro S
    rw [List.foldl_cons, ih]
    funext a
    simp only [List.map_cons, List.sum_cons, floStep, inc]
    generalize (θ (LP i).1 - θ (LP i).2) * b i = f
    by_cases h1 : a = (LP i).1 <;> by_cases h2 : a = (LP i).2
    · simp only [if_pos h1, if_pos h2]; ring
    · simp only [if_pos h1, if_neg h2]; ring
    · simp only [if_neg h1, if_pos h2]; ring
    · simp only [if_neg h1, if_neg h2]; ring

/-- The computed net flow of an area is its net import over the computed line flows. -/
theorem flo_import (LP : LEnds n m) (b : Fin m → ℚ) (θ : Fin (n + 1) → ℚ) (a : Fin (n + 1)) :
    (flo LP b θ).1 a = -netOut LP (flo LP b θ).2 a := by
  unfold flo
  rw [flo_fold, netOut_eq]
  simp only [finRange_sum]
  ring

/-- The angles: those of the reduced system at the areas other than the reference, zero there. -/
theorem thetac_eq (T : Fin (n + 1) → ℚ) (NR : Fin (n + 1)) :
    thetac T (admitrLT id NR) = extend NR fun i => T i.castSucc := by
  funext a
  unfold thetac
  rcases Fin.eq_self_or_eq_succAbove NR a with h | ⟨p, h⟩
  · subst h
    rw [extend_ref]
    exact scatter_miss (fun i : Fin n => admitrLT id a i.castSucc) (fun i => T i.castSucc) _ _ a
      (fun i _ e => Fin.succAbove_ne a i (by rw [← LT_cast]; exact e.symm))
  · subst h
    rw [extend_other]
    have := scatter_hit (key := fun i : Fin n => admitrLT id NR i.castSucc)
      (fun x y h => by simp only [LT_cast] at h; exact Fin.succAbove_right_injective h)
      (fun i : Fin n => T i.castSucc) (List.finRange n) (fun _ => 0) (List.nodup_finRange n) p
      (List.mem_finRange p)
    rw [LT_cast] at this
    exact this

theorem netOut_flo (LP : LEnds n m) (hp : Proper LP) (b : Fin m → ℚ) (θ : Fin (n + 1) → ℚ) (a : Fin (n + 1)) :
    netOut LP (flo LP b θ).2 a = ∑ c, nodal LP b a c * θ c := by
  rw [netOut_eq, nodal_mulVec LP hp]
  refine Finset.sum_congr rfl fun i _ => ?_
  simp only [flo]; ring

/-- C35. With the inverse of the reduced admittance matrix and injections that add up to zero, the computed
line flows leave every area with exactly its injection (Kirchhoff's current law), each line flow is
admittance times angle difference with the reference area at angle zero, the reported net flow of every area
is its net import, and the net flows add up to zero. The injections are given in the order of the reduced
network. -/
theorem C35_kirchhoff {LP : LEnds n m} (hp : Proper LP) {NR : Fin (n + 1)} {b : Fin m → ℚ} {ZB : NMat n}
    (hZ : reduced LP b NR * blk ZB = 1) (hl : ∀ x, ZB (Fin.last n) x = 0 ∧ ZB x (Fin.last n) = 0)
    (INJ : Fin (n + 1) → ℚ) (h0 : ∑ i, INJ i = 0) :
    let r := flo LP b (thetac (theta ZB INJ) (admitrLT id NR))
    (∀ i, netOut LP r.2 (admitrLT id NR i) = INJ i) ∧ (∀ i, r.1 (admitrLT id NR i) = -INJ i) ∧
    ∑ a, r.1 a = 0 ∧
    ∃ θ : Fin (n + 1) → ℚ, θ NR = 0 ∧ ∀ i, r.2 i = b i * (θ (LP i).1 - θ (LP i).2) := by
  intro r
  have hnet : ∀ i, netOut LP r.2 (admitrLT id NR i) = INJ i := by
    have hmain : ∀ i : Fin n, netOut LP r.2 (NR.succAbove i) = INJ i.castSucc := by
      intro i
      show netOut LP (flo LP b (thetac (theta ZB INJ) (admitrLT id NR))).2 _ = _
      rw [netOut_flo LP hp, thetac_eq, ← reduced_mulVec]
      have : (fun i : Fin n => theta ZB INJ i.castSucc) = blk ZB *ᵥ fun i => INJ i.castSucc := by
        funext i
        show (ZB *ᵥ INJ) i.castSucc = _
        simp only [Matrix.mulVec, dotProduct]
        rw [Fin.sum_univ_castSucc, (hl _).2, zero_mul, add_zero]
        rfl
      rw [this, Matrix.mulVec_mulVec, hZ, Matrix.one_mulVec]
    intro i
    refine Fin.lastCases ?_ (fun i => ?_) i
    · rw [LT_last]
      have h1 := sum_netOut LP r.2
      rw [Fin.sum_univ_succAbove _ NR] at h1
      rw [Fin.sum_univ_castSucc] at h0
      have : ∑ i : Fin n, netOut LP r.2 (NR.succAbove i) = ∑ i : Fin n, INJ i.castSucc :=
        Finset.sum_congr rfl fun i _ => hmain i
      rw [this] at h1
      linarith
    · rw [LT_cast]; exact hmain i
  refine ⟨hnet, fun i => ?_, ?_, ?_⟩
  · show (flo LP b _).1 _ = _
    rw [flo_import, ← hnet i]
  · have : ∀ a, r.1 a = -netOut LP r.2 a := fun a => flo_import LP b _ a
    simp only [this]
    rw [Finset.sum_neg_distrib, sum_netOut, neg_zero]
  · refine ⟨thetac (theta ZB INJ) (admitrLT id NR), ?_, fun i => ?_⟩
    · rw [thetac_eq, extend_ref]
    · show (_ - _) * b i = _
      ring

/-- C35 for the network in the sampled line states, as the hourly evaluation computes it: start from the
matrices of the intact network, update them for every line that is not in its first state, compute the flows. -/
theorem C35_sampled {LP : LEnds n m} (hp : Proper LP) {NR : Fin (n + 1)}
    {b b0 : Fin m → ℚ} (hb0 : SameSign b0) (hsgn : ∀ i, b0 i < 0 ↔ b i < 0) (hb : ∀ i, b i ≠ 0)
    (hr : Reaches LP NR) {o : Tm1Out n m} (ho : tm1 LP b0 NR = .ok o) (INJ : Fin (n + 1) → ℚ)
    (h0 : ∑ i, INJ i = 0) :
    let Z := (lineUpdates LP b o.BLP0 (ieq o.LT NR) NR (o.BB, o.ZB)).2
    let r := flo LP b (thetac (theta Z INJ) o.LT)
    ∀ i, netOut LP r.2 (o.LT i) = INJ i := by
  obtain ⟨e1, _, e3, e4, _, e6⟩ := C51_inverse hp ho
  intro Z r
  have hz := lineUpdates_Z hp hr hsgn hb (List.finRange m) b0 (o.BB, o.ZB) (List.nodup_finRange m) hb0
    (fun _ _ => rfl) ⟨e3, e6⟩
  simp only [List.mem_finRange, if_true] at hz
  have := (C35_kirchhoff hp hz.inv hz.last INJ h0).1
  rw [← e4] at this
  simpa only [r, Z, lineUpdates, e1] using this

/-! ### The limit test -/

theorem foldl_flag {α : Type} (l : List α) (p : α → Prop) [DecidablePred p] (x : ℤ) :
    l.foldl (fun x i => if p i then 1 else x) x = 1 ↔ x = 1 ∨ ∃ i ∈ l, p i := by
  induction l generalizing x with
  | nil => simp
  | cons i l ih =>
    rw [List.foldl_cons, ih]
    by_cases h : p i
    · simp [h]
    · simp [h]

theorem foldl_flag01 {α : Type} (l : List α) (p : α → Prop) [DecidablePred p] (x : ℤ) (hx : x = 0 ∨ x = 1) :
    l.foldl (fun x i => if p i then 1 else x) x = 0 ∨ l.foldl (fun x i => if p i then 1 else x) x = 1 := by
  induction l generalizing x with
  | nil => simpa using hx
  | cons i l ih =>
    rw [List.foldl_cons]
    apply ih
    by_cases h : p i
    · simp [h]
    · simpa [h] using hx

/-- Flow `f` is within the limits `-bwd` and `fwd`. -/
theorem flag_iff {f fwd bwd : ℚ} (h1 : 0 ≤ fwd) (h2 : 0 ≤ bwd) :
    ¬(0 ≤ f ∧ f > fwd ∨ ¬0 ≤ f ∧ |f| > bwd) ↔ -bwd ≤ f ∧ f ≤ fwd := by
  by_cases h : 0 ≤ f
  · simp only [h, true_and, not_true_eq_false, false_and, or_false, not_lt, gt_iff_lt]
    constructor
    · intro h'; exact ⟨by linarith, h'⟩
    · exact fun h' => h'.2
  · simp only [h, false_and, not_false_eq_true, true_and, false_or, not_lt, gt_iff_lt]
    rw [abs_of_neg (not_le.1 h)]
    constructor
    · intro h'; exact ⟨by linarith, by linarith⟩
    · intro h'; linarith [h'.1]

theorem ite_flag (f fwd bwd : ℚ) (x : ℤ) :
    (if 0 ≤ f then (if f > fwd then 1 else x) else if |f| > bwd then 1 else x) =
      if 0 ≤ f ∧ f > fwd ∨ ¬0 ≤ f ∧ |f| > bwd then 1 else x := by
  by_cases h : 0 ≤ f <;> simp [h]

theorem indic_iff {BLP : Fin m → LnPar} {imp exp SFLOW : Fin (n + 1) → ℚ} {FLOW : Fin m → ℚ}
    (h1 : ∀ i, 0 ≤ (BLP i).fwd ∧ 0 ≤ (BLP i).bwd) (h2 : ∀ a, 0 ≤ imp a ∧ 0 ≤ exp a) :
    indic BLP imp exp SFLOW FLOW ≠ 1 ↔
      (∀ i, -(BLP i).bwd ≤ FLOW i ∧ FLOW i ≤ (BLP i).fwd) ∧ ∀ a, -exp a ≤ SFLOW a ∧ SFLOW a ≤ imp a := by
  unfold indic
  simp only [ite_flag]
  rw [ne_eq, foldl_flag, foldl_flag]
  simp only [List.mem_finRange, true_and, zero_ne_one, false_or, not_or, not_exists]
  refine and_congr (forall_congr' fun i => ?_) (forall_congr' fun a => ?_)
  · rw [← flag_iff (h1 i).1 (h1 i).2, not_or]
  · rw [← flag_iff (h2 a).1 (h2 a).2, not_or]


/-- C38. When the scheduled injections are accepted without re-dispatch, every line flow is within the
capacities of the line's sampled state and every area's net import and export are within its limits; and they
are accepted whenever this is so. The limits are non-negative in the program. -/
theorem C38_accepted {lp : Redispatch n m} {BN : BNcols n} {LP : LEnds n m} {BLP : Fin m → LnPar}
    {BLP0 : Fin m → ℚ} {BB ZB : NMat n} {LT : Fin (n + 1) → Fin (n + 1)} {NR : Fin (n + 1)} {NLS : ℤ}
    (h1 : ∀ i, 0 ≤ (BLP i).fwd ∧ 0 ≤ (BLP i).bwd) (h2 : ∀ a, 0 ≤ BN.c3 a ∧ 0 ≤ BN.c4 a) {o : Tm2Out n m}
    (ho : tm2 lp BN LP BLP BLP0 BB ZB LT NR NLS = .ok o) (hacc : o.INDIC ≠ 1) :
    (∀ i, -(BLP i).bwd ≤ o.FLOW i ∧ o.FLOW i ≤ (BLP i).fwd) ∧
    ∀ a, -BN.c4 a ≤ -netOut LP o.FLOW a ∧ -netOut LP o.FLOW a ≤ BN.c3 a := by
  unfold tm2 at ho
  extract_lets b INJ s r IND at ho
  split at ho
  · rename_i hi
    cases ho
    have := (indic_iff h1 h2).1 hi
    refine ⟨this.1, fun a => ?_⟩
    have h3 := this.2 a
    have e : r.2.1 a = -netOut LP r.2.2 a := flo_import LP b _ a
    rw [e] at h3
    exact h3
  · rename_i hi
    exfalso
    cases hl : lp { BB := s.1, INJ := INJ, INJB := BN.c2, NR := NR, LT := LT, BLP := BLP, LP := LP, BN := BN
                    LOD := BN.c1, NLS := NLS } with
    | error e => rw [hl] at ho; cases ho
    | ok v =>
      rw [hl] at ho
      cases ho
      exact hi hacc

/-- Accepted or not is decided by the limits alone: the converse of C38. -/
theorem C38_converse {lp : Redispatch n m} {BN : BNcols n} {LP : LEnds n m} {BLP : Fin m → LnPar}
    {BLP0 : Fin m → ℚ} {BB ZB : NMat n} {LT : Fin (n + 1) → Fin (n + 1)} {NR : Fin (n + 1)} {NLS : ℤ}
    (h1 : ∀ i, 0 ≤ (BLP i).fwd ∧ 0 ≤ (BLP i).bwd) (h2 : ∀ a, 0 ≤ BN.c3 a ∧ 0 ≤ BN.c4 a)
    (hlim : let b := fun i => (BLP i).adm
      let Z := (lineUpdates LP b BLP0 (ieq LT NR) NR (BB, ZB)).2
      let F := (schedule LP b Z LT (fun i => BN.c2 (LT i)) BN.c1 NLS).2.2
      (∀ i, -(BLP i).bwd ≤ F i ∧ F i ≤ (BLP i).fwd) ∧
      ∀ a, -BN.c4 a ≤ -netOut LP F a ∧ -netOut LP F a ≤ BN.c3 a) :
    ∃ o, tm2 lp BN LP BLP BLP0 BB ZB LT NR NLS = .ok o ∧ o.INDIC ≠ 1 := by
  unfold tm2
  extract_lets b INJ s r IND
  have : IND ≠ 1 := by
    refine (indic_iff h1 h2).2 ⟨hlim.1, fun a => ?_⟩
    have e : r.2.1 a = -netOut LP r.2.2 a := flo_import LP b _ a
    rw [e]
    exact hlim.2 a
  rw [if_pos this]
  exact ⟨_, rfl, this⟩

/-! ### The base network -/

/-- The two matrices have the same last row and column. -/
def SameEdge (A B : NMat n) : Prop := ∀ x, A (Fin.last n) x = B (Fin.last n) x ∧ A x (Fin.last n) = B x (Fin.last n)

theorem SameEdge.trans {A B C : NMat n} (h : SameEdge A B) (h' : SameEdge B C) : SameEdge A C :=
  fun x => ⟨(h x).1.trans (h' x).1, (h x).2.trans (h' x).2⟩

theorem sameEdge_put (M : NMat n) (p q : Fin n) (v : ℚ) : SameEdge (M.put p.castSucc q.castSucc v) M := by
  intro x
  have h : ∀ p : Fin n, Fin.last n ≠ p.castSucc := fun p => (Fin.castSucc_lt_last p).ne'
  exact ⟨by unfold NMat.put; rw [if_neg (fun e => h p e.1)], by unfold NMat.put; rw [if_neg (fun e => h q e.2)]⟩

theorem sameEdge_setBlk (M Z : NMat n) : SameEdge (setBlk M Z) M := fun x => setBlk_last M Z x

theorem sameEdge_admitm (M : NMat n) (p q : Fin n) (v : ℚ) : SameEdge (admitm M p.castSucc q.castSucc v) M := by
  unfold admitm
  exact (sameEdge_put _ _ _ _).trans ((sameEdge_put _ _ _ _).trans
    ((sameEdge_put _ _ _ _).trans (sameEdge_put _ _ _ _)))

theorem lineStep_edge {LP : LEnds n m} (hp : Proper LP) {NR : Fin (n + 1)} (b b0 : Fin m → ℚ)
    (s : NMat n × NMat n) (i : Fin m) :
    SameEdge (lineStep LP b b0 (ieq (admitrLT id NR) NR) NR s i).1 s.1 ∧
    SameEdge (lineStep LP b b0 (ieq (admitrLT id NR) NR) NR s i).2 s.2 := by
  have refl : ∀ A : NMat n, SameEdge A A := fun A x => ⟨rfl, rfl⟩
  unfold lineStep
  split
  · exact ⟨refl _, refl _⟩
  · split
    · rename_i h
      obtain ⟨p, hp1⟩ := Fin.exists_succAbove_eq h.1
      obtain ⟨q, hq1⟩ := Fin.exists_succAbove_eq h.2
      simp only [← hp1, ← hq1, ieq_other, zupd]
      split
      · exact ⟨(sameEdge_admitm _ _ _ _).trans (sameEdge_admitm _ _ _ _),
          (sameEdge_setBlk _ _).trans (sameEdge_setBlk _ _)⟩
      · exact ⟨sameEdge_admitm _ _ _ _, sameEdge_setBlk _ _⟩
    · have hne : (if (LP i).1 = NR then (LP i).2 else (LP i).1) ≠ NR := by
        by_cases h1 : (LP i).1 = NR
        · rw [if_pos h1]; exact fun e => hp i (h1.trans e.symm)
        · rw [if_neg h1]; exact h1
      obtain ⟨p, hp1⟩ := Fin.exists_succAbove_eq hne
      simp only [← hp1, ieq_other, List.foldl_cons, List.foldl_nil, admref]
      split
      · exact ⟨refl _, refl _⟩
      · exact ⟨(sameEdge_put _ _ _ _).trans (sameEdge_put _ _ _ _),
          (sameEdge_setBlk _ _).trans (sameEdge_setBlk _ _)⟩

theorem lineUpdates_edge {LP : LEnds n m} (hp : Proper LP) {NR : Fin (n + 1)} (b b0 : Fin m → ℚ)
    (s : NMat n × NMat n) :
    SameEdge (lineUpdates LP b b0 (ieq (admitrLT id NR) NR) NR s).1 s.1 ∧
    SameEdge (lineUpdates LP b b0 (ieq (admitrLT id NR) NR) NR s).2 s.2 := by
  unfold lineUpdates
  generalize List.finRange m = l
  induction l generalizing s with
  | nil => exact ⟨fun x => ⟨rfl, rfl⟩, fun x => ⟨rfl, rfl⟩⟩
  | cons i l ih =>
    rw [List.foldl_cons]
    have h1 := lineStep_edge hp (NR := NR) b b0 s i
    have h2 := ih (lineStep LP b b0 (ieq (admitrLT id NR) NR) NR s i)
    exact ⟨h2.1.trans h1.1, h2.2.trans h1.2⟩

theorem setBlk_restore {A B : NMat n} (h : SameEdge A B) : setBlk A B = B := by
  funext x y
  unfold setBlk
  split
  · rfl
  · rename_i h'
    rw [not_and_or, not_lt, not_lt] at h'
    rcases h' with h' | h'
    · rw [show x = Fin.last n from Fin.eq_last_of_not_lt (by simpa using h')]; exact (h y).1
    · rw [show y = Fin.last n from Fin.eq_last_of_not_lt (by simpa using h')]; exact (h x).2

/-- C39. An evaluation that is accepted without re-dispatch leaves both matrices of the base network, and
the area limits, as they were, whatever lines were out. -/
theorem C39_unchanged_partial {lp : Redispatch n m} {BN : BNcols n} {LP : LEnds n m} (hp : Proper LP)
    {BLP : Fin m → LnPar} {BLP0 : Fin m → ℚ} {BB ZB : NMat n} {NR : Fin (n + 1)} {NLS : ℤ} {o : Tm2Out n m}
    (ho : tm2 lp BN LP BLP BLP0 BB ZB (admitrLT id NR) NR NLS = .ok o) (hacc : o.INDIC ≠ 1) :
    o.BB = BB ∧ o.ZB = ZB ∧ o.BN.c3 = BN.c3 ∧ o.BN.c4 = BN.c4 := by
  unfold tm2 at ho
  extract_lets b INJ s r IND at ho
  split at ho
  · cases ho
    have := lineUpdates_edge hp (NR := NR) b BLP0 (BB, ZB)
    exact ⟨setBlk_restore this.1, setBlk_restore this.2, rfl, rfl⟩
  · rename_i hi
    exfalso
    cases hl : lp { BB := s.1, INJ := INJ, INJB := BN.c2, NR := NR, LT := admitrLT id NR, BLP := BLP, LP := LP
                    BN := BN, LOD := BN.c1, NLS := NLS } with
    | error e => rw [hl] at ho; cases ho
    | ok v =>
      rw [hl] at ho
      cases ho
      exact hi hacc

/-- C39, refuted for every evaluation that needs a re-dispatch: it restores the admittance matrix but
overwrites the impedance matrix with the admittance matrix (tm2.py:305), for every network, state, limit and
re-dispatch. -/
theorem C39_redispatch_refuted {lp : Redispatch n m} {BN : BNcols n} {LP : LEnds n m} (hp : Proper LP)
    {BLP : Fin m → LnPar} {BLP0 : Fin m → ℚ} {BB ZB : NMat n} {NR : Fin (n + 1)} {NLS : ℤ} {o : Tm2Out n m}
    (ho : tm2 lp BN LP BLP BLP0 BB ZB (admitrLT id NR) NR NLS = .ok o) (hacc : o.INDIC = 1) :
    o.BB = BB ∧ blk o.ZB = blk BB := by
  unfold tm2 at ho
  extract_lets b INJ s r IND at ho
  split at ho
  · cases ho
    rename_i hi
    exact absurd hacc hi
  · cases hl : lp { BB := s.1, INJ := INJ, INJB := BN.c2, NR := NR, LT := admitrLT id NR, BLP := BLP, LP := LP
                    BN := BN, LOD := BN.c1, NLS := NLS } with
    | error e => rw [hl] at ho; cases ho
    | ok v =>
      rw [hl] at ho
      cases ho
      have := lineUpdates_edge hp (NR := NR) b BLP0 (BB, ZB)
      exact ⟨setBlk_restore this.1, blk_setBlk _ _⟩

end Narp.Props
