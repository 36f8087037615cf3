import Verif.Props.Assign
import Verif.Lemmas.Control

/-!
# The transmission evaluation of an hour: C39, C52, C53, C54
-/

namespace Narp.Props
open Narp Spec BigOperators

variable {n m : ℕ}

/-- A re-dispatch that always raises. An evaluation that succeeds with it needs no re-dispatch: both load
flows respect all limits. -/
def noRedispatch : Redispatch n m := fun _ => .error .typeError

/-- The part of the result of `assign` that the transmission evaluation reports. -/
theorem assign_excess {INJ LOD : Fin (n + 1) → ℚ} {LT : Fin (n + 1) → Fin (n + 1)} {NLS : ℤ}
    (hLT : Function.Bijective LT) (hL : NLS = 0 → (∀ a, 0 ≤ LOD a) ∧ 0 < ∑ a, LOD a) (i : Fin (n + 1)) :
    max 0 ((assign INJ LOD LT NLS).1 i - INJ i) = (assign INJ LOD LT NLS).2 (LT i) := by
  obtain ⟨h0, h1, h2, h3, h4⟩ := C40_assign (INJ := INJ) hLT hL
  have hle : ∀ i, (assign INJ LOD LT NLS).1 i - INJ i ≤ (assign INJ LOD LT NLS).2 (LT i) := fun i => by
    rcases le_total (INJ i) 0 with h | h
    · linarith [h3 i h]
    · linarith [(h4 i h).2]
  rw [sum_LT hLT] at h2
  rcases le_or_gt 0 (∑ i, INJ i) with hs | hs
  · rw [max_eq_left (by linarith)] at h2
    have hz : ∀ j, (assign INJ LOD LT NLS).2 (LT j) = 0 := fun j =>
      (Finset.sum_eq_zero_iff_of_nonneg (fun j _ => h1 (LT j))).1 h2 j (Finset.mem_univ j)
    rw [hz i, max_eq_left]
    have := hle i; rw [hz i] at this; exact this
  · rw [max_eq_right (by linarith)] at h2
    have hsum : ∑ i, ((assign INJ LOD LT NLS).2 (LT i) - ((assign INJ LOD LT NLS).1 i - INJ i)) = 0 := by
      rw [Finset.sum_sub_distrib, Finset.sum_sub_distrib, h2, h0]; ring
    have := (Finset.sum_eq_zero_iff_of_nonneg (fun j _ => sub_nonneg.2 (hle j))).1 hsum i (Finset.mem_univ i)
    rw [sub_eq_zero.1 this |>.symm]
    exact max_eq_right (h1 _)

theorem LT_bij (NR : Fin (n + 1)) : Function.Bijective (admitrLT id NR) := (C37_map NR).1

/-- The data of a network: lines between different areas, every area connected to the reference area,
negative admittances (this program's sign) and non-negative capacities in all six states. -/
structure Grid (LP : LEnds n m) (BLPA : Fin m → Fin 6 → LnPar) (NR : Fin (n + 1)) : Prop where
  proper : Proper LP
  reaches : Reaches LP NR
  adm : ∀ i s, (BLPA i s).adm < 0
  cap : ∀ i s, 0 ≤ (BLPA i s).fwd ∧ 0 ≤ (BLPA i s).bwd

/-- The network arrays are those of the intact network. -/
structure Intact (LP : LEnds n m) (BLPA : Fin m → Fin 6 → LnPar) (NR : Fin (n + 1)) (w : NetSt n m) : Prop where
  BLP0 : w.BLP0 = fun i => (BLPA i 0).adm
  LT : w.LT = admitrLT id NR
  BB : w.BB = admitrB (nodal LP fun i => (BLPA i 0).adm) NR
  ZB : reduced LP (fun i => (BLPA i 0).adm) NR * blk w.ZB = 1
  edge : ∀ x, w.ZB (Fin.last n) x = 0 ∧ w.ZB x (Fin.last n) = 0

/-- What an accepted load flow is. -/
structure Accepted (LP : LEnds n m) (BLP : Fin m → LnPar) (NLS : ℤ) (w w' : NetSt n m)
    (F : Fin m → ℚ) : Prop where
  rest : w'.BLP0 = w.BLP0 ∧ w'.BB = w.BB ∧ w'.LT = w.LT ∧ w'.ZB = w.ZB ∧ w'.BN.c3 = w.BN.c3 ∧ w'.BN.c4 = w.BN.c4
  /-- the injections are those assigned -/
  c1 : ∀ i, w'.BN.c1 (w.LT i) = (assign (fun i => w.BN.c2 (w.LT i)) w.BN.c1 w.LT NLS).1 i
  /-- the flows carry them -/
  kcl : ∀ i, netOut LP F (w.LT i) = (assign (fun i => w.BN.c2 (w.LT i)) w.BN.c1 w.LT NLS).1 i
  line : ∀ i, -(BLP i).bwd ≤ F i ∧ F i ≤ (BLP i).fwd
  area : (∀ a, 0 ≤ w.BN.c3 a ∧ 0 ≤ w.BN.c4 a) →
    ∀ a, -w.BN.c4 a ≤ -netOut LP F a ∧ -netOut LP F a ≤ w.BN.c3 a
  /-- they come from angles -/
  pot : ∃ θ : Fin (n + 1) → ℚ, ∀ i, F i = (BLP i).adm * (θ (LP i).1 - θ (LP i).2)

theorem indic_lines {BLP : Fin m → LnPar} {imp exp SFLOW : Fin (n + 1) → ℚ} {FLOW : Fin m → ℚ}
    (h1 : ∀ i, 0 ≤ (BLP i).fwd ∧ 0 ≤ (BLP i).bwd) (h : indic BLP imp exp SFLOW FLOW ≠ 1) (i : Fin m) :
    -(BLP i).bwd ≤ FLOW i ∧ FLOW i ≤ (BLP i).fwd := by
  unfold indic at h
  simp only [ite_flag] at h
  rw [ne_eq, foldl_flag, foldl_flag] at h
  simp only [List.mem_finRange, true_and, zero_ne_one, false_or, not_or, not_exists] at h
  rw [← flag_iff (h1 i).1 (h1 i).2, not_or]
  exact h.1 i

theorem callTm2_none {LP : LEnds n m} {BLPA : Fin m → Fin 6 → LnPar} {NR : Fin (n + 1)} (hg : Grid LP BLPA NR)
    {BLP : Fin m → LnPar} (hb : ∀ i, (BLP i).adm < 0) (hc : ∀ i, 0 ≤ (BLP i).fwd ∧ 0 ≤ (BLP i).bwd) {NLS : ℤ}
    {w w' : NetSt n m} {F : Fin m → ℚ} (hw : Intact LP BLPA NR w)
    (hL : NLS = 0 → (∀ a, 0 ≤ w.BN.c1 a) ∧ 0 < ∑ a, w.BN.c1 a)
    (h : callTm2 noRedispatch LP BLP NR NLS w = .ok (w', F)) : Accepted LP BLP NLS w w' F := by
  obtain ⟨hB0, hLT, hBB, hZB, hE⟩ := hw
  unfold callTm2 at h
  cases ho : tm2 noRedispatch w.BN LP BLP w.BLP0 w.BB w.ZB w.LT NR NLS with
  | error e => rw [ho] at h; cases h
  | ok o =>
    rw [ho] at h
    cases h
    have ho' := ho
    rw [hLT] at ho'
    have hi : o.INDIC ≠ 1 := by
      intro hi
      unfold tm2 at ho
      extract_lets b INJ s r IND at ho
      split at ho
      · rename_i h'
        cases ho; exact h' hi
      · cases ho
    obtain ⟨u1, u2, u3, u4⟩ := C39_unchanged_partial hg.proper ho' hi
    have hz := lineUpdates_Z hg.proper hg.reaches (b := fun i => (BLP i).adm) (b0 := w.BLP0)
      (fun i => by rw [hB0]; exact iff_of_true (hg.adm i 0) (hb i)) (fun i => (hb i).ne)
      (List.finRange m) w.BLP0 (w.BB, w.ZB) (List.nodup_finRange m) (by rw [hB0]; exact Or.inl fun i => hg.adm i 0)
      (fun _ _ => rfl) ⟨by rw [hB0]; exact hZB, hE⟩
    simp only [List.mem_finRange, if_true] at hz
    have hbal := (C40_assign (INJ := fun i => w.BN.c2 (w.LT i)) (LOD := w.BN.c1) (LT := w.LT) (NLS := NLS)
      (by rw [hLT]; exact LT_bij NR) hL).1
    have hk := (C35_kirchhoff hg.proper hz.inv hz.last _ hbal).1
    have hpot := (C35_kirchhoff hg.proper hz.inv hz.last _ hbal).2.2.2
    unfold tm2 at ho
    extract_lets b INJ s r IND at ho
    split at ho
    · rename_i hI
      cases ho
      refine ⟨⟨rfl, u1, rfl, u2, u3, u4⟩, fun i => ?_, fun i => ?_, indic_lines hc hI, fun ha => ?_, ?_⟩
      · exact scatter_hit (by rw [hLT]; exact (LT_bij NR).1) _ _ _ (List.nodup_finRange _) i (List.mem_finRange i)
      · have := hk i
        rw [← hLT] at this
        exact this
      · exact (C38_accepted hc ha (o := ⟨_, _, _, _, _⟩) (lp := noRedispatch) (BN := w.BN) (BLP0 := w.BLP0)
          (BB := w.BB) (ZB := w.ZB) (LT := w.LT) (NR := NR) (NLS := NLS) (if_pos hI) hI).2
      · obtain ⟨θ, _, hθ⟩ := hpot
        rw [← hLT] at hθ
        exact ⟨θ, hθ⟩
    · cases ho

theorem transmInit_intact {LP : LEnds n m} {BLPA : Fin m → Fin 6 → LnPar} {NR : Fin (n + 1)}
    (hg : Grid LP BLPA NR) {I : ℤ} {w w1 : NetSt n m} (hw : I ≠ 1 ∨ Intact LP BLPA NR w)
    (h : transmInit LP BLPA NR I w = .ok w1) : Intact LP BLPA NR w1 ∧ w1.BN = w.BN := by
  unfold transmInit at h
  split at h
  · cases ho : tm1 LP (fun i => (BLPA i 0).adm) NR with
    | error e => rw [ho] at h; cases h
    | ok o =>
      rw [ho] at h
      cases h
      obtain ⟨e1, _, e3, e4, e5, e6⟩ := C51_inverse hg.proper ho
      refine ⟨⟨e1, e4, ?_, e3, e6⟩, rfl⟩
      show o.BB = _
      rw [e5, C34_nodal hg.proper]
  · rename_i hI
    cases h
    exact ⟨hw.resolve_left hI, rfl⟩

theorem stateIdx_val (k : Fin 6) {s : ℤ} (h : s = (k : ℕ) + 1) : stateIdx s = .ok k := by
  unfold stateIdx
  rw [dif_pos (by omega)]
  congr 1
  ext
  simp only
  omega

theorem statesIdx_val {k : Fin m → Fin 6} {s : Fin m → ℤ} (h : ∀ i, s i = ((k i : ℕ) : ℤ) + 1) :
    statesIdx s = .ok k := by
  unfold statesIdx
  rw [if_pos (fun i => by rw [stateIdx_val _ (h i)]; rfl)]
  congr 1
  funext i
  rw [stateIdx_val _ (h i)]

/-- The two load flows of an evaluation that needs no re-dispatch. -/
theorem transm_split {LP : LEnds n m} {BLPA : Fin m → Fin 6 → LnPar} {NR : Fin (n + 1)} {NLS : ℤ}
    {t : TransIn (n + 1) m} {w w' : NetSt n m} {out : TransOut n m} {k : Fin m → Fin 6}
    (hg : Grid LP BLPA NR) (hI : t.IFLAG ≠ 1 ∨ Intact LP BLPA NR w) (hk : ∀ i, t.LNSTAT i = ((k i : ℕ) : ℤ) + 1)
    (hload : NLS = 0 → (∀ a, 0 ≤ t.CAPREQ a) ∧ 0 < ∑ a, t.CAPREQ a)
    (h : transm noRedispatch LP BLPA NR NLS t w = .ok (out, w')) :
    ∃ (w1 w2 : NetSt n m) (F1 : Fin m → ℚ), Intact LP BLPA NR w1 ∧ w1.BN.c3 = w.BN.c3 ∧ w1.BN.c4 = w.BN.c4 ∧
      w1.BN.c2 = scheduled t ∧ Intact LP BLPA NR w2 ∧ w2.BN.c3 = w.BN.c3 ∧ w2.BN.c4 = w.BN.c4 ∧
      Accepted LP (sampledBLP BLPA k) 1 w1 w2 F1 ∧
      ((out.JFLAG = 0 ∧ out.FLOW = F1 ∧ w' = w2 ∧ (∀ a, out.SADJ a = t.SYSCON a - t.CAPREQ a - w2.BN.c1 a) ∧
          ∀ a, 0 ≤ out.SADJ a) ∨
       (out.JFLAG = 1 ∧ (∃ a, t.SYSCON a - t.CAPREQ a - w2.BN.c1 a < 0) ∧ ∃ w3 : NetSt n m,
          Accepted LP (second LP (sampledBLP BLPA k) NLS t F1 w2.BN).2.1 NLS
            { w2 with BN := (second LP (sampledBLP BLPA k) NLS t F1 w2.BN).2.2 } w3 out.FLOW ∧
          w' = { w3 with BN := { w3.BN with c3 := w2.BN.c3, c4 := w2.BN.c3 } } ∧
          ∀ a, out.SADJ a = w3.BN.c1 a - t.SYSCON a + t.CAPREQ a + w2.BN.c1 a * (NLS : ℚ))) := by
  unfold transm at h
  obtain ⟨w0, h0, h⟩ := Except.bind_ok h
  obtain ⟨hw0, hbn⟩ := transmInit_intact hg hI h0
  rw [statesIdx_val hk] at h
  obtain ⟨k', hk', h⟩ := Except.bind_ok h
  cases hk'
  obtain ⟨⟨w2, F1⟩, h1, h⟩ := Except.bind_ok h
  have hi1 : Intact LP BLPA NR { w0 with BN := { w0.BN with c2 := scheduled t, c1 := fun _ => 0 } } :=
    ⟨hw0.BLP0, hw0.LT, hw0.BB, hw0.ZB, hw0.edge⟩
  have ha1 := callTm2_none hg (BLP := sampledBLP BLPA k) (fun i => hg.adm i _) (fun i => hg.cap i _) hi1
    (by intro h; cases h) h1
  have hi2 : Intact LP BLPA NR w2 := by
    obtain ⟨e1, e2, e3, e4, _⟩ := ha1.rest
    exact ⟨e1.trans hw0.BLP0, e3.trans hw0.LT, e2.trans hw0.BB, by rw [e4]; exact hw0.ZB, by rw [e4]; exact hw0.edge⟩
  refine ⟨_, w2, F1, hi1, by rw [← hbn], by rw [← hbn], rfl, hi2, by rw [ha1.rest.2.2.2.2.1, ← hbn],
    by rw [ha1.rest.2.2.2.2.2, ← hbn], ha1, ?_⟩
  unfold transmRest at h
  dsimp only at h
  split at h
  · rename_i hs
    cases h
    exact Or.inl ⟨rfl, rfl, rfl, fun a => rfl, hs⟩
  · rename_i hs
    have hs' : ∃ a, t.SYSCON a - t.CAPREQ a - w2.BN.c1 a < 0 := by
      by_contra hc
      exact hs fun a => not_lt.1 fun hl => hc ⟨a, hl⟩
    refine Or.inr ?_
    unfold transm2 at h
    cases h2 : callTm2 noRedispatch LP (second LP (sampledBLP BLPA k) NLS t F1 w2.BN).2.1 NR NLS
        { w2 with BN := (second LP (sampledBLP BLPA k) NLS t F1 w2.BN).2.2 } with
    | error e => simp only [h2] at h; cases h
    | ok r =>
      simp only [h2] at h
      cases h
      obtain ⟨w3, F2⟩ := r
      have hadm : ∀ i, ((second LP (sampledBLP BLPA k) NLS t F1 w2.BN).2.1 i).adm < 0 := by
        intro i
        unfold second
        split
        · exact hg.adm i _
        · exact hg.adm i _
      have hcap : ∀ i, 0 ≤ ((second LP (sampledBLP BLPA k) NLS t F1 w2.BN).2.1 i).fwd ∧
          0 ≤ ((second LP (sampledBLP BLPA k) NLS t F1 w2.BN).2.1 i).bwd := by
        intro i
        unfold second
        split
        · exact ⟨le_max_right _ _, le_max_right _ _⟩
        · exact hg.cap i _
      have hc1 : ((second LP (sampledBLP BLPA k) NLS t F1 w2.BN).2.2).c1 = t.CAPREQ := by
        unfold second; split <;> rfl
      have hi3 : Intact LP BLPA NR { w2 with BN := (second LP (sampledBLP BLPA k) NLS t F1 w2.BN).2.2 } :=
        ⟨hi2.BLP0, hi2.LT, hi2.BB, hi2.ZB, hi2.edge⟩
      have ha2 := callTm2_none hg hadm hcap hi3 (by intro hN; simp only [hc1]; exact hload hN) h2
      refine ⟨rfl, hs', w3, ha2, rfl, fun a => ?_⟩
      have : (second LP (sampledBLP BLPA k) NLS t F1 w2.BN).1 a = w2.BN.c1 a * (NLS : ℚ) := by
        unfold second; split <;> rfl
      simp only [this]

/-- C39 for a whole evaluation of an hour that needs no re-dispatch: afterwards the matrices are those of the
intact network and the area limits are the old ones. -/
theorem C39_evaluation_partial {LP : LEnds n m} {BLPA : Fin m → Fin 6 → LnPar} {NR : Fin (n + 1)} {NLS : ℤ}
    {t : TransIn (n + 1) m} {w w' : NetSt n m} {out : TransOut n m} {k : Fin m → Fin 6}
    (hg : Grid LP BLPA NR) (hI : t.IFLAG ≠ 1 ∨ Intact LP BLPA NR w) (hk : ∀ i, t.LNSTAT i = ((k i : ℕ) : ℤ) + 1)
    (hload : NLS = 0 → (∀ a, 0 ≤ t.CAPREQ a) ∧ 0 < ∑ a, t.CAPREQ a) (hlim : w.BN.c3 = w.BN.c4)
    (h : transm noRedispatch LP BLPA NR NLS t w = .ok (out, w')) :
    Intact LP BLPA NR w' ∧ w'.BN.c3 = w.BN.c3 ∧ w'.BN.c4 = w.BN.c4 := by
  obtain ⟨w1, w2, F1, _, _, _, _, hi2, e3, e4, _, hcase⟩ := transm_split hg hI hk hload h
  rcases hcase with ⟨_, _, rfl, _⟩ | ⟨_, _, w3, ha, rfl, _⟩
  · exact ⟨hi2, e3, e4⟩
  · obtain ⟨u1, u2, u3, u4, _⟩ := ha.rest
    exact ⟨⟨u1.trans hi2.BLP0, u3.trans hi2.LT, u2.trans hi2.BB, by rw [u4]; exact hi2.ZB, by rw [u4]; exact hi2.edge⟩,
      e3, e3.trans hlim⟩

/-- C39: the first evaluation of every hour (`IFLAG` is 0) does not depend on what earlier hours left in the
arrays, apart from the area limits. -/
theorem C39_rebuilt (lp : Redispatch n m) (LP : LEnds n m) (BLPA : Fin m → Fin 6 → LnPar) (NR : Fin (n + 1))
    (NLS : ℤ) {t : TransIn (n + 1) m} (hI : t.IFLAG ≠ 1) {w v : NetSt n m} (h3 : w.BN.c3 = v.BN.c3)
    (h4 : w.BN.c4 = v.BN.c4) :
    transm lp LP BLPA NR NLS t w = transm lp LP BLPA NR NLS t v := by
  unfold transm transmInit
  rw [if_pos hI, if_pos hI]
  cases tm1 LP (fun i => (BLPA i 0).adm) NR with
  | error e => rfl
  | ok o =>
    show (statesIdx t.LNSTAT >>= _) = (statesIdx t.LNSTAT >>= _)
    simp only [h3, h4]

theorem second_c2 (LP : LEnds n m) (BLP : Fin m → LnPar) (NLS : ℤ) (t : TransIn (n + 1) m) (F : Fin m → ℚ)
    (BN : BNcols n) (a : Fin (n + 1)) :
    (second LP BLP NLS t F BN).2.2.c2 a = t.SYSCON a - t.CAPREQ a - BN.c1 a * (NLS : ℚ) := by
  unfold second; split <;> rfl

theorem second_c1 (LP : LEnds n m) (BLP : Fin m → LnPar) (NLS : ℤ) (t : TransIn (n + 1) m) (F : Fin m → ℚ)
    (BN : BNcols n) : (second LP BLP NLS t F BN).2.2.c1 = t.CAPREQ := by
  unfold second; split <;> rfl

/-- The scheduled injections balance. -/
theorem scheduled_balance {LP : LEnds n m} {BLPA : Fin m → Fin 6 → LnPar} {NR : Fin (n + 1)} {BLP : Fin m → LnPar}
    {w1 w2 : NetSt n m} {F : Fin m → ℚ} (hi : Intact LP BLPA NR w1) (ha : Accepted LP BLP 1 w1 w2 F) :
    ∑ a, w2.BN.c1 a = 0 := by
  have hb : Function.Bijective w1.LT := by rw [hi.LT]; exact LT_bij NR
  rw [sum_LT hb, Finset.sum_congr rfl fun i _ => ha.c1 i]
  exact (C40_assign hb (by intro h; cases h)).1

/-- C52. When no line or area limit binds, assistance between the areas only redistributes: after it the
areas' margins (the negated `SADJ`) add up to the same pool margin as before, and the total of the reported
shortages is what the pool as a whole lacks, zero if it has enough. -/
theorem C52_pool_shortage {LP : LEnds n m} {BLPA : Fin m → Fin 6 → LnPar} {NR : Fin (n + 1)} {NLS : ℤ}
    {t : TransIn (n + 1) m} {w w' : NetSt n m} {out : TransOut n m} {k : Fin m → Fin 6}
    (hg : Grid LP BLPA NR) (hI : t.IFLAG ≠ 1 ∨ Intact LP BLPA NR w) (hk : ∀ i, t.LNSTAT i = ((k i : ℕ) : ℤ) + 1)
    (hload : NLS = 0 → (∀ a, 0 ≤ t.CAPREQ a) ∧ 0 < ∑ a, t.CAPREQ a)
    (h : transm noRedispatch LP BLPA NR NLS t w = .ok (out, w')) :
    (out.JFLAG = 0 → (∀ a, 0 ≤ out.SADJ a) ∧ ∑ a, out.SADJ a = ∑ a, (t.SYSCON a - t.CAPREQ a)) ∧
    (out.JFLAG ≠ 0 → ∑ a, -out.SADJ a = ∑ a, (t.SYSCON a - t.CAPREQ a) ∧
      ∑ a, max 0 (out.SADJ a) = max 0 (∑ a, t.CAPREQ a - ∑ a, t.SYSCON a)) := by
  obtain ⟨w1, w2, F1, hi1, _, _, _, hi2, _, _, ha1, hcase⟩ := transm_split hg hI hk hload h
  have hbal := scheduled_balance hi1 ha1
  rcases hcase with ⟨hJ, _, _, hS, hS0⟩ | ⟨hJ, _, w3, ha, _, hS⟩
  · refine ⟨fun _ => ⟨hS0, ?_⟩, fun h => absurd hJ h⟩
    rw [Finset.sum_congr rfl fun a _ => hS a, Finset.sum_sub_distrib, hbal, sub_zero]
  · refine ⟨fun h => absurd (hJ.symm.trans h) one_ne_zero, fun _ => ?_⟩
    have hb : Function.Bijective w2.LT := by rw [hi2.LT]; exact LT_bij NR
    have hL : NLS = 0 → (∀ a, 0 ≤ (second LP (sampledBLP BLPA k) NLS t F1 w2.BN).2.2.c1 a) ∧
        0 < ∑ a, (second LP (sampledBLP BLPA k) NLS t F1 w2.BN).2.2.c1 a := by
      rw [second_c1]; exact hload
    have hc1 := ha.c1
    simp only at hc1
    generalize hq : (second LP (sampledBLP BLPA k) NLS t F1 w2.BN).2.2 = q at hc1 hL
    have hq2 : ∀ a, q.c2 a = t.SYSCON a - t.CAPREQ a - w2.BN.c1 a * (NLS : ℚ) := fun a => by
      rw [← hq]; exact second_c2 _ _ _ _ _ _ a
    have hSi : ∀ i, out.SADJ (w2.LT i) =
        (assign (fun i => q.c2 (w2.LT i)) q.c1 w2.LT NLS).1 i - q.c2 (w2.LT i) := fun i => by
      rw [hS, hc1 i, hq2]; ring
    have hsumq : ∑ i, q.c2 (w2.LT i) = ∑ a, (t.SYSCON a - t.CAPREQ a) := by
      rw [← sum_LT hb, Finset.sum_congr rfl fun a _ => hq2 a, Finset.sum_sub_distrib, ← Finset.sum_mul, hbal]
      ring
    obtain ⟨b1, _, b3, _⟩ := C40_assign (INJ := fun i => q.c2 (w2.LT i)) hb hL
    constructor
    · rw [sum_LT hb, Finset.sum_congr rfl fun i _ => congrArg Neg.neg (hSi i)]
      simp only [neg_sub]
      rw [Finset.sum_sub_distrib, b1, sub_zero, hsumq]
    · rw [sum_LT hb, Finset.sum_congr rfl fun i _ => congrArg (max 0) (hSi i)]
      rw [Finset.sum_congr rfl fun i _ => assign_excess hb hL i, ← sum_LT hb, b3, hsumq]
      congr 1
      rw [Finset.sum_sub_distrib]; ring

/-- C53. When no limit binds, the reported shortages are physically consistent: there are line flows within the
capacities of the sampled states under which every area's net export is its own margin plus its reported
shortage (negative: unused surplus). With loss sharing (`NLS` 0) they also respect the areas' limits. -/
theorem C53_total_flows {LP : LEnds n m} {BLPA : Fin m → Fin 6 → LnPar} {NR : Fin (n + 1)} {NLS : ℤ}
    {t : TransIn (n + 1) m} {w w' : NetSt n m} {out : TransOut n m} {k : Fin m → Fin 6}
    (hg : Grid LP BLPA NR) (hI : t.IFLAG ≠ 1 ∨ Intact LP BLPA NR w) (hk : ∀ i, t.LNSTAT i = ((k i : ℕ) : ℤ) + 1)
    (hload : NLS = 0 → (∀ a, 0 ≤ t.CAPREQ a) ∧ 0 < ∑ a, t.CAPREQ a) (hN : NLS = 0 ∨ NLS = 1)
    (hlim : ∀ a, 0 ≤ w.BN.c3 a ∧ 0 ≤ w.BN.c4 a)
    (h : transm noRedispatch LP BLPA NR NLS t w = .ok (out, w')) (hJ : out.JFLAG ≠ 0) :
    ∃ F : Fin m → ℚ, (∀ i, -(BLPA i (k i)).bwd ≤ F i ∧ F i ≤ (BLPA i (k i)).fwd) ∧
      (∀ a, netOut LP F a = t.SYSCON a - t.CAPREQ a + out.SADJ a) ∧
      (NLS = 0 → F = out.FLOW ∧ ∀ a, -w.BN.c4 a ≤ -netOut LP F a ∧ -netOut LP F a ≤ w.BN.c3 a) := by
  obtain ⟨w1, w2, F1, hi1, _, _, _, hi2, e3, e4, ha1, hcase⟩ := transm_split hg hI hk hload h
  rcases hcase with ⟨hJ0, _⟩ | ⟨_, _, w3, ha, _, hS⟩
  · exact absurd hJ0 hJ
  have hb1 : Function.Bijective w1.LT := by rw [hi1.LT]; exact LT_bij NR
  have hb : Function.Bijective w2.LT := by rw [hi2.LT]; exact LT_bij NR
  have hk1 : ∀ a, netOut LP F1 a = w2.BN.c1 a := fun a => by
    obtain ⟨i, rfl⟩ := hb1.2 a
    rw [ha1.kcl i, ha1.c1 i]
  have hk2 : ∀ a, netOut LP out.FLOW a = w3.BN.c1 a := fun a => by
    obtain ⟨i, rfl⟩ := hb.2 a
    rw [ha.kcl i, ha.c1 i]
  rcases hN with rfl | rfl
  · have hl := ha.line
    have har := ha.area
    simp only [second, ne_eq, not_true_eq_false, if_false] at hl har
    refine ⟨out.FLOW, hl, fun a => ?_, fun _ => ⟨rfl, ?_⟩⟩
    · rw [hk2, hS]; push_cast; ring
    · rw [← e3, ← e4]
      exact har (by rw [e3, e4]; exact hlim)
  · have hl := ha.line
    have hl1 := ha1.line
    simp only [second, ne_eq, one_ne_zero, not_false_eq_true, if_true, residualBLP] at hl
    refine ⟨fun i => F1 i + out.FLOW i, fun i => ?_, fun a => ?_, fun h => by cases h⟩
    · have h1 := hl1 i
      have h2 := hl i
      simp only [sampledBLP] at h1 h2
      rw [max_eq_left (by linarith), max_eq_left (by linarith)] at h2
      exact ⟨by linarith [h2.1], by linarith [h2.2]⟩
    · have : netOut LP (fun i => F1 i + out.FLOW i) a = netOut LP F1 a + netOut LP out.FLOW a := by
        simp only [netOut_eq, mul_add, Finset.sum_add_distrib]
      rw [this, hk1, hk2, hS]; push_cast; ring

/-- C53: when the first load flow already serves everybody, likewise. -/
theorem C53_scheduled_flows {LP : LEnds n m} {BLPA : Fin m → Fin 6 → LnPar} {NR : Fin (n + 1)} {NLS : ℤ}
    {t : TransIn (n + 1) m} {w w' : NetSt n m} {out : TransOut n m} {k : Fin m → Fin 6}
    (hg : Grid LP BLPA NR) (hI : t.IFLAG ≠ 1 ∨ Intact LP BLPA NR w) (hk : ∀ i, t.LNSTAT i = ((k i : ℕ) : ℤ) + 1)
    (hload : NLS = 0 → (∀ a, 0 ≤ t.CAPREQ a) ∧ 0 < ∑ a, t.CAPREQ a)
    (hlim : ∀ a, 0 ≤ w.BN.c3 a ∧ 0 ≤ w.BN.c4 a)
    (h : transm noRedispatch LP BLPA NR NLS t w = .ok (out, w')) (hJ : out.JFLAG = 0) :
    (∀ i, -(BLPA i (k i)).bwd ≤ out.FLOW i ∧ out.FLOW i ≤ (BLPA i (k i)).fwd) ∧
    (∀ a, -w.BN.c4 a ≤ -netOut LP out.FLOW a ∧ -netOut LP out.FLOW a ≤ w.BN.c3 a) ∧
    (∀ a, 0 ≤ out.SADJ a ∧ netOut LP out.FLOW a = t.SYSCON a - t.CAPREQ a - out.SADJ a) := by
  obtain ⟨w1, w2, F1, hi1, e3, e4, _, hi2, _, _, ha1, hcase⟩ := transm_split hg hI hk hload h
  rcases hcase with ⟨_, hF, _, hS, hS0⟩ | ⟨hJ1, _⟩
  · have hb1 : Function.Bijective w1.LT := by rw [hi1.LT]; exact LT_bij NR
    rw [hF]
    refine ⟨ha1.line, ?_, fun a => ⟨hS0 a, ?_⟩⟩
    · rw [← e3, ← e4]; exact ha1.area (by rw [e3, e4]; exact hlim)
    · obtain ⟨i, rfl⟩ := hb1.2 a
      rw [ha1.kcl i, hS, ha1.c1 i]; ring
  · rw [hJ1] at hJ; cases hJ

theorem sum_netOut_mul {k : ℕ} (LP : Fin m → Fin k × Fin k) (F : Fin m → ℚ) (θ : Fin k → ℚ) :
    ∑ a, θ a * netOut LP F a = ∑ i, (θ (LP i).1 - θ (LP i).2) * F i := by
  simp only [netOut, mul_sub, Finset.sum_sub_distrib, Finset.mul_sum, sub_mul, mul_ite, mul_zero]
  congr 1 <;> · rw [Finset.sum_comm]; exact Finset.sum_congr rfl fun i _ => by simp

/-- Flows that come from angles and carry nothing out of any area are zero. -/
theorem flows_zero {k : ℕ} {LP : Fin m → Fin k × Fin k} {b F : Fin m → ℚ} (hb : ∀ i, b i < 0) {θ : Fin k → ℚ}
    (hF : ∀ i, F i = b i * (θ (LP i).1 - θ (LP i).2)) (h0 : ∀ a, netOut LP F a = 0) (i : Fin m) : F i = 0 := by
  have h := sum_netOut_mul LP F θ
  simp only [h0, mul_zero, Finset.sum_const_zero] at h
  have h1 : ∀ i ∈ Finset.univ, 0 ≤ -((θ (LP i).1 - θ (LP i).2) * F i) := fun i _ => by
    rw [hF i]
    nlinarith [hb i, sq_nonneg (θ (LP i).1 - θ (LP i).2), mul_nonneg (neg_nonneg.2 (hb i).le) (sq_nonneg (θ (LP i).1 - θ (LP i).2))]
  have h2 : ∑ i, -((θ (LP i).1 - θ (LP i).2) * F i) = 0 := by rw [Finset.sum_neg_distrib, ← h, neg_zero]
  have h3 := (Finset.sum_eq_zero_iff_of_nonneg h1).1 h2 i (Finset.mem_univ i)
  rw [neg_eq_zero, mul_eq_zero] at h3
  rcases h3 with h3 | h3
  · rw [hF i, h3, mul_zero]
  · exact h3

theorem assign_zero {LOD : Fin (n + 1) → ℚ} {LT : Fin (n + 1) → Fin (n + 1)} (hLT : Function.Bijective LT)
    {INJ : Fin (n + 1) → ℚ} (h0 : ∀ i, INJ i = 0) (i : Fin (n + 1)) : (assign INJ LOD LT 1).1 i = 0 := by
  obtain ⟨_, h2, h3, h4, _⟩ := C40_assign (INJ := INJ) (LOD := LOD) (NLS := 1) hLT (by intro h; cases h)
  have e : ∑ i, INJ i = 0 := Finset.sum_eq_zero fun i _ => h0 i
  rw [e, neg_zero, max_self] at h3
  rw [h4 i (h0 i).le, h0, (Finset.sum_eq_zero_iff_of_nonneg fun a _ => h2 a).1 h3 _ (Finset.mem_univ _), zero_add]

/-- With no contracts the first load flow moves nothing. -/
theorem first_zero {LP : LEnds n m} {BLPA : Fin m → Fin 6 → LnPar} {NR : Fin (n + 1)} {BLP : Fin m → LnPar}
    {t : TransIn (n + 1) m} {w1 w2 : NetSt n m} {F : Fin m → ℚ} (hb : ∀ i, (BLP i).adm < 0)
    (hi : Intact LP BLPA NR w1) (hs : w1.BN.c2 = scheduled t) (ht : ∀ a, t.TRNSFR a + t.TRNSFJ a = 0)
    (ha : Accepted LP BLP 1 w1 w2 F) : (∀ i, F i = 0) ∧ ∀ a, w2.BN.c1 a = 0 := by
  have hbij : Function.Bijective w1.LT := by rw [hi.LT]; exact LT_bij NR
  have hz : ∀ i, (assign (fun i => w1.BN.c2 (w1.LT i)) w1.BN.c1 w1.LT 1).1 i = 0 := assign_zero hbij fun i => by
    rw [hs, scheduled, ht, max_eq_left (min_le_right _ _)]
  obtain ⟨θ, hθ⟩ := ha.pot
  refine ⟨flows_zero hb hθ fun a => ?_, fun a => ?_⟩
  · obtain ⟨i, rfl⟩ := hbij.2 a
    rw [ha.kcl, hz]
  · obtain ⟨i, rfl⟩ := hbij.2 a
    rw [ha.c1, hz]

theorem fancyAdd_zero (key : Fin m → Fin (n + 1)) {v : Fin m → ℚ} (hv : ∀ i, v i = 0) (c : Fin (n + 1) → ℚ) :
    fancyAdd key v c = c := by
  unfold fancyAdd
  have : ∀ (L : List (Fin m)) (d : Fin (n + 1) → ℚ), d = c →
      L.foldl (fun d i => fun a => if a = key i then c (key i) + v i else d a) d = c := by
    intro L
    induction L with
    | nil => exact fun d h => h
    | cons i L ih =>
      intro d h
      refine ih _ ?_
      funext a
      simp only
      split
      · rename_i e; rw [hv, add_zero, e]
      · rw [h]
  exact this _ _ rfl

/-- C88, when nothing is scheduled by contract (which is so in every run from the input cards, see `C65`): without
loss sharing too, when no limit binds, the reported line flows belong to the reported shortages and are within the
capacities of the lines and within the areas' import and export limits. -/
theorem C88_no_contracts_partial {LP : LEnds n m} {BLPA : Fin m → Fin 6 → LnPar} {NR : Fin (n + 1)}
    {t : TransIn (n + 1) m} {w w' : NetSt n m} {out : TransOut n m} {k : Fin m → Fin 6}
    (hg : Grid LP BLPA NR) (hI : t.IFLAG ≠ 1 ∨ Intact LP BLPA NR w) (hk : ∀ i, t.LNSTAT i = ((k i : ℕ) : ℤ) + 1)
    (hlim : ∀ a, 0 ≤ w.BN.c3 a ∧ 0 ≤ w.BN.c4 a) (ht : ∀ a, t.TRNSFR a + t.TRNSFJ a = 0)
    (h : transm noRedispatch LP BLPA NR 1 t w = .ok (out, w')) :
    (∀ i, -(BLPA i (k i)).bwd ≤ out.FLOW i ∧ out.FLOW i ≤ (BLPA i (k i)).fwd) ∧
    (∀ a, -w.BN.c4 a ≤ -netOut LP out.FLOW a ∧ -netOut LP out.FLOW a ≤ w.BN.c3 a) ∧
    (out.JFLAG = 0 → ∀ a, 0 ≤ out.SADJ a ∧ netOut LP out.FLOW a = t.SYSCON a - t.CAPREQ a - out.SADJ a) ∧
    (out.JFLAG ≠ 0 → ∀ a, netOut LP out.FLOW a = t.SYSCON a - t.CAPREQ a + out.SADJ a) := by
  have hload : (1 : ℤ) = 0 → (∀ a, 0 ≤ t.CAPREQ a) ∧ 0 < ∑ a, t.CAPREQ a := by intro h; cases h
  by_cases hJ : out.JFLAG = 0
  · obtain ⟨h1, h2, h3⟩ := C53_scheduled_flows hg hI hk hload hlim h hJ
    exact ⟨h1, h2, fun _ => h3, fun h => absurd hJ h⟩
  obtain ⟨w1, w2, F1, hi1, _, _, hs, hi2, e3, e4, ha1, hcase⟩ := transm_split hg hI hk hload h
  rcases hcase with ⟨hJ0, _⟩ | ⟨_, _, w3, ha, _, hS⟩
  · exact absurd hJ0 hJ
  obtain ⟨hF, hc⟩ := first_zero (fun i => hg.adm i _) hi1 hs ht ha1
  have hb : Function.Bijective w2.LT := by rw [hi2.LT]; exact LT_bij NR
  have hl := ha.line
  have har := ha.area
  simp only [second, ne_eq, one_ne_zero, not_false_eq_true, if_true, residualBLP, residualBN, sampledBLP] at hl har
  have hF' : ∀ i, -F1 i = 0 := fun i => by rw [hF, neg_zero]
  rw [fancyAdd_zero _ hF', fancyAdd_zero _ hF', fancyAdd_zero _ hF, fancyAdd_zero _ hF] at har
  refine ⟨fun i => ?_, ?_, fun h => absurd h hJ, fun _ a => ?_⟩
  · have := hl i
    rw [hF i, add_zero, sub_zero, max_eq_left (hg.cap i _).1, max_eq_left (hg.cap i _).2] at this
    exact this
  · rw [← e3, ← e4]
    exact har (by rw [e3, e4]; exact hlim)
  · obtain ⟨i, rfl⟩ := hb.2 a
    rw [hS, ha.kcl i, hc, zero_mul, ← ha.c1 i]; ring

theorem tm2_limits {lp : Redispatch n m} {BN : BNcols n} {LP : LEnds n m} {BLP : Fin m → LnPar}
    {BLP0 : Fin m → ℚ} {BB ZB : NMat n} {LT : Fin (n + 1) → Fin (n + 1)} {NR : Fin (n + 1)} {NLS : ℤ} {o : Tm2Out n m}
    (ho : tm2 lp BN LP BLP BLP0 BB ZB LT NR NLS = .ok o) : o.BN.c3 = BN.c3 ∧ o.BN.c4 = BN.c4 := by
  unfold tm2 at ho
  extract_lets b INJ s r IND at ho
  split at ho
  · cases ho; exact ⟨rfl, rfl⟩
  · generalize lp _ = x at ho
    cases x with
    | error e => cases ho
    | ok v => cases ho; exact ⟨rfl, rfl⟩

theorem callTm2_limits {lp : Redispatch n m} {LP : LEnds n m} {BLP : Fin m → LnPar} {NR : Fin (n + 1)} {NLS : ℤ}
    {w : NetSt n m} {r : NetSt n m × (Fin m → ℚ)} (h : callTm2 lp LP BLP NR NLS w = .ok r) :
    r.1.BN.c3 = w.BN.c3 ∧ r.1.BN.c4 = w.BN.c4 := by
  unfold callTm2 at h
  cases ho : tm2 lp w.BN LP BLP w.BLP0 w.BB w.ZB w.LT NR NLS with
  | error e => rw [ho] at h; cases h
  | ok o => rw [ho] at h; cases h; exact tm2_limits ho

/-- C54. The areas' import and export limits survive every evaluation of the network, with or without
re-dispatch, although the second load flow works on reduced ones: every later hour sees the limits of the
input data. -/
theorem C54_limits_restored {lp : Redispatch n m} {LP : LEnds n m} {BLPA : Fin m → Fin 6 → LnPar} {NR : Fin (n + 1)}
    {NLS : ℤ} {t : TransIn (n + 1) m} {w w' : NetSt n m} {out : TransOut n m} (hlim : w.BN.c4 = w.BN.c3)
    (h : transm lp LP BLPA NR NLS t w = .ok (out, w')) : w'.BN.c3 = w.BN.c3 ∧ w'.BN.c4 = w.BN.c4 := by
  unfold transm at h
  obtain ⟨w0, h0, h⟩ := Except.bind_ok h
  obtain ⟨k, _, h⟩ := Except.bind_ok h
  obtain ⟨r, h1, h⟩ := Except.bind_ok h
  have hbn : w0.BN = w.BN := by
    unfold transmInit at h0
    split at h0
    · generalize tm1 _ _ _ = x at h0
      cases x with
      | error e => cases h0
      | ok v => cases h0; rfl
    · cases h0; rfl
  have h2 := callTm2_limits h1
  simp only [hbn] at h2
  unfold transmRest at h
  dsimp only at h
  split at h
  · cases h; exact h2
  · unfold transm2 at h
    dsimp only at h
    generalize callTm2 _ _ _ _ _ _ = x at h
    cases x with
    | error e => cases h
    | ok v => cases h; exact ⟨h2.1, by rw [hlim]; exact h2.1⟩

/-! ### Concrete cases -/

/-- Two areas and one line of 1000 MW in all states. -/
def twoLP : LEnds 1 1 := ![(0, 1)]
/-- see `twoLP` -/
def twoBLPA : Fin 1 → Fin 6 → LnPar := fun _ s => ⟨if s = 0 then -100 else -50, 1000, 1000⟩
/-- 300 MW more than needed in the first area, 200 MW too little in the second; 80 MW are scheduled from the
first to the second. -/
def twoT : TransIn 2 1 :=
  { IFLAG := 0, LNSTAT := fun _ => 2, TRNSFR := ![80, -80], TRNSFJ := fun _ => 0, SYSCON := ![600, 300]
    CAPREQ := ![300, 500] }
/-- Limits of 1000 MW and of `x` MW for the second area. -/
def twoW (x : ℚ) : NetSt 1 1 :=
  { BN := { c1 := fun _ => 0, c2 := fun _ => 0, c3 := ![1000, x], c4 := ![1000, x] }, BLP0 := fun _ => 0, BB := 0
    LT := fun _ => 0, ZB := 0 }

theorem two_grid : Grid twoLP twoBLPA 0 := by
  refine ⟨by unfold Proper; decide, fun a => ?_, fun i s => ?_, fun i s => ?_⟩
  · fin_cases a
    · exact Relation.ReflTransGen.refl
    · exact Relation.ReflTransGen.single ⟨0, Or.inl ⟨rfl, rfl⟩⟩
  · unfold twoBLPA; split <;> norm_num
  · unfold twoBLPA; norm_num

/-- The visible part of a result. -/
def vis {n l : ℕ} (r : Except PyErr (TransOut n l × NetSt n l)) : Option (ℤ × List ℚ × List ℚ) :=
  r.toOption.map fun r => (r.1.JFLAG, (List.finRange l).map r.1.FLOW, (List.finRange (n + 1)).map r.1.SADJ)

theorem vis_ok {n l : ℕ} {r : Except PyErr (TransOut n l × NetSt n l)} {J : ℤ} {F S : List ℚ}
    (h : vis r = some (J, F, S)) : ∃ o w', r = .ok (o, w') ∧ o.JFLAG = J ∧ (List.finRange l).map o.FLOW = F ∧
      (List.finRange (n + 1)).map o.SADJ = S := by
  cases r with
  | error e => cases h
  | ok v =>
    obtain ⟨o, w'⟩ := v
    simp only [vis, Except.toOption, Option.map_some, Option.some.injEq, Prod.mk.injEq] at h
    exact ⟨o, w', rfl, h.1, h.2.1, h.2.2⟩

/-- Non-vacuity of C88: nothing is scheduled, the limit of the second area is reached exactly, with and without a
shortage of the pool. -/
example : vis (transm noRedispatch twoLP twoBLPA 0 1 { twoT with TRNSFR := fun _ => 0 } (twoW 200)) =
      some (1, [200], [-100, 0]) ∧
    vis (transm noRedispatch twoLP twoBLPA 0 1 { twoT with TRNSFR := fun _ => 0, CAPREQ := ![300, 700] } (twoW 300)) =
      some (1, [300], [0, 100]) := by
  decide +kernel

theorem two_result : vis (transm noRedispatch twoLP twoBLPA 0 1 twoT (twoW 100)) = some (1, [120], [-100, 0]) := by
  decide +kernel

/-- Non-vacuity of C52, C53, C39: no limit binds, with and without loss sharing, with and without a shortage
of the pool. -/
example : vis (transm noRedispatch twoLP twoBLPA 0 1 twoT (twoW 1000)) = some (1, [120], [-100, 0]) ∧
    vis (transm noRedispatch twoLP twoBLPA 0 0 twoT (twoW 1000)) = some (1, [200], [-100, 0]) ∧
    vis (transm noRedispatch twoLP twoBLPA 0 0 { twoT with CAPREQ := ![300, 700] } (twoW 1000)) =
      some (1, [330], [30, 70]) ∧
    vis (transm noRedispatch twoLP twoBLPA 0 1 { twoT with CAPREQ := ![300, 700] } (twoW 1000)) =
      some (1, [220], [0, 100]) ∧
    vis (transm noRedispatch twoLP twoBLPA 0 1 { twoT with CAPREQ := ![300, 380] } (twoW 1000)) =
      some (0, [80], [220, 0]) := by
  decide +kernel

/-- C53, refuted without loss sharing: the scheduled flow is added to the import limit of the receiving area
instead of being subtracted. Here the second area may import 100 MW; 200 MW reach it and no shortage is
reported, and no flows consistent with the report respect the limit. -/
theorem C53_area_limits_refuted : ∃ out w', transm noRedispatch twoLP twoBLPA 0 1 twoT (twoW 100) = .ok (out, w') ∧
    out.JFLAG ≠ 0 ∧ (∀ a, out.SADJ a ≤ 0) ∧
    ∀ F, (∀ a, netOut twoLP F a = twoT.SYSCON a - twoT.CAPREQ a + out.SADJ a) →
      (twoW 100).BN.c3 1 < -netOut twoLP F 1 := by
  obtain ⟨o, w', h, hJ, _, hS⟩ := vis_ok two_result
  have hS' : o.SADJ 0 = -100 ∧ o.SADJ 1 = 0 := by
    simpa [List.finRange_succ] using hS
  refine ⟨o, w', h, by rw [hJ]; decide, fun a => ?_, fun F hF => ?_⟩
  · fin_cases a
    · show o.SADJ 0 ≤ 0; rw [hS'.1]; norm_num
    · show o.SADJ 1 ≤ 0; rw [hS'.2]
  · rw [hF 1, hS'.2]
    show (100 : ℚ) < -(300 - 500 + 0)
    norm_num

/-- Three areas; lines of 1000 MW from the first to the second and to the third. -/
def starLP : LEnds 2 2 := ![(0, 1), (0, 2)]
/-- The first area has 700 MW to spare, the others lack 100 MW each; 60 MW are scheduled to each of them. -/
def starT : TransIn 3 2 :=
  { IFLAG := 0, LNSTAT := fun _ => 2, TRNSFR := ![120, -60, -60], TRNSFJ := fun _ => 0, SYSCON := ![1000, 300, 300]
    CAPREQ := ![300, 400, 400] }
/-- The first area may export (and import) 150 MW. -/
def starW : NetSt 2 2 :=
  { BN := { c1 := fun _ => 0, c2 := fun _ => 0, c3 := ![150, 1000, 1000], c4 := ![150, 1000, 1000] }
    BLP0 := fun _ => 0, BB := 0, LT := fun _ => 0, ZB := 0 }

/-- C88, refuted for the exporting area: of several lines at an area only the scheduled flow of the last one is taken
off its limit. Here the first area may export 150 MW, of which 120 MW are scheduled over two lines; 80 MW more are
exported and no shortage is reported, and no flows consistent with the report respect the limit. -/
theorem C88_several_lines_refuted :
    ∃ out w', transm noRedispatch starLP (fun _ _ => ⟨-100, 1000, 1000⟩) 0 1 starT starW = .ok (out, w') ∧
      out.JFLAG ≠ 0 ∧ out.SADJ 1 = 0 ∧ out.SADJ 2 = 0 ∧
      ∀ F, (∀ a, netOut starLP F a = starT.SYSCON a - starT.CAPREQ a + out.SADJ a) →
        starW.BN.c4 0 < netOut starLP F 0 := by
  have h : vis (transm noRedispatch starLP (fun _ _ => ⟨-100, 1000, 1000⟩) 0 1 starT starW) =
      some (1, [40, 40], [-500, 0, 0]) := by decide +kernel
  obtain ⟨o, w', h, hJ, _, hS⟩ := vis_ok h
  have hS' : o.SADJ 0 = -500 ∧ o.SADJ 1 = 0 ∧ o.SADJ 2 = 0 := by
    simpa [List.finRange_succ] using hS
  refine ⟨o, w', h, by rw [hJ]; decide, hS'.2.1, hS'.2.2, fun F hF => ?_⟩
  rw [hF 0, hS'.1]
  show (150 : ℚ) < 1000 - 300 + -500
  norm_num

end Narp.Props
