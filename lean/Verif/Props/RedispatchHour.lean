import Verif.Props.RedispatchRun

/-!
# The re-dispatch inside the transmission evaluation (C56, C58)
-/

namespace Narp.Props
open Narp Spec BigOperators Matrix

variable {n m : ℕ}

/-- What `tm2` hands to the re-dispatch. -/
def tm2In (BN : BNcols n) (LP : LEnds n m) (BLP : Fin m → LnPar) (BLP0 : Fin m → ℚ) (BB ZB : NMat n)
    (LT : Fin (n + 1) → Fin (n + 1)) (NR : Fin (n + 1)) (NLS : ℤ) : LpIn n m where
  BB := (lineUpdates LP (fun i => (BLP i).adm) BLP0 (ieq LT NR) NR (BB, ZB)).1
  INJ := fun i => BN.c2 (LT i)
  INJB := BN.c2
  NR := NR
  LT := LT
  BLP := BLP
  LP := LP
  BN := BN
  LOD := BN.c1
  NLS := NLS

/-- Some limit binds: the evaluation needs the re-dispatch. -/
def Binds (BN : BNcols n) (LP : LEnds n m) (BLP : Fin m → LnPar) (BLP0 : Fin m → ℚ) (BB ZB : NMat n)
    (LT : Fin (n + 1) → Fin (n + 1)) (NR : Fin (n + 1)) (NLS : ℤ) : Prop :=
  tm2 noRedispatch BN LP BLP BLP0 BB ZB LT NR NLS = .error .typeError

theorem tm2_binds {BN : BNcols n} {LP : LEnds n m} {BLP : Fin m → LnPar} {BLP0 : Fin m → ℚ} {BB ZB : NMat n}
    {LT : Fin (n + 1) → Fin (n + 1)} {NR : Fin (n + 1)} {NLS : ℤ} (hb : Binds BN LP BLP BLP0 BB ZB LT NR NLS)
    {lp : Redispatch n m} {o : Tm2Out n m} (h : tm2 lp BN LP BLP BLP0 BB ZB LT NR NLS = .ok o) :
    lp (tm2In BN LP BLP BLP0 BB ZB LT NR NLS) = .ok (o.BN.c1, o.BN.c2, o.FLOW) ∧ o.BN.c3 = BN.c3 ∧ o.BN.c4 = BN.c4 := by
  unfold Binds tm2 at hb
  unfold tm2 at h
  dsimp only at h hb
  split at hb
  · cases hb
  · rename_i h1
    rw [if_neg h1] at h
    change Except.map _ (lp (tm2In BN LP BLP BLP0 BB ZB LT NR NLS)) = _ at h
    cases hl : lp (tm2In BN LP BLP BLP0 BB ZB LT NR NLS) with
    | error e => rw [hl] at h; cases h
    | ok v =>
      rw [hl] at h
      cases h
      exact ⟨rfl, rfl, rfl⟩

theorem tm2In_shape {BN : BNcols n} {LP : LEnds n m} {BLP : Fin m → LnPar} {BLP0 : Fin m → ℚ} {BB ZB : NMat n}
    {NR : Fin (n + 1)} {NLS : ℤ} (hn : 0 < n) (hp : Proper LP) (hf : ∀ i, 0 ≤ (BLP i).fwd ∧ 0 ≤ (BLP i).bwd)
    (ha : ∀ a, 0 ≤ BN.c3 a ∧ 0 ≤ BN.c4 a) : LpShape (tm2In BN LP BLP BLP0 BB ZB (admitrLT id NR) NR NLS) where
  pos := hn
  lt := rfl
  proper := hp
  inj := fun _ => rfl
  fwd := fun i => (hf i).1
  bwd := fun i => (hf i).2
  imp := fun a => (ha a).1
  exp := fun a => (ha a).2

theorem tm2In_ok {BN : BNcols n} {LP : LEnds n m} {BLP : Fin m → LnPar} {BLP0 : Fin m → ℚ} {BB ZB : NMat n}
    {NR : Fin (n + 1)} {NLS : ℤ} (hn : 0 < n) (hp : Proper LP) (hf : ∀ i, 0 ≤ (BLP i).fwd ∧ 0 ≤ (BLP i).bwd)
    (ha : ∀ a, 0 ≤ BN.c3 a ∧ 0 ≤ BN.c4 a) (hB : blk BB = reduced LP BLP0 NR)
    (hw : ChangesAway LP NR (fun i => (BLP i).adm) BLP0) :
    LpInOk (tm2In BN LP BLP BLP0 BB ZB (admitrLT id NR) NR NLS) :=
  { tm2In_shape hn hp hf ha with bb := C36_admittance_partial hp hw hB }

/-- The solver's final solution has no negative entry and uses no artificial column. -/
def CleanEnd (fuel : ℕ) (x : LpIn n m) : Prop :=
  ∀ t, linp (connlsProb x) (connlsBasis n m) (connlsRhs x) fuel = some (.ok t) →
    (∀ k, 0 ≤ t.BS k) ∧ ∀ k, lpN1 n m ≤ (t.IBAS k).val → t.BS k = 0

/-- What the second evaluation of an hour starts from. -/
def secondIn (LP : LEnds n m) (BLP : Fin m → LnPar) (NR : Fin (n + 1)) (NLS : ℤ) (t : TransIn (n + 1) m)
    (FLOW : Fin m → ℚ) (w : NetSt n m) : LpIn n m :=
  let q := second LP BLP NLS t FLOW w.BN
  tm2In q.2.2 LP q.2.1 w.BLP0 w.BB w.ZB w.LT NR NLS

/-- Some limit binds in the second evaluation. -/
def SecondBinds (LP : LEnds n m) (BLP : Fin m → LnPar) (NR : Fin (n + 1)) (NLS : ℤ) (t : TransIn (n + 1) m)
    (FLOW : Fin m → ℚ) (w : NetSt n m) : Prop :=
  let q := second LP BLP NLS t FLOW w.BN
  Binds q.2.2 LP q.2.1 w.BLP0 w.BB w.ZB w.LT NR NLS

theorem transm2_binds {LP : LEnds n m} {BLP : Fin m → LnPar} {NR : Fin (n + 1)} {NLS : ℤ} {t : TransIn (n + 1) m}
    {FLOW : Fin m → ℚ} {w w' : NetSt n m} {out : TransOut n m} {lp : Redispatch n m}
    (hb : SecondBinds LP BLP NR NLS t FLOW w) (h : transm2 lp LP BLP NR NLS t FLOW w = .ok (out, w')) :
    ∃ c1 c2, lp (secondIn LP BLP NR NLS t FLOW w) = .ok (c1, c2, out.FLOW) ∧
      ∀ i, out.SADJ i = c1 i - (secondIn LP BLP NR NLS t FLOW w).INJB i := by
  unfold transm2 at h
  dsimp only at h
  cases hc : callTm2 lp LP (second LP BLP NLS t FLOW w.BN).2.1 NR NLS
      { w with BN := (second LP BLP NLS t FLOW w.BN).2.2 } with
  | error e => rw [hc] at h; cases h
  | ok r =>
    rw [hc] at h
    unfold callTm2 at hc
    dsimp only at hc
    cases h2 : tm2 lp (second LP BLP NLS t FLOW w.BN).2.2 LP (second LP BLP NLS t FLOW w.BN).2.1 w.BLP0 w.BB w.ZB w.LT
        NR NLS with
    | error e => rw [h2] at hc; cases hc
    | ok o =>
      rw [h2] at hc
      have := tm2_binds hb h2
      cases hc
      cases h
      refine ⟨o.BN.c1, o.BN.c2, this.1, fun i => ?_⟩
      have e : (secondIn LP BLP NR NLS t FLOW w).INJB i =
          t.SYSCON i - t.CAPREQ i - (second LP BLP NLS t FLOW w.BN).1 i := by
        change (second LP BLP NLS t FLOW w.BN).2.2.c2 i = _
        unfold second
        split <;> rfl
      rw [e]
      dsimp only
      ring

/-- **C58.** In an hour whose second evaluation has to re-dispatch, the shortages reported for all areas but the one at
place 0 are those of a dispatch of the second evaluation (what is left of surpluses, deficits and capacities after the
scheduled flows), and no dispatch leaves less load unserved. Missing: the area at place 0 (`C58_first_area_refuted`),
hours in which a line at the reference area is not in its first state (`C36_admittance_refuted`), negative remaining area
limits, and unclean ends of the solver. -/
theorem C58_shortages_partial {LP : LEnds n m} {BLPA : Fin m → Fin 6 → LnPar} {NR : Fin (n + 1)}
    (hg : Grid LP BLPA NR) (hn : 0 < n) {BLP : Fin m → LnPar} {NLS : ℤ} {t : TransIn (n + 1) m} {FLOW : Fin m → ℚ}
    {w w' : NetSt n m} {out : TransOut n m} {fuel : ℕ} {IOI : ℤ} (hw : Intact LP BLPA NR w)
    (hf : ∀ i, 0 ≤ (BLP i).fwd ∧ 0 ≤ (BLP i).bwd)
    (haway : ChangesAway LP NR (fun i => (BLP i).adm) fun i => (BLPA i 0).adm)
    (ha : ∀ a, 0 ≤ (secondIn LP BLP NR NLS t FLOW w).BN.c3 a ∧ 0 ≤ (secondIn LP BLP NR NLS t FLOW w).BN.c4 a)
    (hb : SecondBinds LP BLP NR NLS t FLOW w) (hcl : CleanEnd fuel (secondIn LP BLP NR NLS t FLOW w))
    (h : transm2 (redispatch fuel IOI) LP BLP NR NLS t FLOW w = .ok (out, w')) :
    let x := secondIn LP BLP NR NLS t FLOW w
    ∃ θ p, IsDispatch LP (fun k => (BLP k).adm) (fun k => (x.BLP k).fwd) (fun k => (x.BLP k).bwd) NR x.BN.c3 x.BN.c4
        x.INJB θ p ∧
      out.FLOW = dcFlow LP (fun k => (BLP k).adm) θ ∧
      (∀ a, a ≠ w.LT 0 → max 0 (out.SADJ a) = unserved x.INJB p a) ∧
      ∀ θ' p', IsDispatch LP (fun k => (BLP k).adm) (fun k => (x.BLP k).fwd) (fun k => (x.BLP k).bwd) NR x.BN.c3
          x.BN.c4 x.INJB θ' p' →
        ∑ a, unserved x.INJB p a ≤ ∑ a, unserved x.INJB p' a + 1 / 10000000 * lpSize x θ' := by
  intro x
  obtain ⟨c1, c2, hl, hS⟩ := transm2_binds hb h
  have hadm : (fun k => (x.BLP k).adm) = fun k => (BLP k).adm := by
    funext k
    change ((second LP BLP NLS t FLOW w.BN).2.1 k).adm = _
    unfold second; split <;> rfl
  have hfx : ∀ i, 0 ≤ (x.BLP i).fwd ∧ 0 ≤ (x.BLP i).bwd := by
    intro i
    change 0 ≤ ((second LP BLP NLS t FLOW w.BN).2.1 i).fwd ∧ 0 ≤ ((second LP BLP NLS t FLOW w.BN).2.1 i).bwd
    unfold second; split
    · exact ⟨le_max_right _ _, le_max_right _ _⟩
    · exact hf i
  have hok : LpInOk x := by
    have hB : blk w.BB = reduced LP w.BLP0 NR := by
      rw [hw.BB, hw.BLP0]; funext a c; exact (C37_reduced _ _).1 a c
    have := tm2In_ok (BN := (second LP BLP NLS t FLOW w.BN).2.2) (BLP := (second LP BLP NLS t FLOW w.BN).2.1)
      (BLP0 := w.BLP0) (BB := w.BB) (ZB := w.ZB) (NLS := NLS) hn hg.proper hfx ha hB (by
        rw [hw.BLP0]; exact hadm ▸ haway)
    rw [← hw.LT] at this
    exact this
  obtain ⟨s, hs, hd⟩ := C56_dispatch_partial hok rfl hl
  obtain ⟨θ, p, h1, h2, h3, _, h5⟩ := hd (hcl s hs).1 (hcl s hs).2
  rw [hadm] at h1 h2 h5
  refine ⟨θ, p, h1, h2, fun a ha => ?_, h5⟩
  rw [hS a, (h3 a ha).1]
  rfl

/-- **C58 (refuted).** In every hour whose second evaluation re-dispatches, no shortage is reported for the area at
place 0, however large it is. -/
theorem C58_first_area_refuted {LP : LEnds n m} {BLP : Fin m → LnPar} {NR : Fin (n + 1)} {NLS : ℤ}
    {t : TransIn (n + 1) m} {FLOW : Fin m → ℚ} {w w' : NetSt n m} {out : TransOut n m} {fuel : ℕ} {IOI : ℤ}
    (hn : 0 < n) (hp : Proper LP) (hLT : w.LT = admitrLT id NR) (hf : ∀ i, 0 ≤ (BLP i).fwd ∧ 0 ≤ (BLP i).bwd)
    (ha : ∀ a, 0 ≤ (secondIn LP BLP NR NLS t FLOW w).BN.c3 a ∧ 0 ≤ (secondIn LP BLP NR NLS t FLOW w).BN.c4 a)
    (hb : SecondBinds LP BLP NR NLS t FLOW w) (hcl : CleanEnd fuel (secondIn LP BLP NR NLS t FLOW w))
    (h : transm2 (redispatch fuel IOI) LP BLP NR NLS t FLOW w = .ok (out, w')) : out.SADJ (w.LT 0) ≤ 0 := by
  obtain ⟨c1, c2, hl, hS⟩ := transm2_binds hb h
  have hfx : ∀ i, 0 ≤ ((second LP BLP NLS t FLOW w.BN).2.1 i).fwd ∧ 0 ≤ ((second LP BLP NLS t FLOW w.BN).2.1 i).bwd := by
    intro i
    unfold second; split
    · exact ⟨le_max_right _ _, le_max_right _ _⟩
    · exact hf i
  have hsh : LpShape (secondIn LP BLP NR NLS t FLOW w) := by
    have := tm2In_shape (BN := (second LP BLP NLS t FLOW w.BN).2.2) (BLP := (second LP BLP NLS t FLOW w.BN).2.1)
      (BLP0 := w.BLP0) (BB := w.BB) (ZB := w.ZB) (NR := NR) (NLS := NLS) hn hp hfx ha
    rw [← hLT] at this
    exact this
  obtain ⟨s, hs, h1⟩ := C42_first_area_refuted hsh rfl hl
  have := (h1 (hcl s hs).1).1
  rw [hS]
  change c1 (w.LT 0) ≤ min ((secondIn LP BLP NR NLS t FLOW w).INJB (w.LT 0)) 0 at this
  linarith [min_le_left ((secondIn LP BLP NR NLS t FLOW w).INJB (w.LT 0)) 0]

/-! ### A whole evaluation -/

/-- More results of the re-dispatch do not change what is found without them. -/
theorem tm2_mono {lp lp' : Redispatch n m} (hl : ∀ x o, lp' x = .ok o → lp x = .ok o) {BN : BNcols n} {LP : LEnds n m}
    {BLP : Fin m → LnPar} {BLP0 : Fin m → ℚ} {BB ZB : NMat n} {LT : Fin (n + 1) → Fin (n + 1)} {NR : Fin (n + 1)}
    {NLS : ℤ} {o : Tm2Out n m} (h : tm2 lp' BN LP BLP BLP0 BB ZB LT NR NLS = .ok o) :
    tm2 lp BN LP BLP BLP0 BB ZB LT NR NLS = .ok o := by
  unfold tm2 at h ⊢
  dsimp only at h ⊢
  split at h
  · rename_i h1; rw [if_pos h1]; exact h
  · rename_i h1
    rw [if_neg h1]
    change Except.map _ (lp' (tm2In BN LP BLP BLP0 BB ZB LT NR NLS)) = _ at h
    change Except.map _ (lp (tm2In BN LP BLP BLP0 BB ZB LT NR NLS)) = _
    cases hv : lp' (tm2In BN LP BLP BLP0 BB ZB LT NR NLS) with
    | error e => rw [hv] at h; cases h
    | ok v => rw [hl _ _ hv]; rw [hv] at h; exact h

theorem callTm2_mono {lp lp' : Redispatch n m} (hl : ∀ x o, lp' x = .ok o → lp x = .ok o) {LP : LEnds n m}
    {BLP : Fin m → LnPar} {NR : Fin (n + 1)} {NLS : ℤ} {w : NetSt n m} {r}
    (h : callTm2 lp' LP BLP NR NLS w = .ok r) : callTm2 lp LP BLP NR NLS w = .ok r := by
  unfold callTm2 at h ⊢
  cases hv : tm2 lp' w.BN LP BLP w.BLP0 w.BB w.ZB w.LT NR NLS with
  | error e => rw [hv] at h; cases h
  | ok v => rw [tm2_mono hl hv]; rw [hv] at h; exact h

theorem transm2_mono {lp lp' : Redispatch n m} (hl : ∀ x o, lp' x = .ok o → lp x = .ok o) {LP : LEnds n m}
    {BLP : Fin m → LnPar} {NR : Fin (n + 1)} {NLS : ℤ} {t : TransIn (n + 1) m} {FLOW : Fin m → ℚ} {w : NetSt n m} {r}
    (h : transm2 lp' LP BLP NR NLS t FLOW w = .ok r) : transm2 lp LP BLP NR NLS t FLOW w = .ok r := by
  unfold transm2 at h ⊢
  dsimp only at h ⊢
  cases h4 : callTm2 lp' LP (second LP BLP NLS t FLOW w.BN).2.1 NR NLS
      { w with BN := (second LP BLP NLS t FLOW w.BN).2.2 } with
  | error e => rw [h4] at h; cases h
  | ok u => rw [callTm2_mono hl h4]; rw [h4] at h; exact h

theorem transm_mono {lp lp' : Redispatch n m} (hl : ∀ x o, lp' x = .ok o → lp x = .ok o) {LP : LEnds n m}
    {BLPA : Fin m → Fin 6 → LnPar} {NR : Fin (n + 1)} {NLS : ℤ} {t : TransIn (n + 1) m} {w : NetSt n m} {r}
    (h : transm lp' LP BLPA NR NLS t w = .ok r) : transm lp LP BLPA NR NLS t w = .ok r := by
  unfold transm at h ⊢
  cases h0 : transmInit LP BLPA NR t.IFLAG w with
  | error e => rw [h0] at h; cases h
  | ok w1 =>
    rw [h0] at h
    change (statesIdx t.LNSTAT >>= _) = _ at h
    change (statesIdx t.LNSTAT >>= _) = _
    cases h1 : statesIdx t.LNSTAT with
    | error e => rw [h1] at h; cases h
    | ok k =>
      rw [h1] at h
      change (callTm2 lp' _ _ _ _ _ >>= _) = _ at h
      change (callTm2 lp _ _ _ _ _ >>= _) = _
      cases h2 : callTm2 lp' LP (sampledBLP BLPA k) NR 1
          { w1 with BN := { w1.BN with c2 := scheduled t, c1 := fun _ => 0 } } with
      | error e => rw [h2] at h; cases h
      | ok v =>
        rw [h2] at h
        rw [callTm2_mono hl h2]
        change transmRest lp' _ _ _ _ _ _ = _ at h
        change transmRest lp _ _ _ _ _ _ = _
        unfold transmRest at h ⊢
        dsimp only at h ⊢
        split at h
        · rename_i h3; rw [if_pos h3]; exact h
        · rename_i h3
          rw [if_neg h3]
          exact transm2_mono hl h

/-- Equality of re-dispatch inputs as a test. -/
def lpInSame (x y : LpIn n m) : Bool :=
  decide (x.BB = y.BB) && decide (x.INJ = y.INJ) && decide (x.INJB = y.INJB) && decide (x.NR = y.NR) &&
  decide (x.LT = y.LT) && decide (∀ i, (x.BLP i).adm = (y.BLP i).adm ∧ (x.BLP i).fwd = (y.BLP i).fwd ∧
    (x.BLP i).bwd = (y.BLP i).bwd) && decide (x.LP = y.LP) && decide (x.BN.c1 = y.BN.c1 ∧ x.BN.c2 = y.BN.c2 ∧
    x.BN.c3 = y.BN.c3 ∧ x.BN.c4 = y.BN.c4) && decide (x.LOD = y.LOD) && decide (x.NLS = y.NLS)

theorem lpInSame_eq {x y : LpIn n m} (h : lpInSame x y = true) : x = y := by
  unfold lpInSame at h
  simp only [Bool.and_eq_true, decide_eq_true_eq] at h
  obtain ⟨⟨⟨⟨⟨⟨⟨⟨⟨h1, h2⟩, h3⟩, h4⟩, h5⟩, h6⟩, h7⟩, h8⟩, h9⟩, h10⟩ := h
  have h6' : x.BLP = y.BLP := by
    funext i
    obtain ⟨a, b, c⟩ := h6 i
    cases hx : x.BLP i; cases hy : y.BLP i
    rw [hx, hy] at a b c
    dsimp only at a b c
    subst a b c; rfl
  have h8' : x.BN = y.BN := by
    obtain ⟨a, b, c, d⟩ := h8
    cases hx : x.BN; cases hy : y.BN
    rw [hx, hy] at a b c d
    dsimp only at a b c d
    subst a b c d; rfl
  cases x; cases y
  dsimp only at *
  subst h1 h2 h3 h4 h5 h6' h7 h8' h9 h10
  rfl

/-- The network of `duoX`, a line of 50 MW. -/
def duoBLPA : Fin 1 → Fin 6 → LnPar := fun _ _ => ⟨-100, 50, 50⟩
/-- 100 MW to spare in the first area, 100 MW too little in the second, nothing scheduled. -/
def duoT : TransIn 2 1 :=
  { IFLAG := 0, LNSTAT := fun _ => 1, TRNSFR := fun _ => 0, TRNSFJ := fun _ => 0, SYSCON := ![400, 100]
    CAPREQ := ![300, 200] }

/-- A re-dispatch that knows the answer for `duoX` only. -/
def duoLp : Redispatch 1 1 := fun x =>
  if lpInSame x duoX then .ok (![50, -150], ![0, 0], ![50]) else .error .typeError

theorem duoLp_le : ∀ x o, duoLp x = .ok o → redispatch 6 0 x = .ok o := by
  intro x o h
  unfold duoLp at h
  split at h
  · rename_i hx
    cases h
    rw [lpInSame_eq hx, duo_redispatch]
    obtain ⟨e1, e2, e3⟩ := duo_numbers
    rw [← e1, ← e2, ← e3]
  · cases h

theorem duo_transm : vis (transm duoLp twoLP duoBLPA 0 1 duoT (twoW 1000)) = some (1, [50], [-50, -50]) := by
  decide +kernel

/-- **C58 (refuted, concrete).** The second area lacks 100 MW and the only line brings at most 50 MW: whatever flows, it
is 50 MW short. The program finds the flow of 50 MW and reports no shortage anywhere. -/
theorem C58_missed_shortage_refuted : ∃ out w',
    transm (redispatch 6 0) twoLP duoBLPA 0 1 duoT (twoW 1000) = .ok (out, w') ∧ out.FLOW 0 = 50 ∧
    (∀ a, out.SADJ a < 0) ∧
    ∀ F : Fin 1 → ℚ, F 0 ≤ (duoBLPA 0 0).fwd → 50 ≤ netOut twoLP F 1 - (duoT.SYSCON 1 - duoT.CAPREQ 1) := by
  obtain ⟨o, w', h, _, hF, hS⟩ := vis_ok duo_transm
  refine ⟨o, w', transm_mono duoLp_le h, by simpa [List.finRange_succ] using hF, fun a => ?_, fun F hF => ?_⟩
  · have hS' : o.SADJ 0 = -50 ∧ o.SADJ 1 = -50 := by simpa [List.finRange_succ] using hS
    fin_cases a
    · show o.SADJ 0 < 0; rw [hS'.1]; norm_num
    · show o.SADJ 1 < 0; rw [hS'.2]; norm_num
  · have e : netOut twoLP F 1 = -F 0 := by
      unfold netOut
      rw [Fin.sum_univ_one, Fin.sum_univ_one, if_neg (by decide), if_pos (by decide)]; ring
    have e1 : (duoBLPA 0 0).fwd = 50 := rfl
    have e2 : duoT.SYSCON 1 = 100 := rfl
    have e3 : duoT.CAPREQ 1 = 200 := rfl
    rw [e, e2, e3]
    rw [e1] at hF
    linarith

/-- The network arrays at the start of the second evaluation. -/
def duoW : NetSt 1 1 where
  BN := { c1 := fun _ => 0, c2 := fun _ => 0, c3 := ![1000, 1000], c4 := ![1000, 1000] }
  BLP0 := fun _ => -100
  BB := !![-100, 0; 0, 0]
  LT := admitrLT id 0
  ZB := !![-1/100, 0; 0, 0]

theorem duo_second : secondIn twoLP (sampledBLP duoBLPA fun _ => 0) 0 1 duoT (fun _ => 0) duoW = duoX :=
  lpInSame_eq (by decide +kernel)

/-- Non-vacuity of C58: all hypotheses hold for the two areas. -/
example : ∃ out w', transm2 (redispatch 6 0) twoLP (sampledBLP duoBLPA fun _ => 0) 0 1 duoT (fun _ => 0) duoW =
      .ok (out, w') ∧ (max 0 (out.SADJ 0) = 0) ∧ out.SADJ 1 ≤ 0 := by
  have hv : vis (transm2 duoLp twoLP (sampledBLP duoBLPA fun _ => 0) 0 1 duoT (fun _ => 0) duoW) =
      some (1, [50], [-50, -50]) := by decide +kernel
  obtain ⟨o, w', h, _⟩ := vis_ok hv
  have h' := transm2_mono duoLp_le h
  have hg : Grid twoLP duoBLPA 0 := by
    refine ⟨by unfold Proper; decide, fun a => ?_, fun i s => ?_, fun i s => ?_⟩
    · fin_cases a
      · exact Relation.ReflTransGen.refl
      · exact Relation.ReflTransGen.single ⟨0, Or.inl ⟨rfl, rfl⟩⟩
    · unfold duoBLPA; norm_num
    · unfold duoBLPA; norm_num
  have hI : Intact twoLP duoBLPA 0 duoW := by
    refine ⟨rfl, rfl, by decide +kernel, by decide +kernel, by decide +kernel⟩
  have hf : ∀ i, 0 ≤ (sampledBLP duoBLPA (fun _ => 0) i).fwd ∧ 0 ≤ (sampledBLP duoBLPA (fun _ => 0) i).bwd :=
    fun i => hg.cap i 0
  have hb : SecondBinds twoLP (sampledBLP duoBLPA fun _ => 0) 0 1 duoT (fun _ => 0) duoW := by
    unfold SecondBinds Binds tm2
    dsimp only
    rw [if_neg (by decide +kernel)]
    rfl
  have hcl : CleanEnd 6 (secondIn twoLP (sampledBLP duoBLPA fun _ => 0) 0 1 duoT (fun _ => 0) duoW) := by
    rw [duo_second]
    intro t ht
    have := ht.symm.trans duo_linp
    cases this
    constructor <;> decide +kernel
  have ha : ∀ a, 0 ≤ (secondIn twoLP (sampledBLP duoBLPA fun _ => 0) 0 1 duoT (fun _ => 0) duoW).BN.c3 a ∧
      0 ≤ (secondIn twoLP (sampledBLP duoBLPA fun _ => 0) 0 1 duoT (fun _ => 0) duoW).BN.c4 a := by decide +kernel
  obtain ⟨θ, p, hd, _, h3, _⟩ := C58_shortages_partial hg (by decide) hI hf (fun i hi => absurd rfl hi) ha hb hcl h'
  have hlt : duoW.LT 0 = 1 := by decide +kernel
  refine ⟨o, w', h', ?_, ?_⟩
  · rw [h3 0 (by rw [hlt]; decide)]
    have := (hd.range 0).2
    rw [duo_second] at this ⊢
    have e : duoX.INJB 0 = 100 := rfl
    rw [e] at this
    unfold unserved
    rw [e, max_eq_left]
    have : p 0 ≤ 100 := by simpa using this
    linarith
  · have := C58_first_area_refuted (by decide) hg.proper rfl hf ha hb hcl h'
    rwa [hlt] at this

end Narp.Props
