import Verif.Props.RedispatchHour
import Verif.Props.RedispatchRun
import Verif.Props.CardEnergy
import Verif.Props.AreaShare

/-!
# C120: are the forecast tiers of an hour evaluated independently of each other?
-/

namespace Narp.Props
open Narp Spec BigOperators Matrix

section General

variable {n m : ℕ}

/-- The arrays of the intact network are determined, apart from the columns of `BN`. -/
theorem intact_unique {LP : LEnds n m} {BLPA : Fin m → Fin 6 → LnPar} {NR : Fin (n + 1)} {w v : NetSt n m}
    (hw : Intact LP BLPA NR w) (hv : Intact LP BLPA NR v) : { w with BN := v.BN } = v := by
  have hz : w.ZB = v.ZB := by
    have hb : blk w.ZB = blk v.ZB := by
      have h1 := mul_eq_one_comm.1 hw.ZB
      calc blk w.ZB = blk w.ZB * (reduced LP (fun i => (BLPA i 0).adm) NR * blk v.ZB) := by
            rw [hv.ZB, Matrix.mul_one]
        _ = blk v.ZB := by rw [← Matrix.mul_assoc, h1, Matrix.one_mul]
    funext a b
    rcases Fin.eq_castSucc_or_eq_last a with ⟨a, rfl⟩ | rfl
    · rcases Fin.eq_castSucc_or_eq_last b with ⟨b, rfl⟩ | rfl
      · exact congrFun (congrFun hb a) b
      · rw [(hw.edge _).2, (hv.edge _).2]
    · rw [(hw.edge _).1, (hv.edge _).1]
  obtain ⟨a1, a2, a3, a4, a5⟩ := w
  obtain ⟨b1, b2, b3, b4, b5⟩ := v
  have e1 := hw.BLP0.trans hv.BLP0.symm
  have e2 := hw.LT.trans hv.LT.symm
  have e3 := hw.BB.trans hv.BB.symm
  dsimp only at e1 e2 e3 hz ⊢
  subst e1 e2 e3 hz
  rfl

/-- **C120 (partial).** One transmission evaluation: as long as the network arrays are those of the intact network, a later
evaluation of the hour gives exactly what it would have given as the first one, whatever the re-dispatch does. -/
theorem C120_evaluation_partial (lp : Redispatch n m) {LP : LEnds n m} {BLPA : Fin m → Fin 6 → LnPar}
    {NR : Fin (n + 1)} (NLS : ℤ) (hn : 0 < n) (hg : Grid LP BLPA NR) {w w0 : NetSt n m} (hw : Intact LP BLPA NR w)
    (h3 : w.BN.c3 = w0.BN.c3) (h4 : w.BN.c4 = w0.BN.c4) (t : TransIn (n + 1) m) :
    transm lp LP BLPA NR NLS { t with IFLAG := 1 } w = transm lp LP BLPA NR NLS { t with IFLAG := 0 } w0 := by
  obtain ⟨o, ho⟩ := (C51_connected hn hg.proper (Or.inl fun i => hg.adm i 0) NR).2 hg.reaches
  have h0 : transmInit LP BLPA NR 0 w0 =
      .ok { w0 with BLP0 := o.BLP0, BB := o.BB, LT := o.LT, ZB := o.ZB } := by
    unfold transmInit
    rw [if_pos (by decide), ho]; rfl
  have hi := (transmInit_intact hg (Or.inl (by decide)) h0).1
  have hu := intact_unique hw hi
  have h1 : transmInit LP BLPA NR 1 w = .ok w := by
    unfold transmInit
    rw [if_neg (by decide)]
  unfold transm
  dsimp only
  rw [h0, h1]
  change (statesIdx t.LNSTAT >>= _) = (statesIdx t.LNSTAT >>= _)
  have key : ({ w with BN := { w.BN with c2 := scheduled t, c1 := fun _ => 0 } } : NetSt n m) =
      { w0 with BLP0 := o.BLP0, BB := o.BB, LT := o.LT, ZB := o.ZB,
                BN := { w0.BN with c2 := scheduled t, c1 := fun _ => 0 } } := by
    have e1 := congrArg NetSt.BLP0 hu
    have e2 := congrArg NetSt.BB hu
    have e3 := congrArg NetSt.LT hu
    have e4 := congrArg NetSt.ZB hu
    dsimp only at e1 e2 e3 e4
    dsimp only
    rw [h3, h4, e1, e2, e3, e4]
  congr 1
  funext k
  change (callTm2 _ _ _ _ _ _ >>= _) = (callTm2 _ _ _ _ _ _ >>= _)
  have hs : scheduled { t with IFLAG := 1 } = scheduled t := rfl
  have hs' : scheduled { t with IFLAG := 0 } = scheduled t := rfl
  rw [hs, hs', key]
  rfl

end General

section Hour

variable {N M L : ℕ} {c : HourIn (N + 1) M L (NetSt N L)} {LP : LEnds N L} {BLPA : Fin L → Fin 6 → LnPar}
  {NR : Fin (N + 1)} {NLS : ℤ}

/-- The tier loop goes through the tiers `ts`, every one leaving a shortage. -/
inductive Through {n m l : ℕ} {ν : Type} (c : HourIn n m l ν) (d : Draw n l) (hr : ℕ) (pk : Bool) :
    List (Fin 5) → ℤ → HourSt n m l ν → ℤ → HourSt n m l ν → Prop
  | nil {f w} : Through c d hr pk [] f w f w
  | cons {t ts f w f1 w1 f2 w2} (body : tierBody c d hr pk t f w = .ok (.next f1 w1))
      (rest : Through c d hr pk ts f1 w1 f2 w2) : Through c d hr pk (t :: ts) f w f2 w2

/-- The states between the tiers: either no evaluation has been made, or the arrays are those of the intact network. -/
def Between (LP : LEnds N L) (BLPA : Fin L → Fin 6 → LnPar) (NR : Fin (N + 1)) (w0 : NetSt N L) (f : ℤ)
    (w : NetSt N L) : Prop :=
  (f = 0 ∧ w = w0) ∨ (f = 1 ∧ 0 < N ∧ Intact LP BLPA NR w ∧ w.BN.c3 = w0.BN.c3 ∧ w.BN.c4 = w0.BN.c4)

theorem between_eval (lp : Redispatch N L) (hg : Grid LP BLPA NR) {w0 w : NetSt N L} {f : ℤ}
    (h : Between LP BLPA NR w0 f w) (t : TransIn (N + 1) L) :
    hourTransm lp LP BLPA NR NLS { t with IFLAG := f } w = hourTransm lp LP BLPA NR NLS { t with IFLAG := 0 } w0 := by
  rcases h with ⟨rfl, rfl⟩ | ⟨rfl, hN, hi, h3, h4⟩
  · rfl
  · unfold hourTransm
    rw [C120_evaluation_partial lp NLS hN hg hi h3 h4]

theorem pos_of_some {df : Fin (N + 1) → ℚ} (h1 : ∃ j, 1 ≤ df j) (h2 : ∃ j, df j < 1) : 0 < N := by
  rcases Nat.eq_zero_or_pos N with rfl | h
  · obtain ⟨j, hj⟩ := h1
    obtain ⟨i, hi⟩ := h2
    have e : i = j := Fin.ext (by omega)
    rw [e] at hi
    linarith
  · exact h

theorem between_next (hg : Grid LP BLPA NR) (hc : c.transm = hourTransm noRedispatch LP BLPA NR NLS)
    {d : Draw (N + 1) L} (hd : ∀ i, ∃ q : Fin 6, d.LNSTAT i = ((q : ℕ) : ℤ) + 1) {hr : ℕ}
    (hload : NLS = 0 → ∀ t, (∀ j, 0 ≤ c.HRLOAD j hr * c.FCTERR j t) ∧ 0 < ∑ j, c.HRLOAD j hr * c.FCTERR j t)
    {w0 : NetSt N L} (hlim : w0.BN.c3 = w0.BN.c4) {f : ℤ} {w : NetSt N L} (hb : Between LP BLPA NR w0 f w)
    (hN : 0 < N) {t : Fin 5} {o : Option (Fin (N + 1) → ℚ)} {w1 : NetSt N L} {first : Bool}
    (hf : f = if first then 0 else 1) (ha : assist c d hr first t w (o, w1)) : Between LP BLPA NR w0 1 w1 := by
  obtain ⟨J, S, ht, _⟩ := ha
  rw [hc, ← hf] at ht
  unfold hourTransm at ht
  cases hx : transm noRedispatch LP BLPA NR NLS ⟨f, d.LNSTAT, d.TRNSFR, d.TRNSFJ, d.SYSCON,
      fun j => c.HRLOAD j hr * c.FCTERR j t⟩ w with
  | error e => rw [hx] at ht; cases ht
  | ok x =>
    obtain ⟨out, w'⟩ := x
    rw [hx] at ht
    have e : w' = w1 := congrArg Prod.snd (Except.ok.inj ht)
    subst e
    choose q hq using hd
    have h3 : w.BN.c3 = w0.BN.c3 ∧ w.BN.c4 = w0.BN.c4 := by
      rcases hb with ⟨_, rfl⟩ | ⟨_, _, _, h⟩
      · exact ⟨rfl, rfl⟩
      · exact h
    have hI : f ≠ 1 ∨ Intact LP BLPA NR w := by
      rcases hb with ⟨rfl, _⟩ | ⟨_, _, h, _⟩
      · exact Or.inl (by decide)
      · exact Or.inr h
    obtain ⟨r1, r2, r3⟩ := C39_evaluation_partial hg (k := q) hI hq (fun h => hload h t)
      (by rw [h3.1, h3.2]; exact hlim) hx
    exact Or.inr ⟨rfl, hN, r1, r2.trans h3.1, r3.trans h3.2⟩

/-- **C120 (partial).** As long as the earlier tiers of the hour needed no re-dispatch (they went through with a re-dispatch
that always raises), the evaluation of a tier does not depend on them: it gets what it would get as the only tier of the
hour. This holds for every re-dispatch `lp` that the tier itself may use. -/
theorem C120_tier_partial (lp : Redispatch N L) (hg : Grid LP BLPA NR)
    {d : Draw (N + 1) L} (hd : ∀ i, ∃ q : Fin 6, d.LNSTAT i = ((q : ℕ) : ℤ) + 1) {hr : ℕ} {pk : Bool}
    (hload : NLS = 0 → ∀ t, (∀ j, 0 ≤ c.HRLOAD j hr * c.FCTERR j t) ∧ 0 < ∑ j, c.HRLOAD j hr * c.FCTERR j t)
    {ts : List (Fin 5)} {w w1 : HourSt (N + 1) M L (NetSt N L)} (hlim : w.net.BN.c3 = w.net.BN.c4) {f : ℤ}
    (h : Through { c with transm := hourTransm noRedispatch LP BLPA NR NLS } d hr pk ts 0 w f w1) (t : Fin 5) :
    hourTransm lp LP BLPA NR NLS
        ⟨f, d.LNSTAT, d.TRNSFR, d.TRNSFJ, d.SYSCON, fun j => c.HRLOAD j hr * c.FCTERR j t⟩ w1.net =
      hourTransm lp LP BLPA NR NLS
        ⟨0, d.LNSTAT, d.TRNSFR, d.TRNSFJ, d.SYSCON, fun j => c.HRLOAD j hr * c.FCTERR j t⟩ w.net := by
  have key : ∀ {ts f1 v f2 v2},
      Through { c with transm := hourTransm noRedispatch LP BLPA NR NLS } d hr pk ts f1 v f2 v2 →
      Between LP BLPA NR w.net f1 v.net → Between LP BLPA NR w.net f2 v2.net := by
    intro ts f1 v f2 v2 h
    induction h with
    | nil => exact id
    | @cons t ts f1 v f2 v2 f3 v3 body _ ih =>
      intro hb
      refine ih ?_
      have hf : ∃ first : Bool, f1 = if first then 0 else 1 := by
        rcases hb with ⟨rfl, _⟩ | ⟨rfl, _⟩
        · exact ⟨true, rfl⟩
        · exact ⟨false, rfl⟩
      obtain ⟨first, hf⟩ := hf
      rw [hf] at body
      obtain ⟨hs, ⟨_, e⟩ | ⟨hna, o, net1, ha, ⟨ho, e⟩ | ⟨S, ho, ⟨hS, e⟩ | ⟨_, e⟩⟩⟩⟩ := tierBody_spec body
      · cases e; rw [← hf]; exact hb
      · cases e
      · cases e
      · cases e
        exact between_next (c := { c with transm := hourTransm noRedispatch LP BLPA NR NLS }) hg rfl hd hload hlim hb
          (pos_of_some hs hna) hf ha
  exact between_eval lp hg (key h (Or.inl ⟨rfl, rfl⟩)) ⟨0, d.LNSTAT, d.TRNSFR, d.TRNSFJ, d.SYSCON,
    fun j => c.HRLOAD j hr * c.FCTERR j t⟩

theorem tiers_imp {n : ℕ} {ν : Type} {df : Fin 5 → Fin n → ℚ} {as as' : Fin 5 → Option (Fin n → ℚ) → Prop}
    (h : ∀ {t o}, as t o → as' t o) {ts : List (Fin 5)} {first : Bool} {x x' : ν} {hist : List (Fin 5 × (Fin n → ℚ))}
    (ht : HourTiers df (fun _ t (_ : ν) r => as t r.1) ts first x hist x') :
    HourTiers df (fun _ t (_ : ν) r => as' t r.1) ts first x hist x' := by
  induction ht with
  | done => exact .done
  | everybody all _ ih => exact .everybody all ih
  | assisted ss na ev still _ ih => exact .assisted ss na (h ev) still ih
  | helped ss na ev gone => exact .helped ss na (h ev) gone
  | scheduled ss na ev => exact .scheduled ss na (h ev)

/-- What a tier gives when it is evaluated for itself, as the first evaluation of the hour. -/
def alone {n m l : ℕ} {ν : Type} (c : HourIn n m l ν) (d : Draw n l) (hr : ℕ) (w0 : ν) (t : Fin 5)
    (o : Option (Fin n → ℚ)) : Prop := ∃ w1, assist c d hr true t w0 (o, w1)

theorem tiers_alone (hg : Grid LP BLPA NR) (hc : c.transm = hourTransm noRedispatch LP BLPA NR NLS)
    {d : Draw (N + 1) L} (hd : ∀ i, ∃ q : Fin 6, d.LNSTAT i = ((q : ℕ) : ℤ) + 1) {hr : ℕ}
    (hload : NLS = 0 → ∀ t, (∀ j, 0 ≤ c.HRLOAD j hr * c.FCTERR j t) ∧ 0 < ∑ j, c.HRLOAD j hr * c.FCTERR j t)
    {w0 : NetSt N L} (hlim : w0.BN.c3 = w0.BN.c4) {ts : List (Fin 5)} {first : Bool} {w w' : NetSt N L}
    {hist : List (Fin 5 × (Fin (N + 1) → ℚ))}
    (h : HourTiers (deficit c d hr) (assist c d hr) ts first w hist w')
    (hb : Between LP BLPA NR w0 (if first then 0 else 1) w) :
    HourTiers (deficit c d hr) (fun _ t _ r => alone c d hr w0 t r.1) ts first w hist w' := by
  have al : ∀ {first w t r}, Between LP BLPA NR w0 (if first then 0 else 1) w → assist c d hr first t w r →
      alone c d hr w0 t r.1 := by
    rintro first w t ⟨o, w1⟩ hb ⟨J, S, ht, ho⟩
    refine ⟨w1, J, S, ?_, ho⟩
    rw [hc] at ht ⊢
    rw [← ht]
    exact (between_eval noRedispatch hg hb ⟨0, d.LNSTAT, d.TRNSFR, d.TRNSFJ, d.SYSCON,
      fun j => c.HRLOAD j hr * c.FCTERR j t⟩).symm
  induction h with
  | done => exact .done
  | everybody all _ ih => exact .everybody all (ih hb)
  | assisted ss na ev still _ ih =>
    exact .assisted ss na (al hb ev) still (ih (between_next hg hc hd hload hlim hb (pos_of_some ss na) rfl ev))
  | helped ss na ev gone => exact .helped ss na (al hb ev) gone
  | scheduled ss na ev => exact .scheduled ss na (al hb ev)

/-- **C120 (partial).** An hour in which no tier needs a re-dispatch: the program returns the same with its own re-dispatch,
and what it records comes out of evaluations of the tiers each for itself. -/
theorem C120_hour_partial (c : HourIn (N + 1) M L (NetSt N L)) (lp : Redispatch N L) (hg : Grid LP BLPA NR)
    (hc : c.transm = hourTransm lp LP BLPA NR NLS) (hs : c.JSTEP ≠ 24) (hf : c.JFREQ = 1) (y k : ℕ) (hk : k < 8760)
    (hload : NLS = 0 → ∀ t, (∀ j, 0 ≤ c.HRLOAD j (hourOf k) * c.FCTERR j t) ∧
      0 < ∑ j, c.HRLOAD j (hourOf k) * c.FCTERR j t)
    (R P : Fin M → ℚ) (w w' : HourSt (N + 1) M L (NetSt N L)) (hlim : w.net.BN.c3 = w.net.BN.c4)
    (h : hourBody { c with transm := hourTransm noRedispatch LP BLPA NR NLS } (8760 * y + k) R P w = .ok w') :
    hourBody c (8760 * y + k) R P w = .ok w' ∧
    ∃ hist, HourTiers (deficit c (hourDraw c (hourOf k / 24) R P w).1 (hourOf k))
        (fun _ t _ r => alone c (hourDraw c (hourOf k / 24) R P w).1 (hourOf k) w.net t r.1)
        ((List.finRange 5).take c.NFCST) true w.net hist w'.net ∧
      Recorded hist (decide ((k : ℤ) - 1 = c.MXPLHR (hourOf k / 24))) w w' := by
  have mono : ∀ t v r, hourTransm noRedispatch LP BLPA NR NLS t v = .ok r →
      c.transm t v = .ok r := by
    intro t v r e
    rw [hc]
    unfold hourTransm at e ⊢
    cases hx : transm noRedispatch LP BLPA NR NLS t v with
    | error x => rw [hx] at e; cases e
    | ok x => rw [transm_mono (lp := lp) (fun x o h => by cases h) hx]; rw [hx] at e; exact e
  have h' : hourBody c (8760 * y + k) R P w = .ok w' :=
    hourBody_mono (c' := { c with transm := hourTransm noRedispatch LP BLPA NR NLS }) rfl mono h
  refine ⟨h', ?_⟩
  obtain ⟨hist, h1, h2⟩ := C59_recorded_shortages { c with transm := hourTransm noRedispatch LP BLPA NR NLS } hs hf y k hk
    R P w w' h
  refine ⟨hist, ?_, h2⟩
  have hd : ∀ i, ∃ q : Fin 6, (hourDraw c (hourOf k / 24) R P w).1.LNSTAT i = ((q : ℕ) : ℤ) + 1 := fun i =>
    lineState_idx (fun q => c.PROBL q i) (variate (mul31 65539 (w.ILSEED i)))
  have h3 := tiers_alone (c := { c with transm := hourTransm noRedispatch LP BLPA NR NLS }) hg rfl hd hload hlim h1
    (Or.inl ⟨rfl, rfl⟩)
  have up : ∀ {t o}, alone { c with transm := hourTransm noRedispatch LP BLPA NR NLS }
      (hourDraw c (hourOf k / 24) R P w).1 (hourOf k) w.net t o →
      alone c (hourDraw c (hourOf k / 24) R P w).1 (hourOf k) w.net t o := by
    rintro t o ⟨w1, J, S, ht, ho⟩
    exact ⟨w1, J, S, mono _ _ _ ht, ho⟩
  exact tiers_imp (as := fun t o => alone { c with transm := hourTransm noRedispatch LP BLPA NR NLS }
      (hourDraw c (hourOf k / 24) R P w).1 (hourOf k) w.net t o)
    (as' := fun t o => alone c (hourDraw c (hourOf k / 24) R P w).1 (hourOf k) w.net t o) (fun ha => up ha) h3

end Hour

/-! ### A tier after a re-dispatch -/

/-- Two areas, a line of 50 MW; area 1 has 100 MW to spare, area 0 (with 230 MW) lacks `z` MW. -/
def revX (z : ℚ) : LpIn 1 1 where
  BB := !![-1/2, 0; 0, 0]
  INJ := ![100, -z]
  INJB := ![-z, 100]
  NR := 0
  LT := admitrLT id 0
  BLP := fun _ => ⟨-1/2, 50, 50⟩
  LP := ![(0, 1)]
  BN := ⟨![230 + z, 100], ![-z, 100], ![1000, 1000], ![1000, 1000]⟩
  LOD := ![230 + z, 100]
  NLS := 1

abbrev revP (z : ℚ) := connlsProb (revX z)

/-- The states of the solver on `revX z`. -/
def rev1 (z : ℚ) : LpSt (4 * 1 + 3 + 2 * 1) (lpN 1 1) := mkSt (revP z)
  [[1, 0, 0, 0, 0, 0, 0, 0, 0, 0], [0, 1, 0, 0, 0, 0, 0, 0, 0, 0], [0, 0, 1, 0, 0, 0, 0, 0, 1, 0],
   [0, 0, 0, 1, 0, 0, 0, 0, -1, 0], [0, 0, 0, 0, 1, 0, 0, 0, -1, 0], [0, 0, 0, 0, 0, 1, 0, 0, 1, 0],
   [0, 0, 0, 0, 0, 0, 1, 0, 1, 0], [0, 0, 0, 0, 0, 0, 0, 1, -1, 0], [0, 0, 0, 0, 0, 0, 0, 0, 2, 0],
   [0, 0, 0, 0, 0, 0, 0, 0, -1, 1]]
  [100, z, 50, 50, 1000, 1000, 1000, 1000, 0, z] (![4, 5, 6, 7, 8, 9, 10, 11, 1, 13] : Fin 10 → Fin 14) 1 0 (some 8)

/-- see `rev1` -/
def rev2 (z : ℚ) : LpSt (4 * 1 + 3 + 2 * 1) (lpN 1 1) := mkSt (revP z)
  [[1, 0, 0, -1, 0, 0, 0, 0, 1, 0], [0, 1, 0, 0, 0, 0, 0, 0, 0, 0], [0, 0, 1, 1, 0, 0, 0, 0, 0, 0],
   [0, 0, 0, 1, 0, 0, 0, 0, -1, 0], [0, 0, 0, -1, 1, 0, 0, 0, 0, 0], [0, 0, 0, 1, 0, 1, 0, 0, 0, 0],
   [0, 0, 0, 1, 0, 0, 1, 0, 0, 0], [0, 0, 0, -1, 0, 0, 0, 1, 0, 0], [0, 0, 0, 2, 0, 0, 0, 0, 0, 0],
   [0, 0, 0, -1, 0, 0, 0, 0, 0, 1]]
  [50, z, 100, 50, 950, 1050, 1050, 950, 100, z - 50] (![4, 5, 6, 2, 8, 9, 10, 11, 1, 13] : Fin 10 → Fin 14) 1 0
  (some 3)

/-- see `rev1` -/
def rev3 (z : ℚ) (IPH IR : ℤ) : LpSt (4 * 1 + 3 + 2 * 1) (lpN 1 1) := mkSt (revP z)
  [[1, 0, 0, -1, 0, 0, 0, 0, 1, 0], [0, 1, 0, 1, 0, 0, 0, 0, 0, -1], [0, 0, 1, 1, 0, 0, 0, 0, 0, 0],
   [0, 0, 0, 1, 0, 0, 0, 0, -1, 0], [0, 0, 0, -1, 1, 0, 0, 0, 0, 0], [0, 0, 0, 1, 0, 1, 0, 0, 0, 0],
   [0, 0, 0, 1, 0, 0, 1, 0, 0, 0], [0, 0, 0, -1, 0, 0, 0, 1, 0, 0], [0, 0, 0, 2, 0, 0, 0, 0, 0, 0],
   [0, 0, 0, -1, 0, 0, 0, 0, 0, 1]]
  [50, 50, 100, 50, 950, 1050, 1050, 950, 100, z - 50] (![4, 5, 6, 2, 8, 9, 10, 11, 1, 3] : Fin 10 → Fin 14) IPH IR
  (some 9)

theorem rev_ok {z : ℚ} (hz : z = 100 ∨ z = 82) : LpInOk (revX z) := by
  rcases hz with rfl | rfl
  all_goals exact
    { pos := by decide
      lt := rfl
      proper := by unfold Proper; decide
      inj := by decide +kernel
      fwd := by intro i; norm_num [revX]
      bwd := by intro i; norm_num [revX]
      imp := by decide +kernel
      exp := by decide +kernel
      bb := by decide +kernel }

theorem rev_linp {z : ℚ} (hz : z = 100 ∨ z = 82) :
    linp (revP z) (connlsBasis 1 1) (connlsRhs (revX z)) 6 = some (.ok (rev3 z 2 1)) := by
  have i0 := lpReach_inv (revP z) (connlsBasis 1 1) (connlsRhs (revX z)) (connls_unit (rev_ok hz).toLpShape) _ .start
  obtain ⟨e0, i1⟩ := lpLoop_next (t := rev1 z) i0 (by rcases hz with rfl | rfl <;> decide +kernel) 5
  obtain ⟨e1, i2⟩ := lpLoop_next (t := rev2 z) i1 (by rcases hz with rfl | rfl <;> decide +kernel) 4
  obtain ⟨e2, i3⟩ := lpLoop_next (t := rev3 z 1 0) i2 (by rcases hz with rfl | rfl <;> decide +kernel) 3
  obtain ⟨e3, i4⟩ := lpLoop_next (t := rev3 z 2 1) i3 (by rcases hz with rfl | rfl <;> decide +kernel) 2
  have e4 := lpLoop_last (t := rev3 z 2 1) i4 (by rcases hz with rfl | rfl <;> decide +kernel) 1
  exact e0.trans (e1.trans (e2.trans (e3.trans e4)))

theorem rev_redispatch {z : ℚ} (hz : z = 100 ∨ z = 82) :
    redispatch 6 0 (revX z) = .ok (![-50, -50], ![z - 50, 0], ![-50]) := by
  have e : lpResult (revX z) (rev3 z 2 1) = (![-50, -50], ![z - 50, 0], ![-50]) := by
    rcases hz with rfl | rfl <;> decide +kernel
  unfold redispatch
  rw [if_neg (show ¬((revX z).NLS = 0) from (by decide : ¬((1 : ℤ) = 0))), if_neg (by decide), rev_linp hz, ← e]
  exact if_neg (fun h => h rfl)

/-- A re-dispatch that knows the answers for `revX 100` and `revX 82` only. -/
def revLp : Redispatch 1 1 := fun x =>
  if lpInSame x (revX 100) then .ok (![-50, -50], ![50, 0], ![-50])
  else if lpInSame x (revX 82) then .ok (![-50, -50], ![32, 0], ![-50]) else .error .typeError

theorem revLp_le : ∀ x o, revLp x = .ok o → redispatch 6 0 x = .ok o := by
  intro x o h
  unfold revLp at h
  split at h
  · rename_i hx
    cases h
    rw [lpInSame_eq hx, rev_redispatch (Or.inl rfl)]
    norm_num
  · split at h
    · rename_i hx
      cases h
      rw [lpInSame_eq hx, rev_redispatch (Or.inr rfl)]
      norm_num
    · cases h

/-- A line of 50 MW with the admittance of a reactance of 2. -/
def halfBLPA : Fin 1 → Fin 6 → LnPar := fun _ _ => ⟨-1/2, 50, 50⟩

/-- Two areas with perfectly reliable units of 230 MW and 200 MW; forecasts of 300 MW with an uncertainty of 4 % and of
100 MW without one; the line of `halfBLPA`, and no other limits. -/
def fiveTiers (lp : Redispatch 1 1) : HourIn 2 2 1 (NetSt 1 1) where
  JSTEP := 1
  JFREQ := 1
  MXPLHR := fun d => 24 * d + 18
  PROBG := fun _ _ => 1
  DERATE := fun _ => 1
  CAPOWN := fun a i => if a.val = i.val then 1 else 0
  CAPCON := fun i => i
  PROBL := fun _ _ => 1
  JENT := fun _ _ => -1
  INTCH := fun _ _ => 0
  NFCST := 5
  HRLOAD := fun a _ => if a = 0 then 300 else 100
  FCTERR := fun a => dataxFCTERR (if a = 0 then 4 else 0)
  transm := hourTransm lp twoLP halfBLPA 0 1

/-- see `fiveTiers` -/
def fiveSt : HourSt 2 2 1 (NetSt 1 1) :=
  ⟨fun _ => 1, fun _ => 1, fun _ => 0, Cnt.zero 2, Cnt.zero 2, twoW 1000⟩

/-- What an hour has recorded, area by area and tier by tier: loss-of-load hours and megawatt hours. -/
def recorded {n m l : ℕ} {ν : Type} (w : HourSt n m l ν) : List (List (ℚ × ℚ)) :=
  (List.finRange n).map fun j => (List.finRange 5).map fun t =>
    (w.H.LOLTA j t + w.H.LOLGA j t, w.H.MGNTA j t + w.H.MGNGA j t)

theorem five_stub : ((hourBody (fiveTiers revLp) 5 ![230, 200] (fun _ => 1) fiveSt).map recorded).toOption =
    some [[(1, 50), (0, 0), (0, 0), (0, 0), (0, 0)], [(0, 0), (0, 0), (0, 0), (0, 0), (0, 0)]] := by decide +kernel

/-- The draws of that hour. -/
def fiveDraw (lp : Redispatch 1 1) : Draw 2 1 := (hourDraw (fiveTiers lp) 0 ![230, 200] (fun _ => 1) fiveSt).1

theorem five_alone : vis (transm revLp twoLP halfBLPA 0 1 ⟨0, (fiveDraw revLp).LNSTAT, (fiveDraw revLp).TRNSFR,
    (fiveDraw revLp).TRNSFJ, (fiveDraw revLp).SYSCON, fun j => (fiveTiers revLp).HRLOAD j 4 * (fiveTiers revLp).FCTERR j 1⟩
    fiveSt.net) = some (1, [-50], [32, -150]) := by decide +kernel

/-- **C120 (refuted).** The first tier of this hour needs a re-dispatch, and 50 MW are recorded for it. Evaluated for
itself, the second tier leaves 32 MW short in the first area, and no flow over the line leaves less (20 MW and 8 MW in
the third and the fourth tier): but nothing is recorded for any tier after the first. -/
theorem C120_hour_refuted : ∃ w', hourBody (fiveTiers (redispatch 6 0)) 5 ![230, 200] (fun _ => 1) fiveSt = .ok w' ∧
    recorded w' = [[(1, 50), (0, 0), (0, 0), (0, 0), (0, 0)], [(0, 0), (0, 0), (0, 0), (0, 0), (0, 0)]] ∧
    (∃ S, alone (fiveTiers (redispatch 6 0)) (fiveDraw (redispatch 6 0)) 4 fiveSt.net 1 (some S) ∧ S 0 = 32) ∧
    ∀ F : Fin 1 → ℚ, -(halfBLPA 0 0).bwd ≤ F 0 →
      32 ≤ deficit (fiveTiers (redispatch 6 0)) (fiveDraw (redispatch 6 0)) 4 1 0 + netOut twoLP F 0 ∧
      20 ≤ deficit (fiveTiers (redispatch 6 0)) (fiveDraw (redispatch 6 0)) 4 2 0 + netOut twoLP F 0 ∧
      8 ≤ deficit (fiveTiers (redispatch 6 0)) (fiveDraw (redispatch 6 0)) 4 3 0 + netOut twoLP F 0 := by
  have mono : ∀ t v r, (fiveTiers revLp).transm t v = .ok r → (fiveTiers (redispatch 6 0)).transm t v = .ok r := by
    intro t v r e
    change hourTransm _ _ _ _ _ _ _ = _ at e
    change hourTransm _ _ _ _ _ _ _ = _
    unfold hourTransm at e ⊢
    cases hx : transm revLp twoLP halfBLPA 0 1 t v with
    | error x => rw [hx] at e; cases e
    | ok x => rw [transm_mono revLp_le hx]; rw [hx] at e; exact e
  have hs := five_stub
  cases hw : hourBody (fiveTiers revLp) 5 ![230, 200] (fun _ => 1) fiveSt with
  | error x => rw [hw] at hs; cases hs
  | ok w' =>
    rw [hw] at hs
    refine ⟨w', hourBody_mono (c' := fiveTiers revLp) rfl mono hw, Option.some.inj hs, ?_, fun F hF => ?_⟩
    · obtain ⟨o, v, h, hJ, _, hS⟩ := vis_ok five_alone
      refine ⟨o.SADJ, ⟨v, o.JFLAG, o.SADJ, mono _ _ _ ?_, by rw [if_neg (by rw [hJ]; decide)]⟩, ?_⟩
      · show hourTransm _ _ _ _ _ _ _ = _
        unfold hourTransm
        exact congrArg (Except.map fun r => ((r.1.JFLAG, r.1.SADJ), r.2)) h
      · have hS' : o.SADJ 0 = 32 ∧ o.SADJ 1 = -150 := by simpa [List.finRange_succ] using hS
        exact hS'.1
    · have e : netOut twoLP F 0 = F 0 := by
        unfold netOut
        rw [Fin.sum_univ_one, Fin.sum_univ_one, if_pos (by decide), if_neg (by decide)]; ring
      have d1 : deficit (fiveTiers noRedispatch) (fiveDraw noRedispatch) 4 1 0 = 82 := by decide +kernel
      have d2 : deficit (fiveTiers noRedispatch) (fiveDraw noRedispatch) 4 2 0 = 70 := by decide +kernel
      have d3 : deficit (fiveTiers noRedispatch) (fiveDraw noRedispatch) 4 3 0 = 58 := by decide +kernel
      have hF' : -(50 : ℚ) ≤ F 0 := hF
      rw [e]
      refine ⟨?_, ?_, ?_⟩
      · change 32 ≤ deficit (fiveTiers noRedispatch) (fiveDraw noRedispatch) 4 1 0 + _
        rw [d1]; linarith
      · change 20 ≤ deficit (fiveTiers noRedispatch) (fiveDraw noRedispatch) 4 2 0 + _
        rw [d2]; linarith
      · change 8 ≤ deficit (fiveTiers noRedispatch) (fiveDraw noRedispatch) 4 3 0 + _
        rw [d3]; linarith

theorem half_grid : Grid twoLP halfBLPA 0 := by
  have := two_grid
  exact ⟨this.proper, this.reaches, fun i s => by norm_num [halfBLPA], fun i s => by norm_num [halfBLPA]⟩

/-- Non-vacuity of the partial theorems: the same hour with a line of 500 MW and 90 MW in the second area. Two tiers are
recorded, the third one leaves no shortage. -/
def wideTiers (lp : Redispatch 1 1) : HourIn 2 2 1 (NetSt 1 1) :=
  { fiveTiers lp with transm := hourTransm lp twoLP (fun _ _ => ⟨-1/2, 500, 500⟩) 0 1 }

theorem wide_records : ((hourBody (wideTiers noRedispatch) 5 ![230, 165] (fun _ => 1) fiveSt).map recorded).toOption =
    some [[(1, 35), (1, 17), (1, 5), (0, 0), (0, 0)], [(0, 0), (0, 0), (0, 0), (0, 0), (0, 0)]] := by decide +kernel

example : ∃ w', hourBody (wideTiers (redispatch 6 0)) 5 ![230, 165] (fun _ => 1) fiveSt = .ok w' ∧
    recorded w' = [[(1, 35), (1, 17), (1, 5), (0, 0), (0, 0)], [(0, 0), (0, 0), (0, 0), (0, 0), (0, 0)]] ∧
    ∃ hist, HourTiers (deficit (wideTiers (redispatch 6 0))
        (hourDraw (wideTiers (redispatch 6 0)) 0 ![230, 165] (fun _ => 1) fiveSt).1 4)
      (fun _ t _ r => alone (wideTiers (redispatch 6 0))
        (hourDraw (wideTiers (redispatch 6 0)) 0 ![230, 165] (fun _ => 1) fiveSt).1 4 fiveSt.net t r.1)
      [0, 1, 2, 3, 4] true fiveSt.net hist w'.net := by
  have hs := wide_records
  cases hw : hourBody (wideTiers noRedispatch) 5 ![230, 165] (fun _ => 1) fiveSt with
  | error x => rw [hw] at hs; cases hs
  | ok w' =>
    rw [hw] at hs
    have hg : Grid twoLP (fun _ _ => ⟨-1/2, 500, 500⟩) 0 := by
      have := two_grid
      exact ⟨this.proper, this.reaches, fun i s => by norm_num, fun i s => by norm_num⟩
    obtain ⟨h1, hist, h2, _⟩ := C120_hour_partial (wideTiers (redispatch 6 0)) (redispatch 6 0) hg rfl (NLS := 1)
      (by show (1 : ℚ) ≠ 24; norm_num) rfl 0 5 (by norm_num) (by intro h; cases h) ![230, 165] (fun _ => 1) fiveSt w' rfl
      (by rw [show (8760 * ((0 : ℕ) : ℚ) + ((5 : ℕ) : ℚ)) = 5 by norm_num]; exact hw)
    rw [show (8760 * ((0 : ℕ) : ℚ) + ((5 : ℕ) : ℚ)) = 5 by norm_num] at h1
    exact ⟨w', h1, Option.some.inj hs, hist, h2⟩

/-- Non-vacuity of `C120_tier_partial` (and, in its proof, of `C120_evaluation_partial`): the first tier of that hour goes
through with an evaluation, so that the second tier starts with `IFLAG` 1. -/
example : ∃ w1, Through { wideTiers (redispatch 6 0) with
      transm := hourTransm noRedispatch twoLP (fun _ _ => ⟨-1/2, 500, 500⟩) 0 1 }
    (hourDraw (wideTiers noRedispatch) 0 ![230, 165] (fun _ => 1) fiveSt).1 4 false [0] 0 fiveSt 1 w1 := by
  have hb : (match tierBody { wideTiers noRedispatch with
        transm := hourTransm noRedispatch twoLP (fun _ _ => ⟨-1/2, 500, 500⟩) 0 1 }
      (hourDraw (wideTiers noRedispatch) 0 ![230, 165] (fun _ => 1) fiveSt).1 4 false 0 0 fiveSt with
    | .ok (.next f _) => some f
    | _ => none) = some 1 := by decide +kernel
  change (match tierBody { wideTiers (redispatch 6 0) with
        transm := hourTransm noRedispatch twoLP (fun _ _ => ⟨-1/2, 500, 500⟩) 0 1 }
      (hourDraw (wideTiers noRedispatch) 0 ![230, 165] (fun _ => 1) fiveSt).1 4 false 0 0 fiveSt with
    | .ok (.next f _) => some f
    | _ => none) = some 1 at hb
  split at hb
  · rename_i f w1 h
    cases hb
    exact ⟨w1, .cons h .nil⟩
  · cases hb

end Narp.Props
