import Verif.Model.Network
import Verif.Model.Hour

/-!
# The transmission evaluation of an hour: `transm.py`

`n + 1` areas, `l` lines. `BLPA i s` is the triple of columns `3 s`, `3 s + 1`, `3 s + 2` of row `i` of
`BLPA`. `STMULT` is all ones (hour.py:113; `MXCRIT` is 0) and left out. The re-dispatch by linear programming
is the parameter `lp` of `tm2`.
-/

namespace Narp

/-- The arrays of the network that `transm` modifies: `BN` (columns 1 to 4), `BLP0`, `BB`, `LT`, `ZB`.
(transm.py:7-30, 51) -/
structure NetSt (n l : ℕ) where
  BN : BNcols n
  BLP0 : Fin l → ℚ
  BB : NMat n
  LT : Fin (n + 1) → Fin (n + 1)
  ZB : NMat n

/-- The re-dispatch, see `tm2`. (tm2.py:153-301) -/
abbrev Redispatch (n l : ℕ) :=
  LpIn n l → Except PyErr ((Fin (n + 1) → ℚ) × (Fin (n + 1) → ℚ) × (Fin l → ℚ))

/-- Position of the state of a line in its row of `BLPA` (transm.py:53), with numpy's negative indices. -/
def stateIdx (s : ℤ) : Except PyErr (Fin 6) :=
  if h : 0 ≤ s - 1 ∧ s - 1 < 6 then .ok ⟨(s - 1).toNat, by omega⟩
  else if h : -6 ≤ s - 1 ∧ s - 1 < 0 then .ok ⟨(s - 1 + 6).toNat, by omega⟩
  else .error .indexError

/-- All lines' positions: the first one out of range raises. (transm.py:53-56) -/
def statesIdx {l : ℕ} (LNSTAT : Fin l → ℤ) : Except PyErr (Fin l → Fin 6) :=
  if (∀ i, (stateIdx (LNSTAT i)).toBool = true) then
    .ok fun i => match stateIdx (LNSTAT i) with
      | .ok k => k
      | .error _ => 0
  else .error .indexError

/-- `transm.py:48-51`: the matrices of the intact network, unless they are there already. -/
def transmInit {n l : ℕ} (LP : LEnds n l) (BLPA : Fin l → Fin 6 → LnPar) (NR : Fin (n + 1)) (IFLAG : ℤ)
    (w : NetSt n l) : Except PyErr (NetSt n l) :=
  if IFLAG ≠ 1 then
    (tm1 LP (fun i => (BLPA i 0).adm) NR).map fun o =>
      { w with BLP0 := o.BLP0, BB := o.BB, LT := o.LT, ZB := o.ZB }
  else .ok w

/-- `transm.py:64-73`: the injections scheduled by contract, limited below by the own shortage. -/
def scheduled {n l : ℕ} (t : TransIn (n + 1) l) : Fin (n + 1) → ℚ := fun i =>
  max (t.TRNSFR i + t.TRNSFJ i) (min (t.SYSCON i - t.CAPREQ i) 0)

/-- `tm2` on the network arrays: new arrays and flows. (transm.py:75-92, 120-137) -/
def callTm2 {n l : ℕ} (lp : Redispatch n l) (LP : LEnds n l) (BLP : Fin l → LnPar) (NR : Fin (n + 1)) (NLS : ℤ)
    (w : NetSt n l) : Except PyErr (NetSt n l × (Fin l → ℚ)) :=
  (tm2 lp w.BN LP BLP w.BLP0 w.BB w.ZB w.LT NR NLS).map fun o =>
    ({ w with BN := o.BN, BB := o.BB, ZB := o.ZB }, o.FLOW)

/-- `transm.py:112-114`: what the scheduled flows leave of the line capacities. -/
def residualBLP {l : ℕ} (BLP : Fin l → LnPar) (FLOW : Fin l → ℚ) : Fin l → LnPar := fun i =>
  { adm := (BLP i).adm
    fwd := max ((BLP i).fwd - FLOW i) 0
    bwd := max ((BLP i).bwd + FLOW i) 0 }

/-- `BN[key, c] += v` with an index array (transm.py:115-118): all right hand sides are computed first, so
that of several writes at one place the last one counts. -/
def fancyAdd {n l : ℕ} (key : Fin l → Fin (n + 1)) (v : Fin l → ℚ) (c : Fin (n + 1) → ℚ) : Fin (n + 1) → ℚ :=
  (List.finRange l).foldl (fun d i => fun a => if a = key i then c (key i) + v i else d a) c

/-- `transm.py:115-118`. -/
def residualBN {n l : ℕ} (LP : LEnds n l) (FLOW : Fin l → ℚ) (BN : BNcols n) : BNcols n :=
  { BN with
    c3 := fancyAdd (fun i => (LP i).2) FLOW (fancyAdd (fun i => (LP i).1) FLOW BN.c3)
    c4 := fancyAdd (fun i => (LP i).2) (fun i => -FLOW i) (fancyAdd (fun i => (LP i).1) (fun i => -FLOW i) BN.c4) }

/-- What the second evaluation starts from (transm.py:103-118): `(CADJ, BLP, BN)`. -/
def second {n l : ℕ} (LP : LEnds n l) (BLP : Fin l → LnPar) (NLS : ℤ) (t : TransIn (n + 1) l) (FLOW : Fin l → ℚ)
    (BN : BNcols n) : (Fin (n + 1) → ℚ) × (Fin l → LnPar) × BNcols n :=
  let CADJ := fun i => BN.c1 i * (NLS : ℚ)
  let BN := { BN with c2 := fun i => t.SYSCON i - t.CAPREQ i - CADJ i, c1 := t.CAPREQ }
  if NLS ≠ 0 then (CADJ, residualBLP BLP FLOW, residualBN LP FLOW BN) else (CADJ, BLP, BN)

/-- Result of `transm`: `JFLAG`, `FLOW`, `SADJ`. (transm.py:101, 144) -/
structure TransOut (n l : ℕ) where
  JFLAG : ℤ
  FLOW : Fin l → ℚ
  SADJ : Fin (n + 1) → ℚ

/-- The line parameters in the sampled states (transm.py:53-56). -/
def sampledBLP {l : ℕ} (BLPA : Fin l → Fin 6 → LnPar) (k : Fin l → Fin 6) : Fin l → LnPar := fun i => BLPA i (k i)

/-- The second evaluation (transm.py:103-144). -/
def transm2 {n l : ℕ} (lp : Redispatch n l) (LP : LEnds n l) (BLP : Fin l → LnPar) (NR : Fin (n + 1)) (NLS : ℤ)
    (t : TransIn (n + 1) l) (FLOW : Fin l → ℚ) (w : NetSt n l) : Except PyErr (TransOut n l × NetSt n l) :=
  let q := second LP BLP NLS t FLOW w.BN
  (callTm2 lp LP q.2.1 NR NLS { w with BN := q.2.2 }).map fun r =>
    (⟨1, r.2, fun i => r.1.BN.c1 i - t.SYSCON i + t.CAPREQ i + q.1 i⟩,
     { r.1 with BN := { r.1.BN with c3 := w.BN.c3, c4 := w.BN.c3 } })

/-- After the first evaluation (transm.py:94-101): done if every area can serve its schedule. -/
def transmRest {n l : ℕ} (lp : Redispatch n l) (LP : LEnds n l) (BLP : Fin l → LnPar) (NR : Fin (n + 1)) (NLS : ℤ)
    (t : TransIn (n + 1) l) (r : NetSt n l × (Fin l → ℚ)) : Except PyErr (TransOut n l × NetSt n l) :=
  let SADJ := fun i => t.SYSCON i - t.CAPREQ i - r.1.BN.c1 i
  if ∀ i, 0 ≤ SADJ i then .ok (⟨0, r.2, SADJ⟩, r.1) else transm2 lp LP BLP NR NLS t r.2 r.1

/-- `transm` (transm.py:7-144) for `JFLAG = 0`, the only value the program passes (hour.py:171; with 1,
line 107 reads a variable that has no value). -/
def transm {n l : ℕ} (lp : Redispatch n l) (LP : LEnds n l) (BLPA : Fin l → Fin 6 → LnPar) (NR : Fin (n + 1))
    (NLS : ℤ) (t : TransIn (n + 1) l) (w : NetSt n l) : Except PyErr (TransOut n l × NetSt n l) := do
  let w ← transmInit LP BLPA NR t.IFLAG w
  let k ← statesIdx t.LNSTAT
  let BLP := sampledBLP BLPA k
  let r ← callTm2 lp LP BLP NR 1 { w with BN := { w.BN with c2 := scheduled t, c1 := fun _ => 0 } }
  transmRest lp LP BLP NR NLS t r

/-- As `hour` calls it (hour.py:172-195). -/
def hourTransm {n l : ℕ} (lp : Redispatch n l) (LP : LEnds n l) (BLPA : Fin l → Fin 6 → LnPar) (NR : Fin (n + 1))
    (NLS : ℤ) (t : TransIn (n + 1) l) (w : NetSt n l) :
    Except PyErr ((ℤ × (Fin (n + 1) → ℚ)) × NetSt n l) :=
  (transm lp LP BLPA NR NLS t w).map fun r => ((r.1.JFLAG, r.1.SADJ), r.2)

end Narp
