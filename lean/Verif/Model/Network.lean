import Verif.Model.Py
import Mathlib.LinearAlgebra.Matrix.Adjugate
import Mathlib.Data.Fin.SuccPred
import Mathlib.Data.Matrix.Mul

/-!
# The transmission network: admittance matrix, impedance matrix, load flow

`n` is `NX`, so there are `n + 1` areas, the last row and column of every matrix being the padding of the
code. `m` is the number of lines. Simplifications: `float` is exact `ℚ`; a numpy division by zero (which
gives inf or nan and a warning, not an exception) is `0` here, and the theorems have the hypotheses or the
proofs that exclude it.
-/

namespace Narp
open Matrix

/-- A square array of the size of the network (`BB`, `ZB`). (narpMain.py:113-114) -/
abbrev NMat (n : ℕ) := Matrix (Fin (n + 1)) (Fin (n + 1)) ℚ

/-- `M[j, k] = v`. (admitr.py:45, tm2.py:84) -/
def NMat.put {n : ℕ} (M : NMat n) (j k : Fin (n + 1)) (v : ℚ) : NMat n :=
  fun a b => if a = j ∧ b = k then v else M a b

/-- End areas of each line: columns 1 and 2 of `LP` (datax.py:153-156). -/
abbrev LEnds (n m : ℕ) := Fin m → Fin (n + 1) × Fin (n + 1)

/-- A row of `BLP`: admittance, forward and backward capacity (transm.py:53-56). -/
structure LnPar where
  adm : ℚ
  fwd : ℚ
  bwd : ℚ

/-- One pass of the loop of `admitb` (admitb.py:23-29). -/
def admitbStep {n m : ℕ} (LP : LEnds n m) (b : Fin m → ℚ) (BB : NMat n) (i : Fin m) : NMat n :=
  let j := (LP i).1
  let k := (LP i).2
  let BB := BB.put j k (BB j k + b i * (-1))
  let BB := BB.put k j (BB j k)
  let BB := BB.put j j (BB j j + b i)
  BB.put k k (BB k k + b i)

/-- `admitb` (admitb.py:4-31) for lines whose highest area index is `n` (see `lineDim`). -/
def admitb {n m : ℕ} (LP : LEnds n m) (b : Fin m → ℚ) : NMat n :=
  (List.finRange m).foldl (admitbStep LP b) 0

/-- `NOAREA = 1 + LP[:, 1:].max()` (admitb.py:21): the dimension of the matrix that `admitb` builds; with
no lines at all `max` raises `ValueError`. -/
def lineDim {n m : ℕ} (LP : LEnds n m) : Except PyErr ℕ :=
  match (List.finRange m).map (fun i => max (LP i).1.val (LP i).2.val) with
  | [] => .error .valueError
  | x :: xs => .ok (1 + xs.foldl max x)

/-- `np.delete(v, NR)` for a vector of areas, padded with `d` at the end. (admitr.py:82) -/
def delPad {n : ℕ} {α : Type} (NR : Fin (n + 1)) (v : Fin (n + 1) → α) (d : α) (a : Fin (n + 1)) : α :=
  if h : a.val < n then v (NR.succAbove ⟨a.val, h⟩) else d

/-- `admitr` (admitr.py:58-85), the matrix: row and column `NR` deleted, zero row and column appended. -/
def admitrB {n : ℕ} (BB : NMat n) (NR : Fin (n + 1)) : NMat n :=
  fun a b => delPad NR (fun x => delPad NR (BB x) 0 b) 0 a

/-- `admitr`, the map `LT` (admitr.py:82): the area numbers `BN[:, 0]` without `NR`, then that of `NR`. -/
def admitrLT {n : ℕ} (BN0 : Fin (n + 1) → Fin (n + 1)) (NR : Fin (n + 1)) : Fin (n + 1) → Fin (n + 1) :=
  delPad NR BN0 (BN0 NR)

/-- State of the loops of `_admitr` (admitr.py:33-46): the counter `ii`, `BT` and `LT`, indexed by numbers. -/
structure AdmSt (n : ℕ) where
  ii : ℕ
  BT : ℕ → ℕ → ℚ
  LT : ℕ → Fin (n + 1)

/-- The inner loop over `j` of `_admitr` (admitr.py:41-46): `(iii, row)`. -/
def admitrInner {n : ℕ} (BB : NMat n) (NR i : Fin (n + 1)) (s : ℕ × (ℕ → ℚ)) (j : Fin (n + 1)) :
    ℕ × (ℕ → ℚ) :=
  if j = NR then s else (s.1 + 1, fun c => if c = s.1 then BB i j else s.2 c)

/-- The outer loop over `i` of `_admitr` (admitr.py:37-47). -/
def admitrOuter {n : ℕ} (BB : NMat n) (BN0 : Fin (n + 1) → Fin (n + 1)) (NR : Fin (n + 1)) (s : AdmSt n)
    (i : Fin (n + 1)) : AdmSt n :=
  if i = NR then s else
    { ii := s.ii + 1
      BT := fun r => if r = s.ii then
          ((List.finRange (n + 1)).foldl (admitrInner BB NR i) (0, s.BT r)).2 else s.BT r
      LT := fun r => if r = s.ii then BN0 i else s.LT r }

/-- `_admitr` (admitr.py:5-54): the matrix and `LT`. -/
def admitr' {n : ℕ} (BB : NMat n) (BN0 : Fin (n + 1) → Fin (n + 1)) (NR : Fin (n + 1)) :
    NMat n × (Fin (n + 1) → Fin (n + 1)) :=
  let s := (List.finRange (n + 1)).foldl (admitrOuter BB BN0 NR) ⟨0, fun _ _ => 0, fun _ => 0⟩
  (fun a b => if a.val < n ∧ b.val < n then s.BT a b else 0,
   fun a => if a.val < n then s.LT a else NR)

/-- The upper left block `[:NX, :NX]`. (tm2.py:63-64) -/
def blk {n : ℕ} (M : NMat n) : Matrix (Fin n) (Fin n) ℚ := fun a b => M a.castSucc b.castSucc

/-- `np.pad(Z, ((0, 1), (0, 1)))` (tm1.py:47). -/
def padM {n : ℕ} (Z : Matrix (Fin n) (Fin n) ℚ) : NMat n :=
  fun a b => if h : a.val < n ∧ b.val < n then Z ⟨a, h.1⟩ ⟨b, h.2⟩ else 0

/-- `M[:NX, :NX] = Z[:NX, :NX]`. (tm2.py:91, 107, 149-150, 304-305) -/
def setBlk {n : ℕ} (M Z : NMat n) : NMat n := fun a b => if a.val < n ∧ b.val < n then Z a b else M a b

/-- `np.linalg.inv`: the inverse in exact arithmetic (by Cramer's rule), `LinAlgError` (here `valueError`,
of which it is a subclass) for a singular matrix. (tm1.py:46) -/
def npInv {n : ℕ} (A : Matrix (Fin n) (Fin n) ℚ) : Except PyErr (Matrix (Fin n) (Fin n) ℚ) :=
  if A.det = 0 then .error .valueError else .ok ((A.det)⁻¹ • A.adjugate)

/-- What `tm1` returns (tm1.py:49). -/
structure Tm1Out (n m : ℕ) where
  BLP0 : Fin m → ℚ
  BB : NMat n
  LT : Fin (n + 1) → Fin (n + 1)
  ZB : NMat n

/-- `tm1` (tm1.py:7-49) with `BN[i, 0] = i` (datax.py:67). When the line data do not mention the last area,
`BB` has too small a dimension and either the index `NR` is out of range, or the matrix inverted contains the
zero padding and is singular: modelled as `valueError`. -/
def tm1 {n m : ℕ} (LP : LEnds n m) (b : Fin m → ℚ) (NR : Fin (n + 1)) : Except PyErr (Tm1Out n m) := do
  let d ← lineDim LP
  if d = n + 1 then
    let BB := admitrB (admitb LP b) NR
    let Z ← npInv (blk BB)
    pure { BLP0 := b, BB := BB, LT := admitrLT id NR, ZB := padM Z }
  else throw .valueError

/-- `ximpa` (ximpa.py:4-17). -/
def ximpa {n : ℕ} (ZB : NMat n) (ZIJ : ℚ) (NI NJ : Fin (n + 1)) : NMat n :=
  let ZCOL := fun a => ZB a NI - ZB a NJ
  let ZN1 := ZB NI NI + ZB NJ NJ - 2 * ZB NI NJ - ZIJ
  fun a b => ZB a b - ZCOL a * ZCOL b / ZN1

/-- `ximpar` (ximpar.py:4-16). -/
def ximpar {n : ℕ} (ZB : NMat n) (ZIJ : ℚ) (NI : Fin (n + 1)) : NMat n :=
  let ZCOL := fun a => ZB a NI
  let ZN1 := ZB NI NI - ZIJ
  fun a b => ZB a b - ZCOL a * ZCOL b / ZN1

/-- `admitm` (admitm.py:1-17). -/
def admitm {n : ℕ} (BB : NMat n) (NII NJJ : Fin (n + 1)) (BIJ : ℚ) : NMat n :=
  let BB := BB.put NII NJJ (BB NII NJJ - BIJ)
  let BB := BB.put NJJ NII (BB NJJ NII - BIJ)
  let BB := BB.put NII NII (BB NII NII + BIJ)
  BB.put NJJ NJJ (BB NJJ NJJ + BIJ)

/-- `admref` (admref.py:1-12). -/
def admref {n : ℕ} (BB : NMat n) (NII : Fin (n + 1)) (BIJ : ℚ) : NMat n :=
  BB.put NII NII (BB NII NII + BIJ)

/-- `theta` (theta.py:4-13). -/
def theta {n : ℕ} (Z : NMat n) (INJ : Fin (n + 1) → ℚ) : Fin (n + 1) → ℚ := Z *ᵥ INJ

/-- `THETC[LT[:-1]] = THET[:-1]` (thetac.py:13-18): the writes in order, over zeros. -/
def thetac {n : ℕ} (THET : Fin (n + 1) → ℚ) (LT : Fin (n + 1) → Fin (n + 1)) : Fin (n + 1) → ℚ :=
  (List.finRange n).foldl
    (fun T i => fun a => if a = LT i.castSucc then THET i.castSucc else T a) (fun _ => 0)

/-- One pass of the loop of `flo` (flo.py:27-32): `SFLOW` after line `i`. -/
def floStep {n m : ℕ} (LP : LEnds n m) (b : Fin m → ℚ) (THET : Fin (n + 1) → ℚ) (S : Fin (n + 1) → ℚ)
    (i : Fin m) : Fin (n + 1) → ℚ :=
  let f := (THET (LP i).1 - THET (LP i).2) * b i
  let S1 := fun a => if a = (LP i).2 then S a + f else S a
  fun a => if a = (LP i).1 then S1 a - f else S1 a

/-- `flo` (flo.py:4-34): `(SFLOW, FLOW)`. -/
def flo {n m : ℕ} (LP : LEnds n m) (b : Fin m → ℚ) (THET : Fin (n + 1) → ℚ) :
    (Fin (n + 1) → ℚ) × (Fin m → ℚ) :=
  ((List.finRange m).foldl (floStep LP b THET) (fun _ => 0),
   fun i => (THET (LP i).1 - THET (LP i).2) * b i)

/-- `IEQ` (tm2.py:54-57): the position in the reduced matrix of each area. -/
def ieq {n : ℕ} (LT : Fin (n + 1) → Fin (n + 1)) (NR : Fin (n + 1)) : Fin (n + 1) → Fin (n + 1) :=
  let I := (List.finRange n).foldl (fun I i => fun a => if a = LT i.castSucc then i.castSucc else I a)
    (fun _ => 0)
  fun a => if a = NR then Fin.last n else I a

/-- Replace the impedance block by the updated one (tm2.py:80-84, 89-91). -/
def zupd {n : ℕ} (s : NMat n × NMat n) (BIJ : ℚ) (NII NJJ : Fin (n + 1)) : NMat n × NMat n :=
  (admitm s.1 NII NJJ BIJ, setBlk s.2 (ximpa s.2 (-1 / BIJ) NII NJJ))

/-- One pass of the line update loop of `tm2` (tm2.py:66-107) on `(BB, ZB)`. At the reference area
`admref` is called with `BIJ`, the new admittance, in both passes of the inner loop (tm2.py:103-107). -/
def lineStep {n m : ℕ} (LP : LEnds n m) (b b0 : Fin m → ℚ) (IEQ : Fin (n + 1) → Fin (n + 1))
    (NR : Fin (n + 1)) (s : NMat n × NMat n) (i : Fin m) : NMat n × NMat n :=
  if b i = b0 i then s
  else if (LP i).1 ≠ NR ∧ (LP i).2 ≠ NR then
    let NII := IEQ (LP i).1
    let NJJ := IEQ (LP i).2
    let s := if b i ≠ 0 then zupd s (b i) NII NJJ else s
    zupd s (-b0 i) NII NJJ
  else
    let NI := if (LP i).1 = NR then (LP i).2 else (LP i).1
    let NII := IEQ NI
    if b i = 0 then s
    else [b i, -b0 i].foldl (fun s bij =>
      (admref s.1 NII (b i), setBlk s.2 (ximpar s.2 (-1 / bij) NII))) s

/-- The whole line update loop (tm2.py:66-107). -/
def lineUpdates {n m : ℕ} (LP : LEnds n m) (b b0 : Fin m → ℚ) (IEQ : Fin (n + 1) → Fin (n + 1))
    (NR : Fin (n + 1)) (s : NMat n × NMat n) : NMat n × NMat n :=
  (List.finRange m).foldl (lineStep LP b b0 IEQ NR) s

/-- Sum over the areas for which `p` holds (`sum(INJ1[p])`). (assign.py:71-72) -/
def sumIf {n : ℕ} (p : ℚ → Bool) (v : Fin (n + 1) → ℚ) : ℚ :=
  ((List.finRange (n + 1)).map fun i => if p (v i) then v i else 0).sum

/-- `assign` (assign.py:53-87): `(INJ1, LODC)`. `INJ1` is in the order of the reduced matrix, `LODC` in the
order of the areas; the scatter `LODC[LT[..]] = ..` writes in order over zeros. -/
def assign {n : ℕ} (INJ LOD : Fin (n + 1) → ℚ) (LT : Fin (n + 1) → Fin (n + 1)) (NLS : ℤ) :
    (Fin (n + 1) → ℚ) × (Fin (n + 1) → ℚ) :=
  let SUMN := |sumIf (fun x => decide (x ≤ 0)) INJ|
  let SUMP := sumIf (fun x => decide (0 < x)) INJ
  if SUMN ≤ SUMP then
    (fun i => if 0 < INJ i then INJ i * (if 0 < SUMP then SUMN / SUMP else 1) else INJ i, fun _ => 0)
  else if NLS ≠ 0 then
    let INJ1 : Fin (n + 1) → ℚ := fun i => if INJ i ≤ 0 then INJ i * (SUMP / SUMN) else INJ i
    (INJ1, (List.finRange (n + 1)).foldl
      (fun L i => fun a => if a = LT i ∧ INJ1 i ≤ 0 then INJ1 i - INJ i else L a) (fun _ => 0))
  else
    let SUML := ((List.finRange (n + 1)).map LOD).sum
    let DIFF := SUMN - SUMP
    let LODC := (List.finRange (n + 1)).foldl
      (fun (L : Fin (n + 1) → ℚ) i => fun a => if a = LT i then LOD (LT i) * DIFF / SUML else L a)
      (fun _ => 0)
    (fun i => INJ i + LODC (LT i), LODC)

/-- The loop version `_assign` (assign.py:4-49). -/
def assign' {n : ℕ} (INJ LOD : Fin (n + 1) → ℚ) (LT : Fin (n + 1) → Fin (n + 1)) (NLS : ℤ) :
    (Fin (n + 1) → ℚ) × (Fin (n + 1) → ℚ) :=
  let SUMN := |sumIf (fun x => decide (x ≤ 0)) INJ|
  let SUMP := sumIf (fun x => decide (0 < x)) INJ
  if SUMN ≤ SUMP then
    (fun i => if 0 < INJ i then INJ i * SUMN / SUMP else INJ i, fun _ => 0)
  else if NLS ≠ 0 then
    (List.finRange (n + 1)).foldl (fun (s : (Fin (n + 1) → ℚ) × (Fin (n + 1) → ℚ)) i =>
      if 0 < s.1 i then s
      else
        let v := s.1 i * SUMP / SUMN
        (fun a => if a = i then v else s.1 a, fun a => if a = LT i then v - s.1 i else s.2 a))
      (INJ, fun _ => 0)
  else
    let SUML := ((List.finRange (n + 1)).map LOD).sum
    let DIFF := SUMN - SUMP
    let LODC := (List.finRange (n + 1)).foldl
      (fun (L : Fin (n + 1) → ℚ) i => fun a => if a = LT i then LOD (LT i) * DIFF / SUML else L a)
      (fun _ => 0)
    (fun i => INJ i + LODC (LT i), LODC)

/-- The limit tests (tm2.py:117-139): `INDIC = 1` iff some flow is above its limit. `imp` and `exp` are the
columns 3 and 4 of `BN`. -/
def indic {n m : ℕ} (BLP : Fin m → LnPar) (imp exp : Fin (n + 1) → ℚ) (SFLOW : Fin (n + 1) → ℚ)
    (FLOW : Fin m → ℚ) : ℤ :=
  let x := (List.finRange m).foldl (fun (x : ℤ) i =>
    if 0 ≤ FLOW i then (if FLOW i > (BLP i).fwd then 1 else x)
    else if |FLOW i| > (BLP i).bwd then 1 else x) 0
  (List.finRange (n + 1)).foldl (fun (x : ℤ) i =>
    if 0 ≤ SFLOW i then (if SFLOW i > imp i then 1 else x)
    else if |SFLOW i| > exp i then 1 else x) x

/-- The columns 1 to 4 of `BN`. (datax.py:58, 67-71) -/
structure BNcols (n : ℕ) where
  c1 : Fin (n + 1) → ℚ
  c2 : Fin (n + 1) → ℚ
  c3 : Fin (n + 1) → ℚ
  c4 : Fin (n + 1) → ℚ

/-- What `tm2` leaves behind: `BN`, `BB`, `ZB`, `FLOW`, `INDIC`. (tm2.py:151, 307) -/
structure Tm2Out (n m : ℕ) where
  BN : BNcols n
  BB : NMat n
  ZB : NMat n
  FLOW : Fin m → ℚ
  INDIC : ℤ

/-- What the re-dispatch by linear programming gets (tm2.py:157-161 and 235-238). -/
structure LpIn (n m : ℕ) where
  BB : NMat n
  INJ : Fin (n + 1) → ℚ
  INJB : Fin (n + 1) → ℚ
  NR : Fin (n + 1)
  LT : Fin (n + 1) → Fin (n + 1)
  BLP : Fin m → LnPar
  LP : LEnds n m
  BN : BNcols n
  LOD : Fin (n + 1) → ℚ
  NLS : ℤ

/-- The flows before any re-dispatch (tm2.py:109-115): `(INJ1, LODC, SFLOW, FLOW)`. -/
def schedule {n m : ℕ} (LP : LEnds n m) (b : Fin m → ℚ) (ZB : NMat n) (LT : Fin (n + 1) → Fin (n + 1))
    (INJ LOD : Fin (n + 1) → ℚ) (NLS : ℤ) :
    ((Fin (n + 1) → ℚ) × (Fin (n + 1) → ℚ)) × ((Fin (n + 1) → ℚ) × (Fin m → ℚ)) :=
  let a := assign INJ LOD LT NLS
  (a, flo LP b (thetac (theta ZB a.1) LT))

/-- Write-back without re-dispatch (tm2.py:142-145): `BN[LT[i], 1] = INJ1[i]`, `BN[i, 2] = LODC[i]`. -/
def tm2Accept {n : ℕ} (BN : BNcols n) (LT : Fin (n + 1) → Fin (n + 1)) (INJ1 LODC : Fin (n + 1) → ℚ) :
    BNcols n :=
  { BN with
    c1 := (List.finRange (n + 1)).foldl (fun c i => fun a => if a = LT i then INJ1 i else c a) BN.c1
    c2 := LODC }

/-- `tm2` (tm2.py:17-307). `MULT` is 0, so `INJB` is column 2 of `BN` (tm2.py:48, 59). `lp` stands for the
re-dispatch (tm2.py:153-301); it returns the new columns 1 and 2 of `BN` and the flows. On that way out `ZB`
is restored from `BT`, the admittance matrix (tm2.py:304-305). -/
def tm2 {n m : ℕ} (lp : LpIn n m → Except PyErr ((Fin (n + 1) → ℚ) × (Fin (n + 1) → ℚ) × (Fin m → ℚ)))
    (BN : BNcols n) (LP : LEnds n m) (BLP : Fin m → LnPar) (BLP0 : Fin m → ℚ) (BB ZB : NMat n)
    (LT : Fin (n + 1) → Fin (n + 1)) (NR : Fin (n + 1)) (NLS : ℤ) : Except PyErr (Tm2Out n m) :=
  let b := fun i => (BLP i).adm
  let INJ := fun i => BN.c2 (LT i)
  let s := lineUpdates LP b BLP0 (ieq LT NR) NR (BB, ZB)
  let r := schedule LP b s.2 LT INJ BN.c1 NLS
  let IND := indic BLP BN.c3 BN.c4 r.2.1 r.2.2
  if IND ≠ 1 then
    .ok { BN := tm2Accept BN LT r.1.1 r.1.2, BB := setBlk s.1 BB, ZB := setBlk s.2 ZB
          FLOW := r.2.2, INDIC := IND }
  else
    (lp { BB := s.1, INJ := INJ, INJB := BN.c2, NR := NR, LT := LT, BLP := BLP, LP := LP, BN := BN
          LOD := BN.c1, NLS := NLS }).map fun o =>
      { BN := { BN with c1 := o.1, c2 := o.2.1 }, BB := setBlk s.1 BB, ZB := setBlk s.2 BB
        FLOW := o.2.2, INDIC := IND }

end Narp
