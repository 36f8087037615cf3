import Verif.Model.Lu
import Mathlib.Data.Matrix.Mul

/-!
# The linear programming solver: `linp`

`m + 1` is `M` (rows), `q` is `N` (columns) as passed in. Simplifications: `float` is exact `ℚ`; the constants
`1e-7` and `1e-13` are the decimal fractions; the note written to `extra.txt` (linp.py:81-91) is dropped; inf or nan
(division by zero, singular basis) is the error `zeroDivision`.
-/

namespace Narp
open Matrix

/-- The constant inputs of `linp`: `A`, `XOBI` and `N1` (columns that may enter the basis are those below `N1`).
(linp.py:10) -/
structure LpProb (m q : ℕ) where
  A : Matrix (Fin (m + 1)) (Fin q) ℚ
  XOBI : Fin 2 → Fin q → ℚ
  N1 : ℕ

/-- The variables of `linp`. `IPIV` is `none` as long as it has no value. (linp.py:36-48) -/
structure LpSt (m q : ℕ) where
  TAB : SqM (m + 1)
  BS : Fin (m + 1) → ℚ
  CB : Fin (m + 1) → ℚ
  IBAS : Fin (m + 1) → Fin q
  IBASF : Fin q → ℤ
  XOB : Fin q → ℚ
  IPH : ℤ
  IR : ℤ
  IPIV : Option (Fin (m + 1))

/-- `a[idx] = v` for an index array: the writes in order. (linp.py:47-48) -/
def markAll {m q : ℕ} (idx : Fin (m + 1) → Fin q) (a : Fin q → ℤ) (v : ℤ) : Fin q → ℤ :=
  (List.finRange (m + 1)).foldl (fun a k => Function.update a (idx k) v) a

/-- `linp.py:36-48`: the state in which the loop starts. -/
def lpStart {m q : ℕ} (p : LpProb m q) (IBAS : Fin (m + 1) → Fin q) (BS : Fin (m + 1) → ℚ) : LpSt m q where
  TAB := 1
  BS := BS
  CB := fun k => p.XOBI 0 (IBAS k)
  IBAS := IBAS
  IBASF := markAll IBAS (fun _ => 0) 1
  XOB := p.XOBI 0
  IPH := 1
  IR := 0
  IPIV := none

/-- `XOB[i] - rc(M, PY, A, i)` with `PY = rm(M, CB, TAB)` (linp.py:52, 58; rm.py, rc.py). -/
def redCost {m q : ℕ} (p : LpProb m q) (s : LpSt m q) (i : Fin q) : ℚ :=
  s.XOB i - (s.CB ᵥ* s.TAB) ⬝ᵥ fun r => p.A r i

/-- One pass of the loop linp.py:57-64 on `(CM, IND)`. -/
def scanStep {q : ℕ} (rcost : Fin q → ℚ) (s : ℚ × Option (Fin q)) (i : Fin q) : ℚ × Option (Fin q) :=
  let CC := if |rcost i| < 1 / 10000000 then 0 else rcost i
  if |CC - s.1| < 1 / 10000000 then s
  else if CC < s.1 then (CC, some i) else s

/-- The search for the entering column, linp.py:56-64. -/
def lpScan {m q : ℕ} (p : LpProb m q) (s : LpSt m q) : ℚ × Option (Fin q) :=
  ((List.finRange q).filter fun i => i.val < p.N1 ∧ s.IBASF i ≠ 1).foldl (scanStep (redCost p s)) (0, none)

/-- One pass of the loop linp.py:106-117 on `(RAT1, IPIV)`, `RAT1 = none` standing for `ICOUN = 0`. -/
def ratioStep {m q : ℕ} (s : LpSt m q) (P : Fin (m + 1) → ℚ) (t : Option ℚ × Option (Fin (m + 1)))
    (i : Fin (m + 1)) : Option ℚ × Option (Fin (m + 1)) :=
  if P i > 1 / 10000000 then
    let BNUM := if |s.BS i| ≥ 1 / 10000000000000 then s.BS i else 0
    let RAT := BNUM / P i
    match t.1 with
    | none => (some RAT, some i)
    | some RAT1 =>
      if RAT < RAT1 then (some RAT, some i)
      else if s.IPH ≠ 2 ∧ s.BS i = 0 ∧ s.XOB (s.IBAS i) = 1 then (some RAT1, some i)
      else t
  else t

/-- The choice of the leaving row, linp.py:104-117. With no eligible row `IPIV` keeps its old value. -/
def lpRatio {m q : ℕ} (s : LpSt m q) (P : Fin (m + 1) → ℚ) : Option (Fin (m + 1)) :=
  ((List.finRange (m + 1)).foldl (ratioStep s P) (none, s.IPIV)).2

/-- The exchange of row `r` for column `IND`, linp.py:119-132. -/
def lpExchange {m q : ℕ} (s : LpSt m q) (P : Fin (m + 1) → ℚ) (IND : Fin q) (r : Fin (m + 1)) : LpSt m q :=
  { s with
    TAB := fun i j =>
      if i = r then s.TAB r j / P r else if P i ≠ 0 then s.TAB i j - s.TAB r j * P i / P r else s.TAB i j
    BS := fun i => if i = r then s.BS r / P r else if P i ≠ 0 then s.BS i - s.BS r * P i / P r else s.BS i
    CB := Function.update s.CB r (s.XOB IND)
    IBASF := Function.update (Function.update s.IBASF (s.IBAS r) 0) IND 1
    IBAS := Function.update s.IBAS r IND
    IR := 0
    IPIV := some r }

/-- `mc(M, IND, TAB, A)` (linp.py:103, mc.py). -/
def lpColumn {m q : ℕ} (p : LpProb m q) (s : LpSt m q) (IND : Fin q) : Fin (m + 1) → ℚ :=
  s.TAB *ᵥ fun r => p.A r IND

/-- linp.py:101-132. -/
def lpPivot {m q : ℕ} (p : LpProb m q) (s : LpSt m q) (IND : Fin q) : Except PyErr (LpSt m q) :=
  let P := lpColumn p s IND
  match lpRatio s P with
  | none => .error .unboundLocal
  | some r => if P r = 0 then .error .zeroDivision else .ok (lpExchange s P IND r)

/-- linp.py:74-77 and 93-97: the basis inverted afresh. -/
def lpReinvert {m q : ℕ} (p : LpProb m q) (BS1 : Fin (m + 1) → ℚ) (s : LpSt m q) : Except PyErr (LpSt m q) :=
  match luInverse (fun r k => p.A r (s.IBAS k)) with
  | none => .error .zeroDivision
  | some T => .ok { s with TAB := T, BS := T *ᵥ BS1, IR := 1 }

/-- Result of one pass of the outer loop. (linp.py:50-141) -/
inductive LpRes (m q : ℕ) where
  | next (s : LpSt m q)
  | exit (s : LpSt m q)

/-- linp.py:134-140: a phase has ended. -/
def lpPhaseEnd {m q : ℕ} (p : LpProb m q) (s : LpSt m q) : LpRes m q :=
  if s.IPH = 2 then .exit s
  else
    let XOB := fun i : Fin q => if i.val < p.N1 then p.XOBI 1 i else s.XOB i
    .next { s with XOB := XOB, CB := fun k => XOB (s.IBAS k), IPH := 2 }

/-- The part of a pass after the first search has found nothing and the basis has been inverted.
(linp.py:66-98) -/
def lpRescan {m q : ℕ} (p : LpProb m q) (s : LpSt m q) : Except PyErr (LpRes m q) :=
  match lpScan p s with
  | (CM, some IND) => if CM < 0 then (lpPivot p s IND).map .next else .ok (lpPhaseEnd p s)
  | _ => .ok (lpPhaseEnd p s)

/-- linp.py:66-98 when no column can enter. -/
def lpNone {m q : ℕ} (p : LpProb m q) (BS1 : Fin (m + 1) → ℚ) (s : LpSt m q) : Except PyErr (LpRes m q) :=
  if s.IR = 1 then .ok (lpPhaseEnd p s)
  else match lpReinvert p BS1 s with
    | .error e => .error e
    | .ok s => lpRescan p s

/-- One pass of the loop linp.py:50-141. -/
def lpStep {m q : ℕ} (p : LpProb m q) (BS1 : Fin (m + 1) → ℚ) (s : LpSt m q) : Except PyErr (LpRes m q) :=
  match lpScan p s with
  | (CM, some IND) => if CM < 0 then (lpPivot p s IND).map .next else lpNone p BS1 s
  | _ => lpNone p BS1 s

/-- The loop, with a bound on the number of passes: `none` when the bound is too small. (linp.py:50-141) -/
def lpLoop {m q : ℕ} (p : LpProb m q) (BS1 : Fin (m + 1) → ℚ) : ℕ → LpSt m q → Option (Except PyErr (LpSt m q))
  | 0, _ => none
  | fuel + 1, s =>
    match lpStep p BS1 s with
    | .error e => some (.error e)
    | .ok (.exit s) => some (.ok s)
    | .ok (.next s) => lpLoop p BS1 fuel s

/-- `linp` (linp.py:10-144). -/
def linp {m q : ℕ} (p : LpProb m q) (IBAS : Fin (m + 1) → Fin q) (BS : Fin (m + 1) → ℚ) (fuel : ℕ) :
    Option (Except PyErr (LpSt m q)) :=
  lpLoop p BS fuel (lpStart p IBAS BS)

end Narp
