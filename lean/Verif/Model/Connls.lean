import Verif.Model.Linp
import Verif.Model.Network

/-!
# The re-dispatch by linear programming: `connls`, `net` and their use in `tm2`

`n` is `NX`, `l` is `NL`. Arrays are functions of natural numbers; a block of assignments to different places is
written as one definition of the entry, later writes first. `connls` is only called with `NLS ≠ 0` (tm2.py:157).
-/

namespace Narp

/-- `v[i]`, 0 outside. (connls.py:113-120 and the other accesses to `INJ`, `BC`, `BN`) -/
def nth {k : ℕ} (v : Fin k → ℚ) (i : ℕ) : ℚ := if h : i < k then v ⟨i, h⟩ else 0

/-- `M` and `N1` of `connls` (connls.py:189-190, 202-203, 221, 247): rows, and columns without the artificial ones. `N` is
`N1 + NX + 1`. -/
def lpM (n l : ℕ) : ℕ := 4 * n + 4 + 2 * l
/-- `N1` (connls.py:247): the columns without the artificial ones. -/
def lpN1 (n l : ℕ) : ℕ := 6 * n + 4 + 2 * l
/-- `N` (connls.py:221): all columns. -/
def lpN (n l : ℕ) : ℕ := 7 * n + 5 + 2 * l

/-- `connls.py:113-120`, the matrix: the balance of the areas other than the reference one. -/
def cBal {n l : ℕ} (x : LpIn n l) (r c : ℕ) : ℚ :=
  if r < n then
    if c = 2 * n + r then -1
    else if c < 2 * n then (if c % 2 = 0 then nth (nth2 x.BB r) (c / 2) else -nth (nth2 x.BB r) (c / 2))
    else 0
  else 0
where
  /-- Row `r` of `BC`. -/
  nth2 (BB : NMat n) (r : ℕ) : Fin (n + 1) → ℚ := fun j => if h : r < n + 1 then BB ⟨r, h⟩ j else 0

/-- `connls.py:126-129` for one end `e` of a line, `o` being the other end: on the row of the reference area. -/
def refEnd {n : ℕ} (IEQ : Fin (n + 1) → Fin (n + 1)) (NR e o : Fin (n + 1)) (b : ℚ) (row : ℕ → ℚ) : ℕ → ℚ :=
  if e = NR then
    fun c => if c = 2 * (IEQ o).val then row c + b else if c = 2 * (IEQ o).val + 1 then row c - b else row c
  else row

/-- `connls.py:124-129`. -/
def refRow {n l : ℕ} (x : LpIn n l) : ℕ → ℚ :=
  (List.finRange l).foldl (fun row i =>
    refEnd (ieq x.LT x.NR) x.NR (x.LP i).2 (x.LP i).1 (x.BLP i).adm
      (refEnd (ieq x.LT x.NR) x.NR (x.LP i).1 (x.LP i).2 (x.BLP i).adm row)) fun _ => 0

/-- `connls.py:131-136`: the balance of the reference area. -/
def cRef {n l : ℕ} (x : LpIn n l) (r c : ℕ) : ℚ :=
  if r = n then
    if c < 3 * n + 1 then -(if c = 3 * n then 1 else refRow x c) else refRow x c
  else cBal x r c

/-- `connls.py:148-150`: the limits on the variables `z`. -/
def cLim {n l : ℕ} (x : LpIn n l) (r c : ℕ) : ℚ :=
  if n + 1 ≤ r ∧ r < 2 * (n + 1) ∧ c = 2 * n + (r - (n + 1)) then 1
  else if n + 1 ≤ r ∧ r < 2 * (n + 1) ∧ c = 3 * n + 1 + (r - (n + 1)) then 1
  else cRef x r c

/-- The entries of the rows of line `i` in the columns of the angles (connls.py:166-181), for the forward row. -/
def lineCoef {n l : ℕ} (x : LpIn n l) (i : Fin l) (c : ℕ) : ℚ :=
  let J4 := (ieq x.LT x.NR (x.LP i).1).val
  let J5 := (ieq x.LT x.NR (x.LP i).2).val
  if J5 < n ∧ c = 2 * J5 then -(x.BLP i).adm
  else if J5 < n ∧ c = 2 * J5 + 1 then (x.BLP i).adm
  else if J4 < n ∧ c = 2 * J4 then (x.BLP i).adm
  else if J4 < n ∧ c = 2 * J4 + 1 then -(x.BLP i).adm
  else 0

/-- `connls.py:161-185`: the limits of the lines, forward and backward. -/
def cLine {n l : ℕ} (x : LpIn n l) (r c : ℕ) : ℚ :=
  if h : 2 * (n + 1) ≤ r ∧ r < 2 * (n + 1) + l then
    if c = 4 * n + 2 + (r - 2 * (n + 1)) then 1 else lineCoef x ⟨r - 2 * (n + 1), by omega⟩ c
  else if h : 2 * (n + 1) + l ≤ r ∧ r < 2 * (n + 1) + 2 * l then
    if c = 4 * n + 2 + l + (r - (2 * (n + 1) + l)) then 1 else -lineCoef x ⟨r - (2 * (n + 1) + l), by omega⟩ c
  else cLim x r c

/-- `connls.py:192-200`: the limits of the areas' injections, up and down. -/
def cArea {n l : ℕ} (x : LpIn n l) (r c : ℕ) : ℚ :=
  if 2 * (n + 1) + 2 * l ≤ r ∧ r < 3 * (n + 1) + 2 * l then
    if c = 4 * n + 2 + 2 * l + (r - (2 * (n + 1) + 2 * l)) then 1
    else if c < 2 * n then cLine x (r - (2 * (n + 1) + 2 * l)) c else 0
  else if 3 * (n + 1) + 2 * l ≤ r ∧ r < 4 * (n + 1) + 2 * l then
    if c = 4 * n + 2 + 2 * l + (n + 1) + (r - (3 * (n + 1) + 2 * l)) then 1
    else if c < 2 * n then -cLine x (r - (3 * (n + 1) + 2 * l)) c else 0
  else cLine x r c

/-- The right hand side `B1` (connls.py:120, 133, 152-153, 184-185, 196-198, 208): before the signs are changed. -/
def cRhs1 {n l : ℕ} (x : LpIn n l) (r : ℕ) : ℚ :=
  if r < n then nth x.INJ r
  else if r = n then x.INJB x.NR
  else if r < 2 * (n + 1) then |if r - (n + 1) < n then nth x.INJ (r - (n + 1)) else x.INJB x.NR|
  else if h : 2 * (n + 1) ≤ r ∧ r < 2 * (n + 1) + l then (x.BLP ⟨r - 2 * (n + 1), by omega⟩).fwd
  else if h : 2 * (n + 1) + l ≤ r ∧ r < 2 * (n + 1) + 2 * l then (x.BLP ⟨r - (2 * (n + 1) + l), by omega⟩).bwd
  else if r < 3 * (n + 1) + 2 * l then
    if 0 < n then nth (fun a => x.BN.c4 (x.LT a)) (r - (2 * (n + 1) + 2 * l)) else 0
  else if r < 4 * (n + 1) + 2 * l then
    if 0 < n then nth (fun a => x.BN.c3 (x.LT a)) (r - (3 * (n + 1) + 2 * l)) else 0
  else 0

/-- `connls.py:210`: the first `NX + 1` entries are limited to 0 from above. -/
def cRhs2 {n l : ℕ} (x : LpIn n l) (r : ℕ) : ℚ := if r < n + 1 then min (cRhs1 x r) 0 else cRhs1 x r

/-- `B` (connls.py:213). -/
def cRhs {n l : ℕ} (x : LpIn n l) (r : ℕ) : ℚ := |cRhs2 x r|

/-- `connls.py:212` and 215-216: rows with a negative right hand side change sign, the artificial columns come in. -/
def cSigned {n l : ℕ} (x : LpIn n l) (r c : ℕ) : ℚ :=
  if r < n + 1 ∧ c = lpN1 n l + r then 1
  else if cRhs2 x r < 0 then -cArea x r c else cArea x r c

/-- `connls.py:233-245`: the row that comes at place `r`: the first `NX + 1` rows go to the end. -/
def cOrder (n l r : ℕ) : ℕ := if r < lpM n l - (n + 1) then r + (n + 1) else r - (lpM n l - (n + 1))

/-- `XOB` (connls.py:138-144): cost 1 for the variable `z` of the areas that have nothing to offer. -/
def cCost {n l : ℕ} (x : LpIn n l) (c : ℕ) : ℚ :=
  if 2 * n ≤ c ∧ c < 3 * n + 1 ∧ cRhs1 x (c - 2 * n) ≤ 0 then 1 else 0

/-- The program that `connls` (connls.py:4-249) sets up: `A`, `XOBI`, `N1`. -/
def connlsProb {n l : ℕ} (x : LpIn n l) : LpProb (4 * n + 3 + 2 * l) (lpN n l) where
  A := fun r c => cSigned x (cOrder n l r.val) c.val
  XOBI := fun k c =>
    if k = 0 then (if lpN1 n l ≤ c.val then 1 else 0) else if c.val < lpN1 n l then cCost x c.val else 0
  N1 := lpN1 n l

/-- `IBAS` (connls.py:226-229). -/
def connlsBasis (n l : ℕ) : Fin (4 * n + 3 + 2 * l + 1) → Fin (lpN n l) := fun k =>
  ⟨3 * n + 1 + k.val, by have := k.isLt; unfold lpN; omega⟩

/-- `BS` (connls.py:238, 243). -/
def connlsRhs {n l : ℕ} (x : LpIn n l) : Fin (4 * n + 3 + 2 * l + 1) → ℚ := fun r => cRhs x (cOrder n l r.val)

/-- `RES[IBAS[:M], 0] = BS[:M]` over zeros (net.py:80-82): the writes in order. -/
def netWrite {m q : ℕ} (IBAS : Fin (m + 1) → Fin q) (BS : Fin (m + 1) → ℚ) : ℕ → ℚ :=
  (List.finRange (m + 1)).foldl (fun R k => fun c => if c = (IBAS k).val then BS k else R c) fun _ => 0

/-- `net` (net.py:51-86), column 0 of `RES`; `N` is `N1` here, because `linp` returns that. Column 1 is never
read. -/
def net {m q : ℕ} (B : ℕ → ℚ) (IBAS : Fin (m + 1) → Fin q) (BS : Fin (m + 1) → ℚ) (N : ℕ) (c : ℕ) : ℚ :=
  let M := m + 1
  let R := netWrite IBAS BS c
  let R := if (∃ k, (IBAS k).val = c) ∧ N - M < c then R * (-1) else R
  if N - M ≤ c ∧ c < N then R + B (c - (N - M)) else R

/-- `_net` (net.py:2-48): the first loop writes with the sign, entry by entry. -/
def net' {m q : ℕ} (B : ℕ → ℚ) (IBAS : Fin (m + 1) → Fin q) (BS : Fin (m + 1) → ℚ) (N : ℕ) : ℕ → ℚ :=
  let M := m + 1
  let R := (List.finRange M).foldl
    (fun R k => fun c => if c = (IBAS k).val then (if (IBAS k).val > N - M then -BS k else BS k) else R c)
    (fun _ => 0)
  (List.range M).foldl (fun R i => fun c => if c = i + (N - M) then R c + B i else R c) R

/-- Write-back of the areas (tm2.py:169-175) for place `i`: columns 1 and 2 of `BN`. -/
def writeArea {n : ℕ} (LT : Fin (n + 1) → Fin (n + 1)) (RES : ℕ → ℚ)
    (s : (Fin (n + 1) → ℚ) × (Fin (n + 1) → ℚ)) (i : Fin (n + 1)) : (Fin (n + 1) → ℚ) × (Fin (n + 1) → ℚ) :=
  let j := LT i
  let c1 := fun a => if a = j then -RES (2 * n + i.val) else s.1 a
  let v := -s.2 j + c1 j
  (c1, fun a => if a = j then (if v < 0 then 0 else v) else s.2 a)

/-- The results of the re-dispatch from the final state of `linp` (tm2.py:164-180). -/
def lpResult {n l : ℕ} (x : LpIn n l) (t : LpSt (4 * n + 3 + 2 * l) (lpN n l)) :
    (Fin (n + 1) → ℚ) × (Fin (n + 1) → ℚ) × (Fin l → ℚ) :=
  let RES := net (cRhs x) t.IBAS t.BS (lpN1 n l)
  let s := (List.finRange (n + 1)).foldl (writeArea x.LT RES) (x.BN.c1, x.BN.c2)
  (s.1, s.2, fun i => RES (4 * n + 2 + i.val))

/-- The re-dispatch (tm2.py:153-301). Without loss sharing (`NLS ≠ 0`): set up the program, solve it, map the result
back. The arrays of `connls` have 200 rows and 250 columns: larger networks raise `IndexError`. With `IOI ≠ 0` the
listing of the units raises (`range[JXX]`, tm2.py:205). With loss sharing `conls` is called with 11 arguments but
takes 10 (tm2.py:236, conls.py:4): `TypeError`. `fuel` bounds the passes of `linp`; a run that does not end is
`diverge`. -/
def redispatch {n l : ℕ} (fuel : ℕ) (IOI : ℤ) (x : LpIn n l) :
    Except PyErr ((Fin (n + 1) → ℚ) × (Fin (n + 1) → ℚ) × (Fin l → ℚ)) :=
  if x.NLS = 0 then .error .typeError
  else if 200 < lpM n l ∨ 250 < lpN n l then .error .indexError
  else match linp (connlsProb x) (connlsBasis n l) (connlsRhs x) fuel with
    | none => .error .diverge
    | some (.error e) => .error e
    | some (.ok t) => if IOI ≠ 0 then .error .typeError else .ok (lpResult x t)

end Narp
