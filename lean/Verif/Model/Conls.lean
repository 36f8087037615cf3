import Verif.Model.Connls

/-!
# The linear program for loss sharing: `conls`

`n` is `NX`, `l` is `NL`, as in `Verif.Model.Connls`. The program `tm2` never gets a result from `conls` because it calls
it with a wrong number of arguments (`redispatch`); here the function itself (conls.py:4-240) is modelled, with the
arguments it takes: `BC` is `x.BB`, and `x.INJB` is not used.
-/

namespace Narp

/-- `M`, `N1` and `N` of `conls` (conls.py:178-179, 191-192, 211, 238). -/
def shM (n l : ℕ) : ℕ := 5 * n + 5 + 2 * l
/-- `N1` (conls.py:238): the columns without the artificial ones. -/
def shN1 (n l : ℕ) : ℕ := 8 * n + 6 + 2 * l
/-- `N` (conls.py:211): all columns. -/
def shN (n l : ℕ) : ℕ := 9 * n + 7 + 2 * l

/-- `conls.py:104-113`, the matrix: the balance of the areas other than the reference one. -/
def sBal {n l : ℕ} (x : LpIn n l) (r c : ℕ) : ℚ :=
  if r < n then
    if c = 3 * n + 1 + r then -1
    else if c = 2 * n + r then -1
    else if c < 2 * n then
      (if c % 2 = 0 then nth (cBal.nth2 x.BB r) (c / 2) else -nth (cBal.nth2 x.BB r) (c / 2))
    else 0
  else 0

/-- `conls.py:117-127`: the balance of the reference area. The loop 117-122 is the one of `connls`. -/
def sRef {n l : ℕ} (x : LpIn n l) (r c : ℕ) : ℚ :=
  if r = n then
    if c < 4 * n + 2 then -(if c = 4 * n + 1 then 1 else if c = 3 * n then 1 else refRow x c) else refRow x c
  else sBal x r c

/-- `conls.py:132-136`: the limits on the load that is shed. -/
def sLim {n l : ℕ} (x : LpIn n l) (r c : ℕ) : ℚ :=
  if n + 1 ≤ r ∧ r < 2 * (n + 1) ∧ c = 2 * n + (r - (n + 1)) then 1
  else if n + 1 ≤ r ∧ r < 2 * (n + 1) ∧ c = 4 * n + 2 + (r - (n + 1)) then 1
  else sRef x r c

/-- `conls.py:138-144`: the limits on the generation. -/
def sGen {n l : ℕ} (x : LpIn n l) (r c : ℕ) : ℚ :=
  if 2 * (n + 1) ≤ r ∧ r < 3 * (n + 1) ∧ c = 4 * n + 2 + (n + 1) + (r - 2 * (n + 1)) then 1
  else if 2 * (n + 1) ≤ r ∧ r < 3 * (n + 1) ∧ c = 3 * n + 1 + (r - 2 * (n + 1)) then 1
  else sLim x r c

/-- `conls.py:150-174`: the limits of the lines, forward and backward. -/
def sLine {n l : ℕ} (x : LpIn n l) (r c : ℕ) : ℚ :=
  if h : 3 * (n + 1) ≤ r ∧ r < 3 * (n + 1) + l then
    if c = 6 * n + 4 + (r - 3 * (n + 1)) then 1 else lineCoef x ⟨r - 3 * (n + 1), by omega⟩ c
  else if h : 3 * (n + 1) + l ≤ r ∧ r < 3 * (n + 1) + 2 * l then
    if c = 6 * n + 4 + l + (r - (3 * (n + 1) + l)) then 1 else -lineCoef x ⟨r - (3 * (n + 1) + l), by omega⟩ c
  else sGen x r c

/-- `conls.py:181-189`: the limits of the areas' injections, up and down. -/
def sArea {n l : ℕ} (x : LpIn n l) (r c : ℕ) : ℚ :=
  if 3 * (n + 1) + 2 * l ≤ r ∧ r < 4 * (n + 1) + 2 * l then
    if c = 6 * n + 4 + 2 * l + (r - (3 * (n + 1) + 2 * l)) then 1
    else if c < 2 * n then sLine x (r - (3 * (n + 1) + 2 * l)) c else 0
  else if 4 * (n + 1) + 2 * l ≤ r ∧ r < 5 * (n + 1) + 2 * l then
    if c = 6 * n + 4 + 2 * l + (n + 1) + (r - (4 * (n + 1) + 2 * l)) then 1
    else if c < 2 * n then -sLine x (r - (4 * (n + 1) + 2 * l)) c else 0
  else sLine x r c

/-- The right hand side `B1` (conls.py:112, 125, 136, 144, 173-174, 185, 187, 197): before the signs are changed. -/
def sRhs1 {n l : ℕ} (x : LpIn n l) (r : ℕ) : ℚ :=
  if r < n then -nth (fun i => x.LOD (x.LT i)) r
  else if r = n then -x.LOD x.NR
  else if r < 2 * (n + 1) then nth (fun i => x.LOD (x.LT i)) (r - (n + 1))
  else if r < 3 * (n + 1) then nth (fun i => x.LOD (x.LT i)) (r - 2 * (n + 1)) + nth x.INJ (r - 2 * (n + 1))
  else if h : 3 * (n + 1) ≤ r ∧ r < 3 * (n + 1) + l then (x.BLP ⟨r - 3 * (n + 1), by omega⟩).fwd
  else if h : 3 * (n + 1) + l ≤ r ∧ r < 3 * (n + 1) + 2 * l then (x.BLP ⟨r - (3 * (n + 1) + l), by omega⟩).bwd
  else if r < 4 * (n + 1) + 2 * l then
    if 0 < n then nth (fun a => x.BN.c3 (x.LT a)) (r - (3 * (n + 1) + 2 * l)) else 0
  else if r < 5 * (n + 1) + 2 * l then
    if 0 < n then nth (fun a => x.BN.c4 (x.LT a)) (r - (4 * (n + 1) + 2 * l)) else 0
  else 0

/-- `conls.py:199`: the first `NX + 1` entries are limited to 0 from above. -/
def sRhs2 {n l : ℕ} (x : LpIn n l) (r : ℕ) : ℚ := if r < n + 1 then min (sRhs1 x r) 0 else sRhs1 x r

/-- `B` (conls.py:202). -/
def sRhs {n l : ℕ} (x : LpIn n l) (r : ℕ) : ℚ := |sRhs2 x r|

/-- `conls.py:201` and 207: rows with a negative right hand side change sign, the artificial columns come in. -/
def sSigned {n l : ℕ} (x : LpIn n l) (r c : ℕ) : ℚ :=
  if r < n + 1 ∧ c = shN1 n l + r then 1
  else if sRhs2 x r < 0 then -sArea x r c else sArea x r c

/-- `conls.py:223-236`: the row that comes at place `r`: the first `NX + 1` rows go to the end. -/
def sOrder (n l r : ℕ) : ℕ := if r < shM n l - (n + 1) then r + (n + 1) else r - (shM n l - (n + 1))

/-- The program that `conls` (conls.py:4-240) sets up: `A`, `XOBI` (129-130, 208-209), `N1`. -/
def conlsProb {n l : ℕ} (x : LpIn n l) : LpProb (5 * n + 4 + 2 * l) (shN n l) where
  A := fun r c => sSigned x (sOrder n l r.val) c.val
  XOBI := fun k c =>
    if k = 0 then (if shN1 n l ≤ c.val then 1 else 0)
    else if 2 * n ≤ c.val ∧ c.val < 3 * n + 1 then 1 else 0
  N1 := shN1 n l

/-- `IBAS` (conls.py:212-220). -/
def conlsBasis (n l : ℕ) : Fin (5 * n + 4 + 2 * l + 1) → Fin (shN n l) := fun k =>
  ⟨4 * n + 2 + k.val, by have := k.isLt; unfold shN; omega⟩

/-- `BS` (conls.py:229, 234). -/
def conlsRhs {n l : ℕ} (x : LpIn n l) : Fin (5 * n + 4 + 2 * l + 1) → ℚ := fun r => sRhs x (sOrder n l r.val)

/-- `conls` (conls.py:4-240): its arrays have 200 rows and 250 columns. -/
def conls {n l : ℕ} (x : LpIn n l) : Except PyErr (LpProb (5 * n + 4 + 2 * l) (shN n l) ×
    (Fin (5 * n + 4 + 2 * l + 1) → Fin (shN n l)) × (Fin (5 * n + 4 + 2 * l + 1) → ℚ)) :=
  if 200 < shM n l ∨ 250 < shN n l then .error .indexError else .ok (conlsProb x, conlsBasis n l, conlsRhs x)

end Narp
