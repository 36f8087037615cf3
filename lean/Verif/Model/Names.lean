import Verif.Model.Py

/-!
# `pind`: names to indices, and `smaint`: the planned outage table
-/

namespace Narp

/-- `list(dict.fromkeys(names))` (`pind.py:20,28`): distinct names in order of first appearance. -/
def uniqNames {α : Type} [DecidableEq α] (names : List α) : List α :=
  names.foldl (fun acc x => if x ∈ acc then acc else acc ++ [x]) []

/-- Looking a key up in `dict(zip(unique_list, range(len(unique_list))))` (`pind.py:21-23`). -/
def nameToInt {α : Type} [DecidableEq α] (names : List α) (key : α) : Except PyErr ℕ :=
  match (uniqNames names).findIdx? (fun x => decide (x = key)) with
  | some k => .ok k
  | none => .error .keyError

/-- The name columns of the input (`readInputB`), for names of type `α`; `LineID` is 1-based.
(readInputB.py:171-478) -/
structure NameTables (α : Type) where
  ldNAR : List α
  udNAT : List α
  udNAR : List α
  tdLineID : List ℤ
  tdNAR : List α
  tdNAE : List α
  fcNAR : List α
  fcNAE : List α
  odNAT : List α

/-- The same columns after name resolution. (pind.py:16-69) -/
structure IntTables where
  ldNAR : List ℕ
  udNAT : List ℕ
  udNAR : List ℕ
  tdLineID : List ℤ
  tdNAR : List ℕ
  tdNAE : List ℕ
  fcNAR : List ℕ
  fcNAE : List ℕ
  odNAT : List ℕ

/-- `pind.py:16-69`. -/
def pind {α : Type} [DecidableEq α] (t : NameTables α) : Except PyErr IntTables := do
  let ldNAR ← t.ldNAR.mapM (nameToInt t.ldNAR)      -- lines 19-24
  let udNAT ← t.udNAT.mapM (nameToInt t.udNAT)      -- lines 27-32
  let udNAR ← t.udNAR.mapM (nameToInt t.ldNAR)      -- lines 34-37
  let tdLineID := t.tdLineID.map (· - 1)            -- line 40
  let tdNAR ← t.tdNAR.mapM (nameToInt t.ldNAR)      -- lines 42-45
  let tdNAE ← t.tdNAE.mapM (nameToInt t.ldNAR)      -- lines 47-50
  let fcNAR ← t.fcNAR.mapM (nameToInt t.ldNAR)      -- lines 53-56
  let fcNAE ← t.fcNAE.mapM (nameToInt t.ldNAR)      -- lines 58-61
  let odNAT ← t.odNAT.mapM (nameToInt t.udNAT)      -- lines 64-67
  return { ldNAR, udNAT, udNAR, tdLineID, tdNAR, tdNAE, fcNAR, fcNAE, odNAT }

/-- The row of `ID` of a unit used by `smaint`: unit number, start and duration (weeks) of the two
planned outages (start -1 = none). (datax.py:180-188, smaint.py:88-96) -/
structure MaintRow where
  unit : ℤ
  start1 : ℤ
  dur1 : ℤ
  start2 : ℤ
  dur2 : ℤ

/-- `smaint.py:90-96` for one window of one unit, on the 52 x (1+NUNITS) table, for a start week ≥ 0
(other negative starts than -1 are not modelled): count the unit in each of its weeks, then write its
number at the position of the new count. Writing beyond the last column is an IndexError. -/
def maintWindow (NUNITS : ℕ) (T : ℕ → ℕ → ℤ) (unit start dur : ℤ) : Except PyErr (ℕ → ℕ → ℤ) :=
  if start = -1 then .ok T
  else
    let j2 : ℤ := min 51 (start + dur)                                   -- line 93
    let inW : ℕ → Bool := fun w => start ≤ w ∧ (w : ℤ) < j2
    let T1 : ℕ → ℕ → ℤ := fun w c => if inW w ∧ c = 0 then T w 0 + 1 else T w c   -- line 95
    if (List.range 52).any fun w => inW w && decide (T1 w 0 > NUNITS) then .error .indexError
    else .ok fun w c => if inW w ∧ c ≠ 0 ∧ (c : ℤ) = T1 w 0 then unit else T1 w c  -- line 96

/-- `smaint.py:85-98`, after `pmsc` has completed the rows of `ID`. -/
def smaintTable (ID : List MaintRow) : Except PyErr (ℕ → ℕ → ℤ) :=
  ID.foldlM (fun T r => do
    let T ← maintWindow ID.length T r.unit r.start1 r.dur1
    maintWindow ID.length T r.unit r.start2 r.dur2) (fun _ c => if c = 0 then 0 else -1)

end Narp
