import Verif.Model.Pmsc
import Verif.Model.Text

/-!
# What `pmsc` and `smaint` write to `output.txt`

`pmsc.py:225-408` and `pmsc.py:819-854`, character by character. `LOAD` and `EFLOAD` start as the weekly peaks of the area
(pmsc.py:219-220); they are changed, and `INDEX` becomes nonzero, only in the two pieces of code that no run
reaches (see `Model/Pmsc.lean`), so both are the weekly peaks here and the loop that prints the units (pmsc.py:693-817) prints
nothing: every unit is skipped at line 695. An area without units returns at line 132, before anything is written.
The peaks are exact numbers; an exception leaves no text here.
-/

namespace Narp

/-- `k` dashes. (pmsc.py:324) -/
def ds (k : ℕ) : List Char := List.replicate k '-'

/-- Thirteen weeks, each `"%.4f"` after `k` spaces. (pmsc.py:228-231, 840-841) -/
def quarter (k : ℕ) (x : Fin 52 → ℚ) (q : Fin 4) : List (List Char) :=
  (List.finRange 13).map fun j => cell (sp k) 0 (fixedText 4 (x ⟨13 * q.val + j.val, by omega⟩))

/-- The weekly peaks at the start. (pmsc.py:226-231) -/
def maintHead (x : Fin 52 → ℚ) : List Char :=
  "\n WEEKLY PEAK LOAD BEFORE MAINTENANCE SCHEDULING \n".toList ++
    (List.finRange 4).flatMap fun q => '\n' :: (quarter 1 x q).flatten

/-- Format 801. (pmsc.py:335-338, 390-393, 826-829) -/
def fmt801 : List Char := "\n  ".toList ++ ds 123 ++ "\n  |      |      |".toList

/-- Format 802. (pmsc.py:341-344, 355-358) -/
def fmt802 : List Char := "\n |      |      |".toList ++ sp 107 ++ "|".toList

/-- Format 804. (pmsc.py:367-371, 396-400, 820-824) -/
def fmt804 : List Char := "\n  |      |      |".toList ++ (List.range 4).flatMap fun _ => sp 26 ++ "|".toList

/-- The heading of the schedule of area `IA` (counted from 0), with the table number. (pmsc.py:308-333) -/
def maintTitle (IA ITC : ℤ) : List Char :=
  ("\n ".toList ++ sp 50 ++ " ".toList) ++
  ('\n' :: (tb 12 ++ " PLANNED MAINTENANCE SCHEDULE FOR AREA".toList ++ ' ' :: (cell [] 3 (intText (IA + 1)) ++ ' ' :: []))) ++ "\n\n".toList ++
  ("\n ".toList ++ sp 51 ++ ds 32 ++ "\n".toList) ++
  ('\n' :: (' ' :: (sp 63 ++ "TABLE".toList) ++ ' ' :: (cell [] 4 (intText ITC) ++ ' ' :: []))) ++ "\n\n".toList

/-- The head of the table of units. (pmsc.py:335-400) -/
def maintFrame : List Char :=
  fmt801 ++ fmt802 ++ ("\n |      |      |".toList ++ sp 50 ++ "MONTHS".toList ++ sp 51 ++ "|".toList) ++ fmt802 ++
  ("\n |      |      |".toList ++ ds 107 ++ "|".toList) ++ fmt804 ++
  ("\n  | UNIT | CAP  |  JAN      FEB      MAR   |  APR      MAY      JUN   |".toList ++
    "JUL      AUG      SEP   |  OCT      NOV      DEC   |".toList) ++
  ("\n  | NAME | (MW) |".toList ++ (List.range 4).flatMap fun _ => sp 26 ++ "|".toList) ++
  ("\n  |      |      |  1 2 3 4 5 6 7 8 9 0 1 2 3 | 4 5 6 7 8 9 0 1 2 3 4 5 6 | ".toList ++
    "7 8 9 0 1 2 3 4 5 6 7 8 9 | 0 1 2 3 4 5 6 7 8 9 0 1 2 |".toList) ++
  ("\n  |      |                   1      |             2            |       3".toList ++
    "                  | 4                   5    |".toList) ++
  fmt801 ++ fmt804

/-- Format 290: four lines of thirteen weeks. (pmsc.py:838-842, 849-853) -/
def fmt290 (x : Fin 52 → ℚ) : List Char := "0\n".toList ++ (List.finRange 4).flatMap fun q => (quarter 2 x q).flatten ++ ['\n']

/-- The end of the table and the two lists of weekly loads. (pmsc.py:819-853) -/
def maintTail (EFLOAD LOAD : Fin 52 → ℚ) : List Char :=
  fmt804 ++ fmt801 ++
  ("\n 1".toList ++ List.replicate 10 '\n' ++ "\t\t\t\t     WEEKLY PEAK LOAD + EFFECTIVE CAPACITY (MW) ON MAINTENANCE \n".toList) ++
  fmt290 EFLOAD ++
  ("0\n\n\n\n\n\t\t\t\t     WEEKLY PEAK LOAD + CAPACITY ON MAINTENANCE \n".toList ++ fmt290 LOAD)

/-- The text `pmsc` appends for area `IA`, whose weekly peaks are `x`, with table number `ITC`. (pmsc.py:219-231, 306-400, 819-854) -/
def maintText (IREPM IA ITC : ℤ) (x : Fin 52 → ℚ) : List Char :=
  if IREPM ≠ 0 then maintHead x ++ (maintTitle IA ITC ++ (maintFrame ++ maintTail x x)) else []

/-- `pmsc` with the file. (pmsc.py:72-871) -/
def pmscFile (IREPM IA : ℤ) (ID : List IdRow) (ITAB : ℤ) (cap : ℕ → ℚ) (sl : ℚ → ℚ) (x : Fin 52 → ℚ) (file : List Char) :
    Except PyErr (List IdRow × ℤ × List Char) := do
  let r ← pmsc IA ID ITAB cap sl
  .ok (r.1, r.2, if (pmscGather IA ID cap).length = 0 then file else file ++ maintText IREPM IA r.2 x)

/-- The areas in turn, with the file. (smaint.py:63-83) -/
def pmscAllFile (IREPM : ℤ) (NOAREA : ℕ) (ID : List IdRow) (ITAB : ℤ) (cap : ℕ → ℚ) (sl : ℕ → ℚ → ℚ) (WPEAK : ℕ → Fin 52 → ℚ)
    (file : List Char) : Except PyErr (List IdRow × ℤ × List Char) :=
  (List.range NOAREA).foldlM (fun (s : List IdRow × ℤ × List Char) (a : ℕ) =>
    pmscFile IREPM a s.1 s.2.1 cap (sl a) (WPEAK a) s.2.2) (ID, ITAB, file)

/-- `smaint` with the file: the planned outage table, the table number, `ID` and the file as left behind. (smaint.py:63-98) -/
def smaintFile (IREPM : ℤ) (NOAREA : ℕ) (ID : List IdRow) (ITAB : ℤ) (cap : ℕ → ℚ) (sl : ℕ → ℚ → ℚ) (WPEAK : ℕ → Fin 52 → ℚ)
    (file : List Char) : Except PyErr ((ℕ → ℕ → ℤ) × ℤ × List IdRow × List Char) := do
  let r ← pmscAllFile IREPM NOAREA ID ITAB cap sl WPEAK file
  let T ← smaintTable (r.1.map IdRow.maint)
  .ok (T, r.2.1, r.1, r.2.2)

end Narp
