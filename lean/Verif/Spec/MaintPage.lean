import Verif.Spec.Printed

/-!
# Specification of the printed maintenance schedule (C123)

A page is given by its lines that are not blank, and a line by its words.
-/

namespace Narp.Spec

/-- Words of a line. -/
def ln (l : List String) : List (List Char) := l.map String.toList

/-- Four lines of thirteen words show the 52 weekly numbers to four decimals, in order. -/
def WeeksShown (x : Fin 52 → ℚ) (lines : List (List (List Char))) : Prop :=
  lines.length = 4 ∧ ∀ (q : Fin 4) (l : List (List Char)), lines[q.val]? = some l → l.length = 13 ∧
    ∀ (j : Fin 13) (w : List Char), l[j.val]? = some w → ShownTo 4 (x ⟨13 * q.val + j.val, by omega⟩) w

/-- A run of dashes. -/
def dashes (k : ℕ) : List Char := List.replicate k '-'

/-- An empty line of the table: the bars. -/
def bars (k : ℕ) : List (List Char) := List.replicate k ['|']

/-- The head of the table of units. -/
def unitTableHead : List (List (List Char)) :=
  [[dashes 123], bars 3, bars 4, bars 3 ++ ln ["MONTHS", "|"], bars 4, bars 2 ++ ['|' :: (dashes 107 ++ ['|'])], bars 7,
   ln ["|", "UNIT", "|", "CAP", "|", "JAN", "FEB", "MAR", "|", "APR", "MAY", "JUN", "|JUL", "AUG", "SEP", "|", "OCT", "NOV", "DEC", "|"],
   ln ["|", "NAME", "|", "(MW)", "|"] ++ bars 4,
   ln ["|", "|", "|", "1", "2", "3", "4", "5", "6", "7", "8", "9", "0", "1", "2", "3", "|", "4", "5", "6", "7", "8", "9", "0", "1", "2", "3", "4",
     "5", "6", "|", "7", "8", "9", "0", "1", "2", "3", "4", "5", "6", "7", "8", "9", "|", "0", "1", "2", "3", "4", "5", "6", "7", "8", "9", "0",
     "1", "2", "|"],
   ln ["|", "|", "1", "|", "2", "|", "3", "|", "4", "5", "|"], [dashes 123], bars 3, bars 7]

/-- The page of the area with number `area` (counted from 1), with the table number `table`: the weekly peaks `before`, the
table with the lines `units`, the weekly peaks with the effective capacity on maintenance, and those with the capacity on
maintenance. -/
def MaintPage (area table : ℤ) (before effective full : Fin 52 → ℚ) (units lines : List (List (List Char))) : Prop :=
  ∃ (b e f : List (List (List Char))) (a t : List Char), WeeksShown before b ∧ WeeksShown effective e ∧ WeeksShown full f ∧
    ShownInt area a ∧ ShownInt table t ∧
    lines = [ln ["WEEKLY", "PEAK", "LOAD", "BEFORE", "MAINTENANCE", "SCHEDULING"]] ++ b ++
      [ln ["PLANNED", "MAINTENANCE", "SCHEDULE", "FOR", "AREA"] ++ [a], [dashes 32], ln ["TABLE"] ++ [t]] ++
      unitTableHead ++ units ++ [bars 7, [dashes 123], bars 3] ++
      [ln ["1"], ln ["WEEKLY", "PEAK", "LOAD", "+", "EFFECTIVE", "CAPACITY", "(MW)", "ON", "MAINTENANCE"], ln ["0"]] ++ e ++
      [ln ["0"], ln ["WEEKLY", "PEAK", "LOAD", "+", "CAPACITY", "ON", "MAINTENANCE"], ln ["0"]] ++ f

end Narp.Spec
