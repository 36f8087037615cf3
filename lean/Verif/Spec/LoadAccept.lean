import Verif.Spec.Text

/-!
# Specification of the load files that are accepted (C91)
-/

namespace Narp.Spec

/-- Which load files the reader takes, line by line. `cur` is the number in the last heading and the number of rows
since then (`none` before the first heading). A line that begins with `AREA` is a heading and needs a digit at its seventh
place. Any other line must be a row of decimal numbers after a heading with a number up to the number of areas `N`: a
single number, or at least twelve if fewer than 730 rows (one year) came before it in the section. -/
def Accepts (N : ℕ) : Option (Fin 10 × ℕ) → List (List Char) → Prop
  | _, [] => True
  | cur, l :: ls =>
    ("AREA".toList <+: l ∧ ∃ d : Fin 10, l[6]? = some (Nat.digitChar d.val) ∧ Accepts N (some (d, 0)) ls) ∨
    (¬ "AREA".toList <+: l ∧ ∃ (ds : List Dec) (d : Fin 10) (k : ℕ), RowText ds l ∧ cur = some (d, k) ∧ 1 ≤ N ∧ d.val ≤ N ∧
      (ds.length = 1 ∨ (12 ≤ ds.length ∧ k < 730)) ∧ Accepts N (some (d, k + 1)) ls)

end Narp.Spec
