import Verif.Spec.Year

/-!
# Year-to-year changes of a statistic (C84)
-/

namespace Narp.Spec

/-- The changes from value to value, the first one from `p`. -/
def changesFrom : ℚ → List ℚ → List ℚ
  | _, [] => []
  | p, x :: xs => (x - p) :: changesFrom x xs

/-- The first value, then the change from each value to the next. -/
def changes (xs : List ℚ) : List ℚ := changesFrom 0 xs

example : changes [100, 200, 150] = [100, 100, -50] := by decide +kernel

end Narp.Spec
