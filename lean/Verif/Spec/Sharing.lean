import Mathlib.Algebra.Order.Field.Rat
import Mathlib.Algebra.BigOperators.Group.Finset.Basic
import Mathlib.Data.Fintype.BigOperators

/-!
# Who bears what the pool lacks (C111)
-/

namespace Narp.Spec
open BigOperators

variable {k : ℕ}

/-- What area `j` lacks before assistance. -/
def ownShort (cap load : Fin k → ℚ) (j : Fin k) : ℚ := max 0 (load j - cap j)

/-- What all areas together lack. -/
def allShort (cap load : Fin k → ℚ) : ℚ := max 0 (∑ j, load j - ∑ j, cap j)

/-- Without loss sharing: what the pool lacks is borne in proportion to what the areas lack themselves. -/
def ByNeed (cap load short : Fin k → ℚ) : Prop :=
  ∀ j, max 0 (short j) = ownShort cap load j * (allShort cap load / ∑ i, ownShort cap load i)

/-- With loss sharing: what the pool lacks is borne in proportion to the loads. -/
def ByLoad (cap load short : Fin k → ℚ) : Prop :=
  ∀ j, max 0 (short j) = load j * (allShort cap load / ∑ i, load i)

/-- Everybody bears what it lacks itself. -/
def ByOwn (cap load short : Fin k → ℚ) : Prop := ∀ j, max 0 (short j) = ownShort cap load j

/-- Who bears the recorded shortages. Sharing rule other than 0 (no loss sharing): by need. Sharing rule 0 (loss sharing): by load,
unless every area is at least 1 MW short by itself; then everybody bears what it lacks itself. -/
def SharedBy (rule : ℤ) (cap load short : Fin k → ℚ) : Prop :=
  (rule ≠ 0 → ByNeed cap load short) ∧
  (rule = 0 → ByLoad cap load short ∨ (∀ j, 1 ≤ load j - cap j) ∧ ByOwn cap load short)

/-- What area `j` bears, in MW: by need, or under sharing rule 0 by load, unless every area is at least 1 MW short by
itself; then what it lacks itself. -/
def borne (rule : ℤ) (cap load : Fin k → ℚ) (j : Fin k) : ℚ :=
  if rule ≠ 0 then ownShort cap load j * (allShort cap load / ∑ i, ownShort cap load i)
  else if ∀ i, 1 ≤ load i - cap i then ownShort cap load j
  else load j * (allShort cap load / ∑ i, load i)

end Narp.Spec
