import Mathlib.Data.Matrix.Mul
import Mathlib.Data.Rat.Defs
import Mathlib.Algebra.Order.Ring.Rat

/-!
# Linear programs, as in a textbook
-/

namespace Narp.Spec
open Matrix

/-- `y` satisfies the rows and has no negative entry. -/
def LpFeasible {m q : ℕ} (A : Matrix (Fin m) (Fin q) ℚ) (b : Fin m → ℚ) (y : Fin q → ℚ) : Prop :=
  A *ᵥ y = b ∧ ∀ j, 0 ≤ y j

/-- The cost of `y`. -/
def lpCost {q : ℕ} (c y : Fin q → ℚ) : ℚ := ∑ j, c j * y j

/-- The solution in which column `col k` has the value `val k` and every other column 0. -/
def basicSol {m q : ℕ} (col : Fin m → Fin q) (val : Fin m → ℚ) : Fin q → ℚ :=
  fun j => ∑ k, if col k = j then val k else 0

end Narp.Spec
