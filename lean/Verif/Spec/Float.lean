import Mathlib.Algebra.Order.Field.Rat
import Mathlib.Algebra.Order.Group.Abs
import Mathlib.Algebra.Order.Floor.Ring
import Mathlib.Data.Rat.Floor

/-!
# Specification of binary64 numbers (IEEE 754)

Finite numbers only, the exponent unbounded above (overflow is out of scope).
-/

namespace Narp.Spec

/-- A binary64 number: an integer of at most 53 bits times a power of two not below the smallest subnormal one. -/
def IsF64 (x : ℚ) : Prop := ∃ m k : ℤ, |m| ≤ 2 ^ 53 ∧ -1074 ≤ k ∧ x = m * (2 : ℚ) ^ k

/-- `y` is a binary64 number nearest to `x`. -/
def IsNearest (x y : ℚ) : Prop := IsF64 y ∧ ∀ z, IsF64 z → |y - x| ≤ |z - x|

end Narp.Spec
