import Mathlib.Algebra.Order.Field.Rat
import Mathlib.Algebra.Order.Floor.Ring
import Mathlib.Data.Rat.Floor
import Mathlib.Data.Int.Log

/-!
# Binary64 arithmetic

Python's `float` and numpy's `float64`: every operation returns the exact result rounded to the nearest binary64
number, ties to even. A number is its rational value; overflow, infinities, nan and the sign of zero are not modelled
(where an operation of the program has no value, as the square root of a negative number, this is said there).
-/

namespace Narp

/-- `2 ^ k`. (part of the rounding of every `float` operation, e.g. cvchk.py:24-37) -/
def pow2 (k : ℤ) : ℚ :=
  match k with
  | .ofNat n => ((2 ^ n : ℕ) : ℚ)
  | .negSucc n => 1 / ((2 ^ (n + 1) : ℕ) : ℚ)

/-- Rounding to the nearest integer, ties to even.
(IEEE 754, used by every `float` operation, e.g. cvchk.py:24-37) -/
def rne (x : ℚ) : ℤ :=
  if x - ⌊x⌋ < 1 / 2 then ⌊x⌋
  else if 1 / 2 < x - ⌊x⌋ then ⌊x⌋ + 1
  else if ⌊x⌋ % 2 = 0 then ⌊x⌋ else ⌊x⌋ + 1

/-- The distance of neighbouring binary64 numbers at `x`.
(IEEE 754, used by every `float` operation, e.g. cvchk.py:24-37) -/
def ulp (x : ℚ) : ℚ := pow2 (max (Int.log 2 |x|) (-1022) - 52)

/-- Rounding to binary64. (IEEE 754: the result of every `float` operation, e.g. cvchk.py:24-37) -/
def f64 (x : ℚ) : ℚ := rne (x / ulp x) * ulp x

end Narp
