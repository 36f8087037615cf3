import Mathlib.Data.Int.ModEq
import Verif.Spec.Sampling
import Mathlib.Algebra.Order.Ring.Rat

/-!
# The random streams of the documentation: a multiplicative generator per unit and per line
-/

namespace Narp.Spec

/-- The state of stream `i` (units 0, 1, ... first, then the lines) after `k` draws, if the first seed is `s`. -/
def stream (s : ℤ) (i k : ℕ) : ℤ := (s * 9649599 ^ (i + 1) * 65539 ^ k) % 2 ^ 31

/-- Two streams are kept apart in runs of up to `K` draws: no draw of one repeats a draw of the other. -/
def Apart (s : ℤ) (i i' K : ℕ) : Prop := ∀ k < K, ∀ k' < K, stream s i k ≠ stream s i' k'

/-- The state of a unit with probabilities `dfor` (derated) and `fout` (out) for the random number `u`. -/
def unitState (dfor fout u : ℚ) : UnitState :=
  if u < 1 - fout - dfor then .full else if u < 1 - fout then .derated else .out

/-- The random number of a state of a stream: `1 / 2^31`, to seven digits. -/
def number (x : ℤ) : ℚ := x * (4656613 / 10 ^ 16)

end Narp.Spec
