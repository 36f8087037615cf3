import Mathlib.Algebra.Order.Field.Rat
import Mathlib.Algebra.BigOperators.Group.List.Basic

/-!
# Specification of the capacity outage distribution

Independent generating units, each with three states: full capacity (nothing lost), derated, out.
-/

namespace Narp.Spec

/-- A unit: the outcomes (MW lost, probability). -/
abbrev Outcomes := List (ℤ × ℚ)

/-- All joint outcomes of independent units: lost MW add up, probabilities multiply. -/
def joint : List Outcomes → Outcomes
  | [] => [(0, 1)]
  | u :: us => u.flatMap fun a => (joint us).map fun b => (a.1 + b.1, a.2 * b.2)

/-- Probability that at least `x` MW are lost. -/
def probLost (o : Outcomes) (x : ℤ) : ℚ := ((o.filter fun a => decide (x ≤ a.1)).map Prod.snd).sum

/-- The probability of losing at least `x` MW read off a table of levels `KA 0 .. KA (N-1)` with the
probabilities `PA` of losing at least that much: the entry of the first level that is at least `x`, and
zero above the last level. -/
def tabTail (N : ℕ) (KA : ℕ → ℤ) (PA : ℕ → ℚ) (x : ℤ) : ℚ :=
  match (List.range N).find? fun k => decide (x ≤ KA k) with
  | some k => PA k
  | none => 0

end Narp.Spec
