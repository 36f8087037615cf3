import Mathlib.Data.Rat.Floor
import Mathlib.Algebra.BigOperators.Group.Finset.Basic

/-!
# Specification of the loss-of-load bookkeeping

What one hour (or peak) with margins `M` (negative = shortage) must add to the counters of its tier.
Independent of the model: only the margins are used.
-/

namespace Narp.Spec
open BigOperators

/-- Cause of a loss of load: transmission when the pool as a whole has enough, generation otherwise. -/
inductive Cause where
  | transmission
  | generation
  deriving DecidableEq

/-- MW short in area `j`, whole megawatts. -/
def shortMW {n : ℕ} (M : Fin n → ℚ) (j : Fin n) : ℤ := if M j < 0 then ⌊-M j⌋ else 0

/-- 1 if area `j` is short. -/
def shortFlag {n : ℕ} (M : Fin n → ℚ) (j : Fin n) : ℚ := if M j < 0 then 1 else 0

end Narp.Spec
