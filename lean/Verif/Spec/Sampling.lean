import Mathlib.Data.Rat.Defs
import Mathlib.Algebra.Order.Field.Rat
import Mathlib.Order.Interval.Set.Defs

/-!
# Specification of the outage models (C14, C15, C22)
-/

namespace Narp.Spec

/-- The three states of a unit. -/
inductive UnitState where
  | full
  | derated
  | out
deriving DecidableEq

/-- The part of [0,1) assigned to each state of a unit with forced outage rate `FOR` and derating
rate `DFOR`: lengths `1 - FOR - DFOR`, `DFOR` and `FOR`. -/
def unitInterval (FOR DFOR : ℚ) : UnitState → Set ℚ
  | .full => Set.Ico 0 (1 - FOR - DFOR)
  | .derated => Set.Ico (1 - FOR - DFOR) (1 - FOR)
  | .out => Set.Ico (1 - FOR) 1

/-- Fraction of the rating available in each state, for a derating of `pct` percent. -/
def unitFraction (pct : ℚ) : UnitState → ℚ
  | .full => 1
  | .derated => 1 - pct / 100
  | .out => 0

/-- Probability of the first `k` line states together. -/
def cumProb (p : Fin 6 → ℚ) (k : ℕ) : ℚ :=
  (if 0 < k then p 0 else 0) + (if 1 < k then p 1 else 0) + (if 2 < k then p 2 else 0) +
  (if 3 < k then p 3 else 0) + (if 4 < k then p 4 else 0) + (if 5 < k then p 5 else 0)

/-- The part of (0,1] assigned to line state `s` (1..6): state 1 also takes the variate 0. -/
def inLineInterval (p : Fin 6 → ℚ) (s : ℕ) (u : ℚ) : Prop :=
  (s = 1 ∨ cumProb p (s - 1) < u) ∧ u ≤ cumProb p s

end Narp.Spec
