import Mathlib.Algebra.Order.Field.Rat

/-!
# Specification of peaks (C18, C19, C20, C23)
-/

namespace Narp.Spec

/-- `i` is the first position in `lo, ..., lo+n-1` at which `f` is largest. -/
def IsFirstMax (f : ℕ → ℚ) (lo n i : ℕ) : Prop :=
  lo ≤ i ∧ i < lo + n ∧ ∀ k, lo ≤ k → k < lo + n → f k ≤ f i ∧ (k < i → f k < f i)

/-- Week of a day of the year (0..364): the 365th day belongs to the last week (51). -/
def weekOf (d : ℕ) : ℕ := min (d / 7) 51

/-- Season of an hour for season ends `Q`: the number of ends that lie before it. -/
def seasonIndex (Q : Fin 3 → ℚ) (h : ℚ) : ℕ :=
  (if Q 0 < h then 1 else 0) + (if Q 1 < h then 1 else 0) + (if Q 2 < h then 1 else 0)

end Narp.Spec
