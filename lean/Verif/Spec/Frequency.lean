import Verif.Spec.Streams
import Verif.Spec.Balance
import Mathlib.Data.Finset.Card
import Mathlib.Data.Finset.Range

/-!
# Long-run frequencies (C105)
-/

namespace Narp.Spec

/-- How many of the `K` draws after draw `k` have the property `p`. -/
def howOften (k K : ℕ) (p : ℕ → Prop) [DecidablePred p] : ℕ := {j ∈ Finset.range K | p (k + j)}.card

/-- A number of `N` events in `K` draws is, up to `e` events, what a probability `q` lets one expect. -/
def AsOftenAs (N K : ℕ) (q e : ℚ) : Prop := |(N : ℚ) - q * K| ≤ e

end Narp.Spec
