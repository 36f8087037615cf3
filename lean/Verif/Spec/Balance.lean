import Verif.Spec.Input
import Verif.Spec.Network
import Verif.Spec.Sampling

/-!
# The balance of an hour (C104)
-/

namespace Narp.Spec

/-- Line card `g` puts its line into state `q` (0 = intact .. 5) when its random number is `u`: the probabilities of
the states before `q` together are below `u`, those up to `q` are not. -/
def lineIn (g : LineCard) (u : ℚ) (q : Fin 6) : Prop :=
  (q.val = 0 ∨ cumProb g.prob q < u) ∧ (q.val = 5 ∨ u ≤ cumProb g.prob (q + 1))

instance (g : LineCard) (u : ℚ) (q : Fin 6) : Decidable (lineIn g u q) := by unfold lineIn; infer_instance

/-- The rating used for a rating `x` on a card: the program takes 0 for a missing value and uses 1 MW. -/
def ratingUsed (x : ℚ) : ℚ := if x = 0 then 1 else x

/-- Flows on the lines make the books balance in every area: no line carries more than its rating in the state it is
in, no area exports or imports more than its limit, and in every area capacity plus shortage (negative: unused
capacity) is load plus net export. -/
structure BooksBalance {k m : ℕ} (ends : Fin m → Fin k × Fin k) (fwd bwd : Fin m → ℚ) (limit cap load short : Fin k → ℚ)
    (F : Fin m → ℚ) : Prop where
  line : ∀ i, -bwd i ≤ F i ∧ F i ≤ fwd i
  area : ∀ j, -limit j ≤ netOut ends F j ∧ netOut ends F j ≤ limit j
  book : ∀ j, cap j + short j = load j + netOut ends F j

end Narp.Spec
