import Verif.Spec.Sharing

/-!
# Which hours the program survives
-/

namespace Narp.Spec

/-- The program goes through the forecast levels in order, for as long as somebody remains at least 1 MW short after sharing. It does
not survive a level at which no area lacks 1 MW of its own capacity. `load t j` is the load of area `j` at level `t`, `cap j` what its
units deliver. -/
def Survives {k : ℕ} (rule : ℤ) (cap : Fin k → ℚ) (load : Fin 5 → Fin k → ℚ) : List (Fin 5) → Prop
  | [] => True
  | t :: ts => (∃ j, cap j + 1 ≤ load t j) ∧ ((∃ j, 1 ≤ borne rule cap (load t) j) → Survives rule cap load ts)

end Narp.Spec
