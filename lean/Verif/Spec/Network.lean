import Mathlib.Algebra.Order.Field.Rat
import Mathlib.Algebra.BigOperators.Group.Finset.Basic
import Mathlib.Data.Matrix.Basic
import Mathlib.Logic.Relation
import Mathlib.Data.Fintype.BigOperators

/-!
# Specification of the network

Areas are `Fin k`; line `i` joins the areas `(LP i).1` and `(LP i).2` with admittance `b i`.
-/

namespace Narp.Spec
open BigOperators

variable {k m : ℕ}

/-- Line `i` has an end in area `a`. -/
def touches (LP : Fin m → Fin k × Fin k) (i : Fin m) (a : Fin k) : Prop := (LP i).1 = a ∨ (LP i).2 = a

/-- Line `i` joins the areas `a` and `c`. -/
def joins (LP : Fin m → Fin k × Fin k) (i : Fin m) (a c : Fin k) : Prop :=
  ((LP i).1 = a ∧ (LP i).2 = c) ∨ ((LP i).1 = c ∧ (LP i).2 = a)

instance (LP : Fin m → Fin k × Fin k) (i : Fin m) (a : Fin k) : Decidable (touches LP i a) := by
  unfold touches; infer_instance
instance (LP : Fin m → Fin k × Fin k) (i : Fin m) (a c : Fin k) : Decidable (joins LP i a c) := by
  unfold joins; infer_instance

/-- The nodal admittance matrix: on the diagonal the total admittance of the lines at the area, off the
diagonal minus the total admittance of the lines between the two areas. -/
def nodal (LP : Fin m → Fin k × Fin k) (b : Fin m → ℚ) : Matrix (Fin k) (Fin k) ℚ := fun a c =>
  if a = c then ∑ i, if touches LP i a then b i else 0
  else -∑ i, if joins LP i a c then b i else 0

/-- Every area can be reached from `r` over lines. -/
def Reaches (LP : Fin m → Fin k × Fin k) (r : Fin k) : Prop :=
  ∀ a, Relation.ReflTransGen (fun x y => ∃ i, joins LP i x y) r a

/-- Total flow out of area `a` minus total flow into it, for flows counted from the first to the second
area of each line. -/
def netOut (LP : Fin m → Fin k × Fin k) (F : Fin m → ℚ) (a : Fin k) : ℚ :=
  (∑ i, if (LP i).1 = a then F i else 0) - ∑ i, if (LP i).2 = a then F i else 0

end Narp.Spec
