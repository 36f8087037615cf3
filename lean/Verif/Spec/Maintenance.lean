import Verif.Model.Pmsc

/-!
# Specification of planned maintenance (C62)
-/

namespace Narp.Spec
open Narp

/-- What the user is promised about planned maintenance: a unit with a pre-set schedule keeps its weeks; a
unit whose schedule is left to the program gets its first outage (if it has one) inside the maintenance
window `lo .. hi` of its area and outside the forbidden period `f1 .. f2`. -/
def MaintPromise (lo hi f1 f2 : ℤ → ℤ) (ID ID' : List IdRow) : Prop :=
  ∀ (k : ℕ) (r r' : IdRow), ID[k]? = some r → ID'[k]? = some r' →
    (r.pre ≠ 0 → r'.s1 = r.s1 ∧ r'.s2 = r.s2) ∧
    (r.pre = 0 → 0 < r.d1 → lo r.area ≤ r'.s1 ∧ r'.s1 + r.d1 - 1 ≤ hi r.area ∧
      (r'.s1 + r.d1 - 1 < f1 r.area ∨ f2 r.area < r'.s1))

end Narp.Spec
