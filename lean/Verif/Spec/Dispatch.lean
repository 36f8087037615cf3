import Verif.Spec.Network

/-!
# Specification of the re-dispatch: the DC dispatch problem

Area `a` has the surplus (positive) or deficit (negative) `inj a`; line `k` joins two areas with admittance `b k` and
may carry `fwd k` forward and `bwd k` backward; area `a` may import `imp a` and export `exp a` in total.
-/

namespace Narp.Spec
open BigOperators

variable {n l : ℕ}

/-- Line flows for given angles. -/
def dcFlow {k : ℕ} (LP : Fin l → Fin k × Fin k) (b : Fin l → ℚ) (θ : Fin k → ℚ) (i : Fin l) : ℚ :=
  b i * (θ (LP i).1 - θ (LP i).2)

/-- Angles `θ` and net injections `p` that respect Kirchhoff's laws and all limits. -/
structure IsDispatch {k : ℕ} (LP : Fin l → Fin k × Fin k) (b fwd bwd : Fin l → ℚ) (NR : Fin k)
    (imp exp inj : Fin k → ℚ) (θ p : Fin k → ℚ) : Prop where
  ref : θ NR = 0
  balance : ∀ a, netOut LP (dcFlow LP b θ) a = p a
  /-- No area gives more than its surplus, none takes more than its deficit. -/
  range : ∀ a, min (inj a) 0 ≤ p a ∧ p a ≤ max (inj a) 0
  lines : ∀ i, -bwd i ≤ dcFlow LP b θ i ∧ dcFlow LP b θ i ≤ fwd i
  areas : ∀ a, -imp a ≤ p a ∧ p a ≤ exp a

/-- The same, with room to spare everywhere: no limit is reached. -/
structure IsStrictDispatch {k : ℕ} (LP : Fin l → Fin k × Fin k) (b fwd bwd : Fin l → ℚ) (NR : Fin k)
    (imp exp inj : Fin k → ℚ) (θ p : Fin k → ℚ) : Prop where
  ref : θ NR = 0
  balance : ∀ a, netOut LP (dcFlow LP b θ) a = p a
  range : ∀ a, min (inj a) 0 < p a ∧ p a < max (inj a) 0
  lines : ∀ i, -bwd i < dcFlow LP b θ i ∧ dcFlow LP b θ i < fwd i
  areas : ∀ a, -imp a < p a ∧ p a < exp a

/-- The load that remains unserved in area `a`. -/
def unserved {k : ℕ} (inj p : Fin k → ℚ) (a : Fin k) : ℚ := max 0 (p a - inj a)

/-- A dispatch with loss sharing: angles `θ`, generation `g` (at most `gen`) and shed load `x` (at most the load) that
respect Kirchhoff's laws and all limits. An area may shed load to help others. -/
structure IsSharing {k : ℕ} (LP : Fin l → Fin k × Fin k) (b fwd bwd : Fin l → ℚ) (NR : Fin k)
    (imp exp load gen : Fin k → ℚ) (θ g x : Fin k → ℚ) : Prop where
  ref : θ NR = 0
  balance : ∀ a, netOut LP (dcFlow LP b θ) a = g a - (load a - x a)
  generation : ∀ a, 0 ≤ g a ∧ g a ≤ gen a
  shed : ∀ a, 0 ≤ x a ∧ x a ≤ load a
  lines : ∀ i, -bwd i ≤ dcFlow LP b θ i ∧ dcFlow LP b θ i ≤ fwd i
  areas : ∀ a, -imp a ≤ g a - (load a - x a) ∧ g a - (load a - x a) ≤ exp a

end Narp.Spec
