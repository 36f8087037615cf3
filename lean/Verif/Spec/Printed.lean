import Verif.Spec.Text
import Mathlib.Algebra.Order.Field.Basic

/-!
# Specification of printed tables (C116 - C118)

What a word on a page says about a number.
-/

namespace Narp.Spec

section
variable {K : Type} [Field K] [LinearOrder K]

/-- The word `w` shows the number `x` to `p` decimals: it is a decimal number without exponent, with exactly `p` digits
after the point (and no point if there are none), a minus sign only for a negative `x`, and off by at most half a unit
of the last digit. -/
def ShownTo (p : ℕ) (x : K) (w : List Char) : Prop :=
  ∃ d : Dec, d.WF ∧ d.text = w ∧ d.exp = none ∧ d.frac.length = p ∧ d.whole ≠ [] ∧ (d.point = true ↔ p ≠ 0) ∧
    (d.sign = if x < 0 then some true else none) ∧ |(d.value : K) - x| ≤ 1 / 2 / 10 ^ p

end

/-- The word `w` is the whole number `k`. -/
def ShownInt (k : ℤ) (w : List Char) : Prop :=
  ∃ d : Dec, d.WF ∧ d.text = w ∧ d.exp = none ∧ d.point = false ∧ (d.sign = if k < 0 then some true else none) ∧ d.value = k

end Narp.Spec
