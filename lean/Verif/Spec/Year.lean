import Mathlib.Data.Rat.Floor
import Mathlib.Algebra.BigOperators.Group.List.Basic
import Mathlib.Analysis.Real.Sqrt

/-!
# Specification of the year-end evaluation

Plain arithmetic on lists of annual values, independent of the model.
-/

namespace Narp.Spec

/-- Class of an annual value in a histogram of 22 classes of width `w`: `⌊x/w⌋`, the last class collecting
everything from 21 on. -/
def cls (w x : ℚ) : ℕ := min 21 ⌊x / w⌋₊

/-- Mean of annual values. -/
def mean (xs : List ℚ) : ℚ := xs.sum / xs.length

/-- Variance of annual values (divisor `k`). -/
def variance (xs : List ℚ) : ℚ := (xs.map fun x => (x - mean xs) ^ 2).sum / xs.length

/-- Standard error of the mean. -/
noncomputable def stdErr (xs : List ℚ) : ℝ := Real.sqrt ((variance xs : ℝ) / xs.length)

/-- The rule of the user's guide: at least five years, mean not zero, and the standard error of the mean below
`tol` times the mean (`tol = 0` meaning 0.025). -/
def Converged (tol : ℚ) (xs : List ℚ) : Prop :=
  5 ≤ xs.length ∧ mean xs ≠ 0 ∧
    stdErr xs < (((if tol = 0 then 0.025 else tol) * mean xs : ℚ) : ℝ)

/-- Probability weights of the forecast tiers: one tier has weight 1, five tiers the weights of a normal
distribution cut into five classes. -/
def weight (tiers : ℕ) (t : ℕ) : ℚ :=
  if tiers = 1 then 1 else [0.0668, 0.2417, 0.383, 0.2417, 0.0668].getD t 0

/-- Weighted average over the forecast tiers in use. -/
def weighted (tiers : ℕ) (x : Fin 5 → ℚ) : ℚ :=
  (((List.finRange 5).take tiers).map fun t => weight tiers t.val * x t).sum

/-- A whole number ≥ 0. -/
def Whole (x : ℚ) : Prop := ∃ k : ℕ, x = k

end Narp.Spec
