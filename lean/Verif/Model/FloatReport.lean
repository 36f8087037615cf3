import Verif.Model.Float
import Verif.Model.Text

/-!
# The averages of the final report in binary64 arithmetic

The weighted averages over the forecast tiers, their sums over the years, and the means, mean shortages and standard
errors that `report.py` prints, every float operation followed by its rounding.
-/

namespace Narp

/-- `x @ w` of two vectors (`year.py:192` and the like): numpy leaves the order of the additions and the use of fused
multiply-adds to its libraries, so the result is any number that some order gives. (Additions of 0 change nothing and are
left out.) The list contains the pairs of entries. -/
inductive DotF : List (ℚ × ℚ) → ℚ → Prop
  | nil : DotF [] 0
  | one (c w : ℚ) : DotF [(c, w)] (f64 (c * w))
  | add {l₁ l₂ a b} : l₁ ≠ [] → l₂ ≠ [] → DotF l₁ a → DotF l₂ b → DotF (l₁ ++ l₂) (f64 (a + b))
  | fma {l a} (c w : ℚ) : DotF l a → DotF ((c, w) :: l) (f64 (a + c * w))
  | perm {l₁ l₂ a} : l₁.Perm l₂ → DotF l₁ a → DotF l₂ a

/-- `XPROB` as stored (`year.py:146-149`). -/
def XPROBF (NFCST : ℕ) : Fin 5 → ℚ := fun t => f64 (XPROB NFCST t)

/-- The pairs of entries of `LOLSHA[j, :NFCST]` and `XPROB[:NFCST]` (`year.py:192`); `x` are whole numbers (below 2^53). -/
def tierPairs (NFCST : ℕ) (x : Fin 5 → ℕ) : List (ℚ × ℚ) :=
  ((List.finRange 5).take NFCST).map fun t => ((x t : ℚ), XPROBF NFCST t)

/-- `SWLSHA += WOLSHA` (`year.py:210`) at every year end. -/
def sumF (xs : List ℚ) : ℚ := xs.foldl (fun S x => f64 (S + x)) 0

/-- `XNEWA += WOLSHA ** 2` (`year.py:297`) at every year end. -/
def sumSqF (xs : List ℚ) : ℚ := xs.foldl (fun Q x => f64 (Q + f64 (x ^ 2))) 0

/-- `SWLSHA[J] / XYEAR` (`report.py:256`). -/
def meanF (xs : List ℚ) : ℚ := f64 (sumF xs / xs.length)

/-- `SWNSHA[J] / SWLSHA[J]` (`report.py:251-254`): the mean shortage. -/
def ratioF (ns ls : List ℚ) : ℚ := if sumF ls > 0 then f64 (sumF ns / sumF ls) else 0

/-- The number under the root (`report.py:257, 454`). `sq x` is `x ** 2` of a numpy float, computed by the `pow` of the
C library. -/
def repRadF (sq : ℚ → ℚ) (xs : List ℚ) : ℚ :=
  f64 (f64 (f64 (sumSqF xs / xs.length) - sq (meanF xs)) / xs.length)

/-- `"%.pf"` of the standard error in percent of the mean (`report.py:454, 492-500`); `root` is `** 0.5` of a number that
is not negative, of a negative numpy float it is nan. -/
def sdTextF (root sq : ℚ → ℚ) (p : ℕ) (xs : List ℚ) : List Char :=
  if meanF xs > 0 then
    if repRadF sq xs < 0 then ['n', 'a', 'n'] else fixedText p (f64 (f64 (root (repRadF sq xs) / meanF xs) * 100))
  else fixedText p (0 : ℚ)

end Narp
