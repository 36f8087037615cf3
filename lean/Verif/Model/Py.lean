import Mathlib.Algebra.Order.Field.Rat
import Mathlib.Data.Rat.Floor
import Mathlib.Tactic.Linarith

/-!
# Python / numpy primitives used by the model

Simplifications: `float` is exact `ℚ`, `int` is `Int`. Errors are values.
-/

namespace Narp

/-- The Python exceptions that the model can raise. `diverge` stands for a `while` loop that
never ends. `sysExit` is `sys.exit()`.
(no code of its own: e.g. `IndexError` of datax.py:142, `sys.exit()` of remove.py:29) -/
inductive PyErr where
  | indexError
  | typeError
  | keyError
  | valueError
  | zeroDivision
  | unboundLocal
  | assertion
  | sysExit
  | diverge
  deriving DecidableEq, Repr

/-- Python's `int(x)` on a float: truncation toward zero. (e.g. hour.py:90, hrstat.py:61, year.py:156) -/
def pyInt (q : ℚ) : ℤ := if 0 ≤ q then ⌊q⌋ else ⌈q⌉

/-- Python's `x % m` on floats for `m > 0`: the result has the sign of `m`. (e.g. hour.py:90) -/
def pyMod (x m : ℚ) : ℚ := x - m * ⌊x / m⌋

/-- Resolve a Python index (negative indices count from the end) against a length.
(every array access, e.g. hour.py:136, year.py:243) -/
def pyIdx (n : ℕ) (i : ℤ) : Except PyErr ℕ :=
  if 0 ≤ i then
    if i < n then .ok i.toNat else .error .indexError
  else
    if -(n : ℤ) ≤ i then .ok (i + n).toNat else .error .indexError

/-- `a[i]` for a 1-D array. (every array access, e.g. remove.py:35-47) -/
def rd {α : Type} [Inhabited α] (a : List α) (i : ℤ) : Except PyErr α :=
  (pyIdx a.length i).map fun k => a.getD k default

/-- `a[i] = v` for a 1-D array. (every array assignment, e.g. filem.py:27-59) -/
def wr {α : Type} (a : List α) (i : ℤ) (v : α) : Except PyErr (List α) :=
  (pyIdx a.length i).map fun k => a.set k v

/-- `a[lo:hi]` for `0 ≤ lo`: a negative `hi` counts from the end, a too large one is clipped.
(e.g. week.py:47) -/
def slice {α : Type} (a : List α) (lo : ℕ) (hi : ℤ) : List α :=
  let h : ℕ := if 0 ≤ hi then hi.toNat else (hi + a.length).toNat
  (a.take h).drop lo

end Narp
