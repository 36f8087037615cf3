import Verif.Model.Lu
import Verif.Model.Random

/-!
# Alternative implementations that the program does not call: `_dgedi`, `lstate_original`, `discrete_prob_gen`
-/

namespace Narp

/-- One pass of the inner loop of `_dgedi` (dgedi.py:122-127) on column `J`: `T = A[K, J]`, `A[K, J] = 0`,
`A[:K+1, J] += T * A[:K+1, K]`. -/
def invUCol {n : ℕ} (K : Fin n) (A : SqM n) (J : Fin n) : SqM n :=
  let T := A K J
  let A1 : SqM n := fun i j => if i = K ∧ j = J then 0 else A i j
  fun i j => if K < J then (if i ≤ K ∧ j = J then A1 i j + T * A1 i K else A1 i j) else A i j

/-- One pass of the loop dgedi.py:116-127. -/
def invUStep' {n : ℕ} (A : SqM n) (K : Fin n) : SqM n :=
  let A1 : SqM n := fun i j => if i = K ∧ j = K then 1 / A K K else A i j
  let T := -A1 K K
  let A2 : SqM n := fun i j => if i < K ∧ j = K then A1 i j * T else A1 i j
  (List.finRange n).foldl (invUCol K) A2

/-- The loop dgedi.py:116-127; `none` when a diagonal entry is zero. -/
def invU' {n : ℕ} (A : SqM n) : Option (SqM n) :=
  (List.finRange n).foldlM (fun A K => if A K K = 0 then none else some (invUStep' A K)) A

/-- `A[:N, K] += T * A[:N, J]` with `T = WORK[J]` (dgedi.py:139-141). -/
def mulLCol {n : ℕ} (WORK : Fin n → ℚ) (K : Fin n) (A : SqM n) (J : Fin n) : SqM n :=
  fun i j => if K < J ∧ j = K then A i K + WORK J * A i J else A i j

/-- One pass of the loop dgedi.py:133-147. The tuple assignment exchanges the columns: the copy is made first. -/
def mulLStep' {n : ℕ} (IPVT : Fin n → Fin n) (A : SqM n) (K : Fin n) : SqM n :=
  let WORK : Fin n → ℚ := fun i => A i K
  let A1 : SqM n := fun i j => if j = K ∧ K < i then 0 else A i j
  let A2 := (List.finRange n).foldl (mulLCol WORK K) A1
  fun i j => if IPVT K ≠ K then (if j = IPVT K then A2 i K else if j = K then A2 i (IPVT K) else A2 i j) else A2 i j

/-- The determinant part of `_dgedi` (dgedi.py:90-108). Its loop starts at 1, and it calls the array `DET` as a
function: it raises unless `A[1, 1]` is 0. -/
def dgediDet {n : ℕ} (A : SqM (n + 1)) : Except PyErr Unit :=
  if h : 1 < n + 1 then
    if A ⟨1, h⟩ ⟨1, h⟩ = 0 then .ok () else .error .typeError
  else .error .indexError

/-- `_dgedi` (dgedi.py:55-149), `N = n + 1`; `none` is a division by zero (see `Verif.Model.Lu`). -/
def dgedi' {n : ℕ} (A : SqM (n + 1)) (IPVT : Fin (n + 1) → Fin (n + 1)) (JOB : ℤ) :
    Except PyErr (Option (SqM (n + 1))) := do
  if JOB = 1 ∨ JOB = 3 then dgediDet A
  if JOB = 3 then return some A
  return (invU' A).map fun A => (List.finRange n).reverse.foldl (fun A K => mulLStep' IPVT A K.castSucc) A

/-- `math.isclose(s, 1)` (line_prob_sampling.py:68, 121): relative tolerance `1e-9`. -/
def isClose1 (s : ℚ) : Bool := decide (|s - 1| ≤ 1 / 1000000000 * max |s| 1)

/-- `PROB`, the differences of the cumulative probabilities (line_prob_sampling.py:67, 120). -/
def probDiff (p : Fin 6 → ℚ) : Fin 6 → ℚ := ![p 0, p 1 - p 0, p 2 - p 1, p 3 - p 2, p 4 - p 3, p 5 - p 4]

/-- `lstate_original` (line_prob_sampling.py:37-89) for six states, `u` being the numbers
drawn, one for each line. (The bare `Exception` of line 69 is a `valueError` here.) -/
def lstateOriginal (p : Fin 6 → ℚ) (u : List ℚ) : Except PyErr (List ℤ) :=
  if u.length = 0 then .error .valueError
  else if isClose1 (∑ k, probDiff p k) then .ok (u.map (lineState p)) else .error .valueError

/-- The cumulative sums that `Generator.choice` compares with (numpy: `cdf = p.cumsum(); cdf /= cdf[-1]`).
(line_prob_sampling.py:132) -/
def choiceCdf (q : Fin 6 → ℚ) (k : Fin 6) : ℚ := (∑ j ∈ Finset.univ.filter (· ≤ k), q j) / ∑ j, q j

/-- `discrete_prob_gen` (line_prob_sampling.py:92-132): numpy's `choice` rejects negative probabilities and, for a
number `u`, takes the place `cdf.searchsorted(u, side="right")`. Beyond the last place nothing is drawn, since `u < 1`;
the model answers 0 there. -/
def discreteProbGen (p : Fin 6 → ℚ) (u : List ℚ) : Except PyErr (List ℤ) :=
  if u.length = 0 then .error .valueError
  else if isClose1 (∑ k, probDiff p k) = false then .error .valueError
  else if ∃ k, probDiff p k < 0 then .error .valueError
  else .ok (u.map (lineStateVec (choiceCdf (probDiff p))))

end Narp
