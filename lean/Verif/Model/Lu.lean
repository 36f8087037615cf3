import Verif.Model.Py
import Mathlib.Data.Matrix.Basic
import Mathlib.Data.List.FinRange

/-!
# Matrix factorisation and inversion: `dgefa`, `_dgefa`, `dgeco`, `dgedi`

`n` is `N`. Simplifications: `float` is exact `ℚ`; the arrays are exactly `N x N` (the caller, `linp.py:74-77`,
passes such an array). A division by zero (numpy: inf or nan and a warning, no exception) makes the result `none`.
`_dgedi` is in `Verif.Model.Variants`.
-/

namespace Narp

/-- A square array. (dgefa.py:82) -/
abbrev SqM (n : ℕ) := Matrix (Fin n) (Fin n) ℚ

/-- `np.argmax(abs(A[K:N, K])) + K` (dgefa.py:41-43, 116): the first row, from `K` on, with the largest entry in
column `K`. -/
def pivotRow {n : ℕ} (A : SqM n) (K : Fin n) : Fin n :=
  (List.finRange n).foldl (fun best i => if K < i ∧ |A best K| < |A i K| then i else best) K

/-- `A[[L, K], K:] = A[[K, L], K:]` (dgefa.py:124): rows `L` and `K` exchanged from column `K` on. -/
def swapRowsFrom {n : ℕ} (A : SqM n) (L K : Fin n) : SqM n :=
  fun i j => if K ≤ j then A (Equiv.swap L K i) j else A i j

/-- `A[K+1:N, K] *= -1.0 / A[K, K]` (dgefa.py:57, 125). -/
def scaleCol {n : ℕ} (A : SqM n) (K : Fin n) : SqM n :=
  fun i j => if j = K ∧ K < i then A i j * (-1 / A K K) else A i j

/-- `A[K+1:N, K+1:N] += np.outer(A[K+1:N, K], A[K, K+1:N])` (dgefa.py:126). -/
def rankOne {n : ℕ} (A : SqM n) (K : Fin n) : SqM n :=
  fun i j => if K < i ∧ K < j then A i j + A i K * A K j else A i j

/-- The variables of `dgefa`: the array, `IPVT` and `INFO`. (dgefa.py:110-129) -/
structure LuSt (n : ℕ) where
  A : SqM n
  IPVT : Fin n → Fin n
  INFO : ℕ

/-- One pass of the loop of `dgefa` (dgefa.py:114-129). -/
def dgefaStep {n : ℕ} (s : LuSt n) (K : Fin n) : LuSt n :=
  let L := pivotRow s.A K
  let IPVT := Function.update s.IPVT K L
  if s.A L K ≠ 0 then
    let A := if L ≠ K then swapRowsFrom s.A L K else s.A
    ⟨rankOne (scaleCol A K) K, IPVT, s.INFO⟩
  else ⟨s.A, IPVT, K⟩

/-- `dgefa` (dgefa.py:82-135) for `N = n + 1` (for `N = 0` line 131 raises). `IPVT` starts with zeros. -/
def dgefa {n : ℕ} (A : SqM (n + 1)) : LuSt (n + 1) :=
  let s := (List.finRange n).foldl (fun s K => dgefaStep s K.castSucc) ⟨A, fun _ => 0, 0⟩
  ⟨s.A, Function.update s.IPVT (Fin.last n) (Fin.last n),
    if s.A (Fin.last n) (Fin.last n) = 0 then n else s.INFO⟩

/-- The inner loop of `_dgefa` over column `J` (dgefa.py:61-69). -/
def elimCol {n : ℕ} (L K : Fin n) (A : SqM n) (J : Fin n) : SqM n :=
  let A1 : SqM n := fun i j =>
    if L ≠ K ∧ i = K ∧ j = J then A L J else if L ≠ K ∧ i = L ∧ j = J then A K J else A i j
  fun i j => if K < J then (if K < i ∧ j = J then A1 i j + A L J * A1 i K else A1 i j) else A i j

/-- One pass of the loop of `_dgefa` (dgefa.py:37-72). -/
def dgefaStep' {n : ℕ} (s : LuSt n) (K : Fin n) : LuSt n :=
  let L := pivotRow s.A K
  let IPVT := Function.update s.IPVT K L
  if s.A L K ≠ 0 then
    let A : SqM n := if L ≠ K then
        fun i j => if i = L ∧ j = K then s.A K K else if i = K ∧ j = K then s.A L K else s.A i j
      else s.A
    let A := scaleCol A K
    ⟨(List.finRange n).foldl (elimCol L K) A, IPVT, s.INFO⟩
  else ⟨s.A, IPVT, K⟩

/-- `_dgefa` (dgefa.py:5-78). -/
def dgefa' {n : ℕ} (A : SqM (n + 1)) : LuSt (n + 1) :=
  let s := (List.finRange n).foldl (fun s K => dgefaStep' s K.castSucc) ⟨A, fun _ => 0, 0⟩
  ⟨s.A, Function.update s.IPVT (Fin.last n) (Fin.last n),
    if s.A (Fin.last n) (Fin.last n) = 0 then n else s.INFO⟩

/-- `dgeco` (dgeco.py:4-139): everything but the call of `dgefa` is a comment; `INFO` is dropped. -/
def dgeco {n : ℕ} (A : SqM (n + 1)) : SqM (n + 1) × (Fin (n + 1) → Fin (n + 1)) :=
  ((dgefa A).A, (dgefa A).IPVT)

/-- One pass of the loop that inverts `U` (dgedi.py:26-34), for a non-zero diagonal entry. -/
def invUStep {n : ℕ} (A : SqM n) (K : Fin n) : SqM n :=
  let A1 : SqM n := fun i j => if i = K ∧ j = K then 1 / A K K else A i j                -- line 27
  let A2 : SqM n := fun i j => if i < K ∧ j = K then A1 i j * (-A1 K K) else A1 i j      -- line 28
  let A3 : SqM n := fun i j => if i = K ∧ K < j then 0 else A2 i j                       -- lines 30-31
  fun i j => if i ≤ K ∧ K < j then A3 i j + A3 i K * A2 K j else A3 i j                  -- lines 32-34

/-- The loop dgedi.py:26-34; `none` when a diagonal entry is zero. -/
def invU {n : ℕ} (A : SqM n) : Option (SqM n) :=
  (List.finRange n).foldlM (fun A K => if A K K = 0 then none else some (invUStep A K)) A

/-- One pass of the second loop (dgedi.py:39-51): column `K` is combined, then exchanged with column
`IPVT[K]`. -/
def mulLStep {n : ℕ} (IPVT : Fin n → Fin n) (A : SqM n) (K : Fin n) : SqM n :=
  let A1 : SqM n := fun i j => if j = K ∧ K < i then 0 else A i j                        -- line 42
  let A2 : SqM n := fun i j =>
    if j = K then A1 i K + ((List.finRange n).map fun k => if K < k then A1 i k * A k K else 0).sum
    else A1 i j                                                                          -- line 46
  fun i j => if IPVT K ≠ K then A2 i (Equiv.swap K (IPVT K) j) else A2 i j              -- lines 50-51

/-- `dgedi` (dgedi.py:5-51), `N = n + 1`: `K` runs from `N - 2` down to 0. -/
def dgedi {n : ℕ} (A : SqM (n + 1)) (IPVT : Fin (n + 1) → Fin (n + 1)) : Option (SqM (n + 1)) :=
  (invU A).map fun A => (List.finRange n).reverse.foldl (fun A K => mulLStep IPVT A K.castSucc) A

/-- The pair of calls of `linp.py:76-77`. -/
def luInverse {n : ℕ} (A : SqM (n + 1)) : Option (SqM (n + 1)) := dgedi (dgeco A).1 (dgeco A).2

end Narp
