import Verif.Model.Py
import Mathlib.Tactic.NormNum

/-!
# Capacity outage probability table: `gsm`, `_gsm` and `pmlolp`

Simplifications: `float` is exact `ℚ`; the arrays `KA`, `PA` of length 5000 are functions of the index
(every index the code touches is shown to be at most 4952, see `C24_indices`); `KA` is a float
array that only ever holds integers, here `ℤ`. The overflow message (gsm.py:57-61) is not modelled.
-/

namespace Narp

/-- The state of an outage table: the arrays passed in place, and the number of states in use.
(pmlolp.py:32-36) -/
structure OTab where
  N : ℕ
  KA : ℕ → ℤ
  PA : ℕ → ℚ

/-- `KO` (gsm.py:29-33 and 40): the outage levels of one column (shift `s` = 0, `KP` or `KT`), the rows
`N` and `N+1` overwritten with a million. -/
def gsmKO (N : ℕ) (KA : ℕ → ℤ) (s : ℤ) (j : ℕ) : ℤ :=
  if j = N ∨ j = N + 1 then 1000000 else KA j + s

/-- `P` (gsm.py:34 and 41): copy of the probabilities, entries `N` and `N+1` zeroed. -/
def gsmP (N : ℕ) (PA : ℕ → ℚ) (j : ℕ) : ℚ := if j = N ∨ j = N + 1 then 0 else PA j

/-- Loop variables of `gsm` (gsm.py:45-53): `L`, the three cursors `J` and the arrays being written. -/
structure GsmSt where
  L : ℕ
  J1 : ℕ
  J2 : ℕ
  J3 : ℕ
  KA : ℕ → ℤ
  PA : ℕ → ℚ

/-- The unit being added: `KT`, `KP`, `P1`, `P2`, `P3` (gsm.py:4). -/
structure OUnit where
  KT : ℤ
  KP : ℤ
  P1 : ℚ
  P2 : ℚ
  P3 : ℚ

/-- The smallest level under the cursors (`KO[J, [0, 1, 2]].min()`, gsm.py:51). -/
def gsmMin (t : OTab) (u : OUnit) (s : GsmSt) : ℤ :=
  min (min (gsmKO t.N t.KA 0 s.J1) (gsmKO t.N t.KA u.KP s.J2)) (gsmKO t.N t.KA u.KT s.J3)

/-- One pass of the loop body (gsm.py:50-53 = 124-133). -/
def gsmBody (t : OTab) (u : OUnit) (s : GsmSt) : GsmSt :=
  let m := gsmMin t u s
  { L := s.L + 1
    KA := fun i => if i = s.L + 1 then m else s.KA i
    PA := fun i => if i = s.L + 1 then
        gsmP t.N t.PA s.J1 * u.P1 + gsmP t.N t.PA s.J2 * u.P2 + gsmP t.N t.PA s.J3 * u.P3
      else s.PA i
    J1 := if gsmKO t.N t.KA 0 s.J1 = m then s.J1 + 1 else s.J1
    J2 := if gsmKO t.N t.KA u.KP s.J2 = m then s.J2 + 1 else s.J2
    J3 := if gsmKO t.N t.KA u.KT s.J3 = m then s.J3 + 1 else s.J3 }

/-- The loop condition (gsm.py:49); `0.1e-08` is `10⁻⁹`, `INGS1` is 4950. -/
def gsmCond (t : OTab) (s : GsmSt) : Prop :=
  min (min s.J1 s.J2) s.J3 < t.N ∧ 1 / 1000000000 < s.PA s.L ∧ s.L < 4950

instance (t : OTab) (s : GsmSt) : Decidable (gsmCond t s) := by unfold gsmCond; infer_instance

/-- The `while` loop (gsm.py:49-53). `fuel` bounds the number of passes; 4951 is never exhausted, since
`L` grows in every pass and is below 4950 before each of them (`gsmLoop_exit`). -/
def gsmLoop (t : OTab) (u : OUnit) : ℕ → GsmSt → GsmSt
  | 0, s => s
  | f + 1, s => if gsmCond t s then gsmLoop t u f (gsmBody t u s) else s

/-- Start of the loop (gsm.py:45-48): `KA[0] = 0`, `PA[0] = 1`, `J = [1, KP == 0, 0]`. -/
def gsmInit (t : OTab) (u : OUnit) : GsmSt :=
  { L := 0, J1 := 1, J2 := if u.KP = 0 then 1 else 0, J3 := 0
    KA := fun i => if i = 0 then 0 else t.KA i
    PA := fun i => if i = 0 then 1 else t.PA i }

/-- `N = L + 1; PA[N] = 0` (gsm.py:55 and 63; 145 and 153-154). -/
def gsmFinish (s : GsmSt) : OTab :=
  { N := s.L + 1, KA := s.KA, PA := fun i => if i = s.L + 1 then 0 else s.PA i }

/-- `gsm` (gsm.py:4-65). -/
def gsm (t : OTab) (u : OUnit) : OTab := gsmFinish (gsmLoop t u 4951 (gsmInit t u))

/-- `_gsm`'s copy of the levels (gsm.py:92-110): only the first `N` rows are copied, the rest is 0. -/
def gsmKO' (N : ℕ) (KA : ℕ → ℤ) (s : ℤ) (j : ℕ) : ℤ :=
  if j < N then KA j + s else if j = N ∨ j = N + 1 then 1000000 else 0

/-- `_gsm`'s copy of the probabilities (gsm.py:93 and 99, 110). -/
def gsmP' (N : ℕ) (PA : ℕ → ℚ) (j : ℕ) : ℚ := if j < N then PA j else 0

/-- One pass of `_gsm`'s loop up to the `break` tests (gsm.py:124-133). -/
def gsmBody' (t : OTab) (u : OUnit) (s : GsmSt) : GsmSt :=
  let m := min (min (gsmKO' t.N t.KA 0 s.J1) (gsmKO' t.N t.KA u.KP s.J2)) (gsmKO' t.N t.KA u.KT s.J3)
  { L := s.L + 1
    KA := fun i => if i = s.L + 1 then m else s.KA i
    PA := fun i => if i = s.L + 1 then
        gsmP' t.N t.PA s.J1 * u.P1 + gsmP' t.N t.PA s.J2 * u.P2 + gsmP' t.N t.PA s.J3 * u.P3
      else s.PA i
    J1 := if m = gsmKO' t.N t.KA 0 s.J1 then s.J1 + 1 else s.J1
    J2 := if m = gsmKO' t.N t.KA u.KP s.J2 then s.J2 + 1 else s.J2
    J3 := if m = gsmKO' t.N t.KA u.KT s.J3 then s.J3 + 1 else s.J3 }

/-- `_gsm`'s `while True` loop with its three `break`s (gsm.py:123-143). -/
def gsmLoop' (t : OTab) (u : OUnit) : ℕ → GsmSt → GsmSt
  | 0, s => s
  | f + 1, s =>
    let s' := gsmBody' t u s
    if min (min s'.J1 s'.J2) s'.J3 ≥ t.N then s'
    else if s'.PA s'.L ≤ 1 / 1000000000 then s'
    else if s'.L ≥ 4950 then s'
    else gsmLoop' t u f s'

/-- `_gsm` (gsm.py:68-156); its initialisation (114-121) is that of `gsm`. -/
def gsm' (t : OTab) (u : OUnit) : OTab := gsmFinish (gsmLoop' t u 4951 (gsmInit t u))

/-- One row of `pmlolp`'s input: `CAPLOS[i]` and `RD[i, 0:3]` (pmlolp.py:6). -/
structure LossRow where
  caplos : ℚ
  rd0 : ℚ
  rd1 : ℚ
  rd2 : ℚ

/-- Rounding to the 10 MW grid (pmlolp.py:41-42, 45-46): `k = int(x + 5.5); k -= k % 10`. -/
def round10 (x : ℚ) : ℤ := pyInt (x + 11 / 2) - pyInt (x + 11 / 2) % 10

/-- `KT`, `KP`, `P1`, `P2`, `P3` of a row (pmlolp.py:41-49). -/
def lossUnit (r : LossRow) : OUnit :=
  let KT := round10 r.caplos
  { KT := KT, KP := round10 (KT * r.rd2), P1 := 1 - r.rd0 - r.rd1, P2 := r.rd0, P3 := r.rd1 }

/-- The table before any unit is added (pmlolp.py:32-36). -/
def otab0 : OTab := { N := 1, KA := fun _ => 0, PA := fun i => if i = 0 then 1 else 0 }

/-- One pass of the unit loop (pmlolp.py:39-54). -/
def pmlolpStep (t : OTab) (r : LossRow) : OTab :=
  if 1 / 1000000 < (lossUnit r).P1 then gsm t (lossUnit r) else t

/-- `pmlolp` (pmlolp.py:6-57); the rows are the first `NGU` rows of `CAPLOS` and `RD`. -/
def pmlolp (rows : List LossRow) : OTab := rows.foldl pmlolpStep otab0

end Narp
