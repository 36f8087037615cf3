import Verif.Model.Py
import Mathlib.Logic.Function.Basic
import Mathlib.Data.List.FinRange
import Mathlib.Data.Fintype.Basic
import Mathlib.Algebra.BigOperators.Group.Finset.Basic

/-!
# Capacity and contract accounting: `sumcap`, `findtn`, `findld`, `xporta`, `xports`, part of `datax`

Areas are `Fin n`, units `Fin m` (shapes fixed by `datax.py`). Contract rows of `INTCH` are looked up
by a total function (a pointer outside the table is not modelled: `datax` writes only row numbers it
fills). Sums over a numpy axis are finite sums (exact arithmetic, order irrelevant).
-/

namespace Narp
open BigOperators

/-- `a[j] += v` (sumcap.py:34, findtn.py:26-27) -/
def addAt {ι : Type} [DecidableEq ι] (a : ι → ℚ) (j : ι) (v : ℚ) : ι → ℚ :=
  Function.update a j (a j + v)

/-- `sumcap.py:24-38`: CAPAVL, SYSOWN, SYSCON, TRNSFJ. -/
def sumcap {n m : ℕ} (AVAIL : Fin m → ℚ) (CAPOWN : Fin n → Fin m → ℚ) (CAPCON : Fin m → Fin n) :
    (Fin n → Fin m → ℚ) × (Fin n → ℚ) × (Fin n → ℚ) × (Fin n → ℚ) :=
  let CAPAVL := fun j i => CAPOWN j i * AVAIL i                      -- line 26
  let SYSOWN := fun j => ∑ i, CAPAVL j i                             -- line 28
  let SYSCON := (List.finRange m).foldl
    (fun S i => addAt S (CAPCON i) (AVAIL i)) (fun _ => 0)           -- lines 30-34
  let TRNSFJ := fun j => SYSCON j - SYSOWN j                         -- line 36
  (CAPAVL, SYSOWN, SYSCON, TRNSFJ)

/-- All pairs of areas in row-major order, as produced by `np.nonzero` before filtering.
(xporta.py:20, findtn.py:24) -/
def areaPairs (n : ℕ) : List (Fin n × Fin n) :=
  (List.finRange n).flatMap fun j1 => (List.finRange n).map fun j2 => (j1, j2)

/-- `findtn.py:22-28`. -/
def findtn {n : ℕ} (JENT : Fin n → Fin n → ℤ) (INTCH : ℤ → ℕ → ℚ) (JDAY : ℕ) : Fin n → ℚ :=
  ((areaPairs n).filter fun p => JENT p.1 p.2 ≠ -1).foldl (fun T p =>
      let JPOINT := JENT p.1 p.2
      let T := addAt T p.1 (INTCH JPOINT JDAY)
      addAt T p.2 (-INTCH JPOINT JDAY)) (fun _ => 0)

/-- `findld.py:17`. -/
def findld {n : ℕ} (NFACT : Fin 5) (JHOUR : ℕ) (HRLOAD : Fin n → ℕ → ℚ) (FCTERR : Fin n → Fin 5 → ℚ) :
    Fin n → ℚ :=
  fun j => HRLOAD j JHOUR * FCTERR j NFACT

/-- `H[j, day*24 : (day+1)*24] += v` (xporta.py:23-24) -/
def addDay {n : ℕ} (H : Fin n → ℕ → ℚ) (j : Fin n) (day : ℕ) (v : ℚ) : Fin n → ℕ → ℚ :=
  fun j' h => if j' = j ∧ day * 24 ≤ h ∧ h < (day + 1) * 24 then H j' h + v else H j' h

/-- `xporta.py:20-24` (365 days per contract row, `datax.py:117`). -/
def xporta {n : ℕ} (JENT : Fin n → Fin n → ℤ) (INTCH : ℤ → ℕ → ℚ) (H : Fin n → ℕ → ℚ) : Fin n → ℕ → ℚ :=
  ((areaPairs n).filter fun p => JENT p.1 p.2 ≠ -1).foldl (fun H p =>
      let c := JENT p.1 p.2
      ((List.range 365).filter fun day => INTCH c day ≠ 0).foldl (fun H day =>
        let H := addDay H p.1 day (INTCH c day)
        addDay H p.2 day (-INTCH c day)) H) H

/-- `H[j, h] = H[j, h] + v` (xporta.py:41-42) -/
def addHour {n : ℕ} (H : Fin n → ℕ → ℚ) (j : Fin n) (h : ℕ) (v : ℚ) : Fin n → ℕ → ℚ :=
  fun j' h' => if j' = j ∧ h' = h then H j' h' + v else H j' h'

/-- `xporta.py:28-42` (`_xporta`): four nested loops. -/
def xporta' {n : ℕ} (JENT : Fin n → Fin n → ℤ) (INTCH : ℤ → ℕ → ℚ) (H : Fin n → ℕ → ℚ) : Fin n → ℕ → ℚ :=
  (areaPairs n).foldl (fun H p =>
    if JENT p.1 p.2 = -1 then H
    else
      let c := JENT p.1 p.2
      (List.range 365).foldl (fun H k =>
        if INTCH c k = 0 then H
        else (List.range' (k * 24) 24).foldl (fun H k3 =>
          let H := addHour H p.1 k3 (INTCH c k)
          addHour H p.2 k3 (-INTCH c k)) H) H) H

/-- `xports.py:20`. -/
def xports {n : ℕ} (JENT : Fin n → Fin n → ℤ) (INTCH : ℤ → ℕ → ℚ) (H : Fin n → ℕ → ℚ) : Fin n → ℕ → ℚ :=
  xporta JENT (fun c d => -INTCH c d) H

/-- `datax.py:92,99` for `k` unit cards: ownership 1 for the area of the card, 0 elsewhere. -/
def dataxCAPOWN {n m k : ℕ} (NAR : Fin k → Fin n) (NAT : Fin k → Fin m) : Fin n → Fin m → ℚ :=
  (List.finRange k).foldl (fun C c => fun j i => if j = NAR c ∧ i = NAT c then 1 else C j i)
    (fun _ _ => 0)

/-- `datax.py:93,98`: area of each unit (the last card wins). Initially area 0. -/
def dataxCAPCON {n m k : ℕ} [NeZero n] (NAR : Fin k → Fin n) (NAT : Fin k → Fin m) : Fin m → Fin n :=
  (List.finRange k).foldl (fun C c => Function.update C (NAT c) (NAR c)) (fun _ => 0)

end Narp
