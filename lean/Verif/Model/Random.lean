import Verif.Model.Py
import Mathlib.Logic.Function.Basic
import Mathlib.Data.Fin.VecNotation

/-!
# Pseudo random numbers and state sampling

`seeder.py`, `gstate.py`, `lstate.py`, `line_prob_sampling.py` and the threshold part of `datax.py`.

Arrays whose shape is fixed by the caller (`narpMain.py:86-92`) are functions on their index set.
int32 arithmetic wraps modulo 2^32.
-/

namespace Narp

/-- Storing an integer in an `np.int32` entry: wrap around modulo 2^32 into [-2^31, 2^31).
(seeder.py:14-15, the type of the arrays) -/
def wrap32 (x : ℤ) : ℤ := (x + 2147483648) % 4294967296 - 2147483648

/-- `a *= m; if a < 0: a += 2147483647; a += 1` on an int32 entry
(`seeder.py:19-22`, `seeder.py:29-32`, `gstate.py:33-36`, `lstate.py:26-29`). -/
def mul31 (m x : ℤ) : ℤ :=
  let y := wrap32 (x * m)
  if y < 0 then wrap32 (wrap32 (y + 2147483647) + 1) else y

/-- The loops `seeder.py:18-24` and `seeder.py:28-34` for `n` iterations on an int32 array with
`n + 1` entries (entries beyond are never touched). -/
def seedLoop : ℕ → (ℕ → ℤ) → (ℕ → ℤ)
  | 0, a => a
  | i + 1, a =>
    let a := seedLoop i a
    let a := Function.update a i (mul31 9649599 (a i))
    Function.update a (i + 1) (a i)

/-- `seeder.py:4-36`. Entry `k` of the result is meaningful for `k ≤ NUNITS` resp. `k ≤ NLINES`.
`IGSEED[NUNITS - 1]` for `NUNITS = 0` is index -1, the last (and only) entry, that is entry 0. -/
def seeder (JSEED : ℤ) (NUNITS NLINES : ℕ) : (ℕ → ℤ) × (ℕ → ℤ) :=
  let IGSEED := seedLoop NUNITS (Function.update (fun _ => 0) 0 (wrap32 JSEED))
  let ILSEED := seedLoop NLINES (Function.update (fun _ => 0) 0 (IGSEED (NUNITS - 1)))
  (IGSEED, ILSEED)

/-- `narpMain.py:90-92`: the seed of the input (`ZZMC`, `SEED`) is not an argument of the seeding. -/
def programSeeds (_userSeed : ℤ) (NUNITS NLINES : ℕ) : (ℕ → ℤ) × (ℕ → ℤ) :=
  seeder 123456 NUNITS NLINES

/-- `YFL = float(seed) * 0.4656613e-9` (`gstate.py:37-38`, `lstate.py:30-31`). -/
def variate (seed : ℤ) : ℚ := (seed : ℚ) * (4656613 / 10000000000000000)

/-- The chain of comparisons `gstate.py:42-47`. -/
def unitPct (p0 p1 derate u : ℚ) : ℚ :=
  if u < p0 then 1 else if u < p1 then derate else 0

/-- `gstate.py:25-51`. Iteration `i` of the loop reads and writes entries `i` only, so the loop is
written as a function of `i`. Result: new IGSEED, PCTAVL, AVAIL. -/
def gstate {n : ℕ} (IGSEED : Fin n → ℤ) (PROBG : Fin n → Fin 2 → ℚ) (RATING DERATE PLNDST : Fin n → ℚ) :
    (Fin n → ℤ) × (Fin n → ℚ) × (Fin n → ℚ) :=
  let seed := fun i => mul31 65539 (IGSEED i)
  let PCTAVL := fun i => unitPct (PROBG i 0) (PROBG i 1) (DERATE i) (variate (seed i))
  let AVAIL := fun i => PCTAVL i * RATING i * PLNDST i
  (seed, PCTAVL, AVAIL)

/-- Python's `bisect_left(a, x)` on a list: number of leading entries smaller than `x`
(equal to the insertion point when the list is sorted, as it is here). (gstate.py:77) -/
def bisectLeft (a : List ℚ) (x : ℚ) : ℕ := (a.takeWhile fun v => v < x).length

/-- `gstate.py:68-81` (`_gstate`): the variates `u` come from numpy's generator; `aux` maps the
insertion point 0, 1, 2 to 1, DERATE, 0. -/
def gstate' {n : ℕ} (u : Fin n → ℚ) (PROBG : Fin n → Fin 2 → ℚ) (RATING DERATE PLNDST : Fin n → ℚ) :
    (Fin n → ℚ) × (Fin n → ℚ) :=
  let PCTAVL := fun i =>
    match bisectLeft [PROBG i 0, PROBG i 1] (u i) with
    | 0 => 1
    | 1 => DERATE i
    | _ => 0
  (PCTAVL, fun i => PCTAVL i * RATING i * PLNDST i)

/-- The chain of comparisons `lstate.py:35-46`. -/
def lineState (p : Fin 6 → ℚ) (u : ℚ) : ℤ :=
  if u ≤ p 0 then 1 else if u ≤ p 1 then 2 else if u ≤ p 2 then 3 else if u ≤ p 3 then 4
  else if u ≤ p 4 then 5 else 6

/-- `lstate.py:21-48`: new ILSEED and LNSTAT; iteration `i` touches entries `i` only. -/
def lstate {n : ℕ} (ILSEED : Fin n → ℤ) (PROBL : Fin 6 → Fin n → ℚ) : (Fin n → ℤ) × (Fin n → ℤ) :=
  let seed := fun i => mul31 65539 (ILSEED i)
  (seed, fun i => lineState (fun k => PROBL k i) (variate (seed i)))

/-- `line_prob_sampling.py:31-33` for one line with variate `u`: the loop over the six states, each
pass writing the state where none has been written. -/
def lineStateVec (p : Fin 6 → ℚ) (u : ℚ) : ℤ :=
  (List.finRange 6).foldl (fun st k => if st = 0 ∧ u < p k then (k.val : ℤ) + 1 else st) 0

/-- `datax.py:101-103`: thresholds and derated fraction from DFOR (row 4), FOR (row 5) and
derating percentage (row 6) of the unit card. -/
def dataxPROBG (DFOR FOR : ℚ) : Fin 2 → ℚ := ![1 - (DFOR + FOR), 1 - FOR]

/-- `datax.py:103` -/
def dataxDERATE (pct : ℚ) : ℚ := 1 - pct / 100

/-- `datax.py:161` for one line: `np.add.accumulate` along the state axis. -/
def dataxPROBL (p : Fin 6 → ℚ) : Fin 6 → ℚ := fun k =>
  ((List.finRange 6).take (k.val + 1)).foldl (fun acc j => acc + p j) 0

end Narp
