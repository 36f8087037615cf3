import Verif.Model.Float
import Verif.Model.Random
import Verif.Model.Load
import Verif.Model.Hour
import Verif.Model.Year

/-!
# Parts of the program in binary64 arithmetic

The same code as in the other model files, every float operation followed by its rounding. Operations whose result is
always a binary64 number (comparison, `max`, negation, `int(x)`, `float(i)` for integers below 2^53, `%`) have none.
-/

namespace Narp
open BigOperators

/-- `gstate.py:37-38`, `lstate.py:30-31`: `float(seed) * 0.4656613e-9`. -/
def variateF (seed : ℤ) : ℚ := f64 ((seed : ℚ) * f64 (4656613 / 10000000000000000))

/-- `datax.py:101-102`, `DFOR` and `FOR` as stored (binary64). -/
def dataxPROBGF (DFOR FOR : ℚ) : Fin 2 → ℚ := ![f64 (1 - f64 (DFOR + FOR)), f64 (1 - FOR)]

/-- `datax.py:103`. -/
def dataxDERATEF (pct : ℚ) : ℚ := f64 (1 - f64 (pct / 100))

/-- `datax.py:161` for one line: running sums, each rounded. -/
def dataxPROBLF (p : Fin 6 → ℚ) : Fin 6 → ℚ := fun k =>
  ((List.finRange 6).take (k.val + 1)).foldl (fun acc j => f64 (acc + p j)) 0

/-- `gstate.py:25-51`. -/
def gstateF {n : ℕ} (IGSEED : Fin n → ℤ) (PROBG : Fin n → Fin 2 → ℚ) (RATING DERATE PLNDST : Fin n → ℚ) :
    (Fin n → ℤ) × (Fin n → ℚ) × (Fin n → ℚ) :=
  let seed := fun i => mul31 65539 (IGSEED i)
  let PCTAVL := fun i => unitPct (PROBG i 0) (PROBG i 1) (DERATE i) (variateF (seed i))
  let AVAIL := fun i => f64 (f64 (PCTAVL i * RATING i) * PLNDST i)
  (seed, PCTAVL, AVAIL)

/-- `lstate.py:21-48`. -/
def lstateF {n : ℕ} (ILSEED : Fin n → ℤ) (PROBL : Fin 6 → Fin n → ℚ) : (Fin n → ℤ) × (Fin n → ℤ) :=
  let seed := fun i => mul31 65539 (ILSEED i)
  (seed, fun i => lineState (fun k => PROBL k i) (variateF (seed i)))

/-- `sumcap.py:30-34`: SYSCON, the capacities of the units added up one after the other. -/
def sysconF {n m : ℕ} (AVAIL : Fin m → ℚ) (CAPCON : Fin m → Fin n) : Fin n → ℚ :=
  (List.finRange m).foldl (fun S i => Function.update S (CAPCON i) (f64 (S (CAPCON i) + AVAIL i))) (fun _ => 0)

/-- `xldnew.py:39-43`. -/
def leeiScaleF (PKLOAD : ℕ → ℚ) (H : ℕ → ℕ → ℚ) : ℕ → ℕ → ℚ := fun j h =>
  f64 (f64 (H j h / ((List.range 8760).map (H j)).foldl max (f64 (1/1000))) * PKLOAD j)

/-- `findld.py:17`. -/
def findldF {n : ℕ} (NFACT : Fin 5) (hr : ℕ) (HRLOAD : Fin n → ℕ → ℚ) (FCTERR : Fin n → Fin 5 → ℚ) : Fin n → ℚ :=
  fun j => f64 (HRLOAD j hr * FCTERR j NFACT)

/-- `hour.py:136-139`: the margins of a tier before assistance. -/
def tierMarginF {n : ℕ} (SYSCON : Fin n → ℚ) (HRLOAD : Fin n → ℕ → ℚ) (FCTERR : Fin n → Fin 5 → ℚ) (hr : ℕ)
    (NST : Fin 5) : Fin n → ℤ :=
  marginInt fun j => f64 (SYSCON j - findldF NST hr HRLOAD FCTERR j)

/-- The number under the root of `cvchk.py:37`. -/
def cvRadF (IYEAR : ℤ) (SUM SSQ : ℚ) : ℚ :=
  let XMEAN := f64 (SUM / IYEAR)
  f64 (f64 (f64 (SSQ / IYEAR) - f64 (XMEAN ^ 2)) / IYEAR)

/-- `cvchk.py:22-61`. `root` is `pow(., 0.5)` on numbers that are not negative; of a negative numpy float it is nan,
and comparisons with nan are false. -/
def cvchkF (root : ℚ → ℚ) (CLOCK FINISH : ℚ) (IYEAR : ℤ) (CVTEST SUM XLAST SSQ : ℚ) : ℤ × ℚ × ℚ :=
  let RFLAG : ℤ := if CLOCK ≥ FINISH then 1 else 0
  let DIFF := f64 (SUM - XLAST)
  let XLAST := SUM
  let SSQ := f64 (SSQ + f64 (DIFF ^ 2))
  if IYEAR < 5 then (RFLAG, SSQ, XLAST)
  else
    let XMEAN := f64 (SUM / IYEAR)
    let XX := if CVTEST ≠ 0 then f64 (CVTEST * XMEAN) else f64 (f64 0.025 * XMEAN)
    let V := cvRadF IYEAR SUM SSQ
    if XMEAN = 0 then (RFLAG, SSQ, XLAST)
    else if 0 ≤ V ∧ root V < XX then (1, SSQ, XLAST)
    else (RFLAG, SSQ, XLAST)

/-- The tested sum and the state of the test between two year ends. (year.py:210, cvchk.py:24-26) -/
structure CvF where
  years : ℕ
  flag : ℤ
  SUM : ℚ
  XLAST : ℚ
  SSQ : ℚ

/-- One year end with the annual value `x`, at a clock before the horizon: `SUM += x` (`year.py:210` and the like) and
then `cvchk` (`year.py:719`). -/
def cvStepF (root : ℚ → ℚ) (CVTEST : ℚ) (s : CvF) (x : ℚ) : CvF :=
  let SUM := f64 (s.SUM + x)
  let r := cvchkF root 0 1 ((s.years + 1 : ℕ) : ℤ) CVTEST SUM s.XLAST s.SSQ
  { years := s.years + 1, flag := r.1, SUM := SUM, XLAST := r.2.2, SSQ := r.2.1 }

/-- The test after the given annual values (`year.py:210,719` at every year end). -/
def cvRunF (root : ℚ → ℚ) (CVTEST : ℚ) (xs : List ℚ) : CvF :=
  xs.foldl (cvStepF root CVTEST) { years := 0, flag := 0, SUM := 0, XLAST := 0, SSQ := 0 }

end Narp
