import Verif.Model.Stats
import Verif.Model.Random
import Verif.Model.Load
import Verif.Model.Control

/-!
# The hourly event: `hour.py`

`n` areas, `m` units, `l` lines. The transmission module (`transm`, called at hour.py:172-195) is a
parameter on a network state `ν`; its own model is in `Transm.lean`. Not modelled: the loop over
critical units (lines 117-133; `datax.py:175` makes `MXCRIT` 0, so that it is not entered), and the
assistance estimate of lines 156-167, whose result is not used.
-/

namespace Narp
open BigOperators

/-- What `hour` passes to the transmission module and that varies from hour to hour. (hour.py:172-195) -/
structure TransIn (n l : ℕ) where
  IFLAG : ℤ
  LNSTAT : Fin l → ℤ
  TRNSFR : Fin n → ℚ
  TRNSFJ : Fin n → ℚ
  SYSCON : Fin n → ℚ
  CAPREQ : Fin n → ℚ

/-- The constant inputs of `hour`. (hour.py:14-68, the arguments that are not changed) -/
structure HourIn (n m l : ℕ) (ν : Type) where
  /-- sampling step: 1 or 24 -/
  JSTEP : ℚ
  JFREQ : ℤ
  /-- pool peak hour of each day -/
  MXPLHR : ℕ → ℕ
  PROBG : Fin m → Fin 2 → ℚ
  DERATE : Fin m → ℚ
  CAPOWN : Fin n → Fin m → ℚ
  CAPCON : Fin m → Fin n
  PROBL : Fin 6 → Fin l → ℚ
  JENT : Fin n → Fin n → ℤ
  INTCH : ℤ → ℕ → ℚ
  NFCST : ℕ
  HRLOAD : Fin n → ℕ → ℚ
  FCTERR : Fin n → Fin 5 → ℚ
  /-- the transmission module: JFLAG, SADJ and the new network state -/
  transm : TransIn n l → ν → Except PyErr ((ℤ × (Fin n → ℚ)) × ν)

/-- The mutable arrays that `hour` updates. (hour.py:14-68, the arguments that are changed in place) -/
structure HourSt (n m l : ℕ) (ν : Type) where
  IGSEED : Fin m → ℤ
  ILSEED : Fin l → ℤ
  LSFLG : Fin n → ℚ
  /-- hourly counters -/
  H : Cnt n
  /-- daily peak counters -/
  P : Cnt n
  net : ν

/-- Truncated margins: `(x).astype(int)` of hour.py:139 and 208. -/
def marginInt {n : ℕ} (x : Fin n → ℚ) : Fin n → ℤ := fun j => pyInt (x j)

/-- The statistics part of one tier, hour.py:219-244. -/
def tierStats {n m l : ℕ} {ν : Type} (NST : Fin 5) (M : Fin n → ℤ) (isPeak : Bool) (w : HourSt n m l ν) :
    HourSt n m l ν :=
  let r := hrstat NST (fun j => (M j : ℚ)) (w.LSFLG, w.H)
  { w with
    LSFLG := r.1
    H := r.2
    P := if isPeak then pkstat NST (fun j => (M j : ℚ)) w.P else w.P }

/-- Result of one tier: the loop goes on (with the new IFLAG) or `hour` returns. (hour.py:135-251) -/
inductive TierRes (n m l : ℕ) (ν : Type) where
  | next (IFLAG : ℤ) (w : HourSt n m l ν)
  | stop (w : HourSt n m l ν)

/-- What the draws of the hour give to the tier loop. (hour.py:105-108) -/
structure Draw (n l : ℕ) where
  SYSCON : Fin n → ℚ
  TRNSFJ : Fin n → ℚ
  TRNSFR : Fin n → ℚ
  LNSTAT : Fin l → ℤ

/-- The margins of tier `NST` before assistance (hour.py:136-139). -/
def tierMargin {n m l : ℕ} {ν : Type} (c : HourIn n m l ν) (d : Draw n l) (hr : ℕ) (NST : Fin 5) : Fin n → ℤ :=
  marginInt fun j => d.SYSCON j - findld NST hr c.HRLOAD c.FCTERR j

/-- Body of the tier loop, hour.py:136-244. -/
def tierBody {n m l : ℕ} {ν : Type} (c : HourIn n m l ν) (d : Draw n l) (hr : ℕ) (isPeak : Bool)
    (NST : Fin 5) (IFLAG : ℤ) (w : HourSt n m l ν) : Except PyErr (TierRes n m l ν) :=
  let M := tierMargin c d hr NST
  let short := (List.finRange n).filter fun j => M j < 0
  if short = [] then .error .indexError                             -- line 141: `[-1]` of an empty array
  else if short.length = 0 then .ok (.stop w)                       -- lines 143-150
  else if short.length ≠ n then
    match c.transm ⟨IFLAG, d.LNSTAT, d.TRNSFR, d.TRNSFJ, d.SYSCON, findld NST hr c.HRLOAD c.FCTERR⟩ w.net with
    | .error e => .error e
    | .ok ((JFLAG, SADJ), net) =>
      let w := { w with net := net }
      if JFLAG = 0 then .ok (.stop w)                               -- lines 199-205
      else
        let M' := marginInt fun j => -SADJ j                        -- line 208
        if (List.finRange n).any fun j => M' j < 0 then
          .ok (.next 1 (tierStats NST M' isPeak w))
        else .ok (.stop w)                                          -- lines 211-217
  else .ok (.next IFLAG (tierStats NST M isPeak w))

/-- The tier loop, hour.py:135-251. -/
def tierLoop {n m l : ℕ} {ν : Type} (c : HourIn n m l ν) (d : Draw n l) (hr : ℕ) (isPeak : Bool) :
    List (Fin 5) → ℤ → HourSt n m l ν → Except PyErr (HourSt n m l ν)
  | [], _, w => .ok w
  | NST :: ts, IFLAG, w =>
    match tierBody c d hr isPeak NST IFLAG w with
    | .error e => .error e
    | .ok (.stop w) => .ok w
    | .ok (.next IFLAG w) => tierLoop c d hr isPeak ts IFLAG w

/-- The draws of an hour, hour.py:105-108, on day `day`: what they give, and the new seeds. -/
def hourDraw {n m l : ℕ} {ν : Type} (c : HourIn n m l ν) (day : ℕ) (RATING PLNDST : Fin m → ℚ)
    (w : HourSt n m l ν) : Draw n l × HourSt n m l ν :=
  let g := gstate w.IGSEED c.PROBG RATING c.DERATE PLNDST
  let cap := sumcap g.2.2 c.CAPOWN c.CAPCON
  let s := lstate w.ILSEED c.PROBL
  (⟨cap.2.2.1, cap.2.2.2, findtn c.JENT c.INTCH day, s.2⟩, { w with IGSEED := g.1, ILSEED := s.1 })

/-- `hour.py:88-251`: everything after the next event has been filed. In an hour in which nothing is
drawn, line 112 reads a variable that has no value. -/
def hourBody {n m l : ℕ} {ν : Type} (c : HourIn n m l ν) (CLOCK : ℚ) (RATING PLNDST : Fin m → ℚ)
    (w : HourSt n m l ν) : Except PyErr (HourSt n m l ν) := do
  let JHOUR : ℤ := -1 + pyInt (pyMod CLOCK 8760)                    -- lines 89-90
  let JDAY : ℤ := JHOUR / 24                                        -- line 94 (floor)
  let day ← pyIdx 365 JDAY
  let JHOUR : ℤ := if c.JSTEP = 24 then c.MXPLHR day else JHOUR     -- lines 99-100
  if c.JFREQ = 0 then throw .zeroDivision                           -- line 104
  if ¬ (JHOUR % c.JFREQ = 0 ∨ c.JFREQ = 1) then throw .unboundLocal -- lines 104-112
  let (d, w) := hourDraw c day RATING PLNDST w
  let hr ← pyIdx 8760 JHOUR                                         -- `HRLOAD[:, JHOUR]` of line 136
  let isPeak := decide (JHOUR = c.MXPLHR day)                       -- line 232
  tierLoop c d hr isPeak ((List.finRange 5).take c.NFCST) 0 w

/-- The body as the main loop calls it; `RATING` and `PLNDST` are arrays with one entry per unit.
(events.py:155-210) -/
def hourFx {n m l : ℕ} {ν : Type} (c : HourIn n m l ν) (CLOCK : ℚ) (RATING PLNDST : List ℚ)
    (w : HourSt n m l ν) : Except PyErr (HourSt n m l ν) :=
  hourBody c CLOCK (fun i => RATING.getD i 0) (fun i => PLNDST.getD i 0) w

/-- `datax.py:79-84`: forecast factors of an area with uncertainty `FU` percent. -/
def dataxFCTERR (FU : ℚ) : Fin 5 → ℚ :=
  ![1 + FU * (5/2) / 100, 1 + FU / 100, 1, 1 - FU / 100, 1 - FU * (5/2) / 100]

end Narp
