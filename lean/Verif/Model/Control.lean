import Verif.Model.EventList
import Verif.Spec.Queue

/-!
# The main loop: `contrl`, `events`, `quartr`, `week`, and the calendar part of `hour` and `year`

What `hour` and `year` do besides scheduling their next event (draws, statistics, reports) is a
parameter of the model (`hourFx`, `yearFx`): the theorems about the loop hold whatever these do,
including raising an exception. Their real bodies are modelled in `Hour.lean`, `Year.lean`.
-/

namespace Narp
open Spec (Ev)

/-- The constant inputs of the loop. `σ` is the type of all other program state.
(contrl.py:6-136, the arguments that no event changes) -/
structure Cfg (σ : Type) where
  /-- sampling step in hours: 1 (hourly) or 24 (daily peaks only) -/
  JSTEP : ℚ
  /-- horizon in hours -/
  FINISH : ℚ
  /-- planned outage table: row = week; first entry the number of units out, then their indices -/
  JPLOUT : List (List ℤ)
  /-- seasonal ratings: row = unit, column = season -/
  RATES : List (List ℚ)
  /-- body of `hour` after `filem` (hour.py:88-251), arguments CLOCK, RATING, PLNDST -/
  hourFx : ℚ → List ℚ → List ℚ → σ → Except PyErr σ
  /-- body of `year` after `filem` (year.py:156-915), arguments CLOCK and the calendar (saved to disk
  there); returns RFLAG -/
  yearFx : ℚ → Cal → σ → Except PyErr (σ × ℤ)

/-- The variables of `contrl`. -/
structure St (σ : Type) where
  cal : Cal
  CLOCK : ℚ
  IQ : ℤ
  JHOUR : ℤ
  RFLAG : ℤ
  RATING : List ℚ
  PLNDST : List ℚ
  world : σ

/-- Reading row `JWEEK` of the table and switching the listed units off (`week.py:38-47`).
`PLNDST[idx] = 0.0` with an index array checks all indices before writing. -/
def weekPlan (JPLOUT : List (List ℤ)) (JHOUR : ℤ) (PLNDST : List ℚ) : Except PyErr (List ℚ) := do
  let on := PLNDST.map fun _ => (1 : ℚ)            -- line 38
  let JWEEK := JHOUR / 168                          -- line 41 (floor division)
  if JWEEK > 51 then return on                      -- line 42
  let row ← rd JPLOUT JWEEK
  let MT ← rd row 0                                 -- line 46
  let idx ← (slice row 1 (MT + 1)).mapM (pyIdx on.length)   -- line 47
  return idx.foldl (fun (a : List ℚ) k => a.set k 0) on

/-- `week.py:4-49`. The event filed keeps the type of the current event (`ATRIB[1]`). -/
def week {σ : Type} (cfg : Cfg σ) (s : St σ) (kind : ℚ) : Except PyErr (St σ) := do
  let cal ← filem s.cal (s.CLOCK + 168) kind        -- lines 33-36
  let p ← weekPlan cfg.JPLOUT s.JHOUR s.PLNDST
  return { s with cal := cal, PLNDST := p }

/-- `quartr.py:4-36` and the assignment `RATING[:] = ...` of `events.py:243`; `NHRSYR` is 8760
(`narpMain.py:101`). The shape check of the slice assignment is not modelled: `RATES` and `RATING`
both have one row per unit (`narpMain.py:87,116`). -/
def quartr {σ : Type} (cfg : Cfg σ) (s : St σ) (kind : ℚ) : Except PyErr (St σ) := do
  let iq := (s.IQ + 1) % 4                          -- line 31
  let rating ← cfg.RATES.mapM fun row => rd row iq  -- line 32
  let cal ← filem s.cal (s.CLOCK + 8760) kind       -- lines 33-34
  return { s with cal := cal, IQ := iq, RATING := rating }

/-- `hour.py:83-98`: schedule the next draw, compute the hour of the year (`JHOURT`), then the rest
of the body. -/
def hourEv {σ : Type} (cfg : Cfg σ) (s : St σ) (kind : ℚ) : Except PyErr (St σ) := do
  let cal ← filem s.cal (s.CLOCK + cfg.JSTEP) kind  -- lines 83-86
  let JHOUR := -1 + pyInt (pyMod s.CLOCK 8760)      -- lines 89-90
  let w ← cfg.hourFx s.CLOCK s.RATING s.PLNDST s.world
  return { s with cal := cal, JHOUR := JHOUR, world := w }

/-- `year.py:151-154`: schedule the next year end (type 4), then the rest of the body. -/
def yearEv {σ : Type} (cfg : Cfg σ) (s : St σ) : Except PyErr (St σ) := do
  let cal ← filem s.cal (s.CLOCK + 8760) 4          -- lines 152-154
  let (w, rflag) ← cfg.yearFx s.CLOCK cal s.world
  return { s with cal := cal, RFLAG := rflag, world := w }

/-- `events.py:151-372`: dispatch on the event type. -/
def events {σ : Type} (cfg : Cfg σ) (s : St σ) (kind : ℚ) : Except PyErr (St σ) :=
  let NUMBER := pyInt kind                          -- contrl.py:243
  if NUMBER = 1 then hourEv cfg s kind
  else if NUMBER = 2 then week cfg s kind
  else if NUMBER = 3 then quartr cfg s kind
  else if NUMBER = 4 then yearEv cfg s
  else .error .assertion                            -- events.py:151

/-- The ways the loop of `contrl` ends. (contrl.py:158-388) -/
inductive Exit where
  /-- `contrl.py:159-161` -/
  | badPointer
  /-- `contrl.py:163-170` -/
  | timeError
  /-- `contrl.py:172-173` -/
  | converged
  /-- `contrl.py:175-239` -/
  | finished
  deriving DecidableEq, Repr

/-- Result of one iteration: the loop ends, or an event was processed. -/
inductive StepRes (σ : Type) where
  | exit (e : Exit)
  | next (ev : Ev) (s : St σ)

/-- One iteration of the loop `contrl.py:158-388`. -/
def step {σ : Type} (cfg : Cfg σ) (s : St σ) : Except PyErr (StepRes σ) := do
  if s.cal.IPOINT = -1 then return .exit .badPointer
  let t ← rd s.cal.E (s.cal.IPOINT + 1)
  if s.CLOCK > t then return .exit .timeError
  if s.RFLAG = 1 then return .exit .converged
  if t > cfg.FINISH + 1 then return .exit .finished
  let (a, cal) ← remove s.cal                       -- line 241
  let s' ← events cfg { s with cal := cal, CLOCK := a.1 } a.2   -- lines 242-388
  return .next ⟨a.1, a.2⟩ s'

/-- `contrl.py:158-388` with a bound on the number of iterations: `none` when the bound is too
small, otherwise how the loop ended and the final state, or the exception raised. -/
def contrl {σ : Type} (cfg : Cfg σ) : ℕ → St σ → Option (Except PyErr (Exit × St σ))
  | 0, _ => none
  | fuel + 1, s =>
    match step cfg s with
    | .error e => some (.error e)
    | .ok (.exit e) => some (.ok (e, s))
    | .ok (.next _ s') => contrl cfg fuel s'

/-- The state in which `narpMain.py:96-116` starts the loop: constant calendar, `IQ = 0`,
`JHOUR = 0`, `RFLAG = 0`, ratings and maintenance status all zero. The season ends of the input
(`QTR`, `narpMain.py:30`) are not used. -/
def narpInit {σ : Type} (JSTEP : ℚ) (NUNITS : ℕ) (w : σ) : St σ where
  cal := initl JSTEP initfl.E
  CLOCK := 0
  IQ := 0
  JHOUR := 0
  RFLAG := 0
  RATING := List.replicate NUNITS 0
  PLNDST := List.replicate NUNITS 0
  world := w

end Narp
