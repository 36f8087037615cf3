import Verif.Model.Float
import Verif.Model.Control

/-!
# The main loop in binary64 arithmetic

`Model/Control.lean` with every float addition followed by its rounding. `%`, comparisons and `int()` of binary64
numbers are exact.
-/

namespace Narp
open Spec (Ev)

/-- `week.py:33-49`. -/
def weekF {σ : Type} (cfg : Cfg σ) (s : St σ) (kind : ℚ) : Except PyErr (St σ) := do
  let cal ← filem s.cal (f64 (s.CLOCK + 168)) kind
  let p ← weekPlan cfg.JPLOUT s.JHOUR s.PLNDST
  return { s with cal := cal, PLNDST := p }

/-- `quartr.py:31-36`. -/
def quartrF {σ : Type} (cfg : Cfg σ) (s : St σ) (kind : ℚ) : Except PyErr (St σ) := do
  let iq := (s.IQ + 1) % 4
  let rating ← cfg.RATES.mapM fun row => rd row iq
  let cal ← filem s.cal (f64 (s.CLOCK + 8760)) kind
  return { s with cal := cal, IQ := iq, RATING := rating }

/-- `hour.py:83-98`. -/
def hourEvF {σ : Type} (cfg : Cfg σ) (s : St σ) (kind : ℚ) : Except PyErr (St σ) := do
  let cal ← filem s.cal (f64 (s.CLOCK + cfg.JSTEP)) kind
  let JHOUR := -1 + pyInt (pyMod s.CLOCK 8760)
  let w ← cfg.hourFx s.CLOCK s.RATING s.PLNDST s.world
  return { s with cal := cal, JHOUR := JHOUR, world := w }

/-- `year.py:151-154`. -/
def yearEvF {σ : Type} (cfg : Cfg σ) (s : St σ) : Except PyErr (St σ) := do
  let cal ← filem s.cal (f64 (s.CLOCK + 8760)) 4
  let (w, rflag) ← cfg.yearFx s.CLOCK cal s.world
  return { s with cal := cal, RFLAG := rflag, world := w }

/-- `events.py:151-372`. -/
def eventsF {σ : Type} (cfg : Cfg σ) (s : St σ) (kind : ℚ) : Except PyErr (St σ) :=
  let NUMBER := pyInt kind
  if NUMBER = 1 then hourEvF cfg s kind
  else if NUMBER = 2 then weekF cfg s kind
  else if NUMBER = 3 then quartrF cfg s kind
  else if NUMBER = 4 then yearEvF cfg s
  else .error .assertion

/-- `contrl.py:158-388`. -/
def stepF {σ : Type} (cfg : Cfg σ) (s : St σ) : Except PyErr (StepRes σ) := do
  if s.cal.IPOINT = -1 then return .exit .badPointer
  let t ← rd s.cal.E (s.cal.IPOINT + 1)
  if s.CLOCK > t then return .exit .timeError
  if s.RFLAG = 1 then return .exit .converged
  if t > f64 (cfg.FINISH + 1) then return .exit .finished
  let (a, cal) ← remove s.cal
  let s' ← eventsF cfg { s with cal := cal, CLOCK := a.1 } a.2
  return .next ⟨a.1, a.2⟩ s'

/-- `contrl.py:158-388` with a bound on the number of iterations. -/
def contrlF {σ : Type} (cfg : Cfg σ) : ℕ → St σ → Option (Except PyErr (Exit × St σ))
  | 0, _ => none
  | fuel + 1, s =>
    match stepF cfg s with
    | .error e => some (.error e)
    | .ok (.exit e) => some (.ok (e, s))
    | .ok (.next _ s') => contrlF cfg fuel s'

/-- `year.py:156`: the number of the year that ends. -/
def yearNoF (CLOCK : ℚ) : ℤ := pyInt (f64 (f64 (CLOCK + 1) / 8760))

end Narp
