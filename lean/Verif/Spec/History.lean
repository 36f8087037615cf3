import Verif.Spec.Hour
import Verif.Spec.Year
import Mathlib.Algebra.BigOperators.Group.Finset.Basic

/-!
# Specification of a simulated history and of its annual values

A history is a list of years, a year a list of draws, a draw what it recorded: per forecast tier the MW short of each
area, and whether it is the draw of the daily peak. Independent of the model.
-/

namespace Narp.Spec
open BigOperators

/-- What a draw recorded. -/
structure DrawLog (n : ℕ) where
  tiers : List (Fin 5 × (Fin n → ℚ))
  peak : Bool

variable {n : ℕ}

/-- Loss-of-load hours of area `j` in tier `t` in the draws `ds`. -/
def hoursIn (j : Fin n) (t : Fin 5) (ds : List (DrawLog n)) : ℚ := (ds.map fun d => (hoursShort d.tiers j t : ℚ)).sum

/-- Unserved energy (whole megawatts per draw) of area `j`. -/
def energyIn (j : Fin n) (t : Fin 5) (ds : List (DrawLog n)) : ℚ := (ds.map fun d => (mwShort d.tiers j t : ℚ)).sum

/-- Days on which area `j` is short at the daily peak. -/
def daysIn (j : Fin n) (t : Fin 5) (ds : List (DrawLog n)) : ℚ :=
  (ds.map fun d => if d.peak then (hoursShort d.tiers j t : ℚ) else 0).sum

/-- Energy short at the daily peaks. -/
def peakEnergyIn (j : Fin n) (t : Fin 5) (ds : List (DrawLog n)) : ℚ :=
  (ds.map fun d => if d.peak then (mwShort d.tiers j t : ℚ) else 0).sum

/-- Hours in which some area of the pool is short. -/
def poolHoursIn (t : Fin 5) (ds : List (DrawLog n)) : ℚ := (ds.map fun d => (tierCount d.tiers t : ℚ)).sum

/-- Unserved energy of all areas. -/
def poolEnergyIn (t : Fin 5) (ds : List (DrawLog n)) : ℚ := (ds.map fun d => ∑ j, (mwShort d.tiers j t : ℚ)).sum

/-- Days on which some area is short at the daily peak. -/
def poolDaysIn (t : Fin 5) (ds : List (DrawLog n)) : ℚ :=
  (ds.map fun d => if d.peak then (tierCount d.tiers t : ℚ) else 0).sum

/-- Energy of all areas short at the daily peaks. -/
def poolPeakEnergyIn (t : Fin 5) (ds : List (DrawLog n)) : ℚ :=
  (ds.map fun d => if d.peak then ∑ j, (mwShort d.tiers j t : ℚ) else 0).sum

/-- The value of year `y` (counted from 0) under the statistic `f`; if `carried`, the values of all earlier years are
still in it. -/
def yearValue (carried : Prop) [Decidable carried] (f : List (DrawLog n) → ℚ) (years : List (List (DrawLog n)))
    (y : ℕ) : ℚ :=
  f (years.getD y []) + if carried then ((years.take y).map f).sum else 0

/-- The annual values of a statistic, averaged over the forecast tiers. -/
def annualOf (N : ℕ) (f : Fin 5 → List (DrawLog n) → ℚ) (years : List (List (DrawLog n))) : List ℚ :=
  years.map fun ds => weighted N fun t => f t ds

end Narp.Spec
