import Verif.Spec.Annual
import Verif.Spec.Load
import Verif.Spec.Year

/-!
# The figures of the final report, according to the cards
-/

namespace Narp.Spec
open BigOperators

/-- The draw at hour `T` of the year (counted from 1) is the one whose shortages count as those of its day: in daily mode
every draw; in hourly mode the first hour of the day with the highest load of all areas together, unless that is the last
hour of the year. -/
def PeakDraw {k : ℕ} (step : ℕ) (load : Fin k → ℕ → ℚ) (T : ℕ) : Prop :=
  step = 24 ∨ T < 8760 ∧ IsFirstMax (fun h => ∑ a, load a h) (24 * ((T - 1) / 24)) 24 (T - 1)

/-- The number of `k` draws at which the area bears 1 MW or more and that count for their day. -/
noncomputable def lossDays (share : ℕ → ℚ) (peak : ℕ → Prop) (k : ℕ) : ℚ :=
  open Classical in ∑ d ∈ Finset.range k, if peak (d + 1) ∧ 1 ≤ share (d + 1) then 1 else 0

/-- The number of `k` draws at which some area bears 1 MW or more. -/
def poolLossHours {n : ℕ} (share : Fin n → ℕ → ℚ) (k : ℕ) : ℚ :=
  ∑ d ∈ Finset.range k, if ∃ j, 1 ≤ share j (d + 1) then 1 else 0

/-- The number of `k` draws at which some area bears 1 MW or more and that count for their day. -/
noncomputable def poolLossDays {n : ℕ} (share : Fin n → ℕ → ℚ) (peak : ℕ → Prop) (k : ℕ) : ℚ :=
  open Classical in ∑ d ∈ Finset.range k, if peak (d + 1) ∧ ∃ j, 1 ≤ share j (d + 1) then 1 else 0

/-- The value of year `y` if `v 0`, `v 1`, ... are the values of the years; if `carried`, the earlier years are in it. -/
def withCarry (carried : Prop) [Decidable carried] (v : ℕ → ℚ) (y : ℕ) : ℚ :=
  ∑ y' ∈ Finset.Ico (if carried then 0 else y) (y + 1), v y'

/-- The annual values of `Y` years, averaged over the forecast tiers: `v t y` is the value of year `y` in tier `t`;
where `carried t`, the earlier years are in it. -/
def figures (tiers Y : ℕ) (carried : Fin 5 → Prop) [∀ t, Decidable (carried t)] (v : Fin 5 → ℕ → ℚ) : List ℚ :=
  (List.range Y).map fun y => weighted tiers fun t => withCarry (carried t) (v t) y

end Narp.Spec
