import Verif.Spec.Figures
import Verif.Spec.Printed

/-!
# The annual pages of output.txt, according to the cards
-/

namespace Narp.Spec
open BigOperators

/-- What the area bears at those of `k` draws that count for their day, in whole MW. -/
noncomputable def dayMWh (share : ℕ → ℚ) (peak : ℕ → Prop) (k : ℕ) : ℚ :=
  open Classical in ∑ d ∈ Finset.range k, if peak (d + 1) then (⌊share (d + 1)⌋₊ : ℚ) else 0

/-- The figures of a year: days with loss of load, energy lost at the peaks of the days, hours with loss of load, energy. -/
structure Fig where
  days : ℚ
  dayMWh : ℚ
  hours : ℚ
  mwh : ℚ

/-- The mean shortage: energy per occurrence, 0 if there is none. -/
def perEvent (mwh count : ℚ) : ℚ := if 0 < count then mwh / count else 0

/-- The word shows the whole number `x`. -/
def WholeWord (x : ℚ) (w : List Char) : Prop := ∃ k : ℤ, x = k ∧ ShownInt k w

/-- The figures of a single tier and the remark on a line of an annual page. -/
def TierFigs (hourly : Prop) (f : Fig) (daily : List Char) (ws : List (List Char)) : Prop :=
  (hourly → ∃ a b c d e, ws = [a, b, c, d, e, ['G', 'T']] ∧ WholeWord f.hours a ∧ ShownTo 2 (perEvent f.mwh f.hours) b ∧
    WholeWord f.mwh c ∧ WholeWord f.days d ∧ ShownTo 2 (perEvent f.dayMWh f.days) e) ∧
  (¬ hourly → ∃ d e, ws = [d, e, daily] ∧ ShownTo 2 f.days d ∧ ShownTo 2 (perEvent f.dayMWh f.days) e)

/-- The averages over the tiers and the remark on a line of an annual page. -/
def MeanFigs (hourly : Prop) (f : Fig) (ws : List (List Char)) : Prop :=
  (hourly → ∃ a b c d e, ws = [a, b, c, d, e, ['G', 'T']] ∧ ShownTo 2 f.hours a ∧ ShownTo 2 (perEvent f.mwh f.hours) b ∧
    ShownTo 0 f.mwh c ∧ ShownTo 2 f.days d ∧ ShownTo 2 (perEvent f.dayMWh f.days) e) ∧
  (¬ hourly → ∃ d e, ws = [d, e, ['G', 'T']] ∧ ShownTo 2 f.days d ∧ ShownTo 2 (perEvent f.dayMWh f.days) e)

/-- The average of the figures of the tiers. -/
def meanFig (tiers : ℕ) (f : Fin 5 → Fig) : Fig where
  days := weighted tiers fun t => (f t).days
  dayMWh := weighted tiers fun t => (f t).dayMWh
  hours := weighted tiers fun t => (f t).hours
  mwh := weighted tiers fun t => (f t).mwh

/-- The page of year `Y` with the totals of every area and of the pool, areas and tiers counted from 0, the totals of the
pool all on one line. -/
structure YearPage {n : ℕ} (hourly : Prop) (tiers Y : ℕ) (area : Fin n → Fin 5 → Fig) (pool : Fin 5 → Fig)
    (p : List (List (List Char))) : Prop where
  head : ∃ y rest, p = [['T', 'A', 'B', 'L', 'E']] :: (["RESULTS".toList, "AFTER".toList, y, "REPLICATIONS".toList]) :: rest ∧ ShownInt Y y
  tier : ∀ (j : Fin n) (t : Fin 5), t.val < tiers → ∃ a b ws, a :: b :: ws ∈ p ∧ ShownInt j.val a ∧ ShownInt t.val b ∧
    TierFigs hourly (area j t) ['T', 'C'] ws
  mean : ∀ j : Fin n, ∃ a ws, a :: ['A', 'V'] :: ws ∈ p ∧ ShownInt j.val a ∧ MeanFigs hourly (meanFig tiers (area j)) ws
  poolLine : ∃ line ∈ p, (∀ t : Fin 5, t.val < tiers → ∃ b ws, b :: ws <:+: line ∧ ShownInt t.val b ∧
      TierFigs hourly (pool t) ['G', 'T'] ws) ∧
    ∃ ws, ['A', 'V'] :: ws <:+: line ∧ MeanFigs hourly (meanFig tiers pool) ws

end Narp.Spec
