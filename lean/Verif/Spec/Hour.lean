import Mathlib.Data.Rat.Floor

/-!
# Specification of what an hour records

`ν` is the state of the network, `deficit t j` the load forecast of area `j` in tier `t` minus the capacity
available to it, and `assist first t net` the transmission evaluation of tier `t`: `none` if every area can
serve its schedule, otherwise the shortages left after assistance; `first` says whether it is the first
evaluation of the hour. Independent of the model of the hourly event.
-/

namespace Narp.Spec

/-- `HourTiers deficit assist ts first net hist net'`: going through the tiers `ts`, the hour records the
shortages `hist` (tier, MW short per area). Shortages under 1 MW do not count. If every area is short, nobody
can assist: the deficits are recorded. If some area is short but not all, the evaluation decides. The first
tier in which no area remains short ends the hour. -/
inductive HourTiers {n : ℕ} {ν : Type} (deficit : Fin 5 → Fin n → ℚ)
    (assist : Bool → Fin 5 → ν → Option (Fin n → ℚ) × ν → Prop) :
    List (Fin 5) → Bool → ν → List (Fin 5 × (Fin n → ℚ)) → ν → Prop
  | done {first net} : HourTiers deficit assist [] first net [] net
  | everybody {t ts first net hist net'} (all : ∀ j, 1 ≤ deficit t j)
      (rest : HourTiers deficit assist ts first net hist net') :
      HourTiers deficit assist (t :: ts) first net ((t, deficit t) :: hist) net'
  | assisted {t ts first net net1 S hist net'} (some_short : ∃ j, 1 ≤ deficit t j) (not_all : ∃ j, deficit t j < 1)
      (ev : assist first t net (some S, net1)) (still : ∃ j, 1 ≤ S j)
      (rest : HourTiers deficit assist ts false net1 hist net') :
      HourTiers deficit assist (t :: ts) first net ((t, S) :: hist) net'
  | helped {t ts first net net1 S} (some_short : ∃ j, 1 ≤ deficit t j) (not_all : ∃ j, deficit t j < 1)
      (ev : assist first t net (some S, net1)) (gone : ∀ j, S j < 1) :
      HourTiers deficit assist (t :: ts) first net [] net1
  | scheduled {t ts first net net1} (some_short : ∃ j, 1 ≤ deficit t j) (not_all : ∃ j, deficit t j < 1)
      (ev : assist first t net (none, net1)) : HourTiers deficit assist (t :: ts) first net [] net1

/-- Number of entries of area `j` in tier `t` with at least 1 MW short. -/
def hoursShort {n : ℕ} (hist : List (Fin 5 × (Fin n → ℚ))) (j : Fin n) (t : Fin 5) : ℕ :=
  hist.countP fun e => e.1 = t ∧ 1 ≤ e.2 j

/-- Whole megawatts short of area `j` in tier `t`, added up. -/
def mwShort {n : ℕ} (hist : List (Fin 5 × (Fin n → ℚ))) (j : Fin n) (t : Fin 5) : ℕ :=
  (hist.map fun e => if e.1 = t then ⌊e.2 j⌋₊ else 0).sum

/-- Number of entries in tier `t`. -/
def tierCount {n : ℕ} (hist : List (Fin 5 × (Fin n → ℚ))) (t : Fin 5) : ℕ := hist.countP fun e => e.1 = t

end Narp.Spec
