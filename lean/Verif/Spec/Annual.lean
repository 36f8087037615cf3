import Verif.Spec.Input
import Verif.Spec.Streams
import Verif.Spec.Sharing
import Mathlib.Data.Rat.Floor
import Mathlib.Data.Finset.Card
import Mathlib.Algebra.BigOperators.Fin

/-!
# What a year of the simulation is made of, according to the cards
-/

namespace Narp.Spec
open BigOperators

/-- What all areas together lack at the `d`-th draw of year `y` in forecast tier `t`, in MW (0 if nothing). `load j d`
is the load of area `j` at that draw, `season d` the season, `off i y d` says that unit `i` is on planned outage;
there are `per` draws in a year, so that this is draw number `per * y + d` of every stream. -/
def poolLack {n m l : ℕ} (c : Cards n m l) (load : Fin (n + 1) → ℕ → ℚ) (season : ℕ → Fin 4)
    (off : Fin m → ℕ → ℕ → Prop) [∀ i y d, Decidable (off i y d)] (per : ℕ) (t : Fin 5) (y d : ℕ) : ℚ :=
  max 0 (∑ j, load j d * forecast (c.areas j).lfu t -
    ∑ i, outcome (c.units i) (number (stream 123456 i (per * y + d))) * (c.units i).cap (season d) *
      (if off i y d then 0 else 1))

/-- What the units of area `j` deliver at the `d`-th draw of year `y`, in MW. -/
def areaCap {n m l : ℕ} (c : Cards n m l) (season : ℕ → Fin 4) (off : Fin m → ℕ → ℕ → Prop)
    [∀ i y d, Decidable (off i y d)] (per y d : ℕ) (j : Fin (n + 1)) : ℚ :=
  ∑ i ∈ unitsIn c j, outcome (c.units i) (number (stream 123456 i (per * y + d))) * (c.units i).cap (season d) *
    (if off i y d then 0 else 1)

/-- What area `j` bears at the `d`-th draw of year `y` in forecast tier `t`, in MW, according to the sharing rule. -/
def areaLack {n m l : ℕ} (c : Cards n m l) (load : Fin (n + 1) → ℕ → ℚ) (season : ℕ → Fin 4)
    (off : Fin m → ℕ → ℕ → Prop) [∀ i y d, Decidable (off i y d)] (per : ℕ) (t : Fin 5) (j : Fin (n + 1)) (y d : ℕ) : ℚ :=
  borne c.misc.NLS (areaCap c season off per y d) (fun j => load j d * forecast (c.areas j).lfu t) j

/-- The energy in whole MWh that `k` draws of a year add to the books of an area that bears `share 1`, `share 2`, ... -/
def wholeMWh (share : ℕ → ℚ) (k : ℕ) : ℚ := ∑ d ∈ Finset.range k, (⌊share (d + 1)⌋₊ : ℚ)

/-- The number of those draws at which the area bears 1 MW or more. -/
def lossHours (share : ℕ → ℚ) (k : ℕ) : ℚ := ∑ d ∈ Finset.range k, if 1 ≤ share (d + 1) then 1 else 0

/-- The books of `k` draws at which the pool lacks `lack 1`, `lack 2`, ...: the energy recorded is what is lacking, less at
most 1 MW for each of the `areas` at each draw at which something is lacking (fractions of a MW are dropped); every draw at which at least 1 MW per area
is lacking is counted as loss of load, and none at which less than 1 MW is lacking. -/
structure YearBooks (lack : ℕ → ℚ) (areas k : ℕ) (mwh hours : ℚ) : Prop where
  most : mwh ≤ ∑ d ∈ Finset.range k, lack (d + 1)
  least : ∑ d ∈ Finset.range k, max 0 (lack (d + 1) - areas) ≤ mwh
  atMost : hours ≤ (Finset.filter (fun d => 1 ≤ lack (d + 1)) (Finset.range k)).card
  atLeast : ((Finset.filter (fun d => (areas : ℚ) ≤ lack (d + 1)) (Finset.range k)).card : ℚ) ≤ hours

/-- The system of the second input is at least as good as that of the first: same load profile and load uncertainty,
peaks not higher; every unit of the first is there, in the same place of the list, not smaller, not more often out or
reduced, not reduced by more, and on planned outage only when the other is too; there may be further units behind. The
networks may be different. -/
structure AtLeastAsGood {n m l m' l' : ℕ} (c : Cards n m l) (c' : Cards n m' l') (hm : m ≤ m') : Prop where
  profile : c'.leei = c.leei
  lfu : ∀ j, (c'.areas j).lfu = (c.areas j).lfu
  peak : ∀ j, (c'.areas j).peak ≤ (c.areas j).peak
  cap : ∀ i s, (c.units i).cap s ≤ (c'.units (Fin.castLE hm i)).cap s
  out : ∀ i, (c'.units (Fin.castLE hm i)).fout ≤ (c.units i).fout
  reduced : ∀ i, (c'.units (Fin.castLE hm i)).fout + (c'.units (Fin.castLE hm i)).dfor ≤ (c.units i).fout + (c.units i).dfor
  der : ∀ i, (c'.units (Fin.castLE hm i)).der ≤ (c.units i).der
  plan : ∀ i k, plannedOut (c'.units (Fin.castLE hm i)) k → plannedOut (c.units i) k

/-- So it is area by area: besides, areas have the same names, and units are in the same areas. -/
structure BetterByArea {n m l m' l' : ℕ} (c : Cards n m l) (c' : Cards n m' l') (hm : m ≤ m') : Prop extends
    AtLeastAsGood c c' hm where
  name : ∀ j, (c'.areas j).name = (c.areas j).name
  loc : ∀ i, (c'.units (Fin.castLE hm i)).loc = (c.units i).loc

/-- The highest load the pool can have: every area at its peak in the highest forecast tier. -/
def poolPeak {n m l : ℕ} (c : Cards n m l) : ℚ := ∑ j, (c.areas j).peak * forecast (c.areas j).lfu 0

/-- The network is ample: in every state, every line can carry the highest load of the pool in both directions, and every
area may import and export as much. -/
structure Ample {n m l : ℕ} (c : Cards n m l) : Prop where
  lines : ∀ k t, poolPeak c ≤ (c.lines k).cap t ∧ poolPeak c ≤ (c.lines k).capr t
  areas : ∀ j, poolPeak c ≤ (c.areas j).flowLimit

/-- In every hour and forecast tier there is an area that needs at least 1 MW more than its own units can deliver,
whatever the season. Other areas may have a surplus, and so may the pool. -/
def Needy {n m l : ℕ} (c : Cards n m l) (load : Fin (n + 1) → ℕ → ℚ) : Prop :=
  ∀ t, ∀ h < 8760, ∀ season : Fin m → Fin 4, ∃ j,
    ∑ i ∈ unitsIn c j, (c.units i).cap (season i) + 1 ≤ load j h * forecast (c.areas j).lfu t

/-- The same study with another network: the lines may be others (also in number), and so may be the flow limits of the
areas; names, loads and load forecast uncertainty of the areas, units and settings are the same. -/
structure OtherNetwork {n m l l' : ℕ} (c : Cards n m l) (c' : Cards n m l') : Prop where
  name : ∀ j, (c'.areas j).name = (c.areas j).name
  peak : ∀ j, (c'.areas j).peak = (c.areas j).peak
  lfu : ∀ j, (c'.areas j).lfu = (c.areas j).lfu
  units : c'.units = c.units
  misc : c'.misc = c.misc
  leei : c'.leei = c.leei

end Narp.Spec
