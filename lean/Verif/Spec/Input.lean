import Verif.Model.Datax

/-!
# What the input cards mean

From the descriptions in `readInputB.py`; no definition of the program is used but the card records themselves.
-/

namespace Narp.Spec

/-- Fraction of its capacity that a unit can deliver when its random number is `u`: full capacity with probability
`1 - FOR - DFOR`, derated by `DER` percent with probability `DFOR`, nothing with probability `FOR`. -/
def outcome (g : GenCard) (u : ℚ) : ℚ :=
  if u < 1 - g.fout - g.dfor then 1 else if u < 1 - g.fout then 1 - g.der / 100 else 0

/-- The load forecast of tier `t` relative to the mean: 2.5, 1, 0, -1, -2.5 standard deviations of `lfu` percent. -/
def forecast (lfu : ℚ) (t : Fin 5) : ℚ := 1 + ![5 / 2, 1, 0, -1, -(5 / 2)] t * (lfu / 100)

/-- The units located in area `j`. -/
def unitsIn {n m l : ℕ} (c : Cards n m l) (j : Fin (n + 1)) : Finset (Fin m) :=
  Finset.univ.filter fun i => (c.units i).loc = (c.areas j).name

/-- A planned outage of `d` weeks beginning in calendar week `b` (1 = first week of the year, 0 = none) covers
calendar week `k`. -/
def covers (b d : ℤ) (k : ℕ) : Prop := b ≠ 0 ∧ b ≤ k ∧ (k : ℤ) < b + d

instance (b d : ℤ) (k : ℕ) : Decidable (covers b d k) := by unfold covers; infer_instance

/-- The planned outages on the card of a unit cover calendar week `k`. -/
def plannedOut (g : GenCard) (k : ℕ) : Prop := covers g.maint.w1 g.maint.d1 k ∨ covers g.maint.w2 g.maint.d2 k

instance (g : GenCard) (k : ℕ) : Decidable (plannedOut g k) := by unfold plannedOut; infer_instance

/-- `load` is the profile `raw` of a year, scaled so that its highest hour is `peak`. -/
def Scaled (raw : ℕ → ℚ) (peak : ℚ) (load : ℕ → ℚ) : Prop :=
  ∃ h0 < 8760, 0 < raw h0 ∧ (∀ h < 8760, raw h ≤ raw h0) ∧ ∀ h, load h = peak * raw h / raw h0

/-- Hour `h` of the year is one that a draw at hour `T` stands for: the hour that ends then, or with daily steps
any hour of the day that ends then. -/
def standsFor (step : ℤ) (T h : ℕ) : Prop := if step = 24 then h / 24 = (T - 1) / 24 else h = T - 1

/-- Hour `H` is the first of those that a draw at hour `T` stands for in which the load of all areas together is highest. -/
def Evaluated {k : ℕ} (step : ℤ) (load : Fin k → ℕ → ℚ) (T H : ℕ) : Prop :=
  standsFor step T H ∧ ∀ h, standsFor step T h → ∑ a, load a h ≤ ∑ a, load a H ∧ (h < H → ∑ a, load a h < ∑ a, load a H)

/-- A sound network: every line joins two different areas, every area can be reached from the first one through
lines, susceptances are entered as negative numbers or 0, capacities as non-negative numbers. -/
structure SoundNetwork {n m l : ℕ} (c : Cards n m l) : Prop where
  proper : ∀ k, (c.lines k).src ≠ (c.lines k).dst
  reaches : ∀ a, Relation.ReflTransGen (fun x y => ∃ k,
    (c.lines k).src = (c.areas x).name ∧ (c.lines k).dst = (c.areas y).name ∨
    (c.lines k).src = (c.areas y).name ∧ (c.lines k).dst = (c.areas x).name) 0 a
  adm : ∀ k t, (c.lines k).adm t ≤ 0
  cap : ∀ k t, 0 ≤ (c.lines k).cap t ∧ 0 ≤ (c.lines k).capr t

end Narp.Spec
