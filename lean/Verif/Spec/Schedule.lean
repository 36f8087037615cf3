import Mathlib.Algebra.BigOperators.Fin
import Mathlib.Data.Fin.VecNotation
import Mathlib.Data.Multiset.Range
import Verif.Model.Control

/-!
# Specification of the simulation schedule

The simulation is the superposition of seven periodic sources of events.
-/

namespace Narp.Spec

/-- first event time of each source: draws, weekly, four quarterly, yearly -/
def base (JSTEP : ℚ) : Fin 7 → ℚ := ![JSTEP, 1/2, 1/2, 4369/2, 8737/2, 13105/2, 8760]

/-- period of each source -/
def period (JSTEP : ℚ) : Fin 7 → ℚ := ![JSTEP, 168, 8760, 8760, 8760, 8760, 8760]

/-- event kind of each source -/
def kind : Fin 7 → ℚ := ![1, 2, 3, 3, 3, 3, 4]

/-- the `m`-th event (from 0) of source `i` -/
def occ (JSTEP : ℚ) (i : Fin 7) (m : ℕ) : Ev := ⟨base JSTEP i + m * period JSTEP i, kind i⟩

/-- the first `n i` events of every source -/
def firstEvents (JSTEP : ℚ) (n : Fin 7 → ℕ) : Multiset Ev :=
  ∑ i, (Multiset.range (n i)).map (occ JSTEP i)

/-- the next event of every source -/
def nextEvents (JSTEP : ℚ) (n : Fin 7 → ℕ) : Multiset Ev :=
  (Finset.univ : Finset (Fin 7)).val.map fun i => occ JSTEP i (n i)

/-- `Reach cfg s₀ log s`: the loop, started in `s₀`, has processed the events `log` (in this order)
and is in state `s` at the top of the loop. -/
inductive Reach {σ : Type} (cfg : Cfg σ) (s₀ : St σ) : List Ev → St σ → Prop
  | start : Reach cfg s₀ [] s₀
  | step {log s ev s'} : Reach cfg s₀ log s → step cfg s = .ok (.next ev s') →
      Reach cfg s₀ (log ++ [ev]) s'

end Narp.Spec
