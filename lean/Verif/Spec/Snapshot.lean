import Verif.Spec.Schedule
import Verif.Model.Program

/-!
# Specification of the snapshots on disk

Two things are specified independently of the program: in which years a snapshot is due, and what a snapshot of a
run holds. Then what is on the disk while a file is being replaced.
-/

namespace Narp.Spec

/-- A snapshot is due at the end of year `y`: every `INTV` years, and in the last year `last`. -/
def Due (INTV last : ℤ) (y : ℕ) : Prop := (0 < INTV ∧ INTV ∣ (y : ℤ)) ∨ (y : ℤ) = last

/-- `y` is the last of the years 1, ..., `k` in which a snapshot is due. -/
def LastDue (INTV last : ℤ) (k y : ℕ) : Prop :=
  1 ≤ y ∧ y ≤ k ∧ Due INTV last y ∧ ∀ z, y < z → z ≤ k → ¬ Due INTV last z

/-- the number of finished years -/
def yearsDone (log : List Ev) : ℕ := log.countP fun e => e.kind = 4

/-- The snapshot `d` holds the statistics, the convergence sums, the clock, the pending events and the network of the
state `s`. -/
def SavedState {n m l : ℕ} {ν α : Type} (snap : ν → α) (d : Snap n α) (s : St (World n m l ν α)) : Prop :=
  d.CLOCK = s.CLOCK ∧ d.cal = s.cal ∧ d.CH = s.world.y.CH ∧ d.CP = s.world.y.CP ∧ d.hist = s.world.y.hist ∧
  d.XNEWA = s.world.y.XNEWA ∧ d.XNEWP = s.world.y.XNEWP ∧ d.SSQ = s.world.y.SSQ ∧ d.XLAST = s.world.y.XLAST ∧
  d.ITAB = s.world.y.ITAB ∧ d.net = snap s.world.h.net ∧ d.LSFLG = s.world.h.LSFLG

end Narp.Spec
