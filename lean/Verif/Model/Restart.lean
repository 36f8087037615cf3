import Verif.Model.Program

/-!
# Resuming from the snapshot file: `rstart.py`

`rstart.py:22-25` returns the pickled dictionary (a value equal to what `intm` saved); its docstring (lines 16-19)
says how the caller resumes: every saved name is assigned in the freshly initialised program. That assignment is
`restart`. No other code of the repository resumes a run.
-/

namespace Narp

/-- `for key, val in snapshot_data.items(): exec(key + '=val')` (`rstart.py:16-19`) in the state `s₀` of a newly started
program. The saved `IGSEED`, `ILSEED` are plain integers and replace the seed arrays, see `gstateAny`; `setNet` puts
LT, BB, ZB back. `WOLSHA`, `ATRIB` are overwritten before they are read and are left out. -/
def restart {n m l : ℕ} {ν α : Type} (s₀ : St (World n m l ν α)) (setNet : α → ν → ν) (d : Snap n α) :
    St (World n m l ν α) :=
  { s₀ with
    cal := d.cal
    CLOCK := d.CLOCK
    world :=
      { h := { s₀.world.h with LSFLG := d.LSFLG, net := setNet d.net s₀.world.h.net }
        y := { s₀.world.y with
          CH := d.CH, CP := d.CP, hist := d.hist, XNEWA := d.XNEWA, XNEWP := d.XNEWP, SSQ := d.SSQ,
          XLAST := d.XLAST, INTVT := d.INTVT, ITAB := d.ITAB } } }

/-- `gstate` when `IGSEED` may be a plain integer: `IGSEED[i]` (`gstate.py:33`) raises TypeError then, unless there
is no unit. -/
def gstateAny {m : ℕ} (IGSEED : ℤ ⊕ (Fin m → ℤ)) (PROBG : Fin m → Fin 2 → ℚ) (RATING DERATE PLNDST : Fin m → ℚ) :
    Except PyErr ((Fin m → ℤ) × (Fin m → ℚ) × (Fin m → ℚ)) :=
  match IGSEED with
  | .inl _ => if h : m = 0 then .ok (fun i => (h ▸ i).elim0, fun _ => 0, fun _ => 0) else .error .typeError
  | .inr a => .ok (gstate a PROBG RATING DERATE PLNDST)

end Narp
