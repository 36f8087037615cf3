import Verif.Model.Hour
import Verif.Model.Year

/-!
# The whole program: the main loop with the real hourly and yearly events

The transmission module is still a parameter (`HourIn.transm`), on a network state `ν`; `snapNet` says what of
it is written to the snapshot file (LT, BB, ZB, `intm.py:95-97`).
-/

namespace Narp

/-- Everything that the hourly and yearly events change.
(contrl.py:6-136, the arguments that the events change) -/
structure World (n m l : ℕ) (ν α : Type) where
  h : HourSt n m l ν
  y : YearSt n α

/-- The yearly event on the whole state (`events.py:253-372`): the counters are passed by reference and
zeroed there. -/
def yearWorld {n m l : ℕ} {ν α : Type} (c : YearIn) (snapNet : ν → α) (CLOCK : ℚ) (cal : Cal)
    (w : World n m l ν α) : Except PyErr (World n m l ν α × ℤ) :=
  (yearBody c CLOCK cal (snapNet w.h.net) w.h.LSFLG w.h.H w.h.P w.y).map fun r =>
    (⟨{ w.h with H := r.1.1, P := r.1.2 }, r.2.1⟩, r.2.2)

/-- `contrl.py:241-388` with `events.py`: the loop with the real events. -/
def narpCfg {n m l : ℕ} {ν α : Type} (hc : HourIn n m l ν) (yc : YearIn) (JPLOUT : List (List ℤ))
    (RATES : List (List ℚ)) (snapNet : ν → α) : Cfg (World n m l ν α) where
  JSTEP := hc.JSTEP
  FINISH := yc.FINISH
  JPLOUT := JPLOUT
  RATES := RATES
  hourFx := fun C R P w => (hourFx hc C R P w.h).map fun h => ⟨h, w.y⟩
  yearFx := yearWorld yc snapNet

/-- The state in which `narpMain.py:96-183` starts the loop. `g0`, `l0` are the first seeds. -/
def worldInit {n m l : ℕ} {ν α : Type} (g0 : Fin m → ℤ) (l0 : Fin l → ℤ) (net : ν) (INTVT ITAB : ℤ) :
    World n m l ν α where
  h := ⟨g0, l0, fun _ => 0, Cnt.zero n, Cnt.zero n, net⟩
  y := YearSt.init n α INTVT ITAB

end Narp
