import Verif.Model.Program
import Verif.Model.Text

/-!
# The file `output.txt` during a run

The file is a further component of the state. `year.py:307` opens it for appending and closes it at line 661;
`report.py:98` opens it again for appending and closes it at line 627. No other event writes to it. What the setup
wrote before the loop started (`pmsc.py:225-306`) is part of the content at the start. Simplification: an event that
raises an exception leaves no text (in the code it may leave a part of its text). The call of the report at
`contrl.py:176-238`, for an end of the loop without the stop flag, is not here: with a horizon of whole years the
loop never ends that way (`exit_flag`).
-/

namespace Narp

/-- What the yearly event appends for the annual table (year.py:307-607, 661). `y` is the state after the event. -/
def yearPage {n : ℕ} {α : Type} (c : YearIn) (CLOCK : ℚ) (y : YearSt n α) : List Char :=
  if c.IOJ ≠ 0 then annualText c.INDX (pyInt ((CLOCK + 1) / 8760)) y.rows else []

/-- What the final report appends when the yearly event calls it (year.py:851-913, report.py:98-627). `y` is the state
after the event, `S` the table SUSTAT. -/
noncomputable def yearFinal {n : ℕ} {α : Type} (c : YearIn) (NAMA : Fin n → String) (S : Sus n) (CLOCK : ℚ) (RFLAG : ℤ)
    (y : YearSt n α) : Except PyErr (List Char) :=
  if RFLAG = 1 ∨ CLOCK ≥ c.FINISH then
    match y.rep with
    | some r => (report c.NFCST c.INDX c.LSTEP y.ITAB NAMA r S).map (reportText c.NFCST c.INDX y.ITAB r)
    | none => .ok []
  else .ok []

/-- The yearly event on the state with the file (year.py:156-915). -/
noncomputable def yearFile {n m l : ℕ} {ν α : Type} (c : YearIn) (NAMA : Fin n → String) (S : Sus n) (snapNet : ν → α)
    (CLOCK : ℚ) (cal : Cal) (w : World n m l ν α × List Char) : Except PyErr ((World n m l ν α × List Char) × ℤ) := do
  let r ← yearWorld c snapNet CLOCK cal w.1
  let t ← yearFinal c NAMA S CLOCK r.2 r.1.y
  return ((r.1, w.2 ++ yearPage c CLOCK r.1.y ++ t), r.2)

/-- `contrl.py:241-388` with the file. -/
noncomputable def fileCfg {n m l : ℕ} {ν α : Type} (hc : HourIn n m l ν) (yc : YearIn) (JPLOUT : List (List ℤ))
    (RATES : List (List ℚ)) (snapNet : ν → α) (NAMA : Fin n → String) (S : Sus n) : Cfg (World n m l ν α × List Char) where
  JSTEP := hc.JSTEP
  FINISH := yc.FINISH
  JPLOUT := JPLOUT
  RATES := RATES
  hourFx := fun C R P w => (hourFx hc C R P w.1.h).map fun h => (⟨h, w.1.y⟩, w.2)
  yearFx := yearFile yc NAMA S snapNet

end Narp
