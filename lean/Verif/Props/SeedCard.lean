import Verif.Props.Ample

/-!
# C79: the seed card has no effect on anything the program does
-/

namespace Narp.Props
open Narp.Spec

variable {n m l : ℕ}

/-- The study with another seed on the card. -/
def reSeed (c : Cards n m l) (seed : ℤ) : Cards n m l := { c with misc := { c.misc with JSEED := seed } }

/-- C79, refuted for every input: a study and the same study with any other seed are set up alike, start alike, have the
same histories (event by event, state by state), stop with the same errors, and end with the same report. -/
theorem C79_study_refuted (sl : ℕ → ℚ → ℚ) (fuel : ℕ) (c : Cards n m l) (seed : ℤ) :
    (reSeed c seed).misc.JSEED = seed ∧ setup sl fuel (reSeed c seed) = setup sl fuel c ∧
    ∀ s, setup sl fuel c = .ok s →
      s.start (reSeed c seed).misc.JSEED = s.start c.misc.JSEED ∧
      (∀ log st, Reach s.cfg (s.start seed) log st ↔ Reach s.cfg (s.start c.misc.JSEED) log st) ∧
      ∀ steps, contrl s.cfg steps (s.start seed) = contrl s.cfg steps (s.start c.misc.JSEED) :=
  ⟨rfl, rfl, fun _ _ => ⟨rfl, fun _ _ => Iff.rfl, fun _ => rfl⟩⟩

/-- Non-vacuity: an accepted study; two different seeds on its card. -/
example (sl : ℕ → ℚ → ℚ) (fuel : ℕ) : ∃ s, setup sl fuel scarceCards = .ok s ∧
    setup sl fuel (reSeed scarceCards 345237) = .ok s ∧ (reSeed scarceCards 345237).misc.JSEED ≠ (reSeed scarceCards 1).misc.JSEED := by
  obtain ⟨s, _, _, _, _, _, _, _, hs, _⟩ := C71_applies sl fuel 0 1 (by norm_num) (by norm_num)
  exact ⟨s, hs, hs, by decide⟩

end Narp.Props
