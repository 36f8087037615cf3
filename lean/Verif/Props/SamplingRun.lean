import Verif.Props.CardStop
import Verif.Props.DerateRun

/-!
# C48 in runs: a sampling interval of more than one hour
-/

namespace Narp.Props
open Narp Narp.Spec BigOperators

variable {n m l : ℕ} {sl : ℕ → ℚ → ℚ} {fuel : ℕ} {c : Cards n m l} {s : Setup n m l}

/-- What the main loop returns is the outcome of a reachable state. -/
theorem contrl_outcome {σ : Type} {cfg : Cfg σ} {s₀ : St σ} {r : Except PyErr (Exit × St σ)} :
    ∀ (fuel : ℕ) (log : List Ev) (s : St σ), Reach cfg s₀ log s → contrl cfg fuel s = some r →
      ∃ log st, Reach cfg s₀ log st ∧ ((∃ x, step cfg st = .error x) ∨ ∃ e, step cfg st = .ok (.exit e)) := by
  intro fuel
  induction fuel with
  | zero => intro log s _ h; cases h
  | succ fuel ih =>
    intro log s hr h
    unfold contrl at h
    cases hs : step cfg s with
    | error x => exact ⟨log, s, hr, .inl ⟨x, hs⟩⟩
    | ok a =>
      rw [hs] at h
      cases a with
      | exit e => exact ⟨log, s, hr, .inr ⟨e, hs⟩⟩
      | next ev s' => exact ih _ _ (.step hr hs) h

/-- No run of such a study comes to a second draw. -/
theorem sparse_draws (h : setup sl fuel c = .ok s) (hstep : c.misc.JSTEP = 1) (hfreq : 1 < c.misc.JFREQ) (JSEED : ℤ)
    {log : List Ev} {st : St _} (hr : Reach s.cfg (s.start JSEED) log st) : log.countP (fun e => e.kind = 1) ≤ 1 := by
  have hJs : s.hour.JSTEP = 1 := by rw [(C72_settings h JSEED).1, hstep]; norm_num
  have hJ : StepOK s.hour.JSTEP := .inl hJs
  have hJF : s.hour.JFREQ = c.misc.JFREQ := by
    obtain ⟨wr, raw, T, ITAB, ID', hw, _, _, _, _, rfl⟩ := setup_ok h
    rfl
  induction hr with
  | start => simp
  | @step log st ev st' hr hs ih =>
    rw [List.countP_append]
    by_cases hk : ev.kind = 1
    · have ht := draw_time (cfg := s.cfg) hJ hr hs hk
      rw [show s.cfg.JSTEP = 1 from hJs, mul_one] at ht
      rcases step_world (cfg := s.cfg) hJ hr hs with ⟨_, hx, _⟩ | ⟨hx, _⟩ | ⟨hx, _⟩
      · by_contra hcon
        have h1 : log.countP (fun e => decide (e.kind = 1)) = 1 := by
          have : [ev].countP (fun e => decide (e.kind = 1)) = 1 := by simp [hk]
          omega
        rw [h1] at ht
        have herr := C48_sampling_frequency_refuted s.hour (by rw [hJs]; norm_num) (by rw [hJF]; exact hfreq) 0 2 (by norm_num)
          (by norm_num) (by
            rw [hJF]
            rw [show ((2 : ℕ) : ℤ) - 1 = 1 by norm_num, Int.emod_eq_of_lt (by norm_num) hfreq]
            norm_num)
          (fun i => st.RATING.getD i 0) (fun i => st.PLNDST.getD i 0) st.world.h
        rw [show (8760 * ((0 : ℕ) : ℚ) + ((2 : ℕ) : ℚ)) = ev.time by rw [ht]; norm_num] at herr
        simp only [Setup.cfg, narpCfg, hourFx] at hx
        rw [herr] at hx
        cases hx
      · rcases hx with hx | hx <;> rw [hk] at hx <;> norm_num at hx
      · rw [hk] at hx; norm_num at hx
    · have : [ev].countP (fun e => decide (e.kind = 1)) = 0 := by simp [hk]
      omega

/-- C48 (refuted, in every run). Every accepted study in hourly mode with a sampling interval of more than one hour fails:
there is no second draw, no year is completed, and the run does not end but is aborted by an exception. -/
theorem C48_run_refuted (h : setup sl fuel c = .ok s) (hstep : c.misc.JSTEP = 1) (hfreq : 1 < c.misc.JFREQ)
    (hF : 1 ≤ c.misc.FINISH) (JSEED : ℤ) :
    (∀ log st, Reach s.cfg (s.start JSEED) log st → log.countP (fun e => e.kind = 1) ≤ 1 ∧
      (∀ ev ∈ log, ev.kind ≠ 4) ∧ ∀ e, step s.cfg st ≠ .ok (.exit e)) ∧
    ∃ log st x, Reach s.cfg (s.start JSEED) log st ∧ step s.cfg st = .error x := by
  have hJs : s.hour.JSTEP = 1 := by rw [(C72_settings h JSEED).1, hstep]; norm_num
  have hJ : StepOK s.hour.JSTEP := .inl hJs
  have hFin : s.year.FINISH = 8760 * (c.misc.FINISH : ℚ) := (C72_settings h JSEED).2.1
  have noyear : ∀ log st, Reach s.cfg (s.start JSEED) log st → ∀ ev ∈ log, ev.kind ≠ 4 := by
    intro log st hr
    induction hr with
    | start => simp
    | @step log st ev st' hr hs ih =>
      intro x hx
      rcases List.mem_append.1 hx with hx | hx
      · exact ih x hx
      simp only [List.mem_singleton] at hx
      subst hx
      intro hk
      have h1 := (C07_year_is_8760_hours (cfg := s.cfg) hJ hr hs hk).2.2.1
      rw [show s.cfg.JSTEP = 1 from hJs, mul_one] at h1
      have h2 := sparse_draws h hstep hfreq JSEED hr
      have h3 : ((log.countP fun e => decide (e.kind = 1) : ℕ) : ℚ) ≤ 1 := by exact_mod_cast h2
      have h4 : (0 : ℚ) ≤ ((log.countP fun e => decide (e.kind = 4) : ℕ) : ℚ) := by positivity
      rw [h1] at h3
      linarith
  have noexit : ∀ log st, Reach s.cfg (s.start JSEED) log st → ∀ e, step s.cfg st ≠ .ok (.exit e) := by
    intro log st hr e he
    obtain ⟨evs, hE⟩ := ends_of_reach hr
    have hR := exit_flag (Y := c.misc.FINISH.toNat) hJ (by omega) (by
      rw [hFin]
      have : ((c.misc.FINISH.toNat : ℤ) : ℚ) = c.misc.FINISH := by rw [Int.toNat_of_nonneg (by omega)]
      rw [← this]; push_cast; rfl) hE he
    obtain ⟨evs0, ev, r, rfl, _⟩ := ends_report hJ hE hR
    obtain ⟨hlen, _⟩ := ends_inv hJ hE
    have : log.countP (fun e => decide (e.kind = 4)) = 0 := by
      rw [List.countP_eq_zero]
      intro x hx
      simpa using noyear log st hr x hx
    rw [this] at hlen
    simp at hlen
  refine ⟨fun log st hr => ⟨sparse_draws h hstep hfreq JSEED hr, noyear log st hr, noexit log st hr⟩, ?_⟩
  obtain ⟨r, hr⟩ := C06_terminates (cfg := s.cfg) hJ m (s.start JSEED).world _ (Nat.lt_succ_self _)
  obtain ⟨log, st, hrs, x⟩ := contrl_outcome (s₀ := s.start JSEED) _ [] _ Reach.start hr
  rcases x with ⟨x, hx⟩ | ⟨e, hx⟩
  · exact ⟨log, st, x, hrs, hx⟩
  · exact absurd hx (noexit log st hrs e)

/-- The always short study with a state drawn every second hour. -/
def sparseCards : Cards 1 4 1 := { scarceCards with misc := { scarceCards.misc with JFREQ := 2 } }

/-- Such a study is accepted. -/
theorem sparse_ok (sl : ℕ → ℚ → ℚ) (fuel : ℕ) : ∃ s, setup sl fuel sparseCards = .ok s := by
  obtain ⟨raw, h, _, _⟩ := flat_read
  exact C64_accepted (c := sparseCards) sl fuel ⟨scarce_one.areas, scarce_one.units⟩ (by norm_num)
    ⟨scarce_known.loc, scarce_known.src, scarce_known.dst, scarce_known.csrc, scarce_known.cdst, scarce_known.own⟩
    ⟨scarce_sensible.cap, scarce_sensible.dur, scarce_sensible.apart⟩ (NoLone.once (c := sparseCards) scarce_lone) ⟨raw, h⟩ rfl rfl

/-- Non-vacuity of C48_run_refuted. -/
example (sl : ℕ → ℚ → ℚ) (fuel : ℕ) (JSEED : ℤ) : ∃ s, setup sl fuel sparseCards = .ok s ∧
    ∃ log st x, Reach s.cfg (s.start JSEED) log st ∧ step s.cfg st = .error x := by
  obtain ⟨s, hs⟩ := sparse_ok sl fuel
  exact ⟨s, hs, (C48_run_refuted hs rfl (by simp [sparseCards]) (by simp [sparseCards, scarceCards, demoCards]) JSEED).2⟩

end Narp.Props
