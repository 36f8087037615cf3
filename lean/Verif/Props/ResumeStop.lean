import Verif.Props.ResumeCards
import Verif.Props.Snapshot

/-!
# C83: the decision to stop is not in the snapshot file
-/

namespace Narp.Props
open Narp Narp.Spec

section
variable {σ : Type}

/-- After a year end not later than the horizon there is always an event before the end of the run: the change of the season. -/
theorem goes_on {cfg : Cfg σ} (hJ : StepOK cfg.JSTEP) {N : ℕ} {w : σ} {log : List Ev} {s s' : St σ} {ev : Ev}
    (h : Reach cfg (narpInit cfg.JSTEP N w) log s) (hs : step cfg s = .ok (.next ev s')) (hk : ev.kind = 4)
    (hF : s'.CLOCK ≤ cfg.FINISH) (r : St σ) (hc : r.cal = s'.cal) (hC : r.CLOCK = s'.CLOCK) (hR : r.RFLAG ≠ 1)
    (e : Exit) : step cfg r ≠ .ok (.exit e) := by
  intro he
  have hr' : Reach cfg (narpInit cfg.JSTEP N w) (log ++ [ev]) s' := .step h hs
  obtain ⟨n, q, hI⟩ := reach_inv hJ.lo hJ.hi hr'
  obtain ⟨ht, hclk, _, _⟩ := C07_year_is_8760_hours hJ h hs hk
  have hI0 : Inv cfg (log ++ [ev]) { s' with RFLAG := 0 } n q :=
    ⟨hI.1, hI.2, hI.3, hI.4, hI.5, hI.6, hI.7, hI.8, hI.9, hI.10, hI.11, hI.12⟩
  obtain ⟨i, q0, c1, hq, hrem, _, hst⟩ := step_shape hI0
  have hcopy : ∃ e', step cfg { s' with RFLAG := 0 } = .ok (.exit e') := by
    unfold step at he ⊢
    rw [hc, hC] at he
    dsimp only
    by_cases h1 : s'.cal.IPOINT = -1
    · rw [if_pos h1]; exact ⟨_, rfl⟩
    rw [if_neg h1] at he ⊢
    cases hrd : rd s'.cal.E (s'.cal.IPOINT + 1) with
    | error x => rw [hrd] at he; cases he
    | ok t =>
      rw [hrd] at he
      simp only [bind, Except.bind, pure, Except.pure] at he ⊢
      by_cases h2 : s'.CLOCK > t
      · rw [if_pos h2]; exact ⟨_, rfl⟩
      rw [if_neg h2, if_neg hR] at he
      rw [if_neg h2, if_neg (by norm_num)]
      by_cases h3 : t > cfg.FINISH + 1
      · rw [if_pos h3]; exact ⟨_, rfl⟩
      rw [if_neg h3] at he
      cases hm : remove s'.cal with
      | error x => rw [hm] at he; cases he
      | ok a =>
        rw [hm] at he
        dsimp only at he
        generalize events cfg _ a.1.2 = y at he
        cases y <;> cases he
  obtain ⟨e', he'⟩ := hcopy
  rw [hst, if_neg (by norm_num)] at he'
  have hmem : occ cfg.JSTEP 2 (n 2) ∈ q := by
    have : occ cfg.JSTEP 2 (n 2) ∈ (q : Multiset Ev) := by
      rw [hI.pend]; exact Multiset.mem_map.2 ⟨2, Finset.mem_univ (2 : Fin 7), rfl⟩
    exact this
  have hso := hI.holds.sorted
  have hle : (occ cfg.JSTEP i (n i)).time ≤ (occ cfg.JSTEP 2 (n 2)).time := by
    rw [hq] at hso hmem
    rcases List.mem_cons.1 hmem with h | h
    · rw [h]
    · exact (List.pairwise_cons.1 hso).1 _ h
  have h2 : (occ cfg.JSTEP 2 (n 2)).time ≤ s'.CLOCK + 1 / 2 := by
    have e2 : (occ cfg.JSTEP 2 (n 2)).time = 1 / 2 + (n 2 : ℚ) * 8760 := by
      simp only [occ]; simp [base, period]
    rw [e2]
    by_cases h0 : n 2 = 0
    · rw [h0]
      have := hI.clock0
      push_cast
      linarith
    · have := hI.past 2 h0
      simp only [show base cfg.JSTEP 2 = 1 / 2 from rfl, show period cfg.JSTEP 2 = 8760 from rfl] at this
      rw [hclk, ht] at this ⊢
      have h3 : (n 2 : ℚ) < (log.countP fun e => e.kind = 4 : ℕ) + 2 := by linarith
      have h4 : n 2 < (log.countP fun e => e.kind = 4) + 2 := by exact_mod_cast h3
      have h5 : (n 2 : ℚ) ≤ (log.countP fun e => e.kind = 4 : ℕ) + 1 := by exact_mod_cast Nat.lt_succ_iff.1 h4
      linarith
  split at he'
  · rename_i hgt
    linarith
  · generalize events cfg _ _ = y at he'
    cases y <;> cases he'

end

variable {n m l : ℕ} {sl : ℕ → ℚ → ℚ} {fuel : ℕ} {c : Cards n m l} {s : Setup n m l}

/-- **C83 (refuted: the decision to stop).** The snapshot file does not say that the run has converged or reached its horizon. At
every year end of every run after which the program stops and at which it saves its state (this is so in the last year
of every run to the horizon): the uninterrupted run stops there, the resumed run simulates on, even if it is given back
everything else that the snapshot lacks. -/
theorem C83_stop_refuted (h : setup sl fuel c = .ok s) (hstep : c.misc.JSTEP = 1 ∨ c.misc.JSTEP = 24) (JSEED : ℤ)
    {log : List Ev} {st st' : St _} {ev : Ev} (hr : Reach s.cfg (s.start JSEED) log st)
    (hs : step s.cfg st = .ok (.next ev st')) (hk : ev.kind = 4)
    (hw : (((log.countP fun e => e.kind = 4 : ℕ) : ℤ) + 1 = st.world.y.INTVT) ∨
      (((log.countP fun e => e.kind = 4 : ℕ) : ℤ) + 1 = c.misc.FINISH))
    (hstop : st'.RFLAG = 1) :
    step s.cfg st' = .ok (.exit .converged) ∧ ∃ d, st'.world.y.dump = some d ∧
      (∀ e, step s.cfg (restart (s.start JSEED) putNet d) ≠ .ok (.exit e)) ∧
      ∀ e, step s.cfg (putBack st' (restart (s.start JSEED) putNet d)) ≠ .ok (.exit e) := by
  have hJ : StepOK s.hour.JSTEP := by
    rw [C64_step h]
    rcases hstep with e | e <;> rw [e]
    · left; norm_num
    · right; norm_num
  have hFin := (C72_settings h JSEED).2.1
  have hF : pyInt (s.year.FINISH / 8760) = c.misc.FINISH := by
    rw [hFin, mul_div_cancel_left₀ _ (by norm_num)]
    exact pyInt_intCast _
  obtain ⟨d, hd, hclk, hcal, _⟩ := C32_restored (hc := s.hour) hJ hr hs hk (by rw [hF]; exact hw) putNet (s.start JSEED).world
  have hr' : Reach s.cfg (s.start JSEED) (log ++ [ev]) st' := .step hr hs
  refine ⟨?_, d, hd, ?_⟩
  · obtain ⟨n, q, hI⟩ := reach_inv (cfg := s.cfg) hJ.lo hJ.hi hr'
    obtain ⟨i, q0, c1, _, _, _, hst⟩ := step_shape hI
    rw [hst, if_pos hstop]
  · have hle : st'.CLOCK ≤ s.cfg.FINISH := by
      obtain ⟨ht, hc, _, _⟩ := C07_year_is_8760_hours (cfg := s.cfg) hJ hr hs hk
      have := C06_horizon (cfg := s.cfg) hJ hr' ev (by simp)
      have e : s.cfg.FINISH = 8760 * (c.misc.FINISH : ℚ) := hFin
      rw [hc, ht]
      rw [ht] at this
      rw [e] at this ⊢
      generalize (log.countP fun e => e.kind = 4) = k at this ⊢
      have h1 : ((k : ℚ) + 1) < (c.misc.FINISH : ℚ) + 1 := by linarith
      have h2 : ((k : ℤ) + 1) < c.misc.FINISH + 1 := by exact_mod_cast h1
      have h3 : ((k : ℚ) + 1) ≤ (c.misc.FINISH : ℚ) := by exact_mod_cast Int.lt_add_one_iff.1 h2
      linarith
    have h0 : (s.start JSEED).RFLAG = 0 := rfl
    exact ⟨goes_on (cfg := s.cfg) hJ hr hs hk hle _ hcal hclk (by show (0 : ℤ) ≠ 1; norm_num),
      goes_on (cfg := s.cfg) hJ hr hs hk hle _ hcal hclk (by show (0 : ℤ) ≠ 1; norm_num)⟩

/-- The hypotheses are met at the last year end of the run of `scarceCards`, whatever the seeds. -/
example (sl : ℕ → ℚ → ℚ) (fuel : ℕ) (JSEED : ℤ) : ∃ (s : Setup 1 4 1) (log : List Ev) (st st' : St _) (ev : Ev),
    setup sl fuel scarceCards = .ok s ∧ Reach s.cfg (s.start JSEED) log st ∧ step s.cfg st = .ok (.next ev st') ∧ ev.kind = 4 ∧
    (((log.countP fun e => e.kind = 4 : ℕ) : ℤ) + 1 = st.world.y.INTVT) ∧ st'.RFLAG = 1 := by
  obtain ⟨s, hs, hsc⟩ := scarce_ok sl fuel
  have hJs : s.hour.JSTEP = 1 := by
    rw [C64_step hs]
    show (((1 : ℤ)) : ℚ) = 1
    norm_num
  have hJ : StepOK s.hour.JSTEP := .inl hJs
  obtain ⟨log, st, x, hr, hx, _⟩ := C43_cards_partial scarce_one scarce_sensible scarce_lone scarce_derating hs (.inl rfl)
    rfl (.inl rfl) (by simp [scarceCards, demoCards]; norm_num) (by simp [scarceCards, demoCards]) hsc JSEED
  obtain ⟨evs, hE⟩ := ends_of_reach hr
  have hR : st.RFLAG = 1 := exit_flag (Y := scarceCards.misc.FINISH.toNat) hJ (by decide) (by
      rw [(C72_settings hs JSEED).2.1]
      show (8760 * (((10 : ℤ)) : ℚ)) = 8760 * (((10 : ℕ)) : ℚ)
      norm_num) hE hx
  cases hr with
  | start => exact absurd hR (by show ¬ ((0 : ℤ) = 1); norm_num)
  | @step log1 st1 ev _ hr1 hs1 =>
    have hk : ev.kind = 4 := by
      by_contra hk
      have hR1 : st1.RFLAG = st.RFLAG := by
        rcases step_world (cfg := s.cfg) hJ hr1 hs1 with ⟨_, _, h⟩ | ⟨_, _, h⟩ | ⟨h, _⟩
        · exact h.symm
        · exact h.symm
        · exact absurd h hk
      obtain ⟨n, q, hI⟩ := reach_inv (cfg := s.cfg) hJ.lo hJ.hi hr1
      have h1 := hJ.lo
      have h2 := hJ.hi
      obtain ⟨_, _, _, _, _, _, hne, _⟩ := inv_next (cfg := s.cfg)
        (by show 0 < s.hour.JSTEP; linarith) (by show s.hour.JSTEP < 8760; linarith) hI hs1
      exact hne (by rw [hR1, hR])
    refine ⟨s, log1, st1, st, ev, hs, hr1, hs1, hk, ?_, hR⟩
    have hV : s.INTVT = s.year.INTV := by
      obtain ⟨wr, raw, T, ITAB, ID', hw, _, _, _, _, rfl⟩ := setup_ok hs
      rfl
    have hsv := next_save (hc := s.hour) (yc := s.year) (T := s.JPLOUT) (R := s.RATES) (snap := snapNet) hJ (s := st1) (log := log1)
      (g0 := fun i => (programSeeds JSEED 4 1).1 i) (l0 := fun k => (programSeeds JSEED 4 1).2 k) (net := s.net) (A := s.ITAB)
      (by rw [← hV]; exact hr1)
    have h1 : s.year.INTV = 1 := (C72_settings hs JSEED).2.2.2.2.2.2.2.2.1
    rw [hsv, h1]
    simp [yearsDone]

end Narp.Props
