import Verif.Props.CardStop
import Verif.Props.ConvergePool

/-!
# C84 in runs: when a study tested on the pool's weighted statistic ends
-/

namespace Narp.Props
open Narp Narp.Spec BigOperators

section Runs

variable {n m l : ℕ} {ν α : Type} {hc : HourIn n m l ν} {yc : YearIn} {T : List (List ℤ)} {R : List (List ℚ)} {snap : ν → α}
  {g0 : Fin m → ℤ} {l0 : Fin l → ℤ} {net : ν} {I A : ℤ} {s s' : St (World n m l ν α)} {log : List Ev}
  {evs : List (YearEnd n α)} {ev : Ev}

/-- The stop flag in every run, for the weighted statistics of the pool. -/
theorem rflag_pool (hJ : StepOK hc.JSTEP) (hN : yc.NFCST ≤ 5) (ha : yc.KWHERE ≠ 1) (hp : yc.KVTYPE = 1)
    (h : Ends hc yc T R snap (narpInit hc.JSTEP m (worldInit g0 l0 net I A)) log s evs) :
    s.RFLAG = 1 ↔ evs ≠ [] ∧
      (8760 * (evs.length : ℚ) ≥ yc.FINISH ∨ Converged yc.CVTEST (changes (evs.map (annualStat yc none)))) := by
  induction h with
  | start => simp [narpInit]
  | @year log s evs ev s' he hs hk ih =>
    have hnew := ends_inv hJ (Ends.year he hs hk)
    obtain ⟨_, c1, _, w1, _, _⟩ := hnew
    obtain ⟨_, _, i3, _, _, _⟩ := ends_inv hJ he
    rcases step_world (cfg := narpCfg hc yc T R snap) hJ he.reach hs with h | h | h
    · rw [hk] at h; norm_num at h
    · rw [hk] at h; norm_num at h
    obtain ⟨_, h⟩ := h
    simp only [narpCfg, yearWorld] at h
    cases hb : yearBody yc ev.time s'.cal (snap s.world.h.net) s.world.h.LSFLG s.world.h.H s.world.h.P
        s.world.y with
    | error x => rw [hb] at h; cases h
    | ok r =>
    rw [hb] at h
    simp only [Except.map, Except.ok.injEq, Prod.mk.injEq] at h
    have hrf : s'.RFLAG = r.2.2 := h.2.symm
    have := (C84_changes_partial yc hN ha hp evs _ w1 c1 I A _ i3 r hb).1
    rw [hrf, this]
    have hck : ev.time = 8760 * ((evs.length : ℚ) + 1) := c1 evs.length _ (by simp; rfl)
    simp only [hck]
    simp
  | @other log s evs ev s' he hs hk ih =>
    rcases step_world (cfg := narpCfg hc yc T R snap) hJ he.reach hs with ⟨_, _, h⟩ | ⟨_, _, h⟩ | ⟨h, _⟩
    · rw [h]; exact ih
    · rw [h]; exact ih
    · exact absurd h hk

/-- When the run ends, and when it goes on. -/
theorem pool_exit (hJ : StepOK hc.JSTEP) (hN : yc.NFCST ≤ 5) (ha : yc.KWHERE ≠ 1) (hp : yc.KVTYPE = 1)
    (h : Ends hc yc T R snap (narpInit hc.JSTEP m (worldInit g0 l0 net I A)) log s evs) :
    (step (narpCfg hc yc T R snap) s = .ok (.exit .converged) → evs ≠ [] ∧
      (8760 * (evs.length : ℚ) ≥ yc.FINISH ∨ Converged yc.CVTEST (changes (evs.map (annualStat yc none))))) ∧
    (∀ ev s', step (narpCfg hc yc T R snap) s = .ok (.next ev s') → evs ≠ [] →
      8760 * (evs.length : ℚ) < yc.FINISH ∧ ¬ Converged yc.CVTEST (changes (evs.map (annualStat yc none)))) := by
  have hf := rflag_pool hJ hN ha hp h
  constructor
  · intro he
    rcases C06_exit_reason (cfg := narpCfg hc yc T R snap) hJ h.reach he with ⟨_, h1⟩ | ⟨h1, _⟩
    · exact hf.1 h1
    · cases h1
  · intro ev s' hs hne
    obtain ⟨k, q, hI⟩ := reach_inv (cfg := narpCfg hc yc T R snap) hJ.lo hJ.hi h.reach
    have h1 := hJ.lo
    have h2 := hJ.hi
    obtain ⟨_, _, _, _, _, _, hR1, _⟩ := inv_next (cfg := narpCfg hc yc T R snap)
      (by show 0 < hc.JSTEP; linarith) (by show hc.JSTEP < 8760; linarith) hI hs
    by_contra hcon
    refine hR1 (hf.2 ⟨hne, ?_⟩)
    by_cases hlt : 8760 * (evs.length : ℚ) < yc.FINISH
    · right
      by_contra hc'
      exact hcon ⟨hlt, hc'⟩
    · left; exact not_lt.1 hlt

/-- No earlier year end had a reason to stop. -/
theorem pool_first (hJ : StepOK hc.JSTEP) (hN : yc.NFCST ≤ 5) (ha : yc.KWHERE ≠ 1) (hp : yc.KVTYPE = 1)
    (h : Ends hc yc T R snap (narpInit hc.JSTEP m (worldInit g0 l0 net I A)) log s evs) :
    ∀ k, 1 ≤ k → k < evs.length → 8760 * (k : ℚ) < yc.FINISH ∧
      ¬ Converged yc.CVTEST (changes ((evs.take k).map (annualStat yc none))) := by
  induction h with
  | start => intro k _ h2; simp at h2
  | @year log s evs ev s' he hs hk ih =>
    intro k k1 k2
    have k2' : k < evs.length + 1 := by simpa using k2
    rw [List.take_append_of_le_length (by omega)]
    rcases Nat.lt_or_ge k evs.length with hlt | hge
    · exact ih k k1 hlt
    · have e : k = evs.length := by omega
      subst e
      rw [List.take_length]
      exact (pool_exit hJ hN ha hp he).2 ev s' hs (fun h0 => by rw [h0] at k1; simp at k1)
  | @other log s evs ev s' he hs hk ih => exact ih

end Runs

variable {n m l : ℕ} {sl : ℕ → ℚ → ℚ} {fuel : ℕ} {c : Cards n m l} {s : Setup n m l}

/-- C84 (what happens, from the cards). A run tested on a statistic of the pool averaged over the forecast tiers ends after
the first year at which the horizon of the cards is reached or the *changes* of the statistic from year to year satisfy the
convergence rule. (`_partial`: it should be the values, not their changes.) -/
theorem C84_cards_partial (h : setup sl fuel c = .ok s) (hstep : c.misc.JSTEP = 1 ∨ c.misc.JSTEP = 24)
    (hfreq : c.misc.JFREQ = 1) (hF : 1 ≤ c.misc.FINISH) (ha : c.misc.KWHERE ≠ 1)
    (hp : c.misc.KVTYPE = 1) (JSEED : ℤ) {log : List Ev} {st : St _}
    (hr : Reach s.cfg (s.start JSEED) log st) :
    ∃ years cur, History s.hour s.year s.JPLOUT s.RATES snapNet (s.start JSEED) log st years cur ∧
      (∀ k, 1 ≤ k → k < years.length → (k : ℤ) < c.misc.FINISH ∧
        ¬ Converged c.misc.CVTEST (changes (chosenYears c none (years.take k)))) ∧
      (∀ e, step s.cfg st = .ok (.exit e) → cur = [] ∧ years ≠ [] ∧
        (c.misc.FINISH = years.length ∨ Converged c.misc.CVTEST (changes (chosenYears c none years)))) ∧
      (∀ ev st', step s.cfg st = .ok (.next ev st') → years ≠ [] → (years.length : ℤ) < c.misc.FINISH ∧
        ¬ Converged c.misc.CVTEST (changes (chosenYears c none years))) := by
  obtain ⟨hJs, hFin, hCV, hKW, _, _, hKT, hKL, _⟩ := C72_settings h JSEED
  have hJ : StepOK s.hour.JSTEP := by
    rw [hJs]
    rcases hstep with e | e <;> rw [e]
    · left; norm_num
    · right; norm_num
  have hJF : s.hour.JFREQ = 1 := by
    obtain ⟨wr, raw, T, ITAB, ID', hw, _, _, _, _, rfl⟩ := setup_ok h
    exact hfreq
  obtain ⟨_, hNF, hNR⟩ := setup_tiers h
  obtain ⟨_, _, _, _, _, _, hmx⟩ := C64_loads h
  have hN5 : s.year.NFCST ≤ 5 := by rw [hNF]; unfold tiersOf; split_ifs <;> norm_num
  have hNN : s.year.NORR.val < s.year.NFCST := by
    rw [hNF, hNR]; unfold tiersOf meanTier; split_ifs <;> norm_num
  have ha' : s.year.KWHERE ≠ 1 := by rw [hKW]; exact ha
  have hp' : s.year.KVTYPE = 1 := by rw [hKT]; exact hp
  obtain ⟨evs, hE1⟩ := ends_of_reach hr
  obtain ⟨done, cur, hh, hlen, _, hold, _, _⟩ := ends_history hJ hJF (fun _ d hd => by have := (hmx d).2.1; omega) hE1
  have hch := ends_chosen h none hlen hold
  have hfirst := pool_first hJ hN5 ha' hp' hE1
  have hc33 := pool_exit hJ hN5 ha' hp' hE1
  rw [hCV, hFin, hch] at hc33
  have hfin : ∀ k : ℕ, 8760 * (k : ℚ) < 8760 * (c.misc.FINISH : ℚ) ↔ (k : ℤ) < c.misc.FINISH := by
    intro k
    rw [mul_lt_mul_iff_right₀ (by norm_num)]
    exact_mod_cast Iff.rfl
  have hfirst' : ∀ k, 1 ≤ k → k < done.length → (k : ℤ) < c.misc.FINISH ∧
        ¬ Converged c.misc.CVTEST (changes (chosenYears c none (done.take k))) := by
    intro k k1 k2
    have := hfirst k k1 (by omega)
    rw [hCV, hFin, hfin, List.map_take, hch] at this
    rw [chosen_take]
    exact this
  refine ⟨done, cur, hh, hfirst', ?_, ?_⟩
  · intro e he
    have hR := exit_flag (Y := c.misc.FINISH.toNat) hJ (by omega) (by
      rw [hFin]
      have : ((c.misc.FINISH.toNat : ℤ) : ℚ) = c.misc.FINISH := by rw [Int.toNat_of_nonneg (by omega)]
      rw [← this]; push_cast; rfl) hE1 he
    have hf := (rflag_pool hJ hN5 ha' hp' hE1).1 hR
    rw [hCV, hFin, hch] at hf
    obtain ⟨hne, hf⟩ := hf
    have hd : done ≠ [] := by intro e0; rw [e0] at hlen; exact hne (List.eq_nil_of_length_eq_zero hlen.symm)
    refine ⟨(history_cur hJ hh).2 hR, hd, ?_⟩
    rcases hf with hf | hf
    · left
      have h1 : ¬ ((evs.length : ℤ) < c.misc.FINISH) := by
        rw [← hfin]; exact not_lt.2 hf
      rw [hlen]
      by_contra hne'
      have hpos : 0 < done.length := List.length_pos_iff.2 hd
      rcases Nat.lt_or_ge 1 done.length with h2 | h2
      · have := (hfirst' (done.length - 1) (by omega) (by omega)).1
        omega
      · omega
    · exact .inr hf
  · intro ev st' hs hne
    have := hc33.2 ev st' hs (fun h0 => hne (by rw [h0] at hlen; exact List.eq_nil_of_length_eq_zero hlen))
    rw [hfin, ← hlen] at this
    exact this

/-! ## A run -/

/-- The always short study, tested on the hours of the pool with a tolerance of 5 %, for at most ten years. -/
def poolCards : Cards 1 4 1 := { scarceCards with misc := { scarceCards.misc with KWHERE := 2 } }

theorem pool_one : OneCard poolCards := ⟨scarce_one.areas, scarce_one.units⟩

theorem pool_known : AllKnown poolCards := by
  constructor
  · intro i; fin_cases i <;> simp [poolCards, scarceCards, demoCards]
  · intro i; exact ⟨0, by fin_cases i; rfl⟩
  · intro i; exact ⟨1, by fin_cases i; rfl⟩
  · intro x hx; cases hx
  · intro x hx; cases hx
  · intro x hx; cases hx

theorem pool_sensible : Sensible poolCards := ⟨scarce_sensible.cap, scarce_sensible.dur, scarce_sensible.apart⟩

theorem pool_lone : NoLone poolCards := scarce_lone

theorem pool_ok (sl : ℕ → ℚ → ℚ) (fuel : ℕ) : ∃ s, setup sl fuel poolCards = .ok s ∧ Scarce poolCards s.hour.HRLOAD := by
  obtain ⟨raw, h, r0, r1⟩ := flat_read
  obtain ⟨s, hs⟩ := C64_accepted (c := poolCards) sl fuel pool_one (by norm_num) pool_known pool_sensible
    pool_lone.once ⟨raw, h⟩ rfl rfl
  refine ⟨s, hs, ?_⟩
  have hread : leeiRead (1 + 1) poolCards.leei = .ok raw := h
  have hpk : ∀ j, 0 < (poolCards.areas j).peak := by
    intro j; fin_cases j <;> simp [poolCards, scarceCards]
  have hflat : ∀ j : Fin 2, ∀ h < 8760, 5 ≤ raw j h ∧ ∀ h' < 8760, raw j h = raw j h' := by
    intro j h hh
    fin_cases j
    · refine ⟨?_, fun h' hh' => ?_⟩
      · show 5 ≤ raw 0 h; rw [r0 h hh]
      · show raw 0 h = raw 0 h'; rw [r0 h hh, r0 h' hh']
    · refine ⟨?_, fun h' hh' => ?_⟩
      · show 5 ≤ raw 1 h; rw [r1 h hh]; norm_num
      · show raw 1 h = raw 1 h'; rw [r1 h hh, r1 h' hh']
  intro j t h hh season
  obtain ⟨x, hx, hx0, _, hv⟩ := loads_scaled hs hread j (hpk j) (fun h hh => by have := (hflat j h hh).1; linarith)
    ⟨0, by norm_num, by have := (hflat j 0 (by norm_num)).1; linarith⟩
  have hload : s.hour.HRLOAD j h = (poolCards.areas j).peak := by
    rw [hv, (hflat j h hh).2 x hx]
    field_simp
  have hsum : ∑ i ∈ unitsIn poolCards j, (poolCards.units i).cap (season i) ≤ 400 := by
    have hcap : ∀ i, 0 ≤ (poolCards.units i).cap (season i) ∧ (poolCards.units i).cap (season i) ≤ 100 := by
      intro i; fin_cases i <;> simp [poolCards, scarceCards, demoCards] <;> norm_num
    calc _ ≤ ∑ i, (poolCards.units i).cap (season i) :=
          Finset.sum_le_univ_sum_of_nonneg fun i => (hcap i).1
      _ ≤ ∑ _i : Fin 4, (100 : ℚ) := Finset.sum_le_sum fun i _ => (hcap i).2
      _ = 400 := by simp; norm_num
  have hf : forecast (poolCards.areas j).lfu t = 1 := by
    fin_cases j <;> simp [poolCards, scarceCards, forecast]
  have hp : 900 ≤ (poolCards.areas j).peak := by
    fin_cases j <;> simp [poolCards, scarceCards]; norm_num
  rw [hload, hf]
  linarith

/-- C84 (refuted in a run). The pool is short for 8760 hours in every year; after the fifth year (standard error 0) the run
should end, as it does when the same statistic is asked of area A (C72_concrete_refuted). It goes on to the horizon of ten
years, although the values of the statistic have converged from the fifth year on. -/
theorem C84_run_refuted (sl : ℕ → ℚ → ℚ) (fuel : ℕ) (JSEED : ℤ) : ∃ (s : Setup 1 4 1) (log : List Ev) (st : St _)
    (e : Exit) (years : List (List (DrawLog 2))), setup sl fuel poolCards = .ok s ∧
    Reach s.cfg (s.start JSEED) log st ∧ step s.cfg st = .ok (.exit e) ∧
    History s.hour s.year s.JPLOUT s.RATES snapNet (s.start JSEED) log st years [] ∧ years.length = 10 ∧
    chosenYears poolCards none years = List.replicate 10 8760 ∧
    ∀ k, 5 ≤ k → k ≤ 10 → Converged poolCards.misc.CVTEST (chosenYears poolCards none (years.take k)) := by
  obtain ⟨s, hs, hsc⟩ := pool_ok sl fuel
  have hlfu : ∀ j, (poolCards.areas j).lfu = 0 := by intro j; fin_cases j <;> rfl
  have h1t : tiersOf poolCards = 1 := by
    unfold tiersOf
    rw [if_neg (by simpa using hlfu)]
  have hJs : s.hour.JSTEP = 1 := by
    have := (C72_settings hs JSEED).1
    rw [this]
    show (((1 : ℤ)) : ℚ) = 1
    norm_num
  have hJ : StepOK s.hour.JSTEP := .inl hJs
  have hE : 20 ≤ poolCards.misc.MAXEUE := by simp [poolCards, scarceCards, demoCards]; norm_num
  have hd : ∀ i, 0 ≤ (poolCards.units i).der ∧ (poolCards.units i).der ≤ 100 := scarce_derating
  obtain ⟨log, st, e, hr, he, _⟩ := C43_cards_partial pool_one pool_sensible pool_lone hd hs (.inl rfl)
    rfl (.inl rfl) hE (by simp [poolCards]) hsc JSEED
  obtain ⟨years, cur, hh, _, hexit, _⟩ := C84_cards_partial hs (.inl rfl) rfl (by simp [poolCards, scarceCards, demoCards])
    (by simp [poolCards]) (by simp [poolCards, scarceCards, demoCards]) JSEED hr
  obtain ⟨rfl, hne, hx⟩ := hexit e he
  have hL : ∀ ds ∈ years, (ds.length : ℚ) = 8760 := by
    intro ds hds
    have := (history_full hJ hh).2 ds hds
    rw [hJs] at this
    linarith
  have hall := (history_scarce pool_one pool_sensible hd hs hJ hsc h1t JSEED hh).1
  have hch : chosenYears poolCards none years = List.replicate years.length 8760 := by
    rw [List.eq_replicate_iff]
    refine ⟨by simp [chosenYears], fun x hx => ?_⟩
    unfold chosenYears at hx
    obtain ⟨y, hy, rfl⟩ := List.mem_map.1 hx
    have hy' : y < years.length := List.mem_range.1 hy
    have hmem : years.getD y [] ∈ years := by
      rw [List.getD_eq_getElem?_getD, List.getElem?_eq_getElem hy']
      exact List.getElem_mem hy'
    simp only [h1t]
    rw [if_pos (show poolCards.misc.KVTYPE = 1 from rfl), weighted_one]
    unfold yearValue
    rw [if_neg (show ¬ CarriedBy poolCards none 0 from id), add_zero]
    show poolHoursIn 0 (years.getD y []) = 8760
    rw [(hours_allShort (hall _ hmem) 0).2, hL _ hmem]
  have h10 : years.length = 10 := by
    rcases hx with hx | hx
    · have : (10 : ℤ) = years.length := hx
      omega
    · rw [hch] at hx
      exact absurd hx (constant_changes 8760 (by norm_num) _ _ (by simp [poolCards, scarceCards, demoCards]; norm_num))
  refine ⟨s, log, st, e, years, hs, hr, he, hh, h10, by rw [hch, h10], fun k k1 k2 => ?_⟩
  rw [chosen_take, hch, List.take_replicate, Nat.min_eq_left (by omega)]
  exact converged_const (by simp [poolCards, scarceCards, demoCards]) (by norm_num) k1

end Narp.Props
