import Verif.Props.CardStop

/-!
# C82: the pool's weighted totals in a run

Of the pool's statistics the report gets, weighted over the forecast tiers, those of the last year only, for every input;
a run of five years in which the pool is short in every hour of every year ends with a total of 8760 hours.
-/

namespace Narp.Props
open Narp Narp.Spec BigOperators

variable {n m l : ℕ} {sl : ℕ → ℚ → ℚ} {fuel : ℕ} {c : Cards n m l} {s : Setup n m l}

/-- C82 (what happens). Whenever a run of an accepted input ends, the pool's weighted totals given to the report are the
hours, the energy and the days of the last simulated year alone. (`_partial`: they should be the sums over all years.) -/
theorem C82_totals_partial (h : setup sl fuel c = .ok s) (hstep : c.misc.JSTEP = 1 ∨ c.misc.JSTEP = 24)
    (hfreq : c.misc.JFREQ = 1) (hF : 1 ≤ c.misc.FINISH) (JSEED : ℤ) {log : List Ev} {st : St _}
    (hr : Reach s.cfg (s.start JSEED) log st) {e : Exit} (he : step s.cfg st = .ok (.exit e)) :
    ∃ years last r, History s.hour s.year s.JPLOUT s.RATES snapNet (s.start JSEED) log st years [] ∧
      years.getLast? = some last ∧ st.world.y.rep = some r ∧
      r.WH.SWLS = weighted (tiersOf c) (fun t => poolHoursIn t last) ∧
      r.WH.SWNS = weighted (tiersOf c) (fun t => poolEnergyIn t last) ∧
      r.WP.SWLS = weighted (tiersOf c) (fun t => poolDaysIn t last) := by
  have hJs : s.hour.JSTEP = c.misc.JSTEP := (C72_settings h JSEED).1
  have hJ : StepOK s.hour.JSTEP := by
    rw [hJs]
    rcases hstep with e | e <;> rw [e]
    · left; norm_num
    · right; norm_num
  have hJF : s.hour.JFREQ = 1 := by
    obtain ⟨wr, raw, T, ITAB, ID', hw, _, _, _, _, rfl⟩ := setup_ok h
    exact hfreq
  obtain ⟨_, hFin, _⟩ := C72_settings h JSEED
  obtain ⟨_, hNF, _⟩ := setup_tiers h
  obtain ⟨raw, hraw, _, hld, _, _, hmx⟩ := C64_loads h
  obtain ⟨evs, hE1⟩ := ends_of_reach hr
  have hR := exit_flag (Y := c.misc.FINISH.toNat) hJ (by omega) (by
    rw [hFin]
    have : ((c.misc.FINISH.toNat : ℤ) : ℚ) = c.misc.FINISH := by rw [Int.toNat_of_nonneg (by omega)]
    rw [← this]; push_cast; rfl) hE1 he
  obtain ⟨evs0, ev, r, hev, hrun, hrep⟩ := ends_report hJ hE1 hR
  obtain ⟨_, hclk, _, hwh, _, _⟩ := ends_inv hJ hE1
  obtain ⟨done, cur, hh, hlen, _, hold, _, _⟩ := ends_history hJ hJF (fun _ d hd => by have := (hmx d).2.1; omega) hE1
  obtain ⟨_, hcur⟩ := history_cur hJ hh
  have hcur := hcur hR
  subst hcur
  subst hev
  have hN5 : s.year.NFCST ≤ 5 := by rw [hNF]; unfold tiersOf; split_ifs <;> norm_num
  have hlast : (evs0 ++ [ev])[evs0.length]? = some ev := by simp
  have hdl : done.length = evs0.length + 1 := by simpa using hlen
  have hget : done.getLast? = some (done.getD evs0.length []) := by
    rw [List.getLast?_eq_getElem?, hdl, Nat.add_sub_cancel, List.getD_eq_getElem?_getD,
      List.getElem?_eq_getElem (by omega)]
    rfl
  obtain ⟨oH, oP⟩ := hold _ _ hlast
  obtain ⟨wH, wP⟩ := hwh ev (by simp)
  obtain ⟨_, hWH, hWP, _⟩ := hrun.facts hclk
  refine ⟨done, _, r, hh, hget, hrep, ?_, ?_, ?_⟩
  · rw [hWH]; simp only [poolW, zero_add]
    rw [weighted_sumTG wH.LOLTP wH.LOLGP hN5, weighted_congr fun t ht => oH.lp t ht, hNF]
  · rw [hWH]; simp only [poolW, zero_add]
    rw [weighted_sumTG wH.MGNTP wH.MGNGP hN5, weighted_congr fun t ht => oH.ep t ht, hNF]
  · rw [hWP]; simp only [poolW, zero_add]
    rw [weighted_sumTG wP.LOLTP wP.LOLGP hN5, weighted_congr fun t ht => oP.lp t ht, hNF]

/-- The concrete study is short in every hour of every year, and runs for five years. -/
theorem scarce_years5 (sl : ℕ → ℚ → ℚ) (fuel : ℕ) (JSEED : ℤ) : ∃ s, setup sl fuel scarceCards = .ok s ∧
    (∃ log st e, Reach s.cfg (s.start JSEED) log st ∧ step s.cfg st = .ok (.exit e)) ∧
    ∀ log st e, Reach s.cfg (s.start JSEED) log st → step s.cfg st = .ok (.exit e) →
      ∀ years, History s.hour s.year s.JPLOUT s.RATES snapNet (s.start JSEED) log st years [] →
        years.length = 5 ∧ ∀ ds ∈ years, poolHoursIn 0 ds = 8760 := by
  obtain ⟨s, hs, hsc⟩ := scarce_ok sl fuel
  have hlfu : ∀ j, (scarceCards.areas j).lfu = 0 := by intro j; fin_cases j <;> rfl
  have h1t : tiersOf scarceCards = 1 := by
    unfold tiersOf
    rw [if_neg (by simpa using hlfu)]
  have hJs : s.hour.JSTEP = 1 := by
    have := (C72_settings hs JSEED).1
    rw [this]
    show (((1 : ℤ)) : ℚ) = 1
    norm_num
  have hJ : StepOK s.hour.JSTEP := .inl hJs
  have hE : 20 ≤ scarceCards.misc.MAXEUE := by simp [scarceCards, demoCards]; norm_num
  obtain ⟨log0, st0, e0, hr0, he0, _⟩ := C43_cards_partial scarce_one scarce_sensible scarce_lone scarce_derating hs (.inl rfl)
    rfl (.inl rfl) hE (by simp [scarceCards, demoCards]) hsc JSEED
  refine ⟨s, hs, ⟨log0, st0, e0, hr0, he0⟩, ?_⟩
  intro log st e hr he years hh
  obtain ⟨years', cur', hh', hfirst, hexit, _⟩ := C33_cards hs (.inl rfl) rfl (by simp [scarceCards, demoCards]) (some 0)
    ⟨rfl, rfl⟩ (.inl rfl) JSEED hr
  have hlen : years.length = years'.length := by
    rw [(history_full hJ hh).1.1, (history_full hJ hh').1.1]
  have full : ∀ ys cur, History s.hour s.year s.JPLOUT s.RATES snapNet (s.start JSEED) log st ys cur →
      ∀ ds ∈ ys, (ds.length : ℚ) = 8760 := by
    intro ys cur hy ds hds
    have := (history_full hJ hy).2 ds hds
    rw [hJs] at this
    linarith
  have hall := (history_scarce scarce_one scarce_sensible scarce_derating hs hJ hsc h1t JSEED hh).1
  have hall' := (history_scarce scarce_one scarce_sensible scarce_derating hs hJ hsc h1t JSEED hh').1
  have hch : chosenYears scarceCards (some 0) years' = List.replicate years'.length 8760 := by
    have := annual_scarce years' hall' 8760 (full years' cur' hh') 0
    simp only [if_true] at this
    rw [List.map_const', List.length_range] at this
    rw [← this]
    unfold chosenYears annualC
    refine List.map_congr_left fun y _ => ?_
    simp only [h1t]
    rfl
  refine ⟨?_, fun ds hds => ?_⟩
  · obtain ⟨_, hne', hx⟩ := hexit e he
    have hge : 5 ≤ years'.length := by
      rcases hx with hx | hx
      · have : (10 : ℤ) = years'.length := hx
        omega
      · rw [hch] at hx
        simpa using hx.1
    rw [hlen]
    by_contra hne5
    have := (hfirst 5 (by norm_num) (by omega)).2
    rw [chosen_take, hch, List.take_replicate, Nat.min_eq_left hge] at this
    exact this (converged_const (by simp [scarceCards, demoCards]) (by norm_num) le_rfl)
  · have := (hours_allShort (hall ds hds) 0).2
    rw [full years [] hh ds hds] at this
    exact this

/-- C82 (refuted in a run). Two areas, always short: the run ends after five years, in each of which the pool was short for
8760 hours, 43800 in all; the pool's weighted total given to the report is 8760. -/
theorem C82_run_refuted (sl : ℕ → ℚ → ℚ) (fuel : ℕ) (JSEED : ℤ) : ∃ (s : Setup 1 4 1) (log : List Ev) (st : St _)
    (e : Exit) (years : List (List (DrawLog 2))) (r : RepIn 2), setup sl fuel scarceCards = .ok s ∧
    Reach s.cfg (s.start JSEED) log st ∧ step s.cfg st = .ok (.exit e) ∧ st.world.y.rep = some r ∧
    History s.hour s.year s.JPLOUT s.RATES snapNet (s.start JSEED) log st years [] ∧
    years.map (fun ds => weighted (tiersOf scarceCards) fun t => poolHoursIn t ds) = List.replicate 5 8760 ∧
    (years.map fun ds => weighted (tiersOf scarceCards) fun t => poolHoursIn t ds).sum = 43800 ∧ r.WH.SWLS = 8760 := by
  obtain ⟨s, hs, ⟨log, st, e, hr, he⟩, hfive⟩ := scarce_years5 sl fuel JSEED
  obtain ⟨years, last, r, hh, hl, hrep, hw, _, _⟩ := C82_totals_partial hs (.inl rfl) rfl
    (by simp [scarceCards, demoCards]) JSEED hr he
  obtain ⟨h5, hp⟩ := hfive log st e hr he years hh
  have h1t : tiersOf scarceCards = 1 := by
    unfold tiersOf
    rw [if_neg]
    rintro ⟨j, hj⟩
    revert hj
    fin_cases j <;> simp [scarceCards, demoCards]
  have hm : years.map (fun ds => weighted (tiersOf scarceCards) fun t => poolHoursIn t ds) = List.replicate 5 8760 := by
    rw [List.eq_replicate_iff]
    refine ⟨by simpa using h5, fun x hx => ?_⟩
    obtain ⟨ds, hds, rfl⟩ := List.mem_map.1 hx
    rw [h1t, weighted_one, hp ds hds]
  refine ⟨s, log, st, e, years, r, hs, hr, he, hrep, hh, hm, ?_, ?_⟩
  · rw [hm]; norm_num [List.sum_replicate]
  · rw [hw, h1t, weighted_one, hp last (List.mem_of_getLast? hl)]

end Narp.Props
