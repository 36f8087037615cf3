import Verif.Props.CardBalance

/-!
# C71 and C104 apply in daily mode
-/

namespace Narp.Props
open Narp Narp.Spec BigOperators

/-- The input of `scarceCards` with daily steps. -/
def dailyCards : Cards 1 4 1 := { scarceCards with misc := { scarceCards.misc with JSTEP := 24 } }

theorem daily_one : OneCard dailyCards := ⟨scarce_one.areas, scarce_one.units⟩

theorem daily_known : AllKnown dailyCards := by
  constructor
  · intro i; fin_cases i <;> simp [dailyCards, scarceCards, demoCards]
  · intro i; exact ⟨0, by fin_cases i; rfl⟩
  · intro i; exact ⟨1, by fin_cases i; rfl⟩
  · intro x hx; cases hx
  · intro x hx; cases hx
  · intro x hx; cases hx

theorem daily_sensible : Sensible dailyCards :=
  ⟨(demo_sensible 1 (-100) 50).cap, (demo_sensible 1 (-100) 50).dur, (demo_sensible 1 (-100) 50).apart⟩

theorem daily_lone : NoLone dailyCards := demo_lone 1 (-100) 50

theorem daily_network : SoundNetwork dailyCards :=
  ⟨scarce_network.1, scarce_network.2, scarce_network.3, scarce_network.4⟩

theorem daily_ok (sl : ℕ → ℚ → ℚ) (fuel : ℕ) : ∃ s, setup sl fuel dailyCards = .ok s ∧ Scarce dailyCards s.hour.HRLOAD := by
  obtain ⟨raw, h, r0, r1⟩ := flat_read
  obtain ⟨s, hs⟩ := C64_accepted (c := dailyCards) sl fuel daily_one (by norm_num) daily_known daily_sensible
    daily_lone.once ⟨raw, h⟩ rfl rfl
  refine ⟨s, hs, ?_⟩
  obtain ⟨s0, hs0, hsc⟩ := scarce_ok sl fuel
  have : s.hour.HRLOAD = s0.hour.HRLOAD := by
    obtain ⟨wr, raw1, T, ITAB, ID', _, _, _, hr1, _, rfl⟩ := setup_ok hs
    obtain ⟨wr', raw2, T', ITAB', ID'', _, _, _, hr2, _, rfl⟩ := setup_ok hs0
    have e : raw1 = raw2 := Except.ok.inj (hr1.symm.trans hr2)
    subst e
    rfl
  rw [this]
  exact hsc

/-- Non-vacuity of C71 and C104 in daily mode: all their hypotheses are met at every draw of the first year of the run
of this input (day `d` ends at hour `24 d`), what is recorded balances, and it is most of the 1900 MW of load. -/
theorem C104_applies_daily (sl : ℕ → ℚ → ℚ) (fuel : ℕ) (JSEED : ℤ) (d : ℕ) (hd1 : 1 ≤ d) (hd2 : d ≤ 364) :
    ∃ (s : Setup 1 4 1) (raw : ℕ → ℕ → ℚ) (log : List Ev) (st st' : St _) (ev : Ev) (season : Fin 4)
      (load : Fin 2 → ℕ → ℚ) (H : ℕ) (q : Fin 1 → Fin 6) (hist : List (Fin 5 × (Fin 2 → ℚ))) (isPeak : Bool),
      setup sl fuel dailyCards = .ok s ∧ leeiRead 2 dailyCards.leei = .ok raw ∧
      Reach s.cfg (s.start JSEED) log st ∧ step s.cfg st = .ok (.next ev st') ∧
      ev.kind = 1 ∧ ev.time = ((8760 * 0 + 24 * d : ℕ) : ℚ) ∧
      (∀ j : Fin 2, Scaled (raw j) (dailyCards.areas j).peak (load j)) ∧ Evaluated 24 load (24 * d) H ∧
      Recorded hist isPeak st.world.h st'.world.h ∧
      (∀ e ∈ hist, ∃ F, BooksBalance twoLP (fun k => ratingUsed ((dailyCards.lines k).cap (q k)))
        (fun k => ratingUsed ((dailyCards.lines k).capr (q k))) (fun j => (dailyCards.areas j).flowLimit)
        (fun j => ∑ i ∈ unitsIn dailyCards j, outcome (dailyCards.units i) (variate (st'.world.h.IGSEED i)) *
          (dailyCards.units i).cap season * (if offInHour (dailyCards.units i) (8760 * 0 + 24 * d) then 0 else 1))
        (fun j => load j H * forecast (dailyCards.areas j).lfu e.1) e.2 F) ∧
      1498 ≤ (st'.world.h.H.MGNTP 0 + st'.world.h.H.MGNGP 0) - (st.world.h.H.MGNTP 0 + st.world.h.H.MGNGP 0) := by
  obtain ⟨s, hs, hsc⟩ := daily_ok sl fuel
  obtain ⟨raw, h, r0, r1⟩ := flat_read
  have hJs : s.hour.JSTEP = 24 := by rw [C64_step hs]; rfl
  have hJ : StepOK s.hour.JSTEP := .inr hJs
  have hJF : s.hour.JFREQ = 1 := by
    obtain ⟨wr, raw, T, ITAB, ID', hw, _, _, _, _, rfl⟩ := setup_ok hs
    rfl
  have hE : 20 ≤ dailyCards.misc.MAXEUE := by simp [dailyCards, scarceCards, demoCards]; norm_num
  obtain ⟨log0, st0, e, hr0, he, _⟩ := C43_cards_partial daily_one daily_sensible daily_lone scarce_derating hs (.inr rfl)
    rfl (.inl rfl) hE (by simp [dailyCards, scarceCards, demoCards]) hsc JSEED
  have hd : ((d : ℕ) : ℚ) ≤ 364 := by exact_mod_cast hd2
  obtain ⟨log, st, st', ev, hr, hst, hk, hT⟩ := draw_exists (cfg := s.cfg) hJ (by
      show (8760 : ℚ) ≤ s.year.FINISH
      obtain ⟨wr, raw, T, ITAB, ID', hw, _, _, _, _, rfl⟩ := setup_ok hs
      show (8760 : ℚ) ≤ ((10 : ℤ) : ℚ) * 8760
      norm_num) hr0 he d hd1 (by
      show (d : ℚ) * s.hour.JSTEP ≤ 8760
      rw [hJs]
      linarith)
  have hT : ev.time = ((8760 * 0 + 24 * d : ℕ) : ℚ) := by
    rw [hT]
    show (d : ℚ) * s.hour.JSTEP = _
    rw [hJs]; push_cast; ring
  have hLP : ∀ k : Fin 1, (dailyCards.areas (twoLP k).1).name = (dailyCards.lines k).src ∧
      (dailyCards.areas (twoLP k).2).name = (dailyCards.lines k).dst := by
    intro k; fin_cases k; exact ⟨rfl, rfl⟩
  obtain ⟨_, _, _, hld, _, _, hmx⟩ := C64_loads hs
  obtain ⟨w', hw'⟩ := hourBody_all_short
    { s.hour with transm := (hourTransm noRedispatch twoLP
        (fun k => dataxBLPA (dailyCards.lines k)) 0 dailyCards.misc.NLS) } (by norm_num) hJF
    (fun d hd => by have := (hmx d).2.1; show s.hour.MXPLHR d < 8760; omega)
    ev.time (fun i => st.RATING.getD i 0) (fun i => st.PLNDST.getD i 0) st.world.h (by
      intro day hr' hh t j
      obtain ⟨season, hcap⟩ := capacity_le daily_one daily_sensible scarce_derating hs hJ JSEED hr day
      have a := hcap j
      have b := hsc j t hr' hh season
      rw [← hld j t hr'] at b
      change (hourDraw s.hour day _ _ st.world.h).1.SYSCON j - findld t hr' s.hour.HRLOAD s.hour.FCTERR j ≤ -1
      linarith)
  have h5 : ∀ (j : Fin 2) (h : ℕ), h < 8760 → 5 ≤ raw j h := by
    intro j h hh
    fin_cases j
    · show 5 ≤ raw 0 h; rw [r0 h hh]
    · show 5 ≤ raw 1 h; rw [r1 h hh]; norm_num
  have hpos : ∀ (j : Fin 2) (h : ℕ), standsFor dailyCards.misc.JSTEP (24 * d) h → 0 < raw j h := by
    intro j h e
    have e : h / 24 = (24 * d - 1) / 24 := e
    have := h5 j h (by omega)
    linarith
  have hpk : ∀ j, 0 < (dailyCards.areas j).peak := by intro j; fin_cases j <;> simp [dailyCards, scarceCards]
  have hlfu : ∀ j, 0 ≤ (dailyCards.areas j).lfu ∧ (dailyCards.areas j).lfu < 40 := by
    intro j; fin_cases j <;> simp [dailyCards, scarceCards]
  have hnum : ∀ k, (dailyCards.lines k).number ≤ (1 : ℕ) := by simp [dailyCards, scarceCards, demoCards]
  obtain ⟨season, load, H, q, hist, _, hl, hev, _, ⟨isPeak, hrec⟩, hbal⟩ := C104_balance_partial daily_one daily_sensible
    daily_lone daily_network hs (.inr rfl) rfl (.inr rfl) hnum hlfu
    (by intro j; fin_cases j <;> simp [dailyCards, scarceCards]) h hpk (fun j h hh => by linarith [h5 j h hh])
    (fun j => ⟨0, by norm_num, by have := h5 j 0 (by norm_num); linarith⟩) JSEED hr hst hk 0 (24 * d) hT (by omega) (by omega)
    hpos hLP hw'
  refine ⟨s, raw, log, st, st', ev, season, load, H, q, hist, isPeak, hs, h, hr, hst, hk, hT, hl, hev, hrec, hbal, ?_⟩
  have hNF : 0 < s.hour.NFCST := by
    obtain ⟨_, _, _, _, ⟨_, hx⟩, _⟩ := C64_loads hs
    rcases hx with ⟨_, e, _⟩ | ⟨_, e, _⟩ <;> rw [e] <;> norm_num
  obtain ⟨season', load', H', _, hl', hev', m1, _⟩ := C71_energy_partial daily_one daily_sensible
    daily_lone daily_network hs (.inr rfl) rfl hnum hlfu h hpk (fun j h hh => by linarith [h5 j h hh])
    (fun j => ⟨0, by norm_num, by have := h5 j 0 (by norm_num); linarith⟩) JSEED hr hst hk 0 (24 * d) hT (by omega) (by omega)
    hpos hLP hw' 0 hNF
  have hflat : ∀ (j : Fin 2) (x : ℕ), x < 8760 → ∀ y < 8760, raw j x = raw j y := by
    intro j x hx y hy
    fin_cases j
    · show raw 0 x = raw 0 y; rw [r0 x hx, r0 y hy]
    · show raw 1 x = raw 1 y; rw [r1 x hx, r1 y hy]
  have hH : H' < 8760 := by
    have e : H' / 24 = (24 * d - 1) / 24 := hev'.1
    omega
  have hval : ∀ j : Fin 2, load' j H' = (dailyCards.areas j).peak := by
    intro j
    obtain ⟨x, hx, hx0, _, e⟩ := hl' j
    rw [e, hflat j H' hH x hx]
    field_simp
  have hcap : ∑ i, outcome (dailyCards.units i) (variate (st'.world.h.IGSEED i)) * (dailyCards.units i).cap season' *
      (if offInHour (dailyCards.units i) (8760 * 0 + 24 * d) then 0 else 1) ≤ ∑ _i : Fin 4, (100 : ℚ) := by
    refine Finset.sum_le_sum fun i _ => ?_
    have h1 : outcome (dailyCards.units i) (variate (st'.world.h.IGSEED i)) ≤ 1 ∧
        0 ≤ outcome (dailyCards.units i) (variate (st'.world.h.IGSEED i)) := by
      have := scarce_derating i
      have hd : 0 ≤ (dailyCards.units i).der ∧ (dailyCards.units i).der ≤ 100 := this
      unfold outcome
      split_ifs <;> constructor <;> linarith [hd.1, hd.2]
    have h2 : 0 ≤ (dailyCards.units i).cap season' ∧ (dailyCards.units i).cap season' ≤ 100 := by
      fin_cases i <;> simp [dailyCards, scarceCards, demoCards] <;> norm_num
    have h3 : outcome (dailyCards.units i) (variate (st'.world.h.IGSEED i)) * (dailyCards.units i).cap season' ≤ 100 := by
      nlinarith [h1.1, h1.2, h2.1, h2.2]
    split_ifs
    · rw [mul_zero]; norm_num
    · rw [mul_one]; exact h3
  have hlk := le_max_right 0 (∑ j, load' j H' * forecast (dailyCards.areas j).lfu 0 -
      ∑ i, outcome (dailyCards.units i) (variate (st'.world.h.IGSEED i)) * (dailyCards.units i).cap season' *
      (if offInHour (dailyCards.units i) (8760 * 0 + 24 * d) then 0 else 1))
  have hsum : ∑ j, load' j H' * forecast (dailyCards.areas j).lfu 0 = 1900 := by
    rw [Fin.sum_univ_two, hval, hval]
    simp [dailyCards, scarceCards, forecast]
    norm_num
  rw [hsum] at hlk m1
  have h400 : ∑ _i : Fin 4, (100 : ℚ) = 400 := by simp; norm_num
  push_cast at m1 hlk ⊢
  push_cast at hcap
  linarith

end Narp.Props
