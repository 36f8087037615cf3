import Verif.Spec.History
import Verif.Props.HourShort
import Verif.Props.Program
import Verif.Props.Report

/-!
# C72: from the draws of a run to its annual counters and to the report
-/

namespace Narp.Props
open Narp Narp.Spec BigOperators

variable {n m l : ℕ} {ν α : Type}

/-! ## The draws of a run -/

/-- What the draw at clock `C` records: `d.tiers` by the rule `HourTiers` with the deficits of the hour, `d.peak` if
the hour is the peak hour of the day. -/
def DrawOf (hc : HourIn n m l ν) (C : ℚ) (R P : Fin m → ℚ) (w : HourSt n m l ν) (net' : ν) (d : DrawLog n) : Prop :=
  ∃ y k : ℕ, k < 8760 ∧ C = 8760 * (y : ℚ) + (k : ℚ) ∧
    let day := hourOf k / 24
    let hr := if hc.JSTEP = 24 then hc.MXPLHR day else hourOf k
    HourTiers (deficit hc (hourDraw hc day R P w).1 hr) (assist hc (hourDraw hc day R P w).1 hr)
      ((List.finRange 5).take hc.NFCST) true w.net d.tiers net' ∧
    (d.peak = true ↔ hc.JSTEP = 24 ∨ (k : ℤ) - 1 = hc.MXPLHR day)

/-- Every draw that returns records such a thing, and the counters grow accordingly. -/
theorem drawOf_exists {hc : HourIn n m l ν} (hf : hc.JFREQ = 1) (hp : hc.JSTEP = 24 → ∀ d < 365, hc.MXPLHR d < 8760)
    {R P : Fin m → ℚ} {w w' : HourSt n m l ν} {T : ℕ} (h : hourBody hc (T : ℚ) R P w = .ok w') :
    ∃ d, DrawOf hc T R P w w'.net d ∧ Recorded d.tiers d.peak w w' := by
  have hT : (T : ℚ) = 8760 * ((T / 8760 : ℕ) : ℚ) + ((T % 8760 : ℕ) : ℚ) := by
    have := Nat.div_add_mod T 8760
    exact_mod_cast this.symm
  have hk : T % 8760 < 8760 := Nat.mod_lt _ (by norm_num)
  rw [hT] at h
  by_cases hs : hc.JSTEP = 24
  · obtain ⟨hist, h1, h2⟩ := C59_recorded_shortages_daily hc hs hf _ _ hk (hp hs) R P w w' h
    refine ⟨⟨hist, true⟩, ⟨_, _, hk, hT, ?_, by simp [hs]⟩, h2⟩
    simp only [hs, if_true]
    exact h1
  · obtain ⟨hist, h1, h2⟩ := C59_recorded_shortages hc hs hf _ _ hk R P w w' h
    refine ⟨⟨hist, _⟩, ⟨_, _, hk, hT, ?_, ?_⟩, h2⟩
    swap
    · rw [or_iff_right hs]; exact decide_eq_true_iff
    simp only [hs, if_false]
    exact h1

/-- Runs of the program with what their draws recorded: the years ended, and the current year so far. -/
inductive History (hc : HourIn n m l ν) (yc : YearIn) (T : List (List ℤ)) (R : List (List ℚ)) (snap : ν → α)
    (s₀ : St (World n m l ν α)) : List Ev → St (World n m l ν α) → List (List (DrawLog n)) → List (DrawLog n) → Prop
  | start : History hc yc T R snap s₀ [] s₀ [] []
  | draw {log s done cur ev s' d} : History hc yc T R snap s₀ log s done cur →
      step (narpCfg hc yc T R snap) s = .ok (.next ev s') → ev.kind = 1 →
      DrawOf hc ev.time (fun i => s.RATING.getD i 0) (fun i => s.PLNDST.getD i 0) s.world.h s'.world.h.net d →
      History hc yc T R snap s₀ (log ++ [ev]) s' done (cur ++ [d])
  | year {log s done cur ev s'} : History hc yc T R snap s₀ log s done cur →
      step (narpCfg hc yc T R snap) s = .ok (.next ev s') → ev.kind = 4 →
      History hc yc T R snap s₀ (log ++ [ev]) s' (done ++ [cur]) []
  | other {log s done cur ev s'} : History hc yc T R snap s₀ log s done cur →
      step (narpCfg hc yc T R snap) s = .ok (.next ev s') → ev.kind ≠ 1 → ev.kind ≠ 4 →
      History hc yc T R snap s₀ (log ++ [ev]) s' done cur

/-- The counter of area `j` in tier `t` keeps the earlier years: its row or column is beyond what the year end
clears. -/
def Carried (n N : ℕ) (j : Fin n) (t : Fin 5) : Prop := ¬ (j.val < N ∧ t.val < n)

instance (n N : ℕ) (j : Fin n) (t : Fin 5) : Decidable (Carried n N j t) := by unfold Carried; infer_instance

/-- The counters hold the statistics `a..` of the draws. -/
structure HoldsCnt (N : ℕ) (lole : Fin n → Fin 5 → List (DrawLog n) → ℚ) (eue : Fin n → Fin 5 → List (DrawLog n) → ℚ)
    (lp : Fin 5 → List (DrawLog n) → ℚ) (ep : Fin 5 → List (DrawLog n) → ℚ) (done : List (List (DrawLog n)))
    (cur : List (DrawLog n)) (c : Cnt n) : Prop where
  lole : ∀ j t, c.LOLTA j t + c.LOLGA j t = lole j t cur + if Carried n N j t then (done.map (lole j t)).sum else 0
  eue : ∀ j t, c.MGNTA j t + c.MGNGA j t = eue j t cur + if Carried n N j t then (done.map (eue j t)).sum else 0
  lp : ∀ t, t.val < N → c.LOLTP t + c.LOLGP t = lp t cur
  ep : ∀ t, t.val < N → c.MGNTP t + c.MGNGP t = ep t cur

theorem HoldsCnt.reset {N : ℕ} {lole : Fin n → Fin 5 → List (DrawLog n) → ℚ}
    {eue : Fin n → Fin 5 → List (DrawLog n) → ℚ} {lp : Fin 5 → List (DrawLog n) → ℚ}
    {ep : Fin 5 → List (DrawLog n) → ℚ} {done : List (List (DrawLog n))} {cur : List (DrawLog n)} {c : Cnt n}
    (h : HoldsCnt N lole eue lp ep done cur c) (h1 : ∀ j t, lole j t [] = 0) (h2 : ∀ j t, eue j t [] = 0)
    (h3 : ∀ t, lp t [] = 0) (h4 : ∀ t, ep t [] = 0) :
    HoldsCnt N lole eue lp ep (done ++ [cur]) [] (resetCnt N c) := by
  constructor
  · intro j t
    simp only [resetCnt, resetA]
    by_cases hc : j.val < N ∧ t.val < n
    · simp [hc, Carried, h1]
    · have := h.lole j t
      rw [if_neg hc, if_neg hc, this, h1, if_pos (show Carried n N j t from hc), if_pos (show Carried n N j t from hc)]
      simp; ring
  · intro j t
    simp only [resetCnt, resetA]
    by_cases hc : j.val < N ∧ t.val < n
    · simp [hc, Carried, h2]
    · have := h.eue j t
      rw [if_neg hc, if_neg hc, this, h2, if_pos (show Carried n N j t from hc), if_pos (show Carried n N j t from hc)]
      simp; ring
  · intro t ht; simp [resetCnt, resetP, ht, h3]
  · intro t ht; simp [resetCnt, resetP, ht, h4]

/-- The hourly counters. -/
abbrev HoldsH (N : ℕ) (done : List (List (DrawLog n))) (cur : List (DrawLog n)) (c : Cnt n) : Prop :=
  HoldsCnt N hoursIn energyIn poolHoursIn poolEnergyIn done cur c

/-- The counters of the daily peaks. -/
abbrev HoldsP (N : ℕ) (done : List (List (DrawLog n))) (cur : List (DrawLog n)) (c : Cnt n) : Prop :=
  HoldsCnt N daysIn peakEnergyIn poolDaysIn poolPeakEnergyIn done cur c

theorem holds_draw {N : ℕ} {done : List (List (DrawLog n))} {cur : List (DrawLog n)} {w w' : HourSt n m l ν}
    {d : DrawLog n} (h : HoldsH N done cur w.H ∧ HoldsP N done cur w.P) (hr : Recorded d.tiers d.peak w w') :
    HoldsH N done (cur ++ [d]) w'.H ∧ HoldsP N done (cur ++ [d]) w'.P := by
  obtain ⟨hH, hP⟩ := h
  constructor
  · constructor
    · intro j t; rw [hr.areaHours, hH.lole]; simp [hoursIn]; ring
    · intro j t; rw [hr.areaMWh, hH.eue]; simp [energyIn]; ring
    · intro t ht; rw [hr.poolHours, hH.lp t ht]; simp [poolHoursIn]
    · intro t ht; rw [hr.poolMWh, hH.ep t ht]; simp [poolEnergyIn]
  · constructor
    · intro j t; rw [hr.peakHours, hP.lole]; simp [daysIn]; ring
    · intro j t; rw [hr.peakMWh, hP.eue]; simp [peakEnergyIn]; ring
    · intro t ht; rw [hr.poolPeakHours, hP.lp t ht]; simp [poolDaysIn]
    · intro t ht; rw [hr.poolPeakMWh, hP.ep t ht]; simp [poolPeakEnergyIn]

section Runs

variable {hc : HourIn n m l ν} {yc : YearIn} {T : List (List ℤ)} {R : List (List ℚ)} {snap : ν → α}
  {g0 : Fin m → ℤ} {l0 : Fin l → ℤ} {net : ν} {I A : ℤ} {s s' : St (World n m l ν α)} {log : List Ev}
  {evs : List (YearEnd n α)} {ev : Ev}

/-- The clock of a draw is a whole number. -/
theorem draw_time_nat {σ : Type} {cfg : Cfg σ} (hJ : StepOK cfg.JSTEP) {N : ℕ} {w : σ} {log : List Ev} {s s' : St σ}
    {ev : Ev} (h : Reach cfg (narpInit cfg.JSTEP N w) log s) (hs : step cfg s = .ok (.next ev s')) (hk : ev.kind = 1) :
    ∃ T : ℕ, ev.time = T := by
  have h1 := C07_draw_times hJ (Reach.step h hs)
  have hmem : ev.time ∈ ((log ++ [ev]).filter fun e => e.kind = 1).map Ev.time :=
    List.mem_map_of_mem (by simp [hk])
  rw [h1] at hmem
  obtain ⟨k, _, hk'⟩ := List.mem_map.1 hmem
  rcases hJ with e | e
  · exact ⟨k + 1, by rw [← hk', e]; push_cast; ring⟩
  · exact ⟨(k + 1) * 24, by rw [← hk', e]; push_cast; ring⟩

/-- Every run has its history; the counters found by the year ends, and those of the current year, are the statistics
of the recorded draws. -/
theorem ends_history (hJ : StepOK hc.JSTEP) (hf : hc.JFREQ = 1) (hp : hc.JSTEP = 24 → ∀ d < 365, hc.MXPLHR d < 8760)
    (h : Ends hc yc T R snap (narpInit hc.JSTEP m (worldInit g0 l0 net I A)) log s evs) :
    ∃ done cur, History hc yc T R snap (narpInit hc.JSTEP m (worldInit g0 l0 net I A)) log s done cur ∧
      done.length = evs.length ∧ cur.length + (done.map List.length).sum = log.countP (fun e => e.kind = 1) ∧
      (∀ y e, evs[y]? = some e → HoldsH yc.NFCST (done.take y) (done.getD y []) e.H ∧
        HoldsP yc.NFCST (done.take y) (done.getD y []) e.P) ∧
      HoldsH yc.NFCST done cur s.world.h.H ∧ HoldsP yc.NFCST done cur s.world.h.P := by
  induction h with
  | start =>
    refine ⟨[], [], .start, rfl, rfl, by simp, ?_, ?_⟩
    · constructor <;> intros <;>
        simp [narpInit, worldInit, Cnt.zero, hoursIn, energyIn, poolHoursIn, poolEnergyIn]
    · constructor <;> intros <;>
        simp [narpInit, worldInit, Cnt.zero, daysIn, peakEnergyIn, poolDaysIn, poolPeakEnergyIn]
  | @year log s evs ev s' he hs hk ih =>
    obtain ⟨done, cur, i1, i2, i2', i3, i4, i5⟩ := ih
    have hr := he.reach
    rcases step_world (cfg := narpCfg hc yc T R snap) hJ hr hs with h | h | h
    · rw [hk] at h; norm_num at h
    · rw [hk] at h; norm_num at h
    obtain ⟨_, h⟩ := h
    simp only [narpCfg, yearWorld] at h
    cases hb : yearBody yc ev.time s'.cal (snap s.world.h.net) s.world.h.LSFLG s.world.h.H s.world.h.P
        s.world.y with
    | error x => rw [hb] at h; cases h
    | ok r =>
    rw [hb] at h
    simp only [Except.map, Except.ok.injEq, Prod.mk.injEq] at h
    obtain ⟨h, _⟩ := h
    have e1 : s'.world.h.H = r.1.1 := by rw [← h]
    have e2 : s'.world.h.P = r.1.2 := by rw [← h]
    obtain ⟨_, _, _, _, _, r1, r2, _⟩ := yearBody_ok (H' := r.1.1) (P' := r.1.2) (y' := r.2.1)
      (rf := r.2.2) hb
    refine ⟨done ++ [cur], [], .year i1 hs hk, by simp [i2], ?_, ?_, ?_, ?_⟩
    · rw [List.countP_append, ← i2']; simp [hk]; ring
    · intro y e hy
      rw [List.getElem?_append] at hy
      split_ifs at hy with hlt
      · have := i3 y e hy
        rw [List.take_append_of_le_length (by omega)]
        simp only [List.getD_eq_getElem?_getD] at this ⊢
        rw [List.getElem?_append_left (by omega)]
        exact this
      · have h0 : y - evs.length = 0 := by
          by_contra hne
          rw [List.getElem?_eq_none (by simp; omega)] at hy
          cases hy
        rw [h0] at hy
        simp only [List.length_cons, List.length_nil, Nat.zero_add, Nat.lt_add_one, List.getElem?_eq_getElem,
          List.getElem_cons_zero, Option.some.injEq] at hy
        have hy' : y = done.length := by omega
        subst hy hy'
        simp only [List.take_left, List.getD_eq_getElem?_getD, List.getElem?_concat_length, Option.getD_some]
        exact ⟨i4, i5⟩
    · rw [e1, r1]
      exact i4.reset (by simp [hoursIn]) (by simp [energyIn]) (by simp [poolHoursIn]) (by simp [poolEnergyIn])
    · rw [e2, r2]
      exact i5.reset (by simp [daysIn]) (by simp [peakEnergyIn]) (by simp [poolDaysIn]) (by simp [poolPeakEnergyIn])
  | @other log s evs ev s' he hs hk ih =>
    obtain ⟨done, cur, i1, i2, i2', i3, i4, i5⟩ := ih
    have hr := he.reach
    rcases step_world (cfg := narpCfg hc yc T R snap) hJ hr hs with ⟨hk1, h, _⟩ | ⟨hk1, h, _⟩ | ⟨h, _⟩
    · simp only [narpCfg, hourFx] at h
      cases hb : hourBody hc ev.time (fun i => s.RATING.getD i 0) (fun i => s.PLNDST.getD i 0) s.world.h with
      | error x => rw [hb] at h; cases h
      | ok w' =>
        rw [hb] at h
        simp only [Except.map, Except.ok.injEq] at h
        obtain ⟨Tn, hTn⟩ := draw_time_nat (cfg := narpCfg hc yc T R snap) hJ hr hs hk1
        rw [hTn] at hb
        obtain ⟨d, d1, d2⟩ := drawOf_exists hf hp hb
        have e1 : s'.world.h = w' := by rw [← h]
        have := holds_draw ⟨i4, i5⟩ d2
        rw [← e1] at this d1
        rw [← hTn] at d1
        refine ⟨done, cur ++ [d], .draw i1 hs hk1 d1, i2, ?_, i3, this.1, this.2⟩
        rw [List.countP_append, ← i2']; simp [hk1]; ring
    · have hne : ev.kind ≠ 1 := by rcases hk1 with e | e <;> rw [e] <;> norm_num
      rw [h]
      refine ⟨done, cur, .other i1 hs hne hk, i2, ?_, i3, i4, i5⟩
      rw [List.countP_append, ← i2']; simp [hne]
    · exact absurd h hk

/-! ## The end of a run -/

/-- When the stop flag is set, the last thing done was a year end, and it handed its report data over. -/
theorem ends_report (hJ : StepOK hc.JSTEP)
    (h : Ends hc yc T R snap (narpInit hc.JSTEP m (worldInit g0 l0 net I A)) log s evs) :
    s.RFLAG = 1 → ∃ evs0 e r, evs = evs0 ++ [e] ∧ RunEnds yc I A evs0 e r ∧ s.world.y.rep = some r := by
  induction h with
  | start => intro h; cases h
  | @year log s evs ev s' he hs hk ih =>
    intro hR
    obtain ⟨_, _, i3, _⟩ := ends_inv hJ he
    rcases step_world (cfg := narpCfg hc yc T R snap) hJ he.reach hs with h | h | h
    · rw [hk] at h; norm_num at h
    · rw [hk] at h; norm_num at h
    obtain ⟨_, h⟩ := h
    simp only [narpCfg, yearWorld] at h
    cases hb : yearBody yc ev.time s'.cal (snap s.world.h.net) s.world.h.LSFLG s.world.h.H s.world.h.P
        s.world.y with
    | error x => rw [hb] at h; cases h
    | ok r =>
    rw [hb] at h
    simp only [Except.map, Except.ok.injEq, Prod.mk.injEq] at h
    obtain ⟨h, h'⟩ := h
    have e3 : s'.world.y = r.2.1 := by rw [← h]
    obtain ⟨_, _, _, _, _, _, _, _, h9, _⟩ := yearBody_ok (H' := r.1.1) (P' := r.1.2) (y' := r.2.1)
      (rf := r.2.2) hb
    have hr1 : r.2.2 = 1 := by rw [h', hR]
    obtain ⟨rep, hrep, _⟩ := h9 (.inl hr1)
    exact ⟨evs, _, rep, rfl, ⟨_, r, i3, hb, .inl hr1, hrep⟩, by rw [e3]; exact hrep⟩
  | @other log s evs ev s' he hs hk ih =>
    intro hR
    obtain ⟨k, q, hI⟩ := reach_inv (cfg := narpCfg hc yc T R snap) hJ.lo hJ.hi he.reach
    have h1 := hJ.lo
    have h2 := hJ.hi
    obtain ⟨_, _, _, _, _, _, hR1, _⟩ := inv_next (cfg := narpCfg hc yc T R snap)
      (by show 0 < hc.JSTEP; linarith) (by show hc.JSTEP < 8760; linarith) hI hs
    rcases step_world (cfg := narpCfg hc yc T R snap) hJ he.reach hs with ⟨_, _, e⟩ | ⟨_, _, e⟩ | ⟨e, _⟩
    · exact absurd (e ▸ hR) hR1
    · exact absurd (e ▸ hR) hR1
    · exact absurd e hk

theorem cvchk_horizon (C F : ℚ) (y : ℤ) (tol S X Q : ℚ) (h : F ≤ C) : (cvchk C F y tol S X Q).1 = 1 := by
  unfold cvchk
  rw [if_pos h]
  simp only
  split_ifs <;> rfl

/-- From the year end at the horizon on, the stop flag is set. -/
theorem flag_at_horizon (hJ : StepOK hc.JSTEP)
    (h : Ends hc yc T R snap (narpInit hc.JSTEP m (worldInit g0 l0 net I A)) log s evs) :
    evs ≠ [] → yc.FINISH ≤ 8760 * (evs.length : ℚ) → s.RFLAG = 1 := by
  induction h with
  | start => intro h; exact absurd rfl h
  | @year log s evs ev s' he hs hk ih =>
    intro _ hF
    obtain ⟨hlen, _⟩ := ends_inv hJ he
    have ht := (C07_year_is_8760_hours (cfg := narpCfg hc yc T R snap) hJ he.reach hs hk).1
    rcases step_world (cfg := narpCfg hc yc T R snap) hJ he.reach hs with h | h | h
    · rw [hk] at h; norm_num at h
    · rw [hk] at h; norm_num at h
    obtain ⟨_, h⟩ := h
    simp only [narpCfg, yearWorld] at h
    cases hb : yearBody yc ev.time s'.cal (snap s.world.h.net) s.world.h.LSFLG s.world.h.H s.world.h.P
        s.world.y with
    | error x => rw [hb] at h; cases h
    | ok r =>
    rw [hb] at h
    simp only [Except.map, Except.ok.injEq, Prod.mk.injEq] at h
    obtain ⟨_, h'⟩ := h
    obtain ⟨_, _, _, _, _, _, _, ⟨SUM, _, hcv⟩, _⟩ := yearBody_ok (H' := r.1.1) (P' := r.1.2) (y' := r.2.1)
      (rf := r.2.2) hb
    rw [← h', show r.2.2 = _ from congrArg Prod.fst hcv]
    refine cvchk_horizon _ _ _ _ _ _ _ ?_
    rw [ht, ← hlen]
    simpa using hF
  | @other log s evs ev s' he hs hk ih =>
    intro hne hF
    obtain ⟨k, q, hI⟩ := reach_inv (cfg := narpCfg hc yc T R snap) hJ.lo hJ.hi he.reach
    have h1 := hJ.lo
    have h2 := hJ.hi
    obtain ⟨_, _, _, _, _, _, hR1, _⟩ := inv_next (cfg := narpCfg hc yc T R snap)
      (by show 0 < hc.JSTEP; linarith) (by show hc.JSTEP < 8760; linarith) hI hs
    exact absurd (ih hne hF) hR1

/-- With a horizon of at least one whole year, every run that ends ends by the stop flag. -/
theorem exit_flag (hJ : StepOK hc.JSTEP) {Y : ℕ} (hY : 1 ≤ Y) (hF : yc.FINISH = 8760 * (Y : ℚ))
    (h : Ends hc yc T R snap (narpInit hc.JSTEP m (worldInit g0 l0 net I A)) log s evs) {e : Exit}
    (he : step (narpCfg hc yc T R snap) s = .ok (.exit e)) : s.RFLAG = 1 := by
  by_contra hR
  obtain ⟨hlen, _⟩ := ends_inv hJ h
  obtain ⟨k, q, hI⟩ := reach_inv (cfg := narpCfg hc yc T R snap) hJ.lo hJ.hi h.reach
  obtain ⟨i, q0, c1, hq, _, _, hst⟩ := step_shape hI
  rw [hst, if_neg hR] at he
  split at he
  · rename_i hFi
    have hmem : occ hc.JSTEP 6 (k 6) ∈ q := by
      have : occ hc.JSTEP 6 (k 6) ∈ (q : Multiset Ev) := by
        rw [hI.pend]; exact Multiset.mem_map.2 ⟨6, Finset.mem_univ_val 6, rfl⟩
      simpa using this
    have hso := hI.holds.sorted
    rw [hq, List.pairwise_cons] at hso
    rw [hq] at hmem
    have hle : (occ hc.JSTEP i (k i)).time ≤ (occ hc.JSTEP 6 (k 6)).time := by
      rcases List.mem_cons.1 hmem with h | h
      · rw [h]; rfl
      · exact hso.1 _ h
    have h6 : (occ hc.JSTEP 6 (k 6)).time = 8760 + (k 6 : ℚ) * 8760 := by
      simp [occ, base, period]
    rw [log_count_four hI] at hlen
    have hgt : yc.FINISH + 1 < 8760 + (k 6 : ℚ) * 8760 := by
      rw [← h6]; exact lt_of_lt_of_le hFi hle
    rw [hF] at hgt
    have hYk : Y < k 6 + 1 := by
      have : (Y : ℚ) < k 6 + 1 := by linarith
      exact_mod_cast this
    refine hR (flag_at_horizon hJ h ?_ ?_)
    · intro h0; rw [h0] at hlen; simp at hlen; omega
    · rw [hF, hlen]
      have : (Y : ℚ) ≤ (k 6 : ℕ) := by exact_mod_cast Nat.lt_succ_iff.1 hYk
      linarith
  · cases hev : events (narpCfg hc yc T R snap) { s with cal := c1, CLOCK := (occ (narpCfg hc yc T R snap).JSTEP i (k i)).time }
        (kind i) with
    | error x => rw [hev] at he; cases he
    | ok s2 => rw [hev] at he; cases he

/-- When the stop flag is set nothing of a further year was recorded. -/
theorem history_cur (hJ : StepOK hc.JSTEP) {done : List (List (DrawLog n))} {cur : List (DrawLog n)}
    (h : History hc yc T R snap (narpInit hc.JSTEP m (worldInit g0 l0 net I A)) log s done cur) :
    Reach (narpCfg hc yc T R snap) (narpInit hc.JSTEP m (worldInit g0 l0 net I A)) log s ∧ (s.RFLAG = 1 → cur = []) := by
  have key : ∀ {log : List Ev} {s s' : St (World n m l ν α)} {ev : Ev},
      Reach (narpCfg hc yc T R snap) (narpInit hc.JSTEP m (worldInit g0 l0 net I A)) log s →
      step (narpCfg hc yc T R snap) s = .ok (.next ev s') → ev.kind ≠ 4 → s'.RFLAG ≠ 1 := by
    intro log s s' ev hr hs hk hR
    obtain ⟨k, q, hI⟩ := reach_inv (cfg := narpCfg hc yc T R snap) hJ.lo hJ.hi hr
    have h1 := hJ.lo
    have h2 := hJ.hi
    obtain ⟨_, _, _, _, _, _, hR1, _⟩ := inv_next (cfg := narpCfg hc yc T R snap)
      (by show 0 < hc.JSTEP; linarith) (by show hc.JSTEP < 8760; linarith) hI hs
    rcases step_world (cfg := narpCfg hc yc T R snap) hJ hr hs with ⟨_, _, e⟩ | ⟨_, _, e⟩ | ⟨e, _⟩
    · exact absurd (e ▸ hR) hR1
    · exact absurd (e ▸ hR) hR1
    · exact absurd e hk
  induction h with
  | start => exact ⟨.start, fun _ => rfl⟩
  | draw _ hs hk _ ih => exact ⟨.step ih.1 hs, fun hR => absurd hR (key ih.1 hs (by rw [hk]; norm_num))⟩
  | year _ hs _ ih => exact ⟨.step ih.1 hs, fun _ => rfl⟩
  | other _ hs _ hk ih => exact ⟨.step ih.1 hs, fun hR => absurd hR (key ih.1 hs hk)⟩

/-- Every year ended has its full number of draws: 8760 in hourly mode, 365 in daily mode. -/
theorem history_full (hJ : StepOK hc.JSTEP) {done : List (List (DrawLog n))} {cur : List (DrawLog n)}
    (h : History hc yc T R snap (narpInit hc.JSTEP m (worldInit g0 l0 net I A)) log s done cur) :
    (done.length = log.countP (fun e => e.kind = 4) ∧
      cur.length + (done.map List.length).sum = log.countP (fun e => e.kind = 1)) ∧
    ∀ ds ∈ done, (ds.length : ℚ) * hc.JSTEP = 8760 := by
  induction h with
  | start => exact ⟨⟨rfl, rfl⟩, by simp⟩
  | @draw log s done cur ev s' d _ hs hk _ ih =>
    obtain ⟨⟨i1, i2⟩, i3⟩ := ih
    refine ⟨⟨?_, ?_⟩, i3⟩
    · rw [List.countP_append, ← i1]; simp [hk]
    · rw [List.countP_append, ← i2]; simp [hk]; ring
  | @year log s done cur ev s' hh hs hk ih =>
    obtain ⟨⟨i1, i2⟩, i3⟩ := ih
    refine ⟨⟨?_, ?_⟩, ?_⟩
    · rw [List.countP_append, ← i1]; simp [hk]
    · rw [List.countP_append, ← i2]; simp [hk]; ring
    · obtain ⟨_, _, hc1, _⟩ := C07_year_is_8760_hours (cfg := narpCfg hc yc T R snap) hJ (history_cur hJ hh).1 hs hk
      have hsum : ∀ L : List (List (DrawLog n)), (∀ ds ∈ L, (ds.length : ℚ) * hc.JSTEP = 8760) →
          (((L.map List.length).sum : ℕ) : ℚ) * hc.JSTEP = 8760 * L.length := by
        intro L
        induction L with
        | nil => simp
        | cons a L ih =>
          intro hL
          simp only [List.map_cons, List.sum_cons, List.length_cons]
          rw [Nat.cast_add, Nat.cast_add, Nat.cast_one, add_mul, hL a (by simp), ih fun ds h => hL ds (by simp [h])]
          ring
      intro ds hds
      rcases List.mem_append.1 hds with h | h
      · exact i3 ds h
      · simp only [List.mem_singleton] at h
        subst h
        rw [← i1, ← i2, Nat.cast_add, add_mul] at hc1
        have := hsum done i3
        have e : (narpCfg hc yc T R snap).JSTEP = hc.JSTEP := rfl
        rw [e, this] at hc1
        linarith
  | @other log s done cur ev s' _ hs hk1 hk ih =>
    obtain ⟨⟨i1, i2⟩, i3⟩ := ih
    refine ⟨⟨?_, ?_⟩, i3⟩
    · rw [List.countP_append, ← i1]; simp [hk]
    · rw [List.countP_append, ← i2]; simp [hk1]

/-! ## C72 -/

/-- The annual values of area `j` under the statistic `f`, averaged over the tiers, as the program forms them. -/
def annualC (N : ℕ) (f : Fin n → Fin 5 → List (DrawLog n) → ℚ) (years : List (List (DrawLog n))) (j : Fin n) : List ℚ :=
  (List.range years.length).map fun y => weighted N fun t => yearValue (Carried n N j t) (f j t) years y

theorem weighted_congr {N : ℕ} {x y : Fin 5 → ℚ} (h : ∀ t : Fin 5, t.val < N → x t = y t) : weighted N x = weighted N y := by
  unfold weighted
  congr 1
  exact List.map_congr_left fun t ht => by rw [h t (take_lt ht)]

theorem annualC_eq (N : ℕ) (f : Fin n → Fin 5 → List (DrawLog n) → ℚ) (years : List (List (DrawLog n))) (j : Fin n)
    (h : ∀ t : Fin 5, t.val < N → ¬ Carried n N j t) : annualC N f years j = annualOf N (f j) years := by
  unfold annualC annualOf
  apply List.ext_getElem
  · simp
  · intro y h1 h2
    simp only [List.getElem_map, List.getElem_range]
    refine weighted_congr fun t ht => ?_
    unfold yearValue
    rw [if_neg (h t ht), List.getD_eq_getElem?_getD, List.getElem?_eq_getElem (by simpa using h1)]
    simp

theorem ends_annual {N : ℕ} {evs : List (YearEnd n α)} {done : List (List (DrawLog n))} (hlen : done.length = evs.length)
    (h : ∀ y e, evs[y]? = some e → HoldsH N (done.take y) (done.getD y []) e.H ∧
        HoldsP N (done.take y) (done.getD y []) e.P) :
    (∀ j, annHours N evs j = annualC N hoursIn done j) ∧ (∀ j, annEnergy N evs j = annualC N energyIn done j) ∧
    (∀ j, annDays N evs j = annualC N daysIn done j) ∧
    annHoursP N evs = annualOf N poolHoursIn done ∧ annEnergyP N evs = annualOf N poolEnergyIn done ∧
    annDaysP N evs = annualOf N poolDaysIn done := by
  have get : ∀ y (hy : y < evs.length), done.getD y [] = done[y]'(by omega) := by
    intro y hy
    rw [List.getD_eq_getElem?_getD, List.getElem?_eq_getElem (by omega)]; rfl
  refine ⟨fun j => ?_, fun j => ?_, fun j => ?_, ?_, ?_, ?_⟩
  · apply List.ext_getElem
    · simp [annHours, annualC, hlen]
    · intro y h1 h2
      simp only [annHours, annualC, List.getElem_map, List.getElem_range]
      have hy : y < evs.length := by simpa [annHours] using h1
      exact weighted_congr fun t _ => (h y _ (List.getElem?_eq_getElem hy)).1.lole j t
  · apply List.ext_getElem
    · simp [annEnergy, annualC, hlen]
    · intro y h1 h2
      simp only [annEnergy, annualC, List.getElem_map, List.getElem_range]
      have hy : y < evs.length := by simpa [annEnergy] using h1
      exact weighted_congr fun t _ => (h y _ (List.getElem?_eq_getElem hy)).1.eue j t
  · apply List.ext_getElem
    · simp [annDays, annualC, hlen]
    · intro y h1 h2
      simp only [annDays, annualC, List.getElem_map, List.getElem_range]
      have hy : y < evs.length := by simpa [annDays] using h1
      exact weighted_congr fun t _ => (h y _ (List.getElem?_eq_getElem hy)).2.lole j t
  · apply List.ext_getElem
    · simp [annHoursP, annualOf, hlen]
    · intro y h1 h2
      simp only [annHoursP, annualOf, List.getElem_map]
      have hy : y < evs.length := by simpa [annHoursP] using h1
      rw [← get y hy]
      exact weighted_congr fun t ht => (h y _ (List.getElem?_eq_getElem hy)).1.lp t ht
  · apply List.ext_getElem
    · simp [annEnergyP, annualOf, hlen]
    · intro y h1 h2
      simp only [annEnergyP, annualOf, List.getElem_map]
      have hy : y < evs.length := by simpa [annEnergyP] using h1
      rw [← get y hy]
      exact weighted_congr fun t ht => (h y _ (List.getElem?_eq_getElem hy)).1.ep t ht
  · apply List.ext_getElem
    · simp [annDaysP, annualOf, hlen]
    · intro y h1 h2
      simp only [annDaysP, annualOf, List.getElem_map]
      have hy : y < evs.length := by simpa [annDaysP] using h1
      rw [← get y hy]
      exact weighted_congr fun t ht => (h y _ (List.getElem?_eq_getElem hy)).2.lp t ht

end Runs

end Narp.Props
