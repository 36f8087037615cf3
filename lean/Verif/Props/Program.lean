import Verif.Model.Program
import Verif.Props.Control
import Verif.Props.Hour
import Verif.Props.Converge

/-!
# The whole program: C29, C30, C31, C33, C43, C49 over runs of the main loop
-/

namespace Narp.Props
open Narp Narp.Spec BigOperators

variable {n m l : ℕ} {ν α : Type}

/-! ## One iteration -/

/-- What one iteration does to the state outside the calendar, by type of event. -/
theorem step_world {σ : Type} {cfg : Cfg σ} (hJ : StepOK cfg.JSTEP) {N : ℕ} {w : σ} {log : List Ev} {s s' : St σ}
    {ev : Ev} (h : Reach cfg (narpInit cfg.JSTEP N w) log s) (hs : step cfg s = .ok (.next ev s')) :
    (ev.kind = 1 ∧ cfg.hourFx ev.time s.RATING s.PLNDST s.world = .ok s'.world ∧ s'.RFLAG = s.RFLAG) ∨
    ((ev.kind = 2 ∨ ev.kind = 3) ∧ s'.world = s.world ∧ s'.RFLAG = s.RFLAG) ∨
    (ev.kind = 4 ∧ cfg.yearFx ev.time s'.cal s.world = .ok (s'.world, s'.RFLAG)) := by
  obtain ⟨k, q, hI⟩ := reach_inv hJ.lo hJ.hi h
  obtain ⟨i, q0, c1, hq, hrem, hfile, hst⟩ := step_shape hI
  rw [hst] at hs
  split at hs
  · cases hs
  split at hs
  · cases hs
  cases hev : events cfg { s with cal := c1, CLOCK := (occ cfg.JSTEP i (k i)).time } (kind i) with
  | error x => rw [hev] at hs; cases hs
  | ok s2 =>
  rw [hev] at hs
  simp only [Except.map, Except.ok.injEq, StepRes.next.injEq] at hs
  obtain ⟨rfl, rfl⟩ := hs
  have hkk : (occ cfg.JSTEP i (k i)).kind = kind i := rfl
  rw [hkk]
  unfold events at hev
  have hkall : ∀ i, kind i = 1 ∨ kind i = 2 ∨ kind i = 3 ∨ kind i = 4 := by decide +kernel
  rcases hkall i with hk | hk | hk | hk <;> rw [hk] at hev ⊢
  · left
    simp only [pyInt_one, if_true] at hev
    obtain ⟨c, h1, hev⟩ := Except.bind_ok hev
    obtain ⟨w, h2, hev⟩ := Except.bind_ok hev
    cases hev
    exact ⟨rfl, h2, rfl⟩
  · right; left
    simp only [pyInt_two] at hev
    rw [if_neg (by decide), if_pos trivial] at hev
    obtain ⟨c, h1, hev⟩ := Except.bind_ok hev
    obtain ⟨w, h2, hev⟩ := Except.bind_ok hev
    cases hev
    exact ⟨Or.inl rfl, rfl, rfl⟩
  · right; left
    simp only [pyInt_three] at hev
    rw [if_neg (by decide), if_neg (by decide), if_pos trivial] at hev
    obtain ⟨c, h1, hev⟩ := Except.bind_ok hev
    obtain ⟨w, h2, hev⟩ := Except.bind_ok hev
    cases hev
    exact ⟨Or.inr rfl, rfl, rfl⟩
  · right; right
    simp only [pyInt_four] at hev
    rw [if_neg (by decide), if_neg (by decide), if_neg (by decide), if_pos trivial] at hev
    obtain ⟨c, h1, hev⟩ := Except.bind_ok hev
    obtain ⟨w, h2, hev⟩ := Except.bind_ok hev
    cases hev
    exact ⟨rfl, h2⟩

/-- A successful hourly event adds the statistics of a list of tiers, each with a short area. -/
theorem hourBody_hist {c : HourIn n m l ν} {CLOCK : ℚ} {R P : Fin m → ℚ} {w w' : HourSt n m l ν}
    (hw : hourBody c CLOCK R P w = .ok w') :
    ∃ (hist : List (Fin 5 × (Fin n → ℤ))) (isPeak : Bool), hist.map Prod.fst <+: (List.finRange 5).take c.NFCST ∧
      w'.H = (addTiers hist (w.LSFLG, w.H)).2 ∧ w'.P = if isPeak then addPeaks hist w.P else w.P := by
  unfold hourBody at hw
  simp only at hw
  obtain ⟨day, hday, hw⟩ := Except.bind_ok hw
  by_cases hz : c.JFREQ = 0
  · rw [if_pos hz] at hw; cases hw
  rw [if_neg hz] at hw
  generalize (if c.JSTEP = 24 then (c.MXPLHR day : ℤ) else -1 + pyInt (pyMod CLOCK 8760)) = JH at hw
  split at hw
  · cases hw
  obtain ⟨hr, hhr, hw⟩ := Except.bind_ok hw
  obtain ⟨hist, h1, _, _, _, h3, h4⟩ := tierLoop_hist _ _ _ _ hw
  exact ⟨hist, _, h1, congrArg Prod.snd h3, h4⟩

theorem whole_zero : Whole 0 := ⟨0, by simp⟩
theorem whole_one : Whole 1 := ⟨1, by simp⟩

theorem whole_int {z : ℤ} (h : 0 ≤ z) : Whole (z : ℚ) := ⟨z.toNat, by
  have : ((z.toNat : ℤ) : ℚ) = (z : ℚ) := by rw [Int.toNat_of_nonneg h]
  exact_mod_cast this.symm⟩

theorem whole_ite {p : Prop} [Decidable p] {x y : ℚ} (hx : Whole x) (hy : Whole y) : Whole (if p then x else y) := by
  split_ifs <;> assumption

theorem whole_flag (M : Fin n → ℚ) (j : Fin n) : Whole (shortFlag M j) := whole_ite whole_one whole_zero

theorem WholeCnt.adds {c c' : Cnt n} {t : Fin 5} {M : Fin n → ℚ} {pc ac : Cause} {pe : ℤ} (h : WholeCnt c)
    (hpe : 0 ≤ pe) (a : Adds c c' t M pc ac pe) : WholeCnt c' := by
  constructor
  · intro j t; rw [a.lolTA]; exact (h.LOLTA j t).add (whole_ite (whole_flag M j) whole_zero)
  · intro j t; rw [a.lolGA]; exact (h.LOLGA j t).add (whole_ite (whole_flag M j) whole_zero)
  · intro t; rw [a.lolTP]; exact (h.LOLTP t).add (whole_ite whole_one whole_zero)
  · intro t; rw [a.lolGP]; exact (h.LOLGP t).add (whole_ite whole_one whole_zero)
  · intro j t; rw [a.mgnTA]
    exact (h.MGNTA j t).add (whole_ite (whole_int (shortMW_nonneg M j)) whole_zero)
  · intro j t; rw [a.mgnGA]
    exact (h.MGNGA j t).add (whole_ite (whole_int (shortMW_nonneg M j)) whole_zero)
  · intro t; rw [a.mgnTP]; exact (h.MGNTP t).add (whole_ite (whole_int hpe) whole_zero)
  · intro t; rw [a.mgnGP]; exact (h.MGNGP t).add (whole_ite (whole_int hpe) whole_zero)

theorem wholeCnt_zero : WholeCnt (Cnt.zero n) := by
  constructor <;> intros <;> exact whole_zero

theorem wholeCnt_reset (N : ℕ) {c : Cnt n} (h : WholeCnt c) : WholeCnt (resetCnt N c) := by
  constructor
  · intro j t; exact whole_ite whole_zero (h.LOLTA j t)
  · intro j t; exact whole_ite whole_zero (h.LOLGA j t)
  · intro t; exact whole_ite whole_zero (h.LOLTP t)
  · intro t; exact whole_ite whole_zero (h.LOLGP t)
  · intro j t; exact whole_ite whole_zero (h.MGNTA j t)
  · intro j t; exact whole_ite whole_zero (h.MGNGA j t)
  · intro t; exact whole_ite whole_zero (h.MGNTP t)
  · intro t; exact whole_ite whole_zero (h.MGNGP t)

theorem sum_shortMW_nonneg (M : Fin n → ℚ) : 0 ≤ ∑ j, shortMW M j :=
  Finset.sum_nonneg fun j _ => shortMW_nonneg M j

theorem wholeCnt_tiers (hist : List (Fin 5 × (Fin n → ℤ))) : ∀ (s : (Fin n → ℚ) × Cnt n), WholeCnt s.2 →
    WholeCnt (addTiers hist s).2 := by
  induction hist with
  | nil => intro s h; exact h
  | cons e hist ih =>
    intro s h
    exact ih _ (h.adds (sum_shortMW_nonneg _) (C26_hrstat e.1 (fun j => (e.2 j : ℚ)) s.1 s.2).2)

theorem wholeCnt_peaks (hist : List (Fin 5 × (Fin n → ℤ))) : ∀ (c : Cnt n), WholeCnt c →
    WholeCnt (addPeaks hist c) := by
  induction hist with
  | nil => intro s h; exact h
  | cons e hist ih =>
    intro c h
    exact ih _ (h.adds (sum_shortMW_nonneg _) (C26_pkstat e.1 e.2 c))

theorem wholeCnt_hour {c : HourIn n m l ν} {CLOCK : ℚ} {R P : Fin m → ℚ} {w w' : HourSt n m l ν}
    (hw : hourBody c CLOCK R P w = .ok w') (h : WholeCnt w.H ∧ WholeCnt w.P) : WholeCnt w'.H ∧ WholeCnt w'.P := by
  obtain ⟨hist, b, _, h1, h2⟩ := hourBody_hist hw
  rw [h1, h2]
  refine ⟨wholeCnt_tiers hist (w.LSFLG, w.H) h.1, ?_⟩
  split_ifs
  · exact wholeCnt_peaks hist _ h.2
  · exact h.2

/-! ## Runs with the year ends they went through -/

/-- Runs of the program, with the list of the year ends processed so far: what the yearly event found (clock,
calendar, network, counters) when it was called. -/
inductive Ends (hc : HourIn n m l ν) (yc : YearIn) (T : List (List ℤ)) (R : List (List ℚ)) (snap : ν → α)
    (s₀ : St (World n m l ν α)) : List Ev → St (World n m l ν α) → List (YearEnd n α) → Prop
  | start : Ends hc yc T R snap s₀ [] s₀ []
  | year {log s evs ev s'} : Ends hc yc T R snap s₀ log s evs →
      step (narpCfg hc yc T R snap) s = .ok (.next ev s') → ev.kind = 4 →
      Ends hc yc T R snap s₀ (log ++ [ev]) s'
        (evs ++ [⟨ev.time, s'.cal, snap s.world.h.net, s.world.h.LSFLG, s.world.h.H, s.world.h.P⟩])
  | other {log s evs ev s'} : Ends hc yc T R snap s₀ log s evs →
      step (narpCfg hc yc T R snap) s = .ok (.next ev s') → ev.kind ≠ 4 →
      Ends hc yc T R snap s₀ (log ++ [ev]) s' evs

theorem Ends.reach {hc : HourIn n m l ν} {yc : YearIn} {T : List (List ℤ)} {R : List (List ℚ)} {snap : ν → α}
    {s₀ s : St (World n m l ν α)} {log : List Ev} {evs : List (YearEnd n α)}
    (h : Ends hc yc T R snap s₀ log s evs) : Reach (narpCfg hc yc T R snap) s₀ log s := by
  induction h with
  | start => exact .start
  | year _ hs _ ih => exact .step ih hs
  | other _ hs _ ih => exact .step ih hs

/-- Every run has its list of year ends. -/
theorem ends_of_reach {hc : HourIn n m l ν} {yc : YearIn} {T : List (List ℤ)} {R : List (List ℚ)} {snap : ν → α}
    {s₀ s : St (World n m l ν α)} {log : List Ev} (h : Reach (narpCfg hc yc T R snap) s₀ log s) :
    ∃ evs, Ends hc yc T R snap s₀ log s evs := by
  induction h with
  | start => exact ⟨_, .start⟩
  | @step log s ev s' _ hs ih =>
    obtain ⟨evs, ih⟩ := ih
    by_cases hk : ev.kind = 4
    · exact ⟨_, .year ih hs hk⟩
    · exact ⟨_, .other ih hs hk⟩

/-- What holds in every run: there are as many year ends as year events, at the clocks `8760, 2·8760, …`, the
state is the one the yearly events left, and all counters are whole numbers. -/
theorem ends_inv {hc : HourIn n m l ν} {yc : YearIn} {T : List (List ℤ)} {R : List (List ℚ)} {snap : ν → α}
    (hJ : StepOK hc.JSTEP) {g0 : Fin m → ℤ} {l0 : Fin l → ℤ} {net : ν} {I A : ℤ} {s : St (World n m l ν α)}
    {log : List Ev} {evs : List (YearEnd n α)}
    (h : Ends hc yc T R snap (narpInit hc.JSTEP m (worldInit g0 l0 net I A)) log s evs) :
    evs.length = log.countP (fun e => e.kind = 4) ∧ ClocksOK evs ∧
    yearRun yc evs (YearSt.init n α I A) = .ok s.world.y ∧
    (∀ e ∈ evs, WholeCnt e.H ∧ WholeCnt e.P) ∧ WholeCnt s.world.h.H ∧ WholeCnt s.world.h.P := by
  induction h with
  | start =>
    exact ⟨rfl, by intro i e h; simp at h, rfl, by simp, wholeCnt_zero, wholeCnt_zero⟩
  | @year log s evs ev s' he hs hk ih =>
    obtain ⟨i1, i2, i3, i4, i5, i6⟩ := ih
    have hr := he.reach
    rcases step_world (cfg := narpCfg hc yc T R snap) hJ hr hs with h | h | h
    · rw [hk] at h; norm_num at h
    · rw [hk] at h; norm_num at h
    obtain ⟨_, h⟩ := h
    have ht := (C07_year_is_8760_hours (cfg := narpCfg hc yc T R snap) hJ hr hs hk).1
    simp only [narpCfg, yearWorld] at h
    cases hb : yearBody yc ev.time s'.cal (snap s.world.h.net) s.world.h.LSFLG s.world.h.H s.world.h.P
        s.world.y with
    | error x => rw [hb] at h; cases h
    | ok r =>
    rw [hb] at h
    simp only [Except.map, Except.ok.injEq, Prod.mk.injEq] at h
    obtain ⟨h, _⟩ := h
    have e1 : s'.world.h.H = r.1.1 := by rw [← h]
    have e2 : s'.world.h.P = r.1.2 := by rw [← h]
    have e3 : s'.world.y = r.2.1 := by rw [← h]
    obtain ⟨_, _, _, _, _, r1, r2, _⟩ := yearBody_ok (H' := r.1.1) (P' := r.1.2) (y' := r.2.1)
      (rf := r.2.2) hb
    refine ⟨?_, ?_, ?_, ?_, ?_, ?_⟩
    · simp [List.countP_append, hk, i1]
    · intro i e hi
      rw [List.getElem?_append] at hi
      split_ifs at hi with hlt
      · exact i2 i e hi
      · have : i - evs.length = 0 := by
          by_contra hne
          rw [List.getElem?_eq_none (by simp; omega)] at hi
          cases hi
        rw [this] at hi
        simp only [List.length_cons, List.length_nil, Nat.zero_add, Nat.lt_add_one, List.getElem?_eq_getElem,
          List.getElem_cons_zero, Option.some.injEq] at hi
        have hi' : i = evs.length := by omega
        subst hi
        simp only
        rw [ht, hi', i1]
    · rw [e3]; exact yearRun_append' i3 hb
    · intro e he'
      rcases List.mem_append.1 he' with he' | he'
      · exact i4 e he'
      · simp only [List.mem_singleton] at he'; subst he'; exact ⟨i5, i6⟩
    · rw [e1, r1]; exact wholeCnt_reset _ i5
    · rw [e2, r2]; exact wholeCnt_reset _ i6
  | @other log s evs ev s' he hs hk ih =>
    obtain ⟨i1, i2, i3, i4, i5, i6⟩ := ih
    have hr := he.reach
    rcases step_world (cfg := narpCfg hc yc T R snap) hJ hr hs with ⟨_, h, _⟩ | ⟨_, h, _⟩ | ⟨h, _⟩
    · simp only [narpCfg, hourFx] at h
      cases hb : hourBody hc ev.time (fun i => s.RATING.getD i 0) (fun i => s.PLNDST.getD i 0) s.world.h with
      | error x => rw [hb] at h; cases h
      | ok w' =>
        rw [hb] at h
        simp only [Except.map, Except.ok.injEq] at h
        have := wholeCnt_hour hb ⟨i5, i6⟩
        rw [← h]
        exact ⟨by simp [List.countP_append, hk, i1], i2, i3, i4, this⟩
    · rw [h]; exact ⟨by simp [List.countP_append, hk, i1], i2, i3, i4, i5, i6⟩
    · exact absurd h hk

section Runs

variable {hc : HourIn n m l ν} {yc : YearIn} {T : List (List ℤ)} {R : List (List ℚ)} {snap : ν → α}
  {g0 : Fin m → ℤ} {l0 : Fin l → ℤ} {net : ν} {I A : ℤ} {s s' : St (World n m l ν α)} {log : List Ev}
  {evs : List (YearEnd n α)} {ev : Ev}

/-- C29 (over runs of the program). At every moment of every run each histogram of each area holds, in each class,
exactly the number of years ended so far whose counters of the reference tier fall into the class. -/
theorem C29_run (hJ : StepOK hc.JSTEP) (hN : yc.NORR.val < yc.NFCST) (hL : 0 < yc.LSTEP)
    (h : Ends hc yc T R snap (narpInit hc.JSTEP m (worldInit g0 l0 net I A)) log s evs) (j : Fin n) (k : Fin 22) :
    evs.length = log.countP (fun e => e.kind = 4) ∧
    s.world.y.hist.HLOLE j k = yearsInClass evs 1 (fun e => totLole e.H j yc.NORR) k ∧
    s.world.y.hist.DPLOLE j k = yearsInClass evs 1 (fun e => totLole e.P j yc.NORR) k ∧
    s.world.y.hist.EUES j k = yearsInClass evs yc.LSTEP (fun e => totEue e.H j yc.NORR) k := by
  obtain ⟨h1, _, h3, h4, _, _⟩ := ends_inv hJ h
  exact ⟨h1, C29_histograms_count_years yc hN hL evs h4 I A _ h3 j k⟩

/-- C31 (over runs of the program). At every moment of every run the cumulative statistics of the areas, and those
of the pool by tier, are the sums over the years ended so far. The pool's averages over the tiers are not
(C82, `C31_pool_weighted_refuted`). -/
theorem C31_run (hJ : StepOK hc.JSTEP) (hN : yc.NFCST ≤ 5)
    (h : Ends hc yc T R snap (narpInit hc.JSTEP m (worldInit g0 l0 net I A)) log s evs) :
    evs.length = log.countP (fun e => e.kind = 4) ∧
    CumIs yc.NFCST (evs.map YearEnd.H) s.world.y.CH ∧ CumIs yc.NFCST (evs.map YearEnd.P) s.world.y.CP := by
  obtain ⟨h1, _, h3, h4, _, _⟩ := ends_inv hJ h
  exact ⟨h1, C31_cumulative yc hN evs h4 I A _ h3⟩

/-- The stop flag in every run: it is 0 before the first year end; afterwards it tells whether at the last year end
the horizon was reached or the annual values satisfied the convergence rule. -/
theorem rflag_run (hJ : StepOK hc.JSTEP) (hN : yc.NFCST ≤ 5) (hR : yc.NORR.val < yc.NFCST) (a : Option (Fin n))
    (ha : Selects yc a) (hp : a.isSome ∨ yc.KVTYPE ≠ 1)
    (h : Ends hc yc T R snap (narpInit hc.JSTEP m (worldInit g0 l0 net I A)) log s evs) :
    s.RFLAG = 1 ↔ evs ≠ [] ∧
      (8760 * (evs.length : ℚ) ≥ yc.FINISH ∨ Converged yc.CVTEST (evs.map (annualStat yc a))) := by
  induction h with
  | start => simp [narpInit]
  | @year log s evs ev s' he hs hk ih =>
    have hnew := ends_inv hJ (Ends.year he hs hk)
    obtain ⟨_, c1, _, w1, _, _⟩ := hnew
    obtain ⟨_, _, i3, _, _, _⟩ := ends_inv hJ he
    rcases step_world (cfg := narpCfg hc yc T R snap) hJ he.reach hs with h | h | h
    · rw [hk] at h; norm_num at h
    · rw [hk] at h; norm_num at h
    obtain ⟨_, h⟩ := h
    simp only [narpCfg, yearWorld] at h
    cases hb : yearBody yc ev.time s'.cal (snap s.world.h.net) s.world.h.LSFLG s.world.h.H s.world.h.P
        s.world.y with
    | error x => rw [hb] at h; cases h
    | ok r =>
    rw [hb] at h
    simp only [Except.map, Except.ok.injEq, Prod.mk.injEq] at h
    have hrf : s'.RFLAG = r.2.2 := h.2.symm
    have := (C33_run yc hN hR a ha hp evs _ w1 c1 I A _ i3 r hb).1
    rw [hrf, this]
    have hck : ev.time = 8760 * ((evs.length : ℚ) + 1) := c1 evs.length _ (by simp; rfl)
    simp only [hck]
    simp
  | @other log s evs ev s' he hs hk ih =>
    rcases step_world (cfg := narpCfg hc yc T R snap) hJ he.reach hs with ⟨_, _, h⟩ | ⟨_, _, h⟩ | ⟨h, _⟩
    · rw [h]; exact ih
    · rw [h]; exact ih
    · exact absurd h hk

/-- C33 (over runs of the program; for every area statistic and for the pool's statistics of the reference tier).
When the main loop ends because of the stop flag, at least one year was simulated, and the horizon was reached or
the annual values of the chosen statistic satisfy the convergence rule; conversely as long as it goes on after a
year end neither is the case. -/
theorem C33_exit (hJ : StepOK hc.JSTEP) (hN : yc.NFCST ≤ 5) (hR : yc.NORR.val < yc.NFCST)
    (a : Option (Fin n)) (ha : Selects yc a) (hp : a.isSome ∨ yc.KVTYPE ≠ 1)
    (h : Ends hc yc T R snap (narpInit hc.JSTEP m (worldInit g0 l0 net I A)) log s evs) :
    (step (narpCfg hc yc T R snap) s = .ok (.exit .converged) → evs ≠ [] ∧
      (8760 * (evs.length : ℚ) ≥ yc.FINISH ∨ Converged yc.CVTEST (evs.map (annualStat yc a)))) ∧
    (∀ ev s', step (narpCfg hc yc T R snap) s = .ok (.next ev s') → evs ≠ [] →
      8760 * (evs.length : ℚ) < yc.FINISH ∧ ¬ Converged yc.CVTEST (evs.map (annualStat yc a))) := by
  have hf := rflag_run hJ hN hR a ha hp h
  constructor
  · intro he
    rcases C06_exit_reason (cfg := narpCfg hc yc T R snap) hJ h.reach he with ⟨_, h1⟩ | ⟨h1, _⟩
    · exact hf.1 h1
    · cases h1
  · intro ev s' hs hne
    obtain ⟨k, q, hI⟩ := reach_inv (cfg := narpCfg hc yc T R snap) hJ.lo hJ.hi h.reach
    have h1 := hJ.lo
    have h2 := hJ.hi
    obtain ⟨_, _, _, _, _, _, hR1, _⟩ := inv_next (cfg := narpCfg hc yc T R snap)
      (by show 0 < hc.JSTEP; linarith) (by show hc.JSTEP < 8760; linarith) hI hs
    by_contra hcon
    refine hR1 (hf.2 ⟨hne, ?_⟩)
    by_cases hlt : 8760 * (evs.length : ℚ) < yc.FINISH
    · right
      by_contra hc'
      exact hcon ⟨hlt, hc'⟩
    · left; exact not_lt.1 hlt

/-! ## C49, C30: the counters of a year -/

/-- Number of draws since the last year end. -/
def drawsThisYear (log : List Ev) : ℕ := (log.reverse.takeWhile fun e => e.kind ≠ 4).countP fun e => e.kind = 1

theorem drawsThisYear_snoc (log : List Ev) (ev : Ev) :
    drawsThisYear (log ++ [ev]) = if ev.kind = 4 then 0 else
      drawsThisYear log + if ev.kind = 1 then 1 else 0 := by
  unfold drawsThisYear
  rw [List.reverse_append, List.reverse_singleton, List.singleton_append, List.takeWhile_cons]
  by_cases h4 : ev.kind = 4
  · simp [h4]
  · simp [h4, List.countP_cons]

/-- The draws since the last year end fill the time since then. -/
theorem draws_time {σ : Type} {cfg : Cfg σ} (hJ : StepOK cfg.JSTEP) {N : ℕ} {w : σ} {log : List Ev} {s : St σ}
    (h : Reach cfg (narpInit cfg.JSTEP N w) log s) :
    (drawsThisYear log : ℚ) * cfg.JSTEP =
      ((log.countP fun e => e.kind = 1 : ℕ) : ℚ) * cfg.JSTEP - 8760 * ((log.countP fun e => e.kind = 4 : ℕ) : ℚ) := by
  induction h with
  | start => simp [drawsThisYear]
  | @step log s ev s' hr hs ih =>
    rw [drawsThisYear_snoc, List.countP_append, List.countP_append]
    by_cases h4 : ev.kind = 4
    · have := (C07_year_is_8760_hours hJ hr hs h4).2.2.1
      simp [h4]
      linarith
    · by_cases h1 : ev.kind = 1
      · simp [h1]; linarith
      · simp [h1, h4]; linarith

/-- No counter of a tier that is not in use is ever touched. -/
def ZeroBeyond (N : ℕ) (c : Cnt n) : Prop :=
  ∀ t : Fin 5, N ≤ t.val → (c.LOLTP t = 0 ∧ c.LOLGP t = 0 ∧ c.MGNTP t = 0 ∧ c.MGNGP t = 0) ∧
    ∀ j, c.LOLTA j t = 0 ∧ c.LOLGA j t = 0 ∧ c.MGNTA j t = 0 ∧ c.MGNGA j t = 0

theorem ZeroBeyond.adds {N : ℕ} {c c' : Cnt n} {t : Fin 5} {M : Fin n → ℚ} {pc ac : Cause} {pe : ℤ}
    (h : ZeroBeyond N c) (ht : t.val < N) (a : Adds c c' t M pc ac pe) : ZeroBeyond N c' := by
  intro t' ht'
  have hne : t' ≠ t := by rintro rfl; omega
  obtain ⟨⟨h1, h2, h3, h4⟩, h5⟩ := h t' ht'
  refine ⟨⟨?_, ?_, ?_, ?_⟩, fun j => ?_⟩
  · rw [a.lolTP, h1]; simp [hne]
  · rw [a.lolGP, h2]; simp [hne]
  · rw [a.mgnTP, h3]; simp [hne]
  · rw [a.mgnGP, h4]; simp [hne]
  · obtain ⟨k1, k2, k3, k4⟩ := h5 j
    refine ⟨?_, ?_, ?_, ?_⟩
    · rw [a.lolTA, k1]; simp [hne]
    · rw [a.lolGA, k2]; simp [hne]
    · rw [a.mgnTA, k3]; simp [hne]
    · rw [a.mgnGA, k4]; simp [hne]

theorem zeroBeyond_tiers {N : ℕ} (hist : List (Fin 5 × (Fin n → ℤ))) : ∀ (s : (Fin n → ℚ) × Cnt n),
    (∀ e ∈ hist, e.1.val < N) → ZeroBeyond N s.2 → ZeroBeyond N (addTiers hist s).2 := by
  induction hist with
  | nil => intro s _ h; exact h
  | cons e hist ih =>
    intro s ht h
    exact ih _ (fun e he => ht e (by simp [he]))
      (h.adds (ht e (by simp)) (C26_hrstat e.1 (fun j => (e.2 j : ℚ)) s.1 s.2).2)

theorem zeroBeyond_peaks {N : ℕ} (hist : List (Fin 5 × (Fin n → ℤ))) : ∀ (c : Cnt n),
    (∀ e ∈ hist, e.1.val < N) → ZeroBeyond N c → ZeroBeyond N (addPeaks hist c) := by
  induction hist with
  | nil => intro s _ h; exact h
  | cons e hist ih =>
    intro c ht h
    exact ih _ (fun e he => ht e (by simp [he])) (h.adds (ht e (by simp)) (C26_pkstat e.1 e.2 c))

theorem take_lt {N : ℕ} {t : Fin 5} (h : t ∈ (List.finRange 5).take N) : t.val < N := by
  rw [List.mem_take_iff_getElem] at h
  obtain ⟨i, hi, rfl⟩ := h
  simp only [List.length_finRange] at hi
  simp only [List.getElem_finRange, Fin.val_cast]
  omega

theorem zeroBeyond_hour {c : HourIn n m l ν} {CLOCK : ℚ} {R P : Fin m → ℚ} {w w' : HourSt n m l ν}
    (hw : hourBody c CLOCK R P w = .ok w') (h : ZeroBeyond c.NFCST w.H ∧ ZeroBeyond c.NFCST w.P) :
    ZeroBeyond c.NFCST w'.H ∧ ZeroBeyond c.NFCST w'.P := by
  obtain ⟨hist, b, hpre, h1, h2⟩ := hourBody_hist hw
  have ht : ∀ e ∈ hist, e.1.val < c.NFCST := fun e he =>
    take_lt (hpre.subset (List.mem_map_of_mem (f := Prod.fst) he))
  rw [h1, h2]
  refine ⟨zeroBeyond_tiers hist (w.LSFLG, w.H) ht h.1, ?_⟩
  split_ifs
  · exact zeroBeyond_peaks hist _ ht h.2
  · exact h.2

theorem reset_zero {N : ℕ} (hn : n = N) {c : Cnt n} (h : ZeroBeyond N c) : resetCnt N c = Cnt.zero n := by
  subst hn
  have hA : ∀ (a : Fin n → Fin 5 → ℚ), (∀ j (t : Fin 5), n ≤ t.val → a j t = 0) → resetA n a = fun _ _ => 0 := by
    intro a ha
    funext j t
    unfold resetA
    split_ifs with hc
    · rfl
    · exact ha j t (by have := j.isLt; omega)
  have hP : ∀ (a : Fin 5 → ℚ), (∀ (t : Fin 5), n ≤ t.val → a t = 0) → resetP n a = fun _ => 0 := by
    intro a ha
    funext t
    unfold resetP
    split_ifs with hc
    · rfl
    · exact ha t (by omega)
  unfold resetCnt Cnt.zero
  rw [hA _ fun j t ht => ((h t ht).2 j).1, hA _ fun j t ht => ((h t ht).2 j).2.1,
    hA _ fun j t ht => ((h t ht).2 j).2.2.1, hA _ fun j t ht => ((h t ht).2 j).2.2.2,
    hP _ fun t ht => (h t ht).1.1, hP _ fun t ht => (h t ht).1.2.1, hP _ fun t ht => (h t ht).1.2.2.1,
    hP _ fun t ht => (h t ht).1.2.2.2]

theorem run_zeroBeyond (hJ : StepOK hc.JSTEP) (hNF : hc.NFCST = yc.NFCST)
    (h : Reach (narpCfg hc yc T R snap) (narpInit hc.JSTEP m (worldInit g0 l0 net I A)) log s) :
    ZeroBeyond yc.NFCST s.world.h.H ∧ ZeroBeyond yc.NFCST s.world.h.P := by
  induction h with
  | start => 
    constructor <;> intro t _ <;> simp [narpInit, worldInit, Cnt.zero]
  | @step log s ev s' hr hs ih =>
    rcases step_world (cfg := narpCfg hc yc T R snap) hJ hr hs with ⟨_, h, _⟩ | ⟨_, h, _⟩ | ⟨_, h⟩
    · simp only [narpCfg, hourFx] at h
      cases hb : hourBody hc ev.time (fun i => s.RATING.getD i 0) (fun i => s.PLNDST.getD i 0) s.world.h with
      | error x => rw [hb] at h; cases h
      | ok w' =>
        rw [hb] at h
        simp only [Except.map, Except.ok.injEq] at h
        rw [← h]
        rw [← hNF] at ih ⊢
        exact zeroBeyond_hour hb ih
    · rw [h]; exact ih
    · simp only [narpCfg, yearWorld] at h
      cases hb : yearBody yc ev.time s'.cal (snap s.world.h.net) s.world.h.LSFLG s.world.h.H s.world.h.P
          s.world.y with
      | error x => rw [hb] at h; cases h
      | ok r =>
        rw [hb] at h
        simp only [Except.map, Except.ok.injEq, Prod.mk.injEq] at h
        obtain ⟨h, _⟩ := h
        obtain ⟨_, _, _, _, _, r1, r2, _⟩ := yearBody_ok (H' := r.1.1) (P' := r.1.2) (y' := r.2.1)
          (rf := r.2.2) hb
        have e1 : s'.world.h.H = r.1.1 := by rw [← h]
        have e2 : s'.world.h.P = r.1.2 := by rw [← h]
        rw [e1, e2, r1, r2]
        constructor
        · intro t ht
          have := ih.1 t ht
          simp [resetCnt, resetA, resetP, this]
        · intro t ht
          have := ih.2 t ht
          simp [resetCnt, resetA, resetP, this]

/-- C49, C30 (over runs of the program, when the number of areas equals the number of tiers, the only case in which
the counters are really zeroed). At every moment of every run the annual counters satisfy the bounds of C49 with
the number of draws since the last year end; in particular they count the current year only. -/
theorem C49_run_partial (hJ : StepOK hc.JSTEP) (hNF : hc.NFCST = yc.NFCST) (hn : n = yc.NFCST)
    (h : Reach (narpCfg hc yc T R snap) (narpInit hc.JSTEP m (worldInit g0 l0 net I A)) log s) :
    YearOK (drawsThisYear log) s.world.h.H s.world.h.P := by
  induction h with
  | start => exact yearOK_zero
  | @step log s ev s' hr hs ih =>
    rw [drawsThisYear_snoc]
    rcases step_world (cfg := narpCfg hc yc T R snap) hJ hr hs with ⟨hk, h, _⟩ | ⟨hk, h, _⟩ | ⟨hk, h⟩
    · simp only [narpCfg, hourFx] at h
      cases hb : hourBody hc ev.time (fun i => s.RATING.getD i 0) (fun i => s.PLNDST.getD i 0) s.world.h with
      | error x => rw [hb] at h; cases h
      | ok w' =>
        rw [hb] at h
        simp only [Except.map, Except.ok.injEq] at h
        rw [← h, if_neg (by rw [hk]; norm_num), if_pos hk]
        exact yearOK_hour hb ih
    · rw [h]
      rw [if_neg (by rcases hk with hk | hk <;> rw [hk] <;> norm_num),
        if_neg (by rcases hk with hk | hk <;> rw [hk] <;> norm_num)]
      exact ih
    · rw [if_pos hk]
      have hz := run_zeroBeyond hJ hNF hr
      simp only [narpCfg, yearWorld] at h
      cases hb : yearBody yc ev.time s'.cal (snap s.world.h.net) s.world.h.LSFLG s.world.h.H s.world.h.P
          s.world.y with
      | error x => rw [hb] at h; cases h
      | ok r =>
        rw [hb] at h
        simp only [Except.map, Except.ok.injEq, Prod.mk.injEq] at h
        obtain ⟨h, _⟩ := h
        obtain ⟨_, _, _, _, _, r1, r2, _⟩ := yearBody_ok (H' := r.1.1) (P' := r.1.2) (y' := r.2.1)
          (rf := r.2.2) hb
        have e1 : s'.world.h.H = r.1.1 := by rw [← h]
        have e2 : s'.world.h.P = r.1.2 := by rw [← h]
        rw [e1, e2, r1, r2, reset_zero hn hz.1, reset_zero hn hz.2]
        exact yearOK_zero

/-- C43 (over runs of the program: what fails). In hourly mode the program can only process hours with a shortage:
in every draw of every run some area's load in the highest tier exceeded the capacity located in it. As soon as
an hour without any shortage is drawn the run ends with an IndexError. -/
theorem C43_run_refuted (hJ : hc.JSTEP = 1) (hf : hc.JFREQ = 1) (hN : 1 ≤ hc.NFCST)
    (h : Reach (narpCfg hc yc T R snap) (narpInit hc.JSTEP m (worldInit g0 l0 net I A)) log s)
    (hs : step (narpCfg hc yc T R snap) s = .ok (.next ev s')) (hk : ev.kind = 1) :
    ∃ (k : ℕ) (j : Fin n), k < 8760 ∧ (∃ y : ℕ, ev.time = 8760 * y + k) ∧
      (hourDraw hc (hourOf k / 24) (fun i => s.RATING.getD i 0) (fun i => s.PLNDST.getD i 0) s.world.h).1.SYSCON j <
        hc.HRLOAD j (hourOf k) * hc.FCTERR j 0 := by
  have hJ' : StepOK hc.JSTEP := Or.inl hJ
  have hr' := Reach.step h hs
  have ht := C07_draw_times (cfg := narpCfg hc yc T R snap) hJ' hr'
  have htime : ev.time = ((log.countP fun e => e.kind = 1 : ℕ) : ℚ) + 1 := by
    rw [List.filter_append, List.map_append, List.countP_append] at ht
    simp only [List.filter_cons, hk, decide_true, if_true, List.filter_nil, List.map_cons, List.map_nil,
      List.countP_cons, List.countP_nil, Nat.zero_add] at ht
    rw [List.range_succ, List.map_append] at ht
    have := List.append_inj_right' ht (by simp)
    simp only [List.map_cons, List.map_nil, List.cons.injEq, and_true] at this
    rw [this]; simp [narpCfg, hJ]
  set M := (log.countP fun e => e.kind = 1) + 1 with hM
  have hMt : ev.time = 8760 * ((M / 8760 : ℕ) : ℚ) + ((M % 8760 : ℕ) : ℚ) := by
    have : 8760 * (M / 8760) + M % 8760 = M := Nat.div_add_mod M 8760
    have h2 : ((8760 * (M / 8760) + M % 8760 : ℕ) : ℚ) = ((M : ℕ) : ℚ) := by rw [this]
    push_cast at h2
    rw [htime, h2, hM]; push_cast; rfl
  have hlt : M % 8760 < 8760 := Nat.mod_lt _ (by norm_num)
  refine ⟨M % 8760, ?_⟩
  by_contra hno
  have hno' : ∀ j, hc.HRLOAD j (hourOf (M % 8760)) * hc.FCTERR j 0 ≤
      (hourDraw hc (hourOf (M % 8760) / 24) (fun i => s.RATING.getD i 0) (fun i => s.PLNDST.getD i 0)
        s.world.h).1.SYSCON j := by
    intro j
    by_contra hj
    exact hno ⟨j, hlt, ⟨_, hMt⟩, not_le.1 hj⟩
  rcases step_world (cfg := narpCfg hc yc T R snap) hJ' h hs with ⟨_, hh, _⟩ | ⟨hk', _, _⟩ | ⟨hk', _⟩
  · simp only [narpCfg, hourFx] at hh
    rw [hMt, C43_no_shortage_refuted hc (by rw [hJ]; norm_num) hf hN _ _ hlt _ _ _ hno'] at hh
    cases hh
  · rw [hk] at hk'; norm_num at hk'
  · rw [hk] at hk'; norm_num at hk'

/-- In daily mode the annual table of at least one area can always be made. -/
theorem annual_daily_ok (hn : 0 < n) (N : ℕ) (H P : Cnt n) : ∃ rows, annualTable N 1 H P = .ok rows := by
  have hfold : ∀ (L : List (Fin 5)) (s : (Option ℚ × Option ℚ) × List Row), s.1.2.isSome →
      ∃ s', L.foldlM (poolTier N 1 H P) s = .ok s' := by
    intro L
    induction L with
    | nil => intro s _; exact ⟨s, rfl⟩
    | cons t L ih =>
      intro s hs
      obtain ⟨xp, hxp⟩ := Option.isSome_iff_exists.mp hs
      have : ∃ s', poolTier N 1 H P s t = .ok s' ∧ s'.1.2.isSome := by
        unfold poolTier
        simp only [ne_eq, not_true_eq_false, if_false]
        rw [hxp]
        by_cases hp : P.LOLGP t > 0
        · rw [if_pos hp]; exact ⟨_, rfl, rfl⟩
        · rw [if_neg hp]; exact ⟨_, rfl, rfl⟩
      obtain ⟨s', h1, h2⟩ := this
      obtain ⟨s'', h3⟩ := ih s' h2
      exact ⟨s'', by rw [List.foldlM_cons, h1]; exact h3⟩
  have hrow : ∀ j, areaRows N 1 H P j ≠ [] := by intro j; unfold areaRows; simp
  have hne : (List.finRange n).flatMap (areaRows N 1 H P) ≠ [] := by
    intro h0
    rw [List.flatMap_eq_nil_iff] at h0
    exact hrow ⟨0, hn⟩ (h0 _ (List.mem_finRange _))
  unfold annualTable
  dsimp only
  obtain ⟨s', hs'⟩ := hfold ((List.finRange 5).take N)
    ((none, ((List.finRange n).flatMap (areaRows N 1 H P)).getLast?.map fun r => r.peak.2), (List.finRange n).flatMap (areaRows N 1 H P))
    (by
      dsimp only
      rw [Option.isSome_map, List.getLast?_isSome]
      exact hne)
  rw [hs']
  exact ⟨_, rfl⟩

/-- C06, C43 (what holds for whole runs). If the hourly event never raises in a state of the run, the tables are well
formed and the inputs of the annual evaluation are legal (annual table not printed, or daily mode), the program runs to a
regular end. -/
theorem C43_run_completes_partial (hJ : StepOK hc.JSTEP)
    (hh : ∀ log s, Reach (narpCfg hc yc T R snap) (narpInit hc.JSTEP m (worldInit g0 l0 net I A)) log s →
      ∀ C, ∃ w', hourBody hc C (fun i => s.RATING.getD i 0) (fun i => s.PLNDST.getD i 0) s.world.h = .ok w')
    (hT : PlanOK T m) (hR : ∀ row ∈ R, row.length = 4) (hNR : yc.NORR.val < yc.NFCST) (hL : 0 < yc.LSTEP)
    (hI : yc.IOJ = 0 ∨ (yc.INDX = 1 ∧ 0 < n)) (hK : yc.KWHERE = 1 → 0 ≤ yc.KVLOC ∧ yc.KVLOC < n) (fuel : ℕ)
    (hfu : 7 * (⌈yc.FINISH⌉₊ + 2) < fuel) :
    ∃ e s, contrl (narpCfg hc yc T R snap) fuel (narpInit hc.JSTEP m (worldInit g0 l0 net I A)) = some (.ok (e, s)) ∧
      (e = .converged ∨ e = .finished) ∧
      ∃ log, Reach (narpCfg hc yc T R snap) (narpInit hc.JSTEP m (worldInit g0 l0 net I A)) log s ∧
        step (narpCfg hc yc T R snap) s = .ok (.exit e) := by
  obtain ⟨r, hr⟩ := C06_terminates (cfg := narpCfg hc yc T R snap) hJ m (worldInit g0 l0 net I A) fuel hfu
  have hr' : contrl (narpCfg hc yc T R snap) fuel (narpInit hc.JSTEP m (worldInit g0 l0 net I A)) = some r := hr
  have key : ∀ (fuel : ℕ) (log : List Ev) (s : St (World n m l ν α)),
      Reach (narpCfg hc yc T R snap) (narpInit hc.JSTEP m (worldInit g0 l0 net I A)) log s →
      contrl (narpCfg hc yc T R snap) fuel s = some r → ∃ e s, r = .ok (e, s) ∧ (e = .converged ∨ e = .finished) ∧
        ∃ log, Reach (narpCfg hc yc T R snap) (narpInit hc.JSTEP m (worldInit g0 l0 net I A)) log s ∧
          step (narpCfg hc yc T R snap) s = .ok (.exit e) := by
    intro fuel
    induction fuel with
    | zero => intro log s _ h; simp [contrl] at h
    | succ fuel ih =>
      intro log s hre h
      unfold contrl at h
      obtain ⟨evs, hE⟩ := ends_of_reach hre
      obtain ⟨_, _, _, _, w1, w2⟩ := ends_inv hJ hE
      obtain ⟨x, hx⟩ := step_ok (cfg := narpCfg hc yc T R snap) hJ hT hR hre
        (by
          intro c
          obtain ⟨w', hw'⟩ := hh log s hre c
          exact ⟨⟨w', s.world.y⟩, by simp only [narpCfg, hourFx, hw', Except.map]⟩)
        (by
          intro c e
          simp only [narpCfg, yearWorld]
          obtain ⟨h', hh', _⟩ := histLoop_aux hNR hL w1 w2 (List.finRange n) s.world.y.hist (List.nodup_finRange n)
          have hsel : ∀ (CH CP : Cum n) (WH WP : PoolW), ∃ S, selSum yc CH CP WH WP = .ok S := by
            intro CH CP WH WP
            unfold selSum
            simp only
            split_ifs with h1
            all_goals first
              | exact ⟨_, rfl⟩
              | (obtain ⟨k1, k2⟩ := hK h1
                 rw [pyIdx_ok k1 k2]
                 simp only
                 rw [dif_pos (by omega)]
                 exact ⟨_, rfl⟩)
          obtain ⟨rows, hrows⟩ : ∃ rows, yearRows yc s.world.h.H s.world.h.P s.world.y.rows = .ok rows := by
            unfold yearRows
            rcases hI with h0 | ⟨h1, hn⟩
            · rw [if_neg (by simpa using h0)]; exact ⟨_, rfl⟩
            · split_ifs
              · rw [h1]; exact annual_daily_ok hn _ _ _
              · exact ⟨_, rfl⟩
          unfold yearBody
          unfold histLoop
          simp only [hh', hrows, bind, Except.bind]
          obtain ⟨S, hS⟩ := hsel (accum yc.NFCST s.world.h.H s.world.y.CH) (accum yc.NFCST s.world.h.P s.world.y.CP)
            (poolW yc.NFCST s.world.h.H) (poolW yc.NFCST s.world.h.P)
          rw [hS]
          exact ⟨_, rfl⟩)
      rw [hx] at h
      cases x with
      | exit e =>
        simp only [Option.some.injEq] at h
        refine ⟨e, s, h.symm, ?_, log, hre, hx⟩
        rcases C06_exit_reason (cfg := narpCfg hc yc T R snap) hJ hre hx with ⟨h1, _⟩ | ⟨h1, _⟩
        · exact Or.inl h1
        · exact Or.inr h1
      | next ev s' => exact ih _ _ (.step hre hx) h
  obtain ⟨e, s, he, ho⟩ := key fuel [] _ .start hr'
  exact ⟨e, s, by rw [hr', he], ho⟩

end Runs

/-! ## A system that is always short -/

/-- `n` areas with 10 MW of load each and no unit, daily mode, one tier -/
def shortSys (n : ℕ) (J : ℚ) : HourIn n 0 0 Unit where
  JSTEP := J
  JFREQ := 1
  MXPLHR := fun d => 24 * d + 18
  PROBG := fun _ _ => 1
  DERATE := fun _ => 1
  CAPOWN := fun _ _ => 1
  CAPCON := fun i => i.elim0
  PROBL := fun _ _ => 1
  JENT := fun _ _ => 0
  INTCH := fun _ _ => 0
  NFCST := 1
  HRLOAD := fun _ _ => 10
  FCTERR := fun _ _ => 1
  transm := fun _ _ => .error .typeError

/-- the annual evaluation of the demonstration: one tier, horizon two years, table not printed, pool statistic of
the reference tier tested -/
def shortYear : YearIn := { demoYear with KWHERE := 2, KVTYPE := 2, FINISH := 17520 }

theorem shortSys_hour {n : ℕ} (hn : 0 < n) {J : ℚ} (C : ℚ) (R P : Fin 0 → ℚ) (w : HourSt n 0 0 Unit) :
    ∃ w', hourBody (shortSys n J) C R P w = .ok w' ∧ ∀ j, w'.H.LOLGA j 0 = w.H.LOLGA j 0 + 1 := by
  have hmod := pyMod_nonneg C
  have hmod2 : pyMod C 8760 < 8760 := by
    unfold pyMod
    have := Int.lt_floor_add_one (C / 8760)
    have h2 : C = 8760 * (C / 8760) := by field_simp
    linarith
  set z := pyInt (pyMod C 8760) with hz
  have hz0 : 0 ≤ z := by
    rw [hz]; unfold pyInt; rw [if_pos hmod]; exact Int.floor_nonneg.2 hmod
  have hz1 : z < 8760 := by
    rw [hz]; unfold pyInt; rw [if_pos hmod]
    have := Int.floor_le (pyMod C 8760)
    have h3 : ((⌊pyMod C 8760⌋ : ℤ) : ℚ) < ((8760 : ℤ) : ℚ) := by push_cast; linarith
    exact_mod_cast h3
  obtain ⟨day, hday, hd⟩ : ∃ day, pyIdx 365 ((-1 + z) / 24) = .ok day ∧ day < 365 := by
    unfold pyIdx
    by_cases h0 : 0 ≤ (-1 + z) / 24
    · rw [if_pos h0, if_pos (by omega)]; exact ⟨_, rfl, by omega⟩
    · rw [if_neg h0, if_pos (by omega)]; exact ⟨_, rfl, by omega⟩
  obtain ⟨hr, hhr⟩ : ∃ hr, pyIdx 8760 (if J = 24 then (((24 * day + 18 : ℕ)) : ℤ) else -1 + z) = .ok hr := by
    unfold pyIdx
    split_ifs
    all_goals first | exact ⟨_, rfl⟩ | omega
  have hmar : ∀ j, tierMargin (shortSys n J) (hourDraw (shortSys n J) day R P w).1 hr 0 j = -10 := by
    intro j
    have : (hourDraw (shortSys n J) day R P w).1.SYSCON j = 0 := by
      simp [hourDraw, sumcap, shortSys]
    unfold tierMargin marginInt findld
    simp only [this]
    have e : (shortSys n J).HRLOAD j hr * (shortSys n J).FCTERR j 0 = 10 := by simp [shortSys]
    rw [e]
    decide +kernel
  unfold hourBody
  simp only
  have e1 : (shortSys n J).JFREQ = 1 := rfl
  have e2 : (shortSys n J).JSTEP = J := rfl
  have e3 : (shortSys n J).NFCST = 1 := rfl
  have e4 : ∀ d, (shortSys n J).MXPLHR d = 24 * d + 18 := fun _ => rfl
  rw [← hz, hday]
  simp only [bind, Except.bind, e1, e2, e3, e4, hhr]
  generalize (decide ((if J = 24 then ((24 * day + 18 : ℕ) : ℤ) else -1 + z) = ((24 * day + 18 : ℕ) : ℤ))) = pk
  rw [if_neg (by norm_num), if_neg (by simp)]
  have hts : (List.finRange 5).take 1 = [0] := rfl
  rw [hts]
  unfold tierLoop tierBody
  simp only
  have hfil : ((List.finRange n).filter fun j =>
      decide (tierMargin (shortSys n J) (hourDraw (shortSys n J) day R P w).1 hr 0 j < 0)) = List.finRange n := by
    rw [List.filter_eq_self]
    intro j _
    rw [hmar]; rfl
  rw [hfil]
  have hne : List.finRange n ≠ [] := by
    intro h; have := congrArg List.length h; simp at this; omega
  rw [if_neg hne, if_neg (by simp; omega), if_neg (by simp)]
  simp only [tierLoop]
  refine ⟨_, rfl, fun j => ?_⟩
  unfold tierStats
  simp only
  have hadd := (C26_hrstat 0 (fun j => ((tierMargin (shortSys n J) (hourDraw (shortSys n J) day R P w).1 hr 0 j : ℤ) : ℚ))
    (hourDraw (shortSys n J) day R P w).2.LSFLG (hourDraw (shortSys n J) day R P w).2.H).2.lolGA j 0
  rw [hadd]
  have hw : (hourDraw (shortSys n J) day R P w).2.H = w.H := rfl
  rw [hw]
  simp only [hmar, shortFlag]
  have hs : ∑ _j : Fin n, (((-10 : ℤ)) : ℚ) ≤ 0 := Finset.sum_nonpos fun _ _ => by norm_num
  have hc : areaCause (∑ _j : Fin n, (((-10 : ℤ)) : ℚ)) = .generation := by
    unfold areaCause; rw [if_neg (not_lt.2 hs)]
  rw [hc]
  norm_num

/-- C30 (refuted over runs). In every run of the program on a system of two or more areas that is always short, with
one forecast tier: the "annual" loss-of-load counter of every area but the first is the number of draws since the
beginning of the simulation. At the end of year `k` it says `k` times the hours of a year. -/
theorem C30_accumulates_refuted {n : ℕ} (hn : 0 < n) {J : ℚ} (hJ : StepOK J) {T : List (List ℤ)} {R : List (List ℚ)}
    {net : Unit} {I A : ℤ} {g0 l0 : Fin 0 → ℤ} {s : St (World n 0 0 Unit Unit)} {log : List Ev}
    (h : Reach (narpCfg (shortSys n J) shortYear T R fun _ => ()) (narpInit J 0 (worldInit g0 l0 net I A)) log s)
    (j : Fin n) (hj : 1 ≤ j.val) :
    s.world.h.H.LOLGA j 0 = (log.countP fun e => e.kind = 1 : ℕ) ∧
    ∀ ev s', step (narpCfg (shortSys n J) shortYear T R fun _ => ()) s = .ok (.next ev s') → ev.kind = 4 →
      s.world.h.H.LOLGA j 0 * J = 8760 * (((log.countP fun e => e.kind = 4 : ℕ) : ℚ) + 1) := by
  have main : s.world.h.H.LOLGA j 0 = (log.countP fun e => e.kind = 1 : ℕ) := by
    induction h with
    | start => simp [narpInit, worldInit, Cnt.zero]
    | @step log s ev s' hr hs ih =>
      rw [List.countP_append]
      rcases step_world (cfg := narpCfg (shortSys n J) shortYear T R fun _ => ()) hJ hr hs with
        ⟨hk, h, _⟩ | ⟨hk, h, _⟩ | ⟨hk, h⟩
      · simp only [narpCfg, hourFx] at h
        obtain ⟨w', hw', ha⟩ := shortSys_hour hn (J := J) ev.time (fun i => s.RATING.getD i 0)
          (fun i => s.PLNDST.getD i 0) s.world.h
        rw [hw'] at h
        simp only [Except.map, Except.ok.injEq] at h
        rw [← h, ha, ih]
        simp [hk]
      · rw [h, ih]
        rcases hk with hk | hk <;> simp [hk]
      · simp only [narpCfg, yearWorld] at h
        cases hb : yearBody shortYear ev.time s'.cal () s.world.h.LSFLG s.world.h.H s.world.h.P s.world.y with
        | error x => rw [hb] at h; cases h
        | ok r =>
          rw [hb] at h
          simp only [Except.map, Except.ok.injEq, Prod.mk.injEq] at h
          obtain ⟨h, _⟩ := h
          obtain ⟨_, _, _, _, _, r1, r2, _⟩ := yearBody_ok (H' := r.1.1) (P' := r.1.2) (y' := r.2.1)
            (rf := r.2.2) hb
          have e1 : s'.world.h.H = r.1.1 := by rw [← h]
          rw [e1, r1]
          have hN : shortYear.NFCST = 1 := rfl
          simp only [resetCnt, resetA, hN]
          rw [if_neg (by omega), ih]
          simp [hk]
  refine ⟨main, fun ev s' hs hk => ?_⟩
  rw [main]
  exact (C07_year_is_8760_hours (cfg := narpCfg (shortSys n J) shortYear T R fun _ => ()) hJ h hs hk).2.2.1

/-- 423 iterations in daily mode with two areas reach the end of the first year. -/
def shortRun (n : ℕ) (k : ℕ) : Except PyErr (List Ev × St (World n 0 0 Unit Unit)) :=
  runLog (narpCfg (shortSys n 24) shortYear (List.replicate 52 [0]) [] fun _ => ()) k
    (narpInit 24 0 (worldInit (fun i => i.elim0) (fun i => i.elim0) () 100 0))

/-- The first year of such a run, computed by the kernel: the counter of area 0 is zeroed, that of area 1 is not. -/
example : ((shortRun 2 423).map fun r => (r.1.countP (fun e => e.kind = 4), r.2.world.h.H.LOLGA 0 0,
    r.2.world.h.H.LOLGA 1 0,  r.2.world.y.CH.SOLGA 1 0)) = .ok (1, 0, 365, 365) := by decide +kernel

/-- The hypotheses of `C43_run_completes_partial` are met by such a system. -/
example : ∃ e s, contrl (narpCfg (shortSys 3 1) shortYear (List.replicate 52 [0]) [] fun _ => ())
      (7 * (⌈shortYear.FINISH⌉₊ + 2) + 1) (narpInit 1 0 (worldInit (fun i => i.elim0) (fun i => i.elim0) () 100 0))
        = some (.ok (e, s)) ∧ (e = .converged ∨ e = .finished) := by
  obtain ⟨e, s, h1, h2, _⟩ := C43_run_completes_partial (hc := shortSys 3 1) (yc := shortYear)
    (T := List.replicate 52 [0]) (R := []) (snap := fun _ => ()) (g0 := fun i => i.elim0) (l0 := fun i => i.elim0)
    (net := ()) (I := 100) (A := 0) (Or.inl rfl)
    (fun _ s _ C => (shortSys_hour (by norm_num) C _ _ s.world.h).imp fun _ h => h.1)
    ⟨rfl, fun row hrow => ⟨0, [], by simpa using hrow, by simp⟩⟩ (by simp) (by decide) (by decide) (.inl rfl)
    (by decide) (7 * (⌈shortYear.FINISH⌉₊ + 2) + 1) (Nat.lt_succ_self _)
  exact ⟨e, s, h1, h2⟩

end Narp.Props
