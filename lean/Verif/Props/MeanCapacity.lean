import Verif.Props.FrequencyRun
import Verif.Props.CardWhole

/-!
# C124: the mean available capacity of an area
-/

namespace Narp.Spec
open BigOperators

/-- What the card of a unit with the same rating in all seasons promises on average, in MW. -/
def promised (g : GenCard) : ℚ := g.cap 0 * (1 - g.fout - g.dfor * (g.der / 100))

/-- The cards of the units of area `j` are sound, have the same rating in all seasons and no planned outages. -/
structure Steady {n m l : ℕ} (c : Cards n m l) (j : Fin (n + 1)) : Prop where
  rating : ∀ i ∈ unitsIn c j, ∀ k, (c.units i).cap k = (c.units i).cap 0
  nonneg : ∀ i ∈ unitsIn c j, 0 ≤ (c.units i).cap 0
  plan : ∀ i ∈ unitsIn c j, ∀ k, ¬ plannedOut (c.units i) k
  dfor : ∀ i ∈ unitsIn c j, 0 ≤ (c.units i).dfor
  fout : ∀ i ∈ unitsIn c j, 0 ≤ (c.units i).fout
  sum : ∀ i ∈ unitsIn c j, (c.units i).dfor + (c.units i).fout ≤ 1
  der : ∀ i ∈ unitsIn c j, 0 ≤ (c.units i).der ∧ (c.units i).der ≤ 100

end Narp.Spec

namespace Narp.Props
open Narp Narp.Spec BigOperators

variable {n m l : ℕ} {sl : ℕ → ℚ → ℚ} {fuel : ℕ} {c : Cards n m l} {s : Setup n m l}

/-- The capacity that the draw made in state `st` makes available to area `j`. -/
def nextCapacity (s : Setup n m l)
    (st : St (World (n + 1) m l (NetSt n l) ((Fin (n + 1) → Fin (n + 1)) × NMat n × NMat n))) (j : Fin (n + 1)) : ℚ :=
  (hourDraw s.hour 0 (fun i => st.RATING.getD i 0) (fun i => st.PLNDST.getD i 0) st.world.h).1.SYSCON j

/-- The fraction of its capacity that the draw gives a unit, by the two readings of its card. -/
theorem outcome_share (h : setup sl fuel c = .ok s) (st : St _) (day : ℕ) (i : Fin m) :
    outcome (c.units i) (variate ((hourDraw s.hour day (fun i => st.RATING.getD i 0) (fun i => st.PLNDST.getD i 0)
      st.world.h).2.IGSEED i)) = nextShare s st i := by
  obtain ⟨wr, raw, T, ITAB, ID', hw, _, _, _, _, rfl⟩ := setup_ok h
  unfold nextShare
  simp only [hourDraw, setupHour, gstate, dataxPROBG, dataxDERATE, unitPct, outcome, Matrix.cons_val_zero, Matrix.cons_val_one]
  have e : 1 - ((c.units i).dfor + (c.units i).fout) = 1 - (c.units i).fout - (c.units i).dfor := by ring
  simp only [e]
  rfl

/-- The clock of a draw is a whole number, at least 1. -/
theorem draw_time_pos {σ : Type} {cfg : Cfg σ} (hJ : StepOK cfg.JSTEP) {N : ℕ} {w : σ} {log : List Ev} {s s' : St σ}
    {ev : Ev} (h : Reach cfg (narpInit cfg.JSTEP N w) log s) (hs : step cfg s = .ok (.next ev s')) (hk : ev.kind = 1) :
    ∃ y T : ℕ, ev.time = ((8760 * y + T : ℕ) : ℚ) ∧ 1 ≤ T ∧ T ≤ 8760 := by
  have h1 := C07_draw_times hJ (Reach.step h hs)
  have hmem : ev.time ∈ ((log ++ [ev]).filter fun e => e.kind = 1).map Ev.time :=
    List.mem_map_of_mem (by simp [hk])
  rw [h1] at hmem
  obtain ⟨k, _, hk'⟩ := List.mem_map.1 hmem
  have key : ∃ T : ℕ, 1 ≤ T ∧ ev.time = T := by
    rcases hJ with e | e
    · exact ⟨k + 1, by omega, by rw [← hk', e]; push_cast; ring⟩
    · exact ⟨(k + 1) * 24, by omega, by rw [← hk', e]; push_cast; ring⟩
  obtain ⟨T, hT, e⟩ := key
  refine ⟨(T - 1) / 8760, (T - 1) % 8760 + 1, ?_, by omega, by omega⟩
  rw [e]
  congr 1
  omega

/-- In an area whose units have no planned outages and the same rating in all seasons, the capacity of a draw is the
sum of the shares that its units deliver. -/
theorem steady_capacity (h1 : OneCard c) (hs : Sensible c) (hl : NoLone c) (h : setup sl fuel c = .ok s)
    (hJ : StepOK s.hour.JSTEP) (JSEED : ℤ) {a : Fin (n + 1)} (ha : Steady c a) {log : List Ev} {st st' : St _} {ev : Ev}
    (hr : Reach s.cfg (s.start JSEED) log st) (hst : step s.cfg st = .ok (.next ev st')) (hk : ev.kind = 1) :
    nextCapacity s st a = ∑ i ∈ unitsIn c a, nextShare s st i * (c.units i).cap 0 := by
  obtain ⟨y, T, hT, hT1, hT2⟩ := draw_time_pos (cfg := s.cfg) hJ hr hst hk
  obtain ⟨season, _, hc⟩ := C69_capacity_partial h1 hs hl h hJ JSEED hr hst hk y T hT hT1 hT2 0 a
  unfold nextCapacity
  rw [hc]
  refine Finset.sum_congr rfl fun i hi => ?_
  have hoff : ¬ offInHour (c.units i) (8760 * y + T) := fun ⟨k, _, hk⟩ => ha.plan i hi k hk
  rw [if_neg hoff, mul_one, outcome_share h st 0 i, ha.rating i hi season]

/-- C124. For every accepted sensible input in which no area has exactly one unit, every area whose units have no
planned outages and the same rating in all seasons, and every stretch of 8388608 successive draws of a run (`st j` is
the state in which the `j`-th draw of the stretch is made): the capacities available to the area add up to what the
cards of its units promise, up to 3/2 of the installed capacity in all. -/
theorem C124_mean_capacity (h1 : OneCard c) (hs : Sensible c) (hl : NoLone c) (h : setup sl fuel c = .ok s)
    (hstep : c.misc.JSTEP = 1 ∨ c.misc.JSTEP = 24) (JSEED : ℤ) {a : Fin (n + 1)} (ha : Steady c a)
    (k : ℕ) {K : ℕ} (hK : K = 8388608) (log : ℕ → List Ev) (st st' : ℕ → St _) (ev : ℕ → Ev)
    (hr : ∀ j < K, Reach s.cfg (s.start JSEED) (log j) (st j) ∧ draws (log j) = k + j ∧
      step s.cfg (st j) = .ok (.next (ev j) (st' j)) ∧ (ev j).kind = 1) :
    |∑ j ∈ Finset.range K, nextCapacity s (st j) a - K * ∑ i ∈ unitsIn c a, promised (c.units i)| ≤
      3 / 2 * ∑ i ∈ unitsIn c a, (c.units i).cap 0 := by
  have hJ : StepOK s.hour.JSTEP := by
    rw [show s.hour.JSTEP = c.misc.JSTEP from (C72_settings h JSEED).1]
    rcases hstep with e | e <;> rw [e]
    · left; norm_num
    · right; norm_num
  have e : ∑ j ∈ Finset.range K, nextCapacity s (st j) a =
      ∑ i ∈ unitsIn c a, (∑ j ∈ Finset.range K, nextShare s (st j) i) * (c.units i).cap 0 := by
    simp_rw [Finset.sum_mul]
    rw [Finset.sum_comm]
    refine Finset.sum_congr rfl fun j hj => ?_
    obtain ⟨r, _, q, k1⟩ := hr j (Finset.mem_range.1 hj)
    exact steady_capacity h1 hs hl h hJ JSEED ha r q k1
  rw [e, Finset.mul_sum, ← Finset.sum_sub_distrib, Finset.mul_sum]
  refine (Finset.abs_sum_le_sum_abs _ _).trans (Finset.sum_le_sum fun i hi => ?_)
  have := C105_run_mean h hstep i (ha.dfor i hi) (ha.fout i hi) (ha.sum i hi) (ha.der i hi) JSEED k hK log st
    (fun j hj => (hr j hj).1) (fun j hj => (hr j hj).2.1)
  have e2 : (∑ j ∈ Finset.range K, nextShare s (st j) i) * (c.units i).cap 0 - K * promised (c.units i) =
      (∑ j ∈ Finset.range K, nextShare s (st j) i -
        K * (1 - (c.units i).fout - (c.units i).dfor * ((c.units i).der / 100))) * (c.units i).cap 0 := by
    unfold promised; ring
  rw [e2, abs_mul, abs_of_nonneg (ha.nonneg i hi)]
  exact mul_le_mul_of_nonneg_right this (ha.nonneg i hi)

/-- A run passes through every draw up to its own number of draws. -/
theorem reach_each_draw {σ : Type} {cfg : Cfg σ} {s₀ : St σ} {log : List Ev} {st : St σ} (h : Reach cfg s₀ log st) :
    ∀ j < draws log, ∃ log' st' ev st'', Reach cfg s₀ log' st' ∧ draws log' = j ∧
      step cfg st' = .ok (.next ev st'') ∧ ev.kind = 1 := by
  induction h with
  | start => intro j hj; simp [draws] at hj
  | @step log st ev st' hr hs ih =>
    intro j hj
    by_cases e : j < draws log
    · exact ih j e
    · have hd : draws (log ++ [ev]) = draws log + if ev.kind = 1 then 1 else 0 := by
        unfold draws
        rw [List.countP_append]
        simp [List.countP_cons]
      rw [hd] at hj
      by_cases hk : ev.kind = 1
      · rw [if_pos hk] at hj
        exact ⟨log, st, ev, st', hr, by omega, hs, hk⟩
      · rw [if_neg hk] at hj
        omega

theorem long_steady : Steady longCards 0 := by
  have hu : ∀ i, 0 ≤ (longCards.units i).dfor ∧ 0 ≤ (longCards.units i).fout ∧
      (longCards.units i).dfor + (longCards.units i).fout ≤ 1 := by
    intro i; fin_cases i <;> simp [longCards] <;> norm_num
  constructor
  · intro i _ k; fin_cases i <;> simp [longCards]
  · intro i _; fin_cases i <;> simp [longCards]
  · intro i _ k; fin_cases i <;> simp [longCards, plannedOut, covers]
  · exact fun i _ => (hu i).1
  · exact fun i _ => (hu i).2.1
  · exact fun i _ => (hu i).2.2
  · exact fun i _ => long_derating i

theorem long_units : unitsIn longCards 0 = {0, 1} := by decide +kernel

/-- C124 applies: over the first 8388608 draws of the run of `longCards` the first area (two units of 100 MW, one with
2 % derated by half and 8 % out) has on average 191 MW, up to 300/8388608 MW. -/
theorem C124_applies (sl : ℕ → ℚ → ℚ) (fuel : ℕ) (JSEED : ℤ) {K : ℕ} (hK : K = 8388608) :
    ∃ (s : Setup 1 4 1) (log : ℕ → List Ev) (st st' : ℕ → St _) (ev : ℕ → Ev), setup sl fuel longCards = .ok s ∧
      (∀ j < K, Reach s.cfg (s.start JSEED) (log j) (st j) ∧ draws (log j) = 0 + j ∧
        step s.cfg (st j) = .ok (.next (ev j) (st' j)) ∧ (ev j).kind = 1) ∧
      |∑ j ∈ Finset.range K, nextCapacity s (st j) 0 - K * 191| ≤ 300 := by
  obtain ⟨s, hs, hrun⟩ := long_run sl fuel JSEED
  obtain ⟨log0, st0, hr0, hd0⟩ := hrun 8760000 le_rfl
  have : ∀ j : ℕ, ∃ log st ev st', j < K → Reach s.cfg (s.start JSEED) log st ∧ draws log = 0 + j ∧
      step s.cfg st = .ok (.next ev st') ∧ ev.kind = 1 := by
    intro j
    by_cases h : j < K
    · obtain ⟨log, st, ev, st', a, b, q⟩ := reach_each_draw hr0 j (by omega)
      exact ⟨log, st, ev, st', fun _ => ⟨a, by omega, q⟩⟩
    · exact ⟨[], s.start JSEED, ⟨0, 0⟩, s.start JSEED, fun h' => absurd h' h⟩
  choose log st ev st' h using this
  refine ⟨s, log, st, st', ev, hs, h, ?_⟩
  have := C124_mean_capacity long_one long_sensible long_lone hs (.inl rfl) JSEED long_steady 0 hK log st st' ev h
  rw [long_units, Finset.sum_pair (by decide), Finset.sum_pair (by decide)] at this
  have e1 : promised (longCards.units 0) + promised (longCards.units 1) = 191 := by
    simp [longCards, promised]; norm_num
  have e2 : (longCards.units 0).cap 0 + (longCards.units 1).cap 0 = 200 := by
    simp [longCards]; norm_num
  rw [e1, e2] at this
  linarith

end Narp.Props
