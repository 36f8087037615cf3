import Verif.Props.BalanceRefuted
import Verif.Props.ReadB

/-!
# C78: a line derating card in a run
-/

namespace Narp.Props
open Narp Narp.Spec BigOperators

/-- `ampleCards` with another load file. -/
def derateCards (leei : List LeeiLine) : Cards 1 4 1 := { ampleCards (-100) 260 1000 with leei := leei }

theorem derate_study (sl : ℕ → ℚ → ℚ) (fuel : ℕ) {leei : List LeeiLine} {raw : ℕ → ℕ → ℚ} (hread : leeiRead 2 leei = .ok raw)
    (r0 : ∀ h < 8760, raw 0 h = 5) (r1 : ∀ h < 8760, raw 1 h = 7) :
    ∃ s : Setup 1 4 1, AmpleStudy sl fuel (derateCards leei) s 1 raw := by
  obtain ⟨_, _, _, A⟩ := ample_study sl fuel (adm := -100) (cap := 260) (lim := 1000) (by norm_num) (by norm_num) (by norm_num)
  have hk : AllKnown (derateCards leei) := by
    constructor
    · intro i; fin_cases i <;> simp [derateCards, ampleCards, demoCards]
    · intro i; exact ⟨0, by fin_cases i; rfl⟩
    · intro i; exact ⟨1, by fin_cases i; rfl⟩
    · intro x hx; cases hx
    · intro x hx; cases hx
    · intro x hx; cases hx
  have h1 : OneCard (derateCards leei) := ⟨A.one.areas, A.one.units⟩
  have hs : Sensible (derateCards leei) := ⟨A.sensible.cap, A.sensible.dur, A.sensible.apart⟩
  have hlo : NoLone (derateCards leei) := A.lone
  obtain ⟨s, hs'⟩ := C64_accepted (c := derateCards leei) sl fuel h1 (by norm_num) hk hs hlo.once ⟨raw, hread⟩ rfl rfl
  have hraw : ∀ j : Fin 2, ∀ h < 8760, 5 ≤ raw j h := by
    intro j h hh
    fin_cases j
    · show 5 ≤ raw 0 h; rw [r0 h hh]
    · show 5 ≤ raw 1 h; rw [r1 h hh]; norm_num
  refine ⟨s, h1, hs, hlo, ⟨A.network.1, A.network.2, A.network.3, A.network.4⟩, hs', rfl, .inl rfl, rfl, A.number, A.lfu,
    hread, A.peak, fun j x hx => by have := hraw j x hx; linarith, fun j => ⟨0, by norm_num, by have := hraw j 0 (by norm_num); linarith⟩,
    A.derating, ⟨A.ample.1, A.ample.2⟩, ?_⟩
  intro load hload t x hx season
  refine ⟨0, ?_⟩
  have e : load 0 x = 250 := by
    obtain ⟨y, hy, _, _, e⟩ := hload 0
    rw [e]
    show 250 * raw 0 x / raw 0 y = 250
    rw [r0 x hx, r0 y hy]; norm_num
  have hsum : ∑ i ∈ unitsIn (derateCards leei) 0, ((derateCards leei).units i).cap (season i) = 200 := by
    unfold unitsIn
    rw [Finset.sum_filter, Fin.sum_univ_four]
    simp [derateCards, ampleCards, demoCards]
    norm_num
  rw [e, hsum]
  simp [derateCards, ampleCards, forecast]
  norm_num

/-- a number written with digits only -/
def decInt (neg : Bool) (ds : List (Fin 10)) : Dec := ⟨if neg then some true else none, ds, false, [], none⟩

theorem decInt_wf (neg : Bool) (d : Fin 10) (ds : List (Fin 10)) : (decInt neg (d :: ds)).WF :=
  ⟨.inl (by simp [decInt]), by simp [decInt], by simp [decInt]⟩

/-- The line card of the study: -100, 260 and 260 MW in all six states, probability 1 in the first. -/
def derateDecs : List Dec :=
  [decInt true [1, 0, 0], decInt false [2, 6, 0], decInt false [2, 6, 0], decInt false [1]] ++
  (List.replicate 5 [decInt true [1, 0, 0], decInt false [2, 6, 0], decInt false [2, 6, 0], decInt false [0]]).flatten

/-- Its load file: 5 MW in area 1, 7 MW in area 2, throughout. -/
def derateLoad : List LoadSection :=
  [⟨1, [], List.replicate 730 ([decNat 1], List.replicate 12 (decNat 5))⟩,
    ⟨2, [], List.replicate 730 ([decNat 1], List.replicate 12 (decNat 7))⟩]

theorem flat_section (a d : Fin 10) (h : ℕ) (hh : h < 8760) :
    (LoadSection.load ⟨a, [], List.replicate 730 ([decNat 1], List.replicate 12 (decNat d))⟩ h) = (decNat d).value := by
  have h1 : h / 12 < 730 := by omega
  have h2 : h % 12 < 12 := by omega
  have key : ∀ {α : Type} (k i : ℕ) (x y : α), i < k → (List.replicate k x).getD i y = x := by
    intro α k i x y hi
    simp [List.getD_eq_getElem?_getD, hi]
  unfold LoadSection.load
  rw [List.map_replicate, key _ _ _ _ h1, List.map_replicate, key _ _ _ _ h2]

/-- The files of the study exist, and what is read from them. -/
theorem derate_files (dd : List DerateRow) : ∃ (f : Files 1 4 1) (leei : List LeeiLine) (raw : ℕ → ℕ → ℚ), f.derates = dd ∧
    readFiles f = .ok (derateCards leei) ∧ leeiRead 2 leei = .ok raw ∧ (∀ h < 8760, raw 0 h = 5) ∧ ∀ h < 8760, raw 1 h = 7 := by
  obtain ⟨meta', hmeta⟩ := comma_exists derateDecs (by decide) (by
    have h : ∀ ds ∈ (derateDecs : List Dec), ds.WF := by
      simp only [derateDecs, List.replicate, List.flatten, List.cons_append, List.nil_append, List.forall_mem_cons, decInt_wf, true_and]
      simp [decInt_wf]
    exact h)
  obtain ⟨txt, htxt⟩ := load_exists derateLoad (by
    intro s hs r hr d hd
    simp only [derateLoad, List.mem_cons, List.not_mem_nil, or_false] at hs
    rcases hs with rfl | rfl <;>
    · rw [List.eq_of_mem_replicate hr] at hd
      rcases List.mem_append.1 hd with hd | hd
      · rw [List.mem_singleton] at hd; subst hd; exact decNat_wf 1
      · rw [List.eq_of_mem_replicate hd]; exact decNat_wf _) (by
    intro s hs
    simp only [derateLoad, List.mem_cons, List.not_mem_nil, or_false] at hs
    rcases hs with rfl | rfl <;> exact ⟨by simp, by simp⟩)
  let a := ampleCards (-100) 260 1000
  let f : Files 1 4 1 :=
    { areas := a.areas, units := a.units, lines := fun k => ⟨(a.lines k).sn, (a.lines k).number, (a.lines k).src, (a.lines k).dst, meta'⟩
      contracts := [], owns := [], misc := [a.misc], derates := dd, load := txt }
  obtain ⟨c, hc, e1, e2, e3, e4, e5, e6, raw, hraw, hval⟩ := C76_files f a.misc rfl (fun _ => derateDecs) (fun _ => hmeta)
    (fun _ => rfl) derateLoad htxt (by
      intro s hs
      simp only [derateLoad, List.mem_cons, List.not_mem_nil, or_false] at hs
      rcases hs with rfl | rfl <;> exact ⟨by decide, by decide⟩) (by decide) (by
      intro s hs
      simp only [derateLoad, List.mem_cons, List.not_mem_nil, or_false] at hs
      rcases hs with rfl | rfl <;>
        exact ⟨List.length_replicate, fun r hr => by rw [List.eq_of_mem_replicate hr]; exact List.length_replicate⟩)
  have hl : c.lines = a.lines := by
    funext k
    obtain ⟨b1, b2, b3, b4, b5⟩ := e6 k
    generalize c.lines k = x at *
    obtain ⟨sn, nu, sr, ds, adm, cap, capr, prob⟩ := x
    dsimp only at b1 b2 b3 b4 b5
    have v1 : (decInt true [1, 0, 0]).value = -100 := by decide +kernel
    have v2 : (decInt false [2, 6, 0]).value = 260 := by decide +kernel
    have v3 : (decInt false [1]).value = 1 := by decide +kernel
    have v4 : (decInt false [0]).value = 0 := by decide +kernel
    have hadm : adm = fun _ => -100 := by
      funext q; rw [(b5 q).1]; fin_cases q <;> exact v1
    have hcap : cap = fun _ => 260 := by
      funext q; rw [(b5 q).2.1]; fin_cases q <;> exact v2
    have hcapr : capr = fun _ => 260 := by
      funext q; rw [(b5 q).2.2.1]; fin_cases q <;> exact v2
    have hprob : prob = ![1, 0, 0, 0, 0, 0] := by
      funext q; rw [(b5 q).2.2.2]; fin_cases q
      · exact v3
      all_goals exact v4
    subst hadm hcap hcapr hprob b1 b2 b3 b4
    fin_cases k
    rfl
  refine ⟨f, c.leei, raw, rfl, ?_, hraw, ?_, ?_⟩
  · rw [hc]
    obtain ⟨ar, un, li, co, ow, mi, le⟩ := c
    dsimp only at e1 e2 e3 e4 e5 hl ⊢
    subst e1 e2 e3 e4 e5 hl
    rfl
  · intro h hh
    have := hval _ (List.mem_cons_self ..) h hh
    rw [flat_section 1 5 h hh] at this
    have v : (decNat 5).value = 5 := by decide +kernel
    rw [v] at this
    exact this
  · intro h hh
    have := hval _ (List.mem_cons_of_mem _ (List.mem_cons_self ..)) h hh
    rw [flat_section 2 7 h hh] at this
    have v : (decNat 7).value = 7 := by decide +kernel
    rw [v] at this
    exact this

theorem derate_units (leei : List LeeiLine) : unitsIn (derateCards leei) 0 = {0, 1} ∧ unitsIn (derateCards leei) 1 = {2, 3} := by
  constructor
  · ext i; fin_cases i <;> simp [unitsIn, derateCards, ampleCards, demoCards]
  · ext i; fin_cases i <;> simp [unitsIn, derateCards, ampleCards, demoCards]

/-- The loads of this study. -/
theorem derate_loads {raw : ℕ → ℕ → ℚ} {leei : List LeeiLine} (r0 : ∀ h < 8760, raw 0 h = 5) (r1 : ∀ h < 8760, raw 1 h = 7)
    {load : Fin 2 → ℕ → ℚ} (hload : ∀ j : Fin 2, Scaled (raw j) ((derateCards leei).areas j).peak (load j)) {x : ℕ} (hx : x < 8760) :
    load 0 x = 250 ∧ load 1 x = 10 := by
  constructor
  · obtain ⟨y, hy, _, _, e⟩ := hload 0
    rw [e]
    show 250 * raw 0 x / raw 0 y = 250
    rw [r0 x hx, r0 y hy]; norm_num
  · obtain ⟨y, hy, _, _, e⟩ := hload 1
    rw [e]
    show 10 * raw 1 x / raw 1 y = 10
    rw [r1 x hx, r1 y hy]; norm_num

/-- In week 11 of the first year unit `P` is out according to its card, and it is out in the program, too. -/
theorem derate_week (leei : List LeeiLine) {T : ℕ} (h1 : 1681 ≤ T) (h2 : T ≤ 1848) (i : Fin 4) :
    (plannedOut ((derateCards leei).units i) (weekNow T) ↔ i = 0) ∧ (offInHour ((derateCards leei).units i) (8760 * 0 + T) ↔ i = 0) := by
  have q : (T - 1) / 168 = 10 := by omega
  have w : weekNow T = 11 := by unfold weekNow; omega
  have e : weekInEffect (8760 * 0 + T) = some 10 := by
    unfold weekInEffect
    rw [Nat.mul_zero, Nat.zero_add]
    dsimp only
    rw [q]
    rfl
  unfold offInHour
  rw [w, e]
  fin_cases i <;> simp [derateCards, ampleCards, demoCards, plannedOut, covers]

/-- The time of a draw is given by the number of draws before it. -/
theorem draw_time {σ : Type} {cfg : Cfg σ} (hJ : StepOK cfg.JSTEP) {N : ℕ} {w : σ} {log : List Ev} {s s' : St σ} {ev : Ev}
    (h : Reach cfg (narpInit cfg.JSTEP N w) log s) (hs : step cfg s = .ok (.next ev s')) (hk : ev.kind = 1) :
    ev.time = ((log.countP (fun e => e.kind = 1) : ℕ) + 1 : ℚ) * cfg.JSTEP := by
  have h1 := C07_draw_times hJ (Reach.step h hs)
  have hc : (log ++ [ev]).countP (fun e => decide (e.kind = 1)) = log.countP (fun e => decide (e.kind = 1)) + 1 := by
    rw [List.countP_append]
    simp [hk]
  rw [hc, List.filter_append, List.range_succ, List.map_append, List.map_append] at h1
  have h2 := (List.append_inj' h1 (by simp [List.filter_cons, hk])).2
  simp only [List.filter_cons, hk, decide_true, if_true, List.filter_nil, List.map_cons, List.map_nil] at h2
  exact List.singleton_inj.1 h2

/-- C78_run_refuted applies: in every hour of the first year of the run there is a draw. -/
theorem C78_applies {sl : ℕ → ℚ → ℚ} {fuel : ℕ} {leei : List LeeiLine} {s : Setup 1 4 1} {raw : ℕ → ℕ → ℚ}
    (hs : AmpleStudy sl fuel (derateCards leei) s 1 raw) (JSEED : ℤ) (T : ℕ) (hT1 : 1 ≤ T) (hT2 : T ≤ 8760) :
    ∃ (log : List Ev) (st st' : St _) (ev : Ev), Reach s.cfg (s.start JSEED) log st ∧ step s.cfg st = .ok (.next ev st') ∧
      ev.kind = 1 ∧ ev.time = (T : ℚ) := by
  have hJs : s.hour.JSTEP = 1 := by rw [C64_step hs.accepted, hs.steps]; norm_num
  have hJ : StepOK s.hour.JSTEP := .inl hJs
  obtain ⟨log, st, e, hr, hx, _⟩ := C110_completes hs (.inl rfl) (by simp [derateCards, ampleCards, demoCards]; norm_num)
    (by simp [derateCards, ampleCards, demoCards]) JSEED
  have hd : T - 1 < draws log := by
    obtain ⟨years, cur, hh, _, hexit, _⟩ := C33_cards hs.accepted (.inl rfl) rfl (by simp [derateCards, ampleCards, demoCards]) (some 0)
      ⟨rfl, rfl⟩ (.inl rfl) JSEED hr
    obtain ⟨rfl, hne, _⟩ := hexit e hx
    have hfull := history_full hJ hh
    obtain ⟨ds, rest, rfl⟩ := List.exists_cons_of_ne_nil hne
    have h1 := hfull.2 ds List.mem_cons_self
    have h2 := hfull.1.2
    rw [hJs, mul_one] at h1
    have h3 : ds.length = 8760 := by exact_mod_cast h1
    simp only [List.map_cons, List.sum_cons, List.length_nil] at h2
    unfold draws
    omega
  obtain ⟨log1, st1, ev, st2, hr1, hd1, hst, hk⟩ := reach_each_draw hr (T - 1) hd
  refine ⟨log1, st1, st2, ev, hr1, hst, hk, ?_⟩
  have h1 := draw_time (cfg := s.cfg) hJ hr1 hst hk
  have hd2 : log1.countP (fun e => decide (e.kind = 1)) = T - 1 := hd1
  rw [hd2, show s.cfg.JSTEP = 1 from hJs, mul_one] at h1
  rw [h1]
  have : ((T - 1 : ℕ) : ℚ) = (T : ℚ) - 1 := by push_cast [Nat.cast_sub hT1]; ring
  rw [this]; ring

/-- C78 (refuted in a run). The card reduces the rating of the only line to 0 whenever unit `P` is out. In week 11 of the first
year of every run `P` is out (by its card and in the program), area `A` has 150 MW less than it needs in every hour, and
would have to go without them; but 60 MWh are recorded, because the program lets the other 90 MW come over that line. -/
theorem C78_run_refuted (sl : ℕ → ℚ → ℚ) (fuel : ℕ) : ∃ (f : Files 1 4 1) (c : Cards 1 4 1) (s : Setup 1 4 1) (raw : ℕ → ℕ → ℚ),
    f.derates = [⟨1, 1, ![['P'], [], [], []], 0, 0⟩] ∧ readFiles f = .ok c ∧ setupFiles sl fuel f = .ok s ∧
    AmpleStudy sl fuel c s 1 raw ∧ (c.lines 0).number = 1 ∧ (c.units 0).name = ['P'] ∧
    ∀ JSEED log st st' ev, Reach s.cfg (s.start JSEED) log st → step s.cfg st = .ok (.next ev st') → ev.kind = 1 →
      ∀ T : ℕ, ev.time = (T : ℚ) → 1681 ≤ T → T ≤ 1848 →
      plannedOut (c.units 0) (weekNow T) ∧ offInHour (c.units 0) T ∧
      (∀ (load : Fin 2 → ℕ → ℚ) (H : ℕ), (∀ j : Fin 2, Scaled (raw j) (c.areas j).peak (load j)) → Evaluated 1 load T H →
        load 0 H * forecast (c.areas 0).lfu 0 - ∑ i ∈ unitsIn c 0, outcome (c.units i) (variate (st'.world.h.IGSEED i)) *
          (c.units i).cap (seasonNow T) * (if plannedOut (c.units i) (weekNow T) then 0 else 1) = 150) ∧
      (st'.world.h.H.MGNTA 0 0 + st'.world.h.H.MGNGA 0 0) - (st.world.h.H.MGNTA 0 0 + st.world.h.H.MGNGA 0 0) = 60 := by
  obtain ⟨f, leei, raw, hdd, hf, hread, r0, r1⟩ := derate_files [⟨1, 1, ![['P'], [], [], []], 0, 0⟩]
  obtain ⟨s, hs⟩ := derate_study sl fuel hread r0 r1
  have hset : setupFiles sl fuel f = .ok s := by
    unfold setupFiles
    rw [hf]
    exact hs.accepted
  refine ⟨f, derateCards leei, s, raw, hdd, hf, hset, hs, rfl, rfl, ?_⟩
  intro JSEED log st st' ev hr hst hk T hT hT1 hT2
  obtain ⟨LP, hLP⟩ := ends_exist hs.one hs.accepted
  obtain ⟨w', hfree⟩ := ample_free hs JSEED hLP hr ev.time
  have ht : s.hour.NFCST = 1 := by
    rw [(setup_tiers hs.accepted).1]
    unfold tiersOf
    rw [if_neg]
    rintro ⟨j, hj⟩
    revert hj
    fin_cases j <;> simp [derateCards, ampleCards]
  have hstands : ∀ h, standsFor (derateCards leei).misc.JSTEP T h → h = T - 1 := by
    intro h hh
    unfold standsFor at hh
    rw [if_neg (by simp [derateCards, ampleCards, demoCards])] at hh
    exact hh
  have hstr := (C73_streams hs.accepted (.inl rfl) JSEED (Reach.step hr hst)).1
  have hz : ∀ i, ((derateCards leei).units i).dfor = 0 ∧ ((derateCards leei).units i).fout = 0 := by
    intro i; fin_cases i <;> simp [derateCards, ampleCards, demoCards]
  have ho : ∀ i, outcome ((derateCards leei).units i) (variate (st'.world.h.IGSEED i)) = 1 := by
    intro i
    rw [hstr i]
    unfold outcome
    rw [(hz i).1, (hz i).2, if_pos]
    have := number_lt_one i (draws (log ++ [ev]))
    have e : variate (stream 123456 i (draws (log ++ [ev]))) = number (stream 123456 i (draws (log ++ [ev]))) := by
      unfold variate number; norm_num
    rw [e]; linarith
  have hf1 : ∀ j t, forecast ((derateCards leei).areas j).lfu t = 1 := by
    intro j t; fin_cases j <;> simp [derateCards, ampleCards, forecast]
  have hN : (derateCards leei).misc.NLS ≠ 0 := by simp [derateCards, ampleCards, demoCards]
  have hwk := derate_week leei hT1 hT2
  have hc4 : ∀ k : Fin 4, ((derateCards leei).units 0).cap k = 100 ∧ ((derateCards leei).units 1).cap k = 100 ∧
      ((derateCards leei).units 2).cap k = 60 ∧ ((derateCards leei).units 3).cap k = 40 := by
    intro k
    simp [derateCards, ampleCards, demoCards]
  refine ⟨(hwk 0).1.2 rfl, by have := (hwk 0).2.2 rfl; rwa [Nat.mul_zero, Nat.zero_add] at this, ?_, ?_⟩
  · intro load H hl hE
    have hH : H = T - 1 := hstands H hE.1
    rw [hf1, hH, (derate_loads r0 r1 hl (by omega)).1, (derate_units leei).1, Finset.sum_pair (by decide), ho, ho,
      if_pos ((hwk 0).1.2 rfl), if_neg (fun h => absurd ((hwk 1).1.1 h) (by decide)), (hc4 _).1, (hc4 _).2.1]
    norm_num
  · obtain ⟨season, load, H, hq, hl, hE, main, _⟩ := C112_draw_partial hs.one hs.sensible hs.lone hs.network
      (fun _ i => (hs.derating i).2) hs.accepted (.inl rfl)
      rfl hs.number hs.lfu hs.load hs.peak (fun j h hh => (hs.pos j h hh).le) hs.some_load JSEED hr hst hk 0 T
      (by rw [hT]; norm_num) (by omega) (by omega)
      (fun j h hh => hs.pos j h (by rw [hstands h hh]; omega)) hLP hfree 0 (by rw [ht]; decide) 0
    have hH : H = T - 1 := hstands H hE.1
    obtain ⟨l0, l1⟩ := derate_loads r0 r1 hl (x := T - 1) (by omega)
    have hcap : (fun j => ∑ i ∈ unitsIn (derateCards leei) j, outcome ((derateCards leei).units i) (variate (st'.world.h.IGSEED i)) *
        ((derateCards leei).units i).cap season * (if offInHour ((derateCards leei).units i) (8760 * 0 + T) then 0 else 1)) = ![100, 100] := by
      funext a
      rw [Finset.sum_congr rfl (fun i _ => by rw [ho])]
      fin_cases a
      · show ∑ i ∈ unitsIn (derateCards leei) 0, _ = _
        rw [(derate_units leei).1, Finset.sum_pair (by decide), if_pos ((hwk 0).2.2 rfl),
          if_neg (fun h => absurd ((hwk 1).2.1 h) (by decide)), (hc4 _).1, (hc4 _).2.1]
        norm_num
      · show ∑ i ∈ unitsIn (derateCards leei) 1, _ = _
        rw [(derate_units leei).2, Finset.sum_pair (by decide), if_neg (fun h => absurd ((hwk 2).2.1 h) (by decide)),
          if_neg (fun h => absurd ((hwk 3).2.1 h) (by decide)), (hc4 _).2.2.1, (hc4 _).2.2.2]
        norm_num
    have hld : (fun j => load j H * forecast ((derateCards leei).areas j).lfu 0) = ![250, 10] := by
      funext a
      rw [hf1, hH, mul_one]
      fin_cases a
      · exact l0
      · exact l1
    rw [hcap, hld] at main
    rw [main]
    have hb : borne (derateCards leei).misc.NLS ![100, 100] ![250, 10] 0 = 60 := by
      unfold borne
      rw [if_pos hN]
      unfold ownShort allShort
      simp [Fin.sum_univ_two]
      norm_num
    rw [hb]
    norm_num

end Narp.Props
