import Verif.Props.Resume
import Verif.Props.CardEnergy
import Verif.Props.CardStop
import Verif.Props.CardWhole
import Verif.Props.Annual

/-!
# C83 from the input cards
-/

namespace Narp.Props
open Narp Narp.Spec

variable {n m l : ℕ} {sl : ℕ → ℚ → ℚ} {fuel : ℕ} {c : Cards n m l} {s : Setup n m l}

/-- LT, BB, ZB of the snapshot file assigned in the network of a newly started program (`rstart.py:16-19`). -/
def putNet (d : (Fin (n + 1) → Fin (n + 1)) × NMat n × NMat n) (v : NetSt n l) : NetSt n l :=
  { v with LT := d.1, BB := d.2.1, ZB := d.2.2 }

/-- Of the network only the limits of the areas are read before they are written in an hour. -/
theorem alike_of_limits (h : setup sl fuel c = .ok s) {v v' : NetSt n l} (h3 : v.BN.c3 = v'.BN.c3) (h4 : v.BN.c4 = v'.BN.c4)
    (hs : snapNet v = snapNet v') : AlikeNet s.hour snapNet v v' := by
  refine ⟨fun t ht => ?_, hs⟩
  obtain ⟨wr, raw, T, ITAB, ID', hw, _, _, _, _, rfl⟩ := setup_ok h
  change netCall _ _ _ _ _ _ _ _ _ = netCall _ _ _ _ _ _ _ _ _
  unfold netCall hourTransm transm transmInit
  rw [if_pos ht, if_pos ht]
  obtain ⟨⟨a1, a2, a3, a4⟩, b, c', d, e⟩ := v
  obtain ⟨⟨a1', a2', a3', a4'⟩, b', c'', d', e'⟩ := v'
  dsimp only at h3 h4
  subst h3 h4
  cases tm1 wr.LP (fun i => ((fun k => dataxBLPA (c.lines k)) i 0).adm) 0 <;> rfl

/-- **C83 (part), from the input cards.** At every year end of every run at which the snapshot is written and after which the
run goes on: the resumed run, given back what the snapshot lacks (`putBack`: the random seeds, the maintenance status, the
hour of the last draw, the year of the next snapshot and the annual counters), ends as the run that was not interrupted and
leaves the same random seeds, counters, statistics, report and snapshot; or both raise the same exception. The working arrays of
the network are not needed. -/
theorem C83_resumed_partial (h : setup sl fuel c = .ok s) (hstep : c.misc.JSTEP = 1 ∨ c.misc.JSTEP = 24) (JSEED : ℤ)
    {log : List Ev} {st st' : St _} {ev : Ev} (hr : Reach s.cfg (s.start JSEED) log st)
    (hs : step s.cfg st = .ok (.next ev st')) (hk : ev.kind = 4)
    (hw : (((log.countP fun e => e.kind = 4 : ℕ) : ℤ) + 1 = st.world.y.INTVT) ∨
      (((log.countP fun e => e.kind = 4 : ℕ) : ℤ) + 1 = c.misc.FINISH))
    (hgo : st'.RFLAG = 0) :
    ∃ d, st'.world.y.dump = some d ∧ ∀ steps,
      ending leaves (contrl s.cfg steps (putBack st' (restart (s.start JSEED) putNet d))) =
        ending leaves (contrl s.cfg steps st') := by
  have hJ : StepOK s.hour.JSTEP := by
    rw [C64_step h]
    rcases hstep with e | e <;> rw [e]
    · left; norm_num
    · right; norm_num
  have hF : pyInt (s.year.FINISH / 8760) = c.misc.FINISH := by
    rw [(C72_settings h JSEED).2.1, mul_div_cancel_left₀ _ (by norm_num)]
    exact pyInt_intCast _
  have hr' : Reach s.cfg (s.start JSEED) (log ++ [ev]) st' := .step hr hs
  have hA : AlikeNet s.hour snapNet (putNet (snapNet st'.world.h.net) (s.start JSEED).world.h.net) st'.world.h.net := by
    refine alike_of_limits h ?_ ?_ rfl
    · funext j
      rw [(C64_limits_run h hJ JSEED hr' j).1]
      exact (C64_limits_run h hJ JSEED .start j).1
    · funext j
      rw [(C64_limits_run h hJ JSEED hr' j).2]
      exact (C64_limits_run h hJ JSEED .start j).2
  exact resumed (hc := s.hour) hJ hr hs hk (by rw [hF]; exact hw) hgo putNet (s.start JSEED).world hA

/-- C32, the network: the resumed run has the tree, the admittance and the impedance matrix of the run, and the limits of the areas. -/
theorem C32_network (h : setup sl fuel c = .ok s) (hstep : c.misc.JSTEP = 1 ∨ c.misc.JSTEP = 24) (JSEED : ℤ)
    {log : List Ev} {st st' : St _} {ev : Ev} (hr : Reach s.cfg (s.start JSEED) log st)
    (hs : step s.cfg st = .ok (.next ev st')) (hk : ev.kind = 4)
    (hw : (((log.countP fun e => e.kind = 4 : ℕ) : ℤ) + 1 = st.world.y.INTVT) ∨
      (((log.countP fun e => e.kind = 4 : ℕ) : ℤ) + 1 = c.misc.FINISH)) :
    ∃ d, st'.world.y.dump = some d ∧
      let v := (restart (s.start JSEED) putNet d).world.h.net
      v.LT = st'.world.h.net.LT ∧ v.BB = st'.world.h.net.BB ∧ v.ZB = st'.world.h.net.ZB ∧
      v.BN.c3 = st'.world.h.net.BN.c3 ∧ v.BN.c4 = st'.world.h.net.BN.c4 := by
  have hJ : StepOK s.hour.JSTEP := by
    rw [C64_step h]
    rcases hstep with e | e <;> rw [e]
    · left; norm_num
    · right; norm_num
  have hF : pyInt (s.year.FINISH / 8760) = c.misc.FINISH := by
    rw [(C72_settings h JSEED).2.1, mul_div_cancel_left₀ _ (by norm_num)]
    exact pyInt_intCast _
  have hr' : Reach s.cfg (s.start JSEED) (log ++ [ev]) st' := .step hr hs
  obtain ⟨d, hd, _, _, _, _, _, _, _, _, _, _, _, _, hnet⟩ := C32_restored (hc := s.hour) hJ hr hs hk (by rw [hF]; exact hw) putNet (s.start JSEED).world
  refine ⟨d, hd, ?_⟩
  have e : (restart (s.start JSEED) putNet d).world.h.net = putNet (snapNet st'.world.h.net) (s.start JSEED).world.h.net := hnet
  intro v
  have ev : v = putNet (snapNet st'.world.h.net) (s.start JSEED).world.h.net := e
  rw [ev]
  refine ⟨rfl, rfl, rfl, ?_, ?_⟩
  · funext j
    rw [(C64_limits_run h hJ JSEED hr' j).1]
    exact (C64_limits_run h hJ JSEED .start j).1
  · funext j
    rw [(C64_limits_run h hJ JSEED hr' j).2]
    exact (C64_limits_run h hJ JSEED .start j).2

/-- Before the first year end the results are those of the start. -/
theorem first_world (hJ : StepOK s.hour.JSTEP) (JSEED : ℤ) {log : List Ev} {st : St _}
    (hr : Reach s.cfg (s.start JSEED) log st) (h0 : ∀ e ∈ log, e.kind ≠ 4) : st.world.y = (s.start JSEED).world.y := by
  induction hr with
  | start => rfl
  | @step log st ev st' hr hs ih =>
    have := ih fun e he => h0 e (by simp [he])
    rw [← this]
    rcases step_world (cfg := s.cfg) hJ hr hs with ⟨_, hh, _⟩ | ⟨_, hh, _⟩ | ⟨hh, _⟩
    · change Except.map _ (hourFx _ _ _ _ _) = _ at hh
      generalize hourFx _ _ _ _ _ = x at hh
      cases x with
      | error e => cases hh
      | ok x => rw [← Except.ok.inj hh]
    · rw [hh]
    · exact absurd hh (h0 ev (by simp))

/-- The hypotheses are met at the first year end of the run of `scarceCards` (snapshots every year, ten years). -/
theorem C83_applies (sl : ℕ → ℚ → ℚ) (fuel : ℕ) (JSEED : ℤ) : ∃ (s : Setup 1 4 1) (log : List Ev) (st st' : St _) (ev : Ev),
    setup sl fuel scarceCards = .ok s ∧ Reach s.cfg (s.start JSEED) log st ∧ step s.cfg st = .ok (.next ev st') ∧ ev.kind = 4 ∧
    (((log.countP fun e => e.kind = 4 : ℕ) : ℤ) + 1 = st.world.y.INTVT) ∧ st'.RFLAG = 0 := by
  obtain ⟨s, hs, hsc⟩ := scarce_ok sl fuel
  have hJs : s.hour.JSTEP = 1 := by
    rw [C64_step hs]
    show (((1 : ℤ)) : ℚ) = 1
    norm_num
  have hJ : StepOK s.hour.JSTEP := .inl hJs
  obtain ⟨log, st, x, hr, hx, _⟩ := C43_cards_partial scarce_one scarce_sensible scarce_lone scarce_derating hs (.inl rfl)
    rfl (.inl rfl) (by simp [scarceCards, demoCards]; norm_num) (by simp [scarceCards, demoCards]) hsc JSEED
  have hy : ∃ e ∈ log, e.kind = 4 := by
    by_contra hno
    push Not at hno
    obtain ⟨years, cur, hh, _, hexit, _⟩ := C33_cards hs (.inl rfl) rfl (by simp [scarceCards, demoCards]) (some 0)
      ⟨rfl, rfl⟩ (.inl rfl) JSEED hr
    obtain ⟨rfl, hne, _⟩ := hexit x hx
    have hfull := (history_full hJ hh).1.1
    have hz : log.countP (fun e => e.kind = 4) = 0 := List.countP_eq_zero.2 fun e he => by simpa using hno e he
    rw [hz] at hfull
    exact hne (List.length_eq_zero_iff.1 hfull)
  obtain ⟨e0, he0, hk0⟩ := hy
  obtain ⟨l1, ev, l2, hlog, hfirst, hk⟩ : ∃ l1 ev l2, log = l1 ++ ev :: l2 ∧ (∀ e ∈ l1, e.kind ≠ 4) ∧ ev.kind = 4 := by
    clear hr
    induction log with
    | nil => cases he0
    | cons a log ih =>
      by_cases ha : a.kind = 4
      · exact ⟨[], a, log, rfl, by simp, ha⟩
      · have he1 : e0 ∈ log := by
          rcases List.mem_cons.1 he0 with rfl | h
          · exact absurd hk0 ha
          · exact h
        obtain ⟨l1, ev, l2, e, h1, h2⟩ := ih he1
        refine ⟨a :: l1, ev, l2, by rw [e]; rfl, ?_, h2⟩
        intro x hx
        rcases List.mem_cons.1 hx with rfl | hx
        · exact ha
        · exact h1 x hx
  obtain ⟨st1, st', hr1, hs1⟩ := reach_split hr hlog
  have hz : l1.countP (fun e => e.kind = 4) = 0 := List.countP_eq_zero.2 fun e he => by simpa using hfirst e he
  refine ⟨s, l1, st1, st', ev, hs, hr1, hs1, hk, ?_, ?_⟩
  · rw [hz, first_world hJ JSEED hr1 hfirst, (C72_settings hs JSEED).2.2.2.2.2.2.2.2.2.2.2.2.2.2.2.2.1]
    rfl
  · obtain ⟨ht, _⟩ := C07_year_is_8760_hours (cfg := s.cfg) hJ hr1 hs1 hk
    rw [hz] at ht
    rcases step_world (cfg := s.cfg) hJ hr1 hs1 with ⟨h, _⟩ | ⟨h, _⟩ | ⟨_, hh⟩
    · rw [hk] at h; norm_num at h
    · rw [hk] at h; norm_num at h
    have hF := (C72_settings hs JSEED).2.1
    change yearWorld _ _ _ _ _ = _ at hh
    unfold yearWorld at hh
    generalize hx : yearBody _ _ _ _ _ _ _ _ = x at hh
    rcases x with e | ⟨⟨H', P'⟩, y', rf⟩
    · cases hh
    obtain ⟨_, _, _, _, _, _, _, ⟨SUM, _, hcv⟩, _⟩ := yearBody_ok hx
    have hrf : rf = st'.RFLAG := congrArg Prod.snd (Except.ok.inj hh)
    rw [← hrf]
    have e1 : pyInt ((ev.time + 1) / 8760) = 1 := by rw [ht]; decide +kernel
    rw [e1] at hcv
    have e2 := congrArg Prod.fst hcv
    unfold cvchk at e2
    dsimp only at e2
    rw [if_pos (by norm_num)] at e2
    rw [e2]
    dsimp only
    rw [if_neg]
    rw [ht, hF]
    simp [scarceCards, demoCards]

end Narp.Props
