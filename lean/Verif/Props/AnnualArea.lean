import Verif.Props.Compare
import Verif.Props.AreaShare

/-!
# C112: the annual figures of every area
-/

namespace Narp.Props
open Narp Narp.Spec BigOperators

variable {n m l : ℕ} {sl : ℕ → ℚ → ℚ} {fuel : ℕ} {c : Cards n m l} {s : Setup n m l}

theorem outcome_nonneg {g : GenCard} (hd : g.der ≤ 100) (u : ℚ) : 0 ≤ outcome g u := by
  unfold outcome
  split_ifs
  · norm_num
  · linarith
  · norm_num

/-- What area `j` bears at draw `d` of year `y`, in the program's season and maintenance week. -/
def yearShare (c : Cards n m l) (step : ℕ) (load : Fin (n + 1) → ℕ → ℚ) (H : ℕ → ℕ) (t : Fin 5) (j : Fin (n + 1)) (y d : ℕ) : ℚ :=
  areaLack c (fun j d => load j (H d)) (fun d => ratingSeason (step * d))
    (fun i y d => offInHour (c.units i) (8760 * y + step * d)) (8760 / step) t j y d

/-- C112 at a draw in which no limit binds. -/
theorem C112_draw_partial (h1 : OneCard c) (hs : Sensible c) (hl : NoLone c) (hn : SoundNetwork c)
    (hd : c.misc.NLS = 0 → ∀ i, (c.units i).der ≤ 100)
    (h : setup sl fuel c = .ok s) (hstep : c.misc.JSTEP = 1 ∨ c.misc.JSTEP = 24) (hfreq : c.misc.JFREQ = 1)
    (hnum : ∀ k, (c.lines k).number ≤ l) (hlfu : ∀ j, 0 ≤ (c.areas j).lfu ∧ (c.areas j).lfu < 40)
    {raw : ℕ → ℕ → ℚ} (hraw : leeiRead (n + 1) c.leei = .ok raw) (hpk : ∀ j, 0 < (c.areas j).peak)
    (h0 : ∀ (j : Fin (n + 1)), ∀ h < 8760, 0 ≤ raw j h) (hb : ∀ j : Fin (n + 1), ∃ h < 8760, 1 / 1000 ≤ raw j h)
    (JSEED : ℤ) {log : List Ev} {st st' : St _} {ev : Ev} (hr : Reach s.cfg (s.start JSEED) log st)
    (hst : step s.cfg st = .ok (.next ev st')) (hk : ev.kind = 1) (y T : ℕ) (hT : ev.time = ((8760 * y + T : ℕ) : ℚ))
    (hT1 : 1 ≤ T) (hT2 : T ≤ 8760) (hpos : ∀ (j : Fin (n + 1)) (h : ℕ), standsFor c.misc.JSTEP T h → 0 < raw j h)
    {LP : LEnds n l} (hLP : ∀ k, (c.areas (LP k).1).name = (c.lines k).src ∧ (c.areas (LP k).2).name = (c.lines k).dst)
    {w' : HourSt (n + 1) m l (NetSt n l)}
    (hfree : hourBody { s.hour with transm := hourTransm noRedispatch LP (fun k => dataxBLPA (c.lines k)) 0 c.misc.NLS }
      ev.time (fun i => st.RATING.getD i 0) (fun i => st.PLNDST.getD i 0) st.world.h = .ok w')
    (t : Fin 5) (ht : t.val < s.hour.NFCST) (j : Fin (n + 1)) :
    ∃ (season : Fin 4) (load : Fin (n + 1) → ℕ → ℚ) (H : ℕ), ((season : ℕ) : ℤ) = (seasonOf T + 1) % 4 ∧
    (∀ j : Fin (n + 1), Scaled (raw j) (c.areas j).peak (load j)) ∧ Evaluated c.misc.JSTEP load T H ∧
    let share := borne c.misc.NLS
      (fun j => ∑ i ∈ unitsIn c j, outcome (c.units i) (variate (st'.world.h.IGSEED i)) * (c.units i).cap season *
        (if offInHour (c.units i) (8760 * y + T) then 0 else 1))
      (fun j => load j H * forecast (c.areas j).lfu t) j
    (st'.world.h.H.MGNTA j t + st'.world.h.H.MGNGA j t) - (st.world.h.H.MGNTA j t + st.world.h.H.MGNGA j t) = ⌊share⌋₊ ∧
    (st'.world.h.H.LOLTA j t + st'.world.h.H.LOLGA j t) - (st.world.h.H.LOLTA j t + st.world.h.H.LOLGA j t) =
      if 1 ≤ share then 1 else 0 := by
  have hload : ∀ j : Fin (n + 1), Scaled (raw j) (c.areas j).peak (s.hour.HRLOAD j) := fun j =>
    loads_scaled h hraw j (hpk j) (h0 j) (hb j)
  have hJs : s.hour.JSTEP = c.misc.JSTEP := (C64_step h)
  have hJF : s.hour.JFREQ = 1 := by
    obtain ⟨wr, raw, T, ITAB, ID', hw, _, _, _, _, rfl⟩ := setup_ok h
    exact hfreq
  have hJ : StepOK s.hour.JSTEP := by
    rw [hJs]
    rcases hstep with e | e <;> rw [e]
    · left; norm_num
    · right; norm_num
  have hFE : ∀ j, s.hour.FCTERR j = dataxFCTERR (c.areas j).lfu := by
    obtain ⟨wr, raw, T, ITAB, ID', hw, _, _, _, _, rfl⟩ := setup_ok h
    exact fun j => rfl
  have hmx : ∀ d < 365, s.hour.MXPLHR d < 8760 := fun d hd => by
    obtain ⟨_, _, _, _, _, _, hm⟩ := C64_loads h
    have := (hm d).2.1
    omega
  obtain ⟨season, y', k, _, hsea, hk', hfree, hev, hseed, hL, hlo, hcp⟩ := draw_hour h1 hs hl h hstep hfreq hnum hraw hpk h0 hb
    JSEED hr hst hk y T hT hT1 hT2 hpos hLP hfree
  refine ⟨season, s.hour.HRLOAD, hourUsed s.hour k, hsea, hload, hev, ?_⟩
  have main := C112_hour
    { s.hour with transm := hourTransm noRedispatch LP (fun k => dataxBLPA (c.lines k)) 0 c.misc.NLS }
    (sound_grid h1 hn hLP) rfl hmx hJF (fun j => (c.areas j).lfu) hlfu hFE y' k hk' hL
    (fun i => st.RATING.getD i 0) (fun i => st.PLNDST.getD i 0) st.world.h st'.world.h
    (by
      rw [show st.world.h.net.BN.c3 = fun j => (c.areas j).flowLimit from
          funext fun j => (C64_limits_run h hJ JSEED hr j).1,
        show st.world.h.net.BN.c4 = fun j => (c.areas j).flowLimit from
          funext fun j => (C64_limits_run h hJ JSEED hr j).2])
    (fun j => by
      obtain ⟨_, a, b, _⟩ := C64_units h1 h (hourOf k / 24) (fun i => st.RATING.getD i 0) (fun i => st.PLNDST.getD i 0) st.world.h j
      show (hourDraw s.hour _ _ _ _).1.TRNSFR j + (hourDraw s.hour _ _ _ _).1.TRNSFJ j = 0
      rw [a, b, add_zero])
    (fun e => by
      show 0 ≤ ∑ j, (hourDraw s.hour _ _ _ _).1.SYSCON j
      rw [hcp]
      refine Finset.sum_nonneg fun j _ => Finset.sum_nonneg fun i _ => ?_
      refine mul_nonneg (mul_nonneg (outcome_nonneg (hd e i) _) (hs.cap i _)) ?_
      split_ifs <;> norm_num) hfree t ht j
  change let share := borne c.misc.NLS (hourDraw s.hour (hourOf k / 24) (fun i => st.RATING.getD i 0)
      (fun i => st.PLNDST.getD i 0) st.world.h).1.SYSCON (fun j => s.hour.HRLOAD j (hourUsed s.hour k) * s.hour.FCTERR j t) j
    _ = ((⌊share⌋₊ : ℕ) : ℚ) ∧ _ = if 1 ≤ share then (1 : ℚ) else 0 at main
  rw [hcp, hlo t] at main
  exact main

/-- C112 (what happens). In every study in which no limit binds: what every year end finds in the books of an area, for
every forecast tier, is in whole MWh exactly what the area bears at the year's draws according to the cards, the random
streams and the sharing rule, and the loss-of-load hours are the draws at which that is at least 1 MW. That is so for the
counters that the program clears at the end of a year; the others go on from the year before. -/
theorem C112_year_partial {step : ℕ} {raw : ℕ → ℕ → ℚ} {JSEED : ℤ} (hc : Calm sl fuel c s step raw JSEED)
    (hder : c.misc.NLS = 0 → ∀ i, (c.units i).der ≤ 100) :
    ∃ (load : Fin (n + 1) → ℕ → ℚ) (H : ℕ → ℕ), (∀ j : Fin (n + 1), Scaled (raw j) (c.areas j).peak (load j)) ∧
    (∀ d, 1 ≤ d → d ≤ 8760 / step → Evaluated step load (step * d) (H d)) ∧
    ∀ log st evs, Ends s.hour s.year s.JPLOUT s.RATES snapNet (s.start JSEED) log st evs →
    ∀ y e, evs[y]? = some e → ∀ t : Fin 5, t.val < s.hour.NFCST → ∀ j : Fin (n + 1),
    let first := if j.val < s.hour.NFCST ∧ t.val < n + 1 then y else 0
    e.H.MGNTA j t + e.H.MGNGA j t = ∑ y' ∈ Finset.Ico first (y + 1), wholeMWh (yearShare c step load H t j y') (8760 / step) ∧
    e.H.LOLTA j t + e.H.LOLGA j t = ∑ y' ∈ Finset.Ico first (y + 1), lossHours (yearShare c step load H t j y') (8760 / step) := by
  obtain ⟨h1, hs, hl, hn, h, hstep, hstep', hfreq, hnum, hlfu, hraw, hpk, h0, hb, LP, hLP, hfree⟩ := hc
  have hstepc : c.misc.JSTEP = 1 ∨ c.misc.JSTEP = 24 := by
    rw [hstep]; rcases hstep' with e | e <;> rw [e] <;> simp
  have hJs : s.hour.JSTEP = step := by rw [C64_step h, hstep]; norm_num
  have hJ : StepOK s.hour.JSTEP := by
    rw [hJs]
    rcases hstep' with e | e <;> rw [e]
    · left; norm_num
    · right; norm_num
  have hpos : 0 < step := by rcases hstep' with e | e <;> rw [e] <;> norm_num
  have hdvd : step * (8760 / step) = 8760 := by rcases hstep' with e | e <;> rw [e]
  have hload : ∀ j : Fin (n + 1), Scaled (raw j) (c.areas j).peak (s.hour.HRLOAD j) := fun j =>
    loads_scaled h hraw j (hpk j) (fun x hx => (h0 j x hx).le) (hb j)
  have hH : ∀ d, ∃ H, 1 ≤ d → d ≤ 8760 / step → Evaluated step s.hour.HRLOAD (step * d) H := by
    intro d
    by_cases hd : 1 ≤ d ∧ d ≤ 8760 / step
    · have hle : step * d ≤ 8760 := by
        have := Nat.mul_le_mul_left step hd.2
        omega
      have hge : 1 ≤ step * d := Nat.mul_pos hpos hd.1
      obtain ⟨k, hk⟩ : ∃ k, hourOf k = step * d - 1 := by
        by_cases e : step * d = 8760
        · exact ⟨0, by rw [e]; rfl⟩
        · exact ⟨step * d, by unfold hourOf; rw [if_neg (by omega)]⟩
      have := evaluated_hour h hstepc hk
      rw [hstep] at this
      exact ⟨_, fun _ _ => this⟩
    · exact ⟨0, fun a b => absurd ⟨a, b⟩ hd⟩
  choose H hH using hH
  refine ⟨s.hour.HRLOAD, H, hload, hH, ?_⟩
  intro log st evs hE
  -- a draw
  have draw : ∀ {log : List Ev} {st st' : St _} {ev : Ev}, Reach s.cfg (s.start JSEED) log st →
      Narp.step s.cfg st = .ok (.next ev st') → ev.kind = 1 → ∀ (t : Fin 5), t.val < s.hour.NFCST → ∀ j : Fin (n + 1),
      let share := yearShare c step s.hour.HRLOAD H t j (log.countP fun e => e.kind = 4) (drawsThisYear log + 1)
      (st'.world.h.H.MGNTA j t + st'.world.h.H.MGNGA j t) - (st.world.h.H.MGNTA j t + st.world.h.H.MGNGA j t) = ⌊share⌋₊ ∧
      (st'.world.h.H.LOLTA j t + st'.world.h.H.LOLGA j t) - (st.world.h.H.LOLTA j t + st.world.h.H.LOLGA j t) =
        if 1 ≤ share then 1 else 0 := by
    intro log st st' ev hr hst hk t ht j
    obtain ⟨p1, p2⟩ := draw_position (cfg := s.cfg) hJ hr hst hk
    have hJc : s.cfg.JSTEP = step := hJs
    set Y := log.countP fun e => e.kind = 4 with hY
    set d := drawsThisYear log + 1 with hd
    rw [hJc] at p1
    have hT : ev.time = ((8760 * Y + step * d : ℕ) : ℚ) := by rw [p1, hd]; push_cast; ring
    have hle : step * d ≤ 8760 := by
      rw [hT] at p2
      have : ((8760 * Y + step * d : ℕ) : ℚ) ≤ ((8760 * (Y + 1) : ℕ) : ℚ) := by push_cast at p2 ⊢; exact p2
      have : 8760 * Y + step * d ≤ 8760 * (Y + 1) := by exact_mod_cast this
      omega
    have hge : 1 ≤ step * d := Nat.mul_pos hpos (by omega)
    obtain ⟨w', hw'⟩ := hfree log st ev st' hr hst hk
    obtain ⟨season, load, H', e1, e2, e3, main⟩ := C112_draw_partial h1 hs hl hn hder h hstepc hfreq hnum hlfu hraw hpk
      (fun j x hx => (h0 j x hx).le) hb JSEED hr hst hk Y (step * d) hT hge hle (fun j x hx => by
        refine h0 j x ?_
        unfold standsFor at hx
        split_ifs at hx <;> omega) hLP hw' t ht j
    have hl' : load = s.hour.HRLOAD := funext fun j => scaled_unique (e2 j) (hload j)
    rw [hl', hstep] at e3
    have hd' : d ≤ 8760 / step := by
      rw [Nat.le_div_iff_mul_le hpos, mul_comm]; exact hle
    have hH' : H' = H d := evaluated_unique e3 (hH d (by omega) hd')
    have hsea : season = ratingSeason (step * d) := by
      apply Fin.ext
      show _ = ((seasonOf _ + 1) % 4).toNat
      rw [← e1]; simp
    have hshare : yearShare c step s.hour.HRLOAD H t j Y d = borne c.misc.NLS
        (fun j => ∑ i ∈ unitsIn c j, outcome (c.units i) (variate (st'.world.h.IGSEED i)) * (c.units i).cap season *
        (if offInHour (c.units i) (8760 * Y + step * d) then 0 else 1)) (fun j => load j H' * forecast (c.areas j).lfu t) j := by
      have hdr : draws (log ++ [ev]) = 8760 / step * Y + d := by
        have e := draws_time (cfg := s.cfg) hJ hr
        rw [hJc] at e
        have e' : drawsThisYear log * step + 8760 * Y = draws log * step := by
          have : ((drawsThisYear log * step + 8760 * Y : ℕ) : ℚ) = ((draws log * step : ℕ) : ℚ) := by
            push_cast; unfold draws; linarith
          exact_mod_cast this
        have : draws (log ++ [ev]) = draws log + 1 := by
          unfold draws; rw [List.countP_append]; simp [hk]
        rw [this]
        rw [← hdvd] at e'
        have e'' : step * (drawsThisYear log + 8760 / step * Y) = step * draws log := by rw [← mul_comm (draws log), ← e']; ring
        have := Nat.eq_of_mul_eq_mul_left hpos e''
        omega
      unfold yearShare areaLack
      rw [hl', hH', hsea]
      congr 1
      funext j
      unfold areaCap
      refine Finset.sum_congr rfl fun i _ => ?_
      have := (C73_streams h hstepc JSEED (.step hr hst)).1 i
      rw [this, hdr]
      rfl
    dsimp only at main ⊢
    rw [hshare]
    exact main
  let first : ℕ → Fin (n + 1) → Fin 5 → ℕ := fun y j t => if j.val < s.hour.NFCST ∧ t.val < n + 1 then y else 0
  suffices hI : (∀ y e, evs[y]? = some e → ∀ t : Fin 5, t.val < s.hour.NFCST → ∀ j : Fin (n + 1),
      e.H.MGNTA j t + e.H.MGNGA j t = ∑ y' ∈ Finset.Ico (first y j t) (y + 1), wholeMWh (yearShare c step s.hour.HRLOAD H t j y') (8760 / step) ∧
      e.H.LOLTA j t + e.H.LOLGA j t = ∑ y' ∈ Finset.Ico (first y j t) (y + 1), lossHours (yearShare c step s.hour.HRLOAD H t j y') (8760 / step)) ∧
      evs.length = log.countP (fun e => e.kind = 4) ∧
      ∀ t : Fin 5, t.val < s.hour.NFCST → ∀ j : Fin (n + 1),
      st.world.h.H.MGNTA j t + st.world.h.H.MGNGA j t =
        ∑ y' ∈ Finset.Ico (first (log.countP fun e => e.kind = 4) j t) (log.countP fun e => e.kind = 4),
          wholeMWh (yearShare c step s.hour.HRLOAD H t j y') (8760 / step) +
        wholeMWh (yearShare c step s.hour.HRLOAD H t j (log.countP fun e => e.kind = 4)) (drawsThisYear log) ∧
      st.world.h.H.LOLTA j t + st.world.h.H.LOLGA j t =
        ∑ y' ∈ Finset.Ico (first (log.countP fun e => e.kind = 4) j t) (log.countP fun e => e.kind = 4),
          lossHours (yearShare c step s.hour.HRLOAD H t j y') (8760 / step) +
        lossHours (yearShare c step s.hour.HRLOAD H t j (log.countP fun e => e.kind = 4)) (drawsThisYear log) from hI.1
  have hfle : ∀ y j t, first y j t ≤ y := by
    intro y j t
    show (if _ then _ else _) ≤ _
    split_ifs <;> omega
  induction hE with
  | start =>
    refine ⟨by simp, rfl, fun t _ j => ?_⟩
    simp [Setup.start, narpInit, worldInit, Cnt.zero, drawsThisYear, wholeMWh, lossHours]
  | @year log st evs ev st' he hst hk ih =>
    obtain ⟨i1, i2, i3⟩ := ih
    have hr := he.reach
    have hY := C07_year_is_8760_hours (cfg := s.cfg) hJ hr hst hk
    have hdt := draws_time (cfg := s.cfg) hJ hr
    have hfull : drawsThisYear log = 8760 / step := by
      have e := hY.2.2.1
      have hJc : s.cfg.JSTEP = step := hJs
      rw [hJc] at e hdt
      rw [e] at hdt
      have : ((step * drawsThisYear log : ℕ) : ℚ) = ((step * (8760 / step) : ℕ) : ℚ) := by
        rw [hdvd]; push_cast; linarith
      exact Nat.eq_of_mul_eq_mul_left hpos (by exact_mod_cast this)
    rw [hfull] at i3
    set Y := log.countP fun e => e.kind = 4 with hYdef
    have i3' : ∀ t : Fin 5, t.val < s.hour.NFCST → ∀ j : Fin (n + 1),
      st.world.h.H.MGNTA j t + st.world.h.H.MGNGA j t = ∑ y' ∈ Finset.Ico (first Y j t) (Y + 1),
          wholeMWh (yearShare c step s.hour.HRLOAD H t j y') (8760 / step) ∧
      st.world.h.H.LOLTA j t + st.world.h.H.LOLGA j t = ∑ y' ∈ Finset.Ico (first Y j t) (Y + 1),
          lossHours (yearShare c step s.hour.HRLOAD H t j y') (8760 / step) := by
      intro t ht j
      rw [Finset.sum_Ico_succ_top (hfle _ _ _), Finset.sum_Ico_succ_top (hfle _ _ _)]
      exact i3 t ht j
    rcases step_world (cfg := s.cfg) hJ hr hst with hx | hx | hx
    · rw [hk] at hx; norm_num at hx
    · rw [hk] at hx; norm_num at hx
    obtain ⟨_, hx⟩ := hx
    simp only [Setup.cfg, narpCfg, yearWorld] at hx
    cases hb : yearBody s.year ev.time st'.cal (snapNet st.world.h.net) st.world.h.LSFLG st.world.h.H st.world.h.P
        st.world.y with
    | error x => rw [hb] at hx; cases hx
    | ok r =>
    rw [hb] at hx
    simp only [Except.map, Except.ok.injEq, Prod.mk.injEq] at hx
    obtain ⟨hx, _⟩ := hx
    have e1 : st'.world.h.H = r.1.1 := by rw [← hx]
    obtain ⟨_, _, _, _, _, r1, _⟩ := yearBody_ok (H' := r.1.1) (P' := r.1.2) (y' := r.2.1)
      (rf := r.2.2) hb
    have hY1 : (log ++ [ev]).countP (fun e => e.kind = 4) = Y + 1 := by rw [List.countP_append]; simp [hk, hYdef]
    refine ⟨?_, by rw [hY1, ← i2]; simp, fun t ht j => ?_⟩
    · intro y e hy t ht j
      rw [List.getElem?_append] at hy
      split_ifs at hy with hlt
      · exact i1 y e hy t ht j
      · have h0 : y - evs.length = 0 := by
          by_contra hne
          rw [List.getElem?_eq_none (by simp; omega)] at hy
          cases hy
        rw [h0] at hy
        simp only [List.length_cons, List.length_nil, Nat.zero_add, Nat.lt_add_one, List.getElem?_eq_getElem,
          List.getElem_cons_zero, Option.some.injEq] at hy
        have hy' : y = Y := by omega
        subst hy
        rw [hy']
        exact i3' t ht j
    · have hNF : s.year.NFCST = s.hour.NFCST := by
        obtain ⟨a, b, _⟩ := setup_tiers h; rw [a, b]
      have hw0 : ∀ f, wholeMWh f 0 = 0 := fun f => by simp [wholeMWh]
      have hl0 : ∀ f, lossHours f 0 = 0 := fun f => by simp [lossHours]
      rw [e1, r1, drawsThisYear_snoc, if_pos hk, hY1, hw0, hl0, add_zero, add_zero]
      show resetA _ _ j t + resetA _ _ j t = _ ∧ resetA _ _ j t + resetA _ _ j t = _
      unfold resetA
      rw [hNF]
      by_cases e : j.val < s.hour.NFCST ∧ t.val < n + 1
      · have hf1 : first (Y + 1) j t = Y + 1 := if_pos e
        rw [if_pos e, if_pos e, if_pos e, if_pos e, hf1, Finset.Ico_self]
        simp
      · have hf1 : first (Y + 1) j t = 0 := if_neg e
        have hf0 : first Y j t = 0 := if_neg e
        rw [if_neg e, if_neg e, if_neg e, if_neg e, hf1]
        have := i3' t ht j
        rw [hf0] at this
        exact this
  | @other log st evs ev st' he hst hk ih =>
    obtain ⟨i1, i2, i3⟩ := ih
    have hr := he.reach
    have hc4 : (log ++ [ev]).countP (fun e => e.kind = 4) = log.countP (fun e => e.kind = 4) := by
      rw [List.countP_append]; simp [hk]
    refine ⟨i1, by rw [hc4]; exact i2, fun t ht j => ?_⟩
    rw [hc4, drawsThisYear_snoc, if_neg hk]
    by_cases hk1 : ev.kind = 1
    · rw [if_pos hk1]
      obtain ⟨m1, m2⟩ := draw hr hst hk1 t ht j
      obtain ⟨a, b⟩ := i3 t ht j
      rw [show ∀ f k, wholeMWh f (k + 1) = wholeMWh f k + (⌊f (k + 1)⌋₊ : ℚ) from fun f k => Finset.sum_range_succ _ _,
        show ∀ f k, lossHours f (k + 1) = lossHours f k + (if 1 ≤ f (k + 1) then 1 else 0) from fun f k => Finset.sum_range_succ _ _]
      exact ⟨by linarith, by linarith⟩
    · rw [if_neg hk1]
      rcases step_world (cfg := s.cfg) hJ hr hst with ⟨hx, _⟩ | ⟨_, hx, _⟩ | ⟨hx, _⟩
      · exact absurd hx hk1
      · rw [hx]; exact i3 t ht j
      · exact absurd hx hk

/-- Without loss sharing an area never bears more than it would alone. -/
theorem borne_le_own {k : ℕ} {rule : ℤ} (hr : rule ≠ 0) (cap load : Fin k → ℚ) (j : Fin k) :
    borne rule cap load j ≤ ownShort cap load j := by
  unfold borne
  rw [if_pos hr]
  refine mul_le_of_le_one_right (ownShort_nonneg _ _ _) (div_le_one_of_le₀ ?_ (Finset.sum_nonneg fun i _ => ownShort_nonneg _ _ _))
  refine max_le (Finset.sum_nonneg fun i _ => ownShort_nonneg _ _ _) ?_
  rw [← Finset.sum_sub_distrib]
  exact Finset.sum_le_sum fun i _ => le_max_right _ _

theorem wholeMWh_mono {f g : ℕ → ℚ} (h : ∀ d, f d ≤ g d) (k : ℕ) : wholeMWh f k ≤ wholeMWh g k :=
  Finset.sum_le_sum fun d _ => by exact_mod_cast Nat.floor_le_floor (h (d + 1))

theorem lossHours_mono {f g : ℕ → ℚ} (h : ∀ d, f d ≤ g d) (k : ℕ) : lossHours f k ≤ lossHours g k := by
  refine Finset.sum_le_sum fun d _ => ?_
  have := h (d + 1)
  split_ifs
  · exact le_rfl
  · linarith
  · norm_num
  · exact le_rfl

/-- What area `j` lacks by itself at draw `d` of year `y`, in the program's season and maintenance week. -/
def yearAlone (c : Cards n m l) (step : ℕ) (load : Fin (n + 1) → ℕ → ℚ) (H : ℕ → ℕ) (t : Fin 5) (j : Fin (n + 1)) (y d : ℕ) : ℚ :=
  ownShort (areaCap c (fun d => ratingSeason (step * d)) (fun i y d => offInHour (c.units i) (8760 * y + step * d)) (8760 / step) y d)
    (fun j => load j (H d) * forecast (c.areas j).lfu t) j

/-- C112, consequence: without loss sharing, being interconnected never costs an area anything in such a study. The
books of the area show at most the energy and the hours that it would be short of by itself, in the first year and, for
the counters that are cleared, in every year. -/
theorem C112_no_cost {step : ℕ} {raw : ℕ → ℕ → ℚ} {JSEED : ℤ} (hc : Calm sl fuel c s step raw JSEED) (hN : c.misc.NLS ≠ 0) :
    ∃ (load : Fin (n + 1) → ℕ → ℚ) (H : ℕ → ℕ), (∀ j : Fin (n + 1), Scaled (raw j) (c.areas j).peak (load j)) ∧
    (∀ d, 1 ≤ d → d ≤ 8760 / step → Evaluated step load (step * d) (H d)) ∧
    ∀ log st evs, Ends s.hour s.year s.JPLOUT s.RATES snapNet (s.start JSEED) log st evs →
    ∀ y e, evs[y]? = some e → ∀ t : Fin 5, t.val < s.hour.NFCST → ∀ j : Fin (n + 1),
    y = 0 ∨ (j.val < s.hour.NFCST ∧ t.val < n + 1) →
    e.H.MGNTA j t + e.H.MGNGA j t ≤ wholeMWh (yearAlone c step load H t j y) (8760 / step) ∧
    e.H.LOLTA j t + e.H.LOLGA j t ≤ lossHours (yearAlone c step load H t j y) (8760 / step) := by
  obtain ⟨load, H, a, b, main⟩ := C112_year_partial hc (fun e => absurd e hN)
  refine ⟨load, H, a, b, fun log st evs hE y e he t ht j hy => ?_⟩
  obtain ⟨m1, m2⟩ := main log st evs hE y e he t ht j
  have hle : ∀ d, yearShare c step load H t j y d ≤ yearAlone c step load H t j y d := fun d => borne_le_own hN _ _ _
  have e0 : ∀ f : ℕ → ℚ, ∑ y' ∈ Finset.Ico (if j.val < s.hour.NFCST ∧ t.val < n + 1 then y else 0) (y + 1), f y' = f y := by
    intro f
    rcases hy with hy | hy
    · subst hy; simp
    · rw [if_pos hy]; simp
  rw [e0] at m1 m2
  rw [m1, m2]
  exact ⟨wholeMWh_mono hle _, lossHours_mono hle _⟩

/-- C112 applies: in the run of `scarceCards` the first year end finds 8760 loss-of-load hours in the books of both areas. -/
theorem C112_applies (sl : ℕ → ℚ → ℚ) (fuel : ℕ) (JSEED : ℤ) : ∃ (s : Setup 1 4 1) (raw : ℕ → ℕ → ℚ) (log : List Ev)
    (st : St _) (evs : List (YearEnd 2 _)) (e : YearEnd 2 _), Calm sl fuel scarceCards s 1 raw JSEED ∧ scarceCards.misc.NLS ≠ 0 ∧
    Ends s.hour s.year s.JPLOUT s.RATES snapNet (s.start JSEED) log st evs ∧ evs[0]? = some e ∧
    ∀ j, e.H.LOLTA j 0 + e.H.LOLGA j 0 = 8760 := by
  obtain ⟨s', raw, log, st, evs, e, hcalm, hE, he, _⟩ := C106_applies sl fuel JSEED
  obtain ⟨s, hs, hsc⟩ := scarce_ok sl fuel
  have hss : s' = s := by
    have := hcalm.accepted
    rw [hs] at this
    exact (Except.ok.inj this).symm
  subst hss
  refine ⟨s', raw, log, st, evs, e, hcalm, by decide, hE, he, fun j => ?_⟩
  obtain ⟨load, H, hl, hH, main⟩ := C112_year_partial hcalm (fun e => absurd e (by decide))
  have hb := (main log st evs hE 0 e he 0 (by
    rw [(setup_tiers hs).1]; unfold tiersOf; split_ifs <;> norm_num) j).2
  have e0 : ∀ f : ℕ → ℚ, ∑ y' ∈ Finset.Ico (if j.val < s'.hour.NFCST ∧ (0 : Fin 5).val < 1 + 1 then 0 else 0) (0 + 1), f y' = f 0 := by
    intro f; simp
  rw [e0] at hb
  rw [hb]
  have hload : load = s'.hour.HRLOAD := funext fun j => scaled_unique (hl j)
    (loads_scaled hs hcalm.load j (hcalm.peak j) (fun x hx => (hcalm.pos j x hx).le) (hcalm.some_load j))
  have hshare : ∀ d < 8760, 1 ≤ yearShare scarceCards 1 load H 0 j 0 (d + 1) := by
    intro d hd
    have hst : standsFor 1 (1 * (d + 1)) (H (d + 1)) := (hH (d + 1) (by omega) (by omega)).1
    have hHd : H (d + 1) < 8760 := by
      unfold standsFor at hst
      rw [if_neg (by norm_num)] at hst
      omega
    have all : ∀ i, 1 ≤ (fun j => load j (H (d + 1)) * forecast (scarceCards.areas j).lfu 0) i -
        areaCap scarceCards (fun d => ratingSeason (1 * d)) (fun i y d => offInHour (scarceCards.units i) (8760 * y + 1 * d)) (8760 / 1) 0 (d + 1) i := by
      intro i
      have a := hsc i 0 (H (d + 1)) hHd (fun _ => ratingSeason (1 * (d + 1)))
      have b : areaCap scarceCards (fun d => ratingSeason (1 * d)) (fun i y d => offInHour (scarceCards.units i) (8760 * y + 1 * d)) (8760 / 1) 0 (d + 1) i ≤
          ∑ i ∈ unitsIn scarceCards i, (scarceCards.units i).cap (ratingSeason (1 * (d + 1))) := by
        unfold areaCap
        refine Finset.sum_le_sum fun i _ => ?_
        have c1 := scarce_sensible.cap i (ratingSeason (1 * (d + 1)))
        have hd0 : (scarceCards.units i).der = 0 := by fin_cases i <;> rfl
        have ho := (outcome_bounds (g := scarceCards.units i) (by rw [hd0]; norm_num) (number (stream 123456 i (8760 / 1 * 0 + (d + 1))))).2
        dsimp only
        split_ifs
        · rw [mul_zero]; exact c1
        · rw [mul_one]; exact mul_le_of_le_one_left c1 ho
      rw [hload]
      dsimp only
      linarith
    have hn := own_need all j
    have h1 : 1 ≤ max 0 ((fun j => load j (H (d + 1)) * forecast (scarceCards.areas j).lfu 0) j -
        areaCap scarceCards (fun d => ratingSeason (1 * d)) (fun i y d => offInHour (scarceCards.units i) (8760 * y + 1 * d)) (8760 / 1) 0 (d + 1) j) :=
      (all j).trans (le_max_right _ _)
    rw [hn] at h1
    unfold yearShare areaLack borne
    rw [if_pos (by decide)]
    exact h1
  unfold lossHours
  rw [Finset.sum_congr rfl fun d hd => if_pos (hshare d (by rw [Finset.mem_range] at hd; omega))]
  simp

end Narp.Props
