import Verif.Spec.Annual
import Verif.Props.CardEnergy
import Verif.Props.Streams
import Verif.Props.CardWhole
import Verif.Props.CardStop

/-!
# C106: a year of the simulation
-/

namespace Narp.Props
open Narp Narp.Spec BigOperators

/-- When a draw is made: it is the draw number `drawsThisYear + 1` of the year after the year ends so far, and lies in
that year. -/
theorem draw_position {σ : Type} {cfg : Cfg σ} (hJ : StepOK cfg.JSTEP) {N : ℕ} {w : σ} {log : List Ev} {s s' : St σ}
    {ev : Ev} (h : Reach cfg (narpInit cfg.JSTEP N w) log s) (hs : step cfg s = .ok (.next ev s')) (hk : ev.kind = 1) :
    ev.time = 8760 * ((log.countP fun e => e.kind = 4 : ℕ) : ℚ) + ((drawsThisYear log : ℚ) + 1) * cfg.JSTEP ∧
      ev.time ≤ 8760 * (((log.countP fun e => e.kind = 4 : ℕ) : ℚ) + 1) := by
  have hd := draws_time hJ h
  have hl := hJ.lo
  have hh := hJ.hi
  obtain ⟨n, q, hI⟩ := reach_inv hl hh h
  obtain ⟨i, hev, hclk, hmin, _, _, _, _⟩ := inv_next (by linarith) (by linarith) hI hs
  have hi : i = 0 := by
    rw [hev] at hk
    simp only [occ] at hk
    revert hk
    fin_cases i <;> simp [kind]
  subst hi
  rw [log_count_four hI, log_count_one hI] at hd
  rw [log_count_four hI]
  have h6 := hmin 6
  have e6 : (occ cfg.JSTEP 6 (n 6)).time = 8760 * ((n 6 : ℚ) + 1) := by
    simp only [occ, base, period]; simp; ring
  have e0 : ev.time = cfg.JSTEP + (n 0 : ℚ) * cfg.JSTEP := by
    rw [hev]; simp [occ, base, period]
  rw [e6] at h6
  exact ⟨by rw [e0]; linarith, h6⟩

theorem yearBooks_start (lack : ℕ → ℚ) (areas : ℕ) : YearBooks lack areas 0 0 0 := by
  constructor <;> simp

theorem yearBooks_next {lack : ℕ → ℚ} {areas k : ℕ} {E E' L L' : ℚ} (h : YearBooks lack areas k E L)
    (h1 : lack (k + 1) - (areas : ℕ) < E' - E) (h2 : E' - E ≤ lack (k + 1)) (h3 : lack (k + 1) < 1 → L' - L = 0)
    (h4 : (areas : ℚ) ≤ lack (k + 1) → L' - L = 1) (h5 : L' - L = 0 ∨ L' - L = 1) (h6 : 0 ≤ E' - E) : YearBooks lack areas (k + 1) E' L' := by
  obtain ⟨a, b, c, d⟩ := h
  constructor
  · rw [Finset.sum_range_succ]; linarith
  · rw [Finset.sum_range_succ]
    have : max 0 (lack (k + 1) - areas) ≤ E' - E := max_le h6 h1.le
    linarith
  · rw [Finset.range_add_one, Finset.filter_insert]
    by_cases e : 1 ≤ lack (k + 1)
    · rw [if_pos e, Finset.card_insert_of_notMem (by simp)]
      push_cast
      rcases h5 with h | h <;> linarith
    · rw [if_neg e]
      have := h3 (not_le.1 e)
      linarith
  · rw [Finset.range_add_one, Finset.filter_insert]
    by_cases e : (areas : ℚ) ≤ lack (k + 1)
    · rw [if_pos e, Finset.card_insert_of_notMem (by simp)]
      push_cast
      have := h4 e
      linarith
    · rw [if_neg e]
      rcases h5 with h | h <;> linarith

theorem scaled_unique {raw : ℕ → ℚ} {peak : ℚ} {a b : ℕ → ℚ} (h1 : Scaled raw peak a) (h2 : Scaled raw peak b) : a = b := by
  obtain ⟨x, hx, _, hm, e⟩ := h1
  obtain ⟨x', hx', _, hm', e'⟩ := h2
  have : raw x = raw x' := le_antisymm (hm' x hx) (hm x' hx')
  funext h
  rw [e, e', this]

theorem evaluated_unique {k : ℕ} {st : ℤ} {load : Fin k → ℕ → ℚ} {T a b : ℕ} (h1 : Evaluated st load T a)
    (h2 : Evaluated st load T b) : a = b := by
  rcases lt_trichotomy a b with h | h | h
  · exact absurd ((h2.2 a h1.1).2 h) (not_lt.2 (h1.2 b h2.1).1)
  · exact h
  · exact absurd ((h1.2 b h2.1).2 h) (not_lt.2 (h2.2 a h1.1).1)

/-- The season whose ratings are in use in hour `T` of a year: the one after the current one (C09). -/
def ratingSeason (T : ℕ) : Fin 4 := ⟨((seasonOf T + 1) % 4).toNat, by omega⟩

variable {n m l : ℕ} {sl : ℕ → ℚ → ℚ} {fuel : ℕ} {c : Cards n m l} {s : Setup n m l}

/-- At the draw that `st` is about to make at `time` no line or area limit binds: the evaluation returns without a
re-dispatch. -/
def LimitFree (c : Cards n m l) (s : Setup n m l) (LP : LEnds n l) (time : ℚ)
    (st : St (World (n + 1) m l (NetSt n l) ((Fin (n + 1) → Fin (n + 1)) × NMat n × NMat n))) : Prop :=
  ∃ w', hourBody { s.hour with transm := hourTransm noRedispatch LP (fun k => dataxBLPA (c.lines k)) 0 c.misc.NLS } time
    (fun i => st.RATING.getD i 0) (fun i => st.PLNDST.getD i 0) st.world.h = .ok w'

/-- What the pool lacks at draw `d` of year `y`, in the program's season and maintenance week. -/
def yearLack (c : Cards n m l) (step : ℕ) (load : Fin (n + 1) → ℕ → ℚ) (H : ℕ → ℕ) (t : Fin 5) (y d : ℕ) : ℚ :=
  poolLack c (fun j d => load j (H d)) (fun d => ratingSeason (step * d))
    (fun i y d => offInHour (c.units i) (8760 * y + step * d)) (8760 / step) t y d

/-- A study in which no limit ever binds: an accepted sensible input with a sound network in which no area has exactly
one unit, in hourly or daily mode with positive loads (`raw` as in the load file) and a load uncertainty below 40 %,
and a run of it in which no line or area limit binds at any draw. -/
structure Calm (sl : ℕ → ℚ → ℚ) (fuel : ℕ) (c : Cards n m l) (s : Setup n m l) (step : ℕ) (raw : ℕ → ℕ → ℚ) (JSEED : ℤ) :
    Prop where
  one : OneCard c
  sensible : Sensible c
  lone : NoLone c
  network : SoundNetwork c
  accepted : setup sl fuel c = .ok s
  steps : c.misc.JSTEP = step
  mode : step = 1 ∨ step = 24
  freq : c.misc.JFREQ = 1
  number : ∀ k, (c.lines k).number ≤ l
  lfu : ∀ j, 0 ≤ (c.areas j).lfu ∧ (c.areas j).lfu < 40
  load : leeiRead (n + 1) c.leei = .ok raw
  peak : ∀ j, 0 < (c.areas j).peak
  pos : ∀ (j : Fin (n + 1)), ∀ h < 8760, 0 < raw j h
  some_load : ∀ j : Fin (n + 1), ∃ h < 8760, 1 / 1000 ≤ raw j h
  free : ∃ LP : LEnds n l, (∀ k, (c.areas (LP k).1).name = (c.lines k).src ∧ (c.areas (LP k).2).name = (c.lines k).dst) ∧
    ∀ log st ev st', Reach s.cfg (s.start JSEED) log st → Narp.step s.cfg st = .ok (.next ev st') →
      ev.kind = 1 → LimitFree c s LP ev.time st

/-- C106 (what happens). In every study in which no limit binds: the energy not served and the loss-of-load
hours of the pool that every year end finds, for every forecast tier, are those of the year's draws according to
the cards and the random streams, up to the rounding to whole MW. The season and the maintenance week are the program's. -/
theorem C106_year_partial {step : ℕ} {raw : ℕ → ℕ → ℚ} {JSEED : ℤ} (hc : Calm sl fuel c s step raw JSEED) :
    ∃ (load : Fin (n + 1) → ℕ → ℚ) (H : ℕ → ℕ), (∀ j : Fin (n + 1), Scaled (raw j) (c.areas j).peak (load j)) ∧
    (∀ d, 1 ≤ d → d ≤ 8760 / step → Evaluated step load (step * d) (H d)) ∧
    ∀ log st evs, Ends s.hour s.year s.JPLOUT s.RATES snapNet (s.start JSEED) log st evs →
    ∀ y e, evs[y]? = some e → ∀ t : Fin 5, t.val < s.hour.NFCST →
    YearBooks (yearLack c step load H t y) (n + 1) (8760 / step) (e.H.MGNTP t + e.H.MGNGP t) (e.H.LOLTP t + e.H.LOLGP t) := by
  obtain ⟨h1, hs, hl, hn, h, hstep, hstep', hfreq, hnum, hlfu, hraw, hpk, h0, hb, LP, hLP, hfree⟩ := hc
  have hstepc : c.misc.JSTEP = 1 ∨ c.misc.JSTEP = 24 := by
    rw [hstep]; rcases hstep' with e | e <;> rw [e] <;> simp
  have hJs : s.hour.JSTEP = step := by rw [C64_step h, hstep]; norm_num
  have hJ : StepOK s.hour.JSTEP := by
    rw [hJs]
    rcases hstep' with e | e <;> rw [e]
    · left; norm_num
    · right; norm_num
  have hpos : 0 < step := by rcases hstep' with e | e <;> rw [e] <;> norm_num
  have hdvd : step * (8760 / step) = 8760 := by rcases hstep' with e | e <;> rw [e]
  have hload : ∀ j : Fin (n + 1), Scaled (raw j) (c.areas j).peak (s.hour.HRLOAD j) := fun j =>
    loads_scaled h hraw j (hpk j) (fun x hx => (h0 j x hx).le) (hb j)
  have hH : ∀ d, ∃ H, 1 ≤ d → d ≤ 8760 / step → Evaluated step s.hour.HRLOAD (step * d) H := by
    intro d
    by_cases hd : 1 ≤ d ∧ d ≤ 8760 / step
    · have hle : step * d ≤ 8760 := by
        have := Nat.mul_le_mul_left step hd.2
        omega
      have hge : 1 ≤ step * d := Nat.mul_pos hpos hd.1
      obtain ⟨k, hk⟩ : ∃ k, hourOf k = step * d - 1 := by
        by_cases e : step * d = 8760
        · exact ⟨0, by rw [e]; rfl⟩
        · exact ⟨step * d, by unfold hourOf; rw [if_neg (by omega)]⟩
      have := evaluated_hour h hstepc hk
      rw [hstep] at this
      exact ⟨_, fun _ _ => this⟩
    · exact ⟨0, fun a b => absurd ⟨a, b⟩ hd⟩
  choose H hH using hH
  refine ⟨s.hour.HRLOAD, H, hload, hH, ?_⟩
  intro log st evs hE
  -- a draw
  have draw : ∀ {log : List Ev} {st st' : St _} {ev : Ev}, Reach s.cfg (s.start JSEED) log st →
      Narp.step s.cfg st = .ok (.next ev st') → ev.kind = 1 → ∀ (t : Fin 5), t.val < s.hour.NFCST →
      let lack := yearLack c step s.hour.HRLOAD H t (log.countP fun e => e.kind = 4) (drawsThisYear log + 1)
      let mwh := (st'.world.h.H.MGNTP t + st'.world.h.H.MGNGP t) - (st.world.h.H.MGNTP t + st.world.h.H.MGNGP t)
      let hours := (st'.world.h.H.LOLTP t + st'.world.h.H.LOLGP t) - (st.world.h.H.LOLTP t + st.world.h.H.LOLGP t)
      lack - (n + 1 : ℕ) < mwh ∧ mwh ≤ lack ∧ (lack < 1 → hours = 0) ∧ (((n + 1 : ℕ) : ℚ) ≤ lack → hours = 1) ∧
        (hours = 0 ∨ hours = 1) ∧ 0 ≤ mwh := by
    intro log st st' ev hr hst hk t ht
    obtain ⟨p1, p2⟩ := draw_position (cfg := s.cfg) hJ hr hst hk
    have hJc : s.cfg.JSTEP = step := hJs
    set Y := log.countP fun e => e.kind = 4 with hY
    set d := drawsThisYear log + 1 with hd
    rw [hJc] at p1
    have hT : ev.time = ((8760 * Y + step * d : ℕ) : ℚ) := by rw [p1, hd]; push_cast; ring
    have hle : step * d ≤ 8760 := by
      rw [hT] at p2
      have : ((8760 * Y + step * d : ℕ) : ℚ) ≤ ((8760 * (Y + 1) : ℕ) : ℚ) := by push_cast at p2 ⊢; exact p2
      have : 8760 * Y + step * d ≤ 8760 * (Y + 1) := by exact_mod_cast this
      omega
    have hge : 1 ≤ step * d := Nat.mul_pos hpos (by omega)
    obtain ⟨w', hw'⟩ := hfree log st ev st' hr hst hk
    obtain ⟨season, load, H', e1, e2, e3, main⟩ := C71_energy_partial h1 hs hl hn h hstepc hfreq hnum hlfu hraw hpk
      (fun j x hx => (h0 j x hx).le) hb JSEED hr hst hk Y (step * d) hT hge hle (fun j x hx => by
        refine h0 j x ?_
        unfold standsFor at hx
        split_ifs at hx <;> omega) hLP hw' t ht
    have hl' : load = s.hour.HRLOAD := funext fun j => scaled_unique (e2 j) (hload j)
    rw [hl', hstep] at e3
    have hd' : d ≤ 8760 / step := by
      rw [Nat.le_div_iff_mul_le hpos, mul_comm]; exact hle
    have hH' : H' = H d := evaluated_unique e3 (hH d (by omega) hd')
    have hsea : season = ratingSeason (step * d) := by
      apply Fin.ext
      show _ = ((seasonOf _ + 1) % 4).toNat
      rw [← e1]; simp
    have hlack : yearLack c step s.hour.HRLOAD H t Y d = max 0 (∑ j, load j H' * forecast (c.areas j).lfu t -
        ∑ i, outcome (c.units i) (variate (st'.world.h.IGSEED i)) * (c.units i).cap season *
        (if offInHour (c.units i) (8760 * Y + step * d) then 0 else 1)) := by
      have hdr : draws (log ++ [ev]) = 8760 / step * Y + d := by
        have e := draws_time (cfg := s.cfg) hJ hr
        rw [hJc] at e
        have e' : drawsThisYear log * step + 8760 * Y = draws log * step := by
          have : ((drawsThisYear log * step + 8760 * Y : ℕ) : ℚ) = ((draws log * step : ℕ) : ℚ) := by
            push_cast; unfold draws; linarith
          exact_mod_cast this
        have : draws (log ++ [ev]) = draws log + 1 := by
          unfold draws; rw [List.countP_append]; simp [hk]
        rw [this]
        rw [← hdvd] at e'
        have e'' : step * (drawsThisYear log + 8760 / step * Y) = step * draws log := by rw [← mul_comm (draws log), ← e']; ring
        have := Nat.eq_of_mul_eq_mul_left hpos e''
        omega
      unfold yearLack poolLack
      rw [hl', hH', hsea]
      congr 2
      refine Finset.sum_congr rfl fun i _ => ?_
      have := (C73_streams h hstepc JSEED (.step hr hst)).1 i
      rw [this, hdr]
      congr 2
    dsimp only at main ⊢
    rw [hlack]
    exact main
  suffices hI : (∀ y e, evs[y]? = some e → ∀ t : Fin 5, t.val < s.hour.NFCST →
      YearBooks (yearLack c step s.hour.HRLOAD H t y) (n + 1) (8760 / step) (e.H.MGNTP t + e.H.MGNGP t)
        (e.H.LOLTP t + e.H.LOLGP t)) ∧ evs.length = log.countP (fun e => e.kind = 4) ∧
      ∀ t : Fin 5, t.val < s.hour.NFCST →
      YearBooks (yearLack c step s.hour.HRLOAD H t (log.countP fun e => e.kind = 4)) (n + 1) (drawsThisYear log)
        (st.world.h.H.MGNTP t + st.world.h.H.MGNGP t) (st.world.h.H.LOLTP t + st.world.h.H.LOLGP t) from hI.1
  induction hE with
  | start =>
    refine ⟨by simp, rfl, fun t _ => ?_⟩
    have := yearBooks_start (yearLack c step s.hour.HRLOAD H t 0) (n + 1)
    simpa [Setup.start, narpInit, worldInit, Cnt.zero, drawsThisYear] using this
  | @year log st evs ev st' he hst hk ih =>
    obtain ⟨i1, i2, i3⟩ := ih
    have hr := he.reach
    have hY := C07_year_is_8760_hours (cfg := s.cfg) hJ hr hst hk
    have hdt := draws_time (cfg := s.cfg) hJ hr
    have hfull : drawsThisYear log = 8760 / step := by
      have e := hY.2.2.1
      have hJc : s.cfg.JSTEP = step := hJs
      rw [hJc] at e hdt
      rw [e] at hdt
      have : ((step * drawsThisYear log : ℕ) : ℚ) = ((step * (8760 / step) : ℕ) : ℚ) := by
        rw [hdvd]; push_cast; linarith
      exact Nat.eq_of_mul_eq_mul_left hpos (by exact_mod_cast this)
    rcases step_world (cfg := s.cfg) hJ hr hst with hx | hx | hx
    · rw [hk] at hx; norm_num at hx
    · rw [hk] at hx; norm_num at hx
    obtain ⟨_, hx⟩ := hx
    simp only [Setup.cfg, narpCfg, yearWorld] at hx
    cases hb : yearBody s.year ev.time st'.cal (snapNet st.world.h.net) st.world.h.LSFLG st.world.h.H st.world.h.P
        st.world.y with
    | error x => rw [hb] at hx; cases hx
    | ok r =>
    rw [hb] at hx
    simp only [Except.map, Except.ok.injEq, Prod.mk.injEq] at hx
    obtain ⟨hx, _⟩ := hx
    have e1 : st'.world.h.H = r.1.1 := by rw [← hx]
    obtain ⟨_, _, _, _, _, r1, _⟩ := yearBody_ok (H' := r.1.1) (P' := r.1.2) (y' := r.2.1)
      (rf := r.2.2) hb
    refine ⟨?_, by rw [List.countP_append, ← i2]; simp [hk], fun t ht => ?_⟩
    · intro y e hy t ht
      rw [List.getElem?_append] at hy
      split_ifs at hy with hlt
      · exact i1 y e hy t ht
      · have h0 : y - evs.length = 0 := by
          by_contra hne
          rw [List.getElem?_eq_none (by simp; omega)] at hy
          cases hy
        rw [h0] at hy
        simp only [List.length_cons, List.length_nil, Nat.zero_add, Nat.lt_add_one, List.getElem?_eq_getElem,
          List.getElem_cons_zero, Option.some.injEq] at hy
        have hy' : y = log.countP fun e => e.kind = 4 := by omega
        subst hy
        rw [hy', ← hfull]
        exact i3 t ht
    · have hNF : s.year.NFCST = s.hour.NFCST := by
        obtain ⟨a, b, _⟩ := setup_tiers h; rw [a, b]
      have := yearBooks_start (yearLack c step s.hour.HRLOAD H t ((log ++ [ev]).countP fun e => e.kind = 4)) (n + 1)
      rw [e1, r1, drawsThisYear_snoc, if_pos hk]
      simpa [resetCnt, resetP, hNF, ht] using this
  | @other log st evs ev st' he hst hk ih =>
    obtain ⟨i1, i2, i3⟩ := ih
    have hr := he.reach
    have hc4 : (log ++ [ev]).countP (fun e => e.kind = 4) = log.countP (fun e => e.kind = 4) := by
      rw [List.countP_append]; simp [hk]
    refine ⟨i1, by rw [hc4]; exact i2, fun t ht => ?_⟩
    rw [hc4, drawsThisYear_snoc, if_neg hk]
    by_cases hk1 : ev.kind = 1
    · rw [if_pos hk1]
      obtain ⟨m1, m2, m3, m4, m5, m6⟩ := draw hr hst hk1 t ht
      exact yearBooks_next (i3 t ht) m1 m2 m3 m4 m5 m6
    · rw [if_neg hk1]
      rcases step_world (cfg := s.cfg) hJ hr hst with ⟨hx, _⟩ | ⟨_, hx, _⟩ | ⟨hx, _⟩
      · exact absurd hx hk1
      · rw [hx]; exact i3 t ht
      · exact absurd hx hk

theorem ends_length {n m l : ℕ} {ν α : Type} {hc : HourIn n m l ν} {yc : YearIn} {T : List (List ℤ)} {R : List (List ℚ)}
    {snap : ν → α} {s₀ s : St (World n m l ν α)} {log : List Ev} {evs : List (YearEnd n α)}
    (h : Ends hc yc T R snap s₀ log s evs) : evs.length = log.countP fun e => e.kind = 4 := by
  induction h with
  | start => rfl
  | year _ _ hk ih => rw [List.countP_append, ← ih]; simp [hk]
  | other _ _ hk ih => rw [List.countP_append, ← ih]; simp [hk]

/-- No limit binds in any draw of the run of `scarceCards`: everybody is always short. -/
theorem scarce_calm (sl : ℕ → ℚ → ℚ) (fuel : ℕ) (JSEED : ℤ) {s : Setup 1 4 1} (hs : setup sl fuel scarceCards = .ok s)
    (hsc : Scarce scarceCards s.hour.HRLOAD) {raw : ℕ → ℕ → ℚ} (h : leeiRead 2 scarceCards.leei = .ok raw)
    (hraw : ∀ j : Fin 2, ∀ h < 8760, 5 ≤ raw j h) : Calm sl fuel scarceCards s 1 raw JSEED := by
  have hJs : s.hour.JSTEP = 1 := by
    rw [C64_step hs]
    show (((1 : ℤ)) : ℚ) = 1
    norm_num
  have hJ : StepOK s.hour.JSTEP := .inl hJs
  have hJF : s.hour.JFREQ = 1 := by
    obtain ⟨wr, raw, T, ITAB, ID', hw, _, _, _, _, rfl⟩ := setup_ok hs
    rfl
  obtain ⟨_, _, _, hld, _, _, hmx⟩ := C64_loads hs
  refine ⟨scarce_one, scarce_sensible, scarce_lone, scarce_network, hs, rfl, .inl rfl, rfl,
    by intro k; fin_cases k; simp [scarceCards, demoCards], by intro j; fin_cases j <;> simp [scarceCards],
    h, by intro j; fin_cases j <;> simp [scarceCards], fun j x hx => by have := hraw j x hx; linarith,
    fun j => ⟨0, by norm_num, by have := hraw j 0 (by norm_num); linarith⟩, twoLP,
    by intro k; fin_cases k; exact ⟨rfl, rfl⟩, ?_⟩
  intro log st ev st' hr _ _
  refine hourBody_all_short
    { s.hour with transm := (hourTransm noRedispatch twoLP
        (fun k => dataxBLPA (scarceCards.lines k)) 0 scarceCards.misc.NLS) } (by norm_num) hJF
    (fun d hd => by have := (hmx d).2.1; show s.hour.MXPLHR d < 8760; omega)
    ev.time (fun i => st.RATING.getD i 0) (fun i => st.PLNDST.getD i 0) st.world.h ?_
  intro day hr' hh t j
  obtain ⟨season, hcap⟩ := capacity_le scarce_one scarce_sensible scarce_derating hs hJ JSEED hr day
  have a := hcap j
  have b := hsc j t hr' hh season
  rw [← hld j t hr'] at b
  change (hourDraw s.hour day _ _ st.world.h).1.SYSCON j - findld t hr' s.hour.HRLOAD s.hour.FCTERR j ≤ -1
  linarith

/-- C106 applies: no limit binds in any draw of the run of `scarceCards`, the run has a
first year end, and it finds 8760 loss-of-load hours and at least 8760 times 1598 MWh. -/
theorem C106_applies (sl : ℕ → ℚ → ℚ) (fuel : ℕ) (JSEED : ℤ) : ∃ (s : Setup 1 4 1) (raw : ℕ → ℕ → ℚ) (log : List Ev)
    (st : St _) (evs : List (YearEnd 2 _)) (e : YearEnd 2 _), Calm sl fuel scarceCards s 1 raw JSEED ∧
    Ends s.hour s.year s.JPLOUT s.RATES snapNet (s.start JSEED) log st evs ∧ evs[0]? = some e ∧
    e.H.LOLTP 0 + e.H.LOLGP 0 = 8760 ∧ 8760 * 1598 ≤ e.H.MGNTP 0 + e.H.MGNGP 0 := by
  obtain ⟨s, hs, hsc⟩ := scarce_ok sl fuel
  obtain ⟨raw, h, r0, r1⟩ := flat_read
  have hraw : ∀ j : Fin 2, ∀ h < 8760, 5 ≤ raw j h := by
    intro j h hh
    fin_cases j
    · show 5 ≤ raw 0 h; rw [r0 h hh]
    · show 5 ≤ raw 1 h; rw [r1 h hh]; norm_num
  have hJs : s.hour.JSTEP = 1 := by
    rw [C64_step hs]
    show (((1 : ℤ)) : ℚ) = 1
    norm_num
  have hJ : StepOK s.hour.JSTEP := .inl hJs
  have hcalm := scarce_calm sl fuel JSEED hs hsc h hraw
  obtain ⟨log, st, x, hr, hx, _⟩ := C43_cards_partial scarce_one scarce_sensible scarce_lone scarce_derating hs (.inl rfl)
    rfl (.inl rfl) (by simp [scarceCards, demoCards]; norm_num) (by simp [scarceCards, demoCards]) hsc JSEED
  obtain ⟨evs, hE⟩ := ends_of_reach hr
  have hfirst : ∃ e, evs[0]? = some e := by
    obtain ⟨years, cur, hh, _, hexit, _⟩ := C33_cards hs (.inl rfl) rfl (by simp [scarceCards, demoCards]) (some 0)
      ⟨rfl, rfl⟩ (.inl rfl) JSEED hr
    obtain ⟨rfl, hne, _⟩ := hexit x hx
    have hfull := history_full hJ hh
    have hlen : evs.length = years.length := by rw [ends_length hE]; exact hfull.1.1.symm
    exact ⟨evs[0]'(by rw [hlen]; exact List.length_pos_iff.2 hne), List.getElem?_eq_getElem _⟩
  obtain ⟨e, he⟩ := hfirst
  obtain ⟨load, H, hl, hH, main⟩ := C106_year_partial hcalm
  have hb := main log st evs hE 0 e he 0 (by
    rw [(setup_tiers hs).1]; unfold tiersOf; split_ifs <;> norm_num)
  have hlack : ∀ d, 1 ≤ d → d ≤ 8760 → 1600 ≤ yearLack scarceCards 1 load H 0 0 d := by
    intro d hd1 hd2
    have hst : standsFor 1 (1 * d) (H d) := (hH d hd1 (by omega)).1
    have hHd : H d < 8760 := by
      unfold standsFor at hst
      rw [if_neg (by norm_num)] at hst
      omega
    have hsame : ∀ j : Fin 2, ∀ h < 8760, ∀ h' < 8760, raw j h = raw j h' := by
      intro j h hh h' hh'
      fin_cases j
      · show raw 0 h = raw 0 h'; rw [r0 h hh, r0 h' hh']
      · show raw 1 h = raw 1 h'; rw [r1 h hh, r1 h' hh']
    have hload : ∀ j, load j (H d) = (scarceCards.areas j).peak := by
      intro j
      obtain ⟨y, hy, hy0, _, e⟩ := hl j
      rw [e, hsame j _ hHd y hy]
      field_simp
    have hcap : ∀ i, outcome (scarceCards.units i) (number (stream 123456 i (8760 / 1 * 0 + d))) *
        (scarceCards.units i).cap (ratingSeason (1 * d)) *
        (if offInHour (scarceCards.units i) (8760 * 0 + 1 * d) then 0 else 1) ≤ (![100, 100, 60, 40] : Fin 4 → ℚ) i := by
      intro i
      have c0 : (scarceCards.units i).cap (ratingSeason (1 * d)) = (![100, 100, 60, 40] : Fin 4 → ℚ) i := by
        fin_cases i <;> rfl
      have c1 : (0 : ℚ) ≤ (![100, 100, 60, 40] : Fin 4 → ℚ) i := by fin_cases i <;> simp
      have hd0 : (scarceCards.units i).der = 0 := by fin_cases i <;> rfl
      have ho : 0 ≤ outcome (scarceCards.units i) (number (stream 123456 i (8760 / 1 * 0 + d))) ∧
          outcome (scarceCards.units i) (number (stream 123456 i (8760 / 1 * 0 + d))) ≤ 1 := by
        generalize number (stream 123456 i (8760 / 1 * 0 + d)) = u
        unfold outcome
        rw [hd0]
        split_ifs <;> norm_num
      rw [c0]
      split_ifs
      · rw [mul_zero]; exact c1
      · rw [mul_one]; exact mul_le_of_le_one_left c1 ho.2
    have hsum := Finset.sum_le_sum fun i (_ : i ∈ Finset.univ) => hcap i
    have e300 : ∑ i, (![100, 100, 60, 40] : Fin 4 → ℚ) i = 300 := by simp [Fin.sum_univ_four]; norm_num
    rw [e300] at hsum
    have e1900 : ∑ j : Fin 2, load j (H d) * forecast (scarceCards.areas j).lfu 0 = 1900 := by
      rw [Fin.sum_univ_two, hload, hload]
      simp [scarceCards, forecast]; norm_num
    unfold yearLack poolLack
    refine le_trans ?_ (le_max_right _ _)
    rw [e1900]
    linarith
  refine ⟨s, raw, log, st, evs, e, hcalm, hE, he, ?_, ?_⟩
  · refine le_antisymm (hb.atMost.trans ?_) (le_trans ?_ hb.atLeast)
    · have := Finset.card_filter_le (Finset.range (8760 / 1)) (fun d => 1 ≤ yearLack scarceCards 1 load H 0 0 (d + 1))
      rw [Finset.card_range] at this
      exact_mod_cast this
    · rw [Finset.filter_true_of_mem, Finset.card_range]
      · norm_num
      · intro d hd
        rw [Finset.mem_range] at hd
        have := hlack (d + 1) (by omega) (by omega)
        push_cast
        linarith
  · refine le_trans ?_ hb.least
    have := Finset.card_nsmul_le_sum (Finset.range (8760 / 1))
      (fun d => max 0 (yearLack scarceCards 1 load H 0 0 (d + 1) - (1 + 1 : ℕ))) 1598
      (fun d hd => le_trans (by have := hlack (d + 1) (by omega) (by rw [Finset.mem_range] at hd; omega); push_cast; linarith)
        (le_max_right _ _))
    rw [Finset.card_range, nsmul_eq_mul] at this
    push_cast at this ⊢
    linarith

end Narp.Props
