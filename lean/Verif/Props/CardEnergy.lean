import Verif.Props.CardRun

/-!
# C71: the unserved energy of an hour, from the cards
-/

namespace Narp.Props
open Narp.Spec BigOperators

/-! ## The limits of the areas in every state of a run -/

section Net
variable {n m l : ℕ} {ν : Type}

/-- What every evaluation of the network preserves, every hour preserves. -/
theorem tierLoop_net {c : HourIn n m l ν} {d : Draw n l} {hr : ℕ} {pk : Bool} {Q : ν → Prop}
    (hQ : ∀ t w o w', Q w → c.transm t w = .ok (o, w') → Q w') :
    ∀ (ts : List (Fin 5)) (f : ℤ) (w w' : HourSt n m l ν), Q w.net → tierLoop c d hr pk ts f w = .ok w' → Q w'.net := by
  intro ts
  induction ts with
  | nil => intro f w w' h e; cases e; exact h
  | cons t ts ih =>
    intro f w w' h e
    unfold tierLoop at e
    cases hb : tierBody c d hr pk t f w with
    | error x => rw [hb] at e; cases e
    | ok r =>
      rw [hb] at e
      have key : match r with
          | .stop w1 => Q w1.net
          | .next _ w1 => Q w1.net := by
        unfold tierBody at hb
        dsimp only at hb
        split_ifs at hb with a1 a2 a3
        · cases hb; exact h
        · generalize ht : c.transm _ w.net = x at hb
          cases x with
          | error x => cases hb
          | ok x =>
            obtain ⟨⟨J, S⟩, net⟩ := x
            have hq := hQ _ _ _ _ h ht
            dsimp only at hb
            split_ifs at hb
            all_goals cases hb; exact hq
        · cases hb; exact h
      cases r with
      | stop w1 => cases e; exact key
      | next f1 w1 => exact ih _ _ _ key e

theorem hourBody_net {c : HourIn n m l ν} {Q : ν → Prop} (hQ : ∀ t w o w', Q w → c.transm t w = .ok (o, w') → Q w')
    {C : ℚ} {R P : Fin m → ℚ} {w w' : HourSt n m l ν} (h : Q w.net) (e : hourBody c C R P w = .ok w') : Q w'.net := by
  unfold hourBody at e
  simp only at e
  obtain ⟨day, hday, e⟩ := Except.bind_ok e
  by_cases hz : c.JFREQ = 0
  · rw [if_pos hz] at e; cases e
  rw [if_neg hz] at e
  generalize (if c.JSTEP = 24 then (c.MXPLHR day : ℤ) else -1 + pyInt (pyMod C 8760)) = JH at e
  split at e
  · cases e
  obtain ⟨hr, hhr, e⟩ := Except.bind_ok e
  exact tierLoop_net hQ _ _ (hourDraw c day R P w).2 _ h e

/-- What every evaluation of the network preserves holds in every state of every run. -/
theorem run_net {α : Type} {hc : HourIn n m l ν} {yc : YearIn} {T : List (List ℤ)} {R : List (List ℚ)} {snap : ν → α}
    {g0 : Fin m → ℤ} {l0 : Fin l → ℤ} {net : ν} {I A : ℤ} (hJ : StepOK hc.JSTEP) {Q : ν → Prop}
    (hQ : ∀ t w o w', Q w → hc.transm t w = .ok (o, w') → Q w') (h0 : Q net) {log : List Ev} {s : St _}
    (h : Reach (narpCfg hc yc T R snap) (narpInit hc.JSTEP m (worldInit g0 l0 net I A)) log s) : Q s.world.h.net := by
  induction h with
  | start => exact h0
  | @step log s ev s' hr hs ih =>
    rcases step_world (cfg := narpCfg hc yc T R snap) hJ hr hs with ⟨_, e, _⟩ | ⟨_, e, _⟩ | ⟨_, e⟩
    · simp only [narpCfg, hourFx] at e
      cases hb : hourBody hc ev.time (fun i => s.RATING.getD i 0) (fun i => s.PLNDST.getD i 0) s.world.h with
      | error x => rw [hb] at e; cases e
      | ok w =>
        rw [hb] at e
        have : s'.world = ⟨w, s.world.y⟩ := (Except.ok.inj e).symm
        rw [this]
        exact hourBody_net hQ ih hb
    · rw [e]; exact ih
    · simp only [narpCfg, yearWorld] at e
      generalize yearBody _ _ _ _ _ _ _ _ = x at e
      cases x with
      | error x => cases e
      | ok r =>
        have := congrArg Prod.fst (Except.ok.inj e)
        dsimp only at this
        rw [← this]
        exact ih

/-- Replacing the transmission module by one that does the same whenever the first one returns. -/
theorem tierLoop_mono {c c' : HourIn n m l ν} {d : Draw n l} {hr : ℕ} {pk : Bool} (hc : c' = { c with transm := c'.transm })
    (ht : ∀ t w r, c'.transm t w = .ok r → c.transm t w = .ok r) :
    ∀ (ts : List (Fin 5)) (f : ℤ) (w w' : HourSt n m l ν), tierLoop c' d hr pk ts f w = .ok w' →
      tierLoop c d hr pk ts f w = .ok w' := by
  have hm : ∀ t, tierMargin c' d hr t = tierMargin c d hr t := by intro t; rw [hc]; rfl
  have hf : ∀ t, findld t hr c'.HRLOAD c'.FCTERR = findld t hr c.HRLOAD c.FCTERR := by intro t; rw [hc]
  have hbody : ∀ t f w r, tierBody c' d hr pk t f w = .ok r → tierBody c d hr pk t f w = .ok r := by
    intro t f w r h
    unfold tierBody at h ⊢
    rw [hm, hf] at h
    dsimp only at h ⊢
    split_ifs at h ⊢
    · exact h
    · cases hx : c'.transm ⟨f, d.LNSTAT, d.TRNSFR, d.TRNSFJ, d.SYSCON, findld t hr c.HRLOAD c.FCTERR⟩ w.net with
      | error x => rw [hx] at h; cases h
      | ok x => rw [hx] at h; rw [ht _ _ _ hx]; exact h
    · exact h
  intro ts
  induction ts with
  | nil => intro f w w' h; exact h
  | cons t ts ih =>
    intro f w w' h
    unfold tierLoop at h ⊢
    cases hb : tierBody c' d hr pk t f w with
    | error x => rw [hb] at h; cases h
    | ok r =>
      rw [hbody _ _ _ _ hb]
      rw [hb] at h
      cases r with
      | stop w1 => exact h
      | next f1 w1 => exact ih _ _ _ h

theorem hourBody_mono {c c' : HourIn n m l ν} (hc : c' = { c with transm := c'.transm })
    (ht : ∀ t w r, c'.transm t w = .ok r → c.transm t w = .ok r) {C : ℚ} {R P : Fin m → ℚ} {w w' : HourSt n m l ν}
    (e : hourBody c' C R P w = .ok w') : hourBody c C R P w = .ok w' := by
  have h1 : hourDraw c' = hourDraw c := by rw [hc]; rfl
  unfold hourBody at e ⊢
  have e1 : c'.JSTEP = c.JSTEP := by rw [hc]
  have e2 : c'.JFREQ = c.JFREQ := by rw [hc]
  have e3 : c'.MXPLHR = c.MXPLHR := by rw [hc]
  have e4 : c'.NFCST = c.NFCST := by rw [hc]
  simp only [h1, e1, e2, e3, e4] at e ⊢
  obtain ⟨day, hday, e⟩ := Except.bind_ok e
  rw [hday]
  show (if c.JFREQ = 0 then _ else _) = _
  by_cases hz : c.JFREQ = 0
  · rw [if_pos hz] at e; cases e
  rw [if_neg hz] at e ⊢
  generalize (if c.JSTEP = 24 then (c.MXPLHR day : ℤ) else -1 + pyInt (pyMod C 8760)) = JH at e ⊢
  split at e
  · cases e
  rename_i h2
  rw [if_neg h2]
  obtain ⟨hr, hhr, e⟩ := Except.bind_ok e
  rw [hhr]
  exact tierLoop_mono hc ht _ _ _ _ e

end Net

variable {n m l : ℕ} {sl : ℕ → ℚ → ℚ} {fuel : ℕ} {c : Cards n m l} {s : Setup n m l}

/-- C54, C64: in every state of every run the limits of the areas are those of their cards. -/
theorem C64_limits_run (h : setup sl fuel c = .ok s) (hJ : StepOK s.hour.JSTEP) (JSEED : ℤ) {log : List Ev} {st : St _}
    (hr : Reach s.cfg (s.start JSEED) log st) (j : Fin (n + 1)) :
    st.world.h.net.BN.c3 j = (c.areas j).flowLimit ∧ st.world.h.net.BN.c4 j = (c.areas j).flowLimit := by
  have key : (st.world.h.net.BN.c3 = fun j => (c.areas j).flowLimit) ∧
      st.world.h.net.BN.c4 = fun j => (c.areas j).flowLimit := by
    refine run_net (hc := s.hour) hJ
      (Q := fun w : NetSt n l => (w.BN.c3 = fun j => (c.areas j).flowLimit) ∧ w.BN.c4 = fun j => (c.areas j).flowLimit)
      ?_ ?_ hr
    · rintro t w o w' ⟨h3, h4⟩ ht
      obtain ⟨wr, raw, T, ITAB, ID', hw, _, _, _, _, rfl⟩ := setup_ok h
      change netCall _ _ _ _ _ _ _ _ _ = _ at ht
      unfold netCall at ht
      obtain ⟨_, _, ht⟩ := Except.bind_ok ht
      unfold hourTransm at ht
      generalize hx : transm _ _ _ _ _ _ _ = x at ht
      cases x with
      | error x => cases ht
      | ok x =>
        obtain ⟨out, w1⟩ := x
        have e : w1 = w' := congrArg Prod.snd (Except.ok.inj ht)
        subst e
        obtain ⟨r3, r4⟩ := C54_limits_restored (by rw [h3, h4]) hx
        exact ⟨r3.trans h3, r4.trans h4⟩
    · obtain ⟨wr, raw, T, ITAB, ID', hw, _, _, _, _, rfl⟩ := setup_ok h
      exact ⟨rfl, rfl⟩
  exact ⟨congrFun key.1 j, congrFun key.2 j⟩

theorem sound_grid (h1 : OneCard c) (hn : SoundNetwork c) {LP : LEnds n l}
    (hLP : ∀ k, (c.areas (LP k).1).name = (c.lines k).src ∧ (c.areas (LP k).2).name = (c.lines k).dst) :
    Grid LP (fun k => dataxBLPA (c.lines k)) 0 := by
  constructor
  · intro k e
    apply hn.proper k
    rw [← (hLP k).1, ← (hLP k).2, e]
  · intro a
    have := hn.reaches a
    induction this with
    | refl => exact .refl
    | tail _ hxy ih =>
      refine ih.tail ?_
      obtain ⟨k, ⟨e1, e2⟩ | ⟨e1, e2⟩⟩ := hxy
      · exact ⟨k, .inl ⟨h1.areas ((hLP k).1.trans e1), h1.areas ((hLP k).2.trans e2)⟩⟩
      · exact ⟨k, .inr ⟨h1.areas ((hLP k).1.trans e1), h1.areas ((hLP k).2.trans e2)⟩⟩
  · intro k t
    simp only [dataxBLPA]
    have := hn.adm k t
    split_ifs with e
    · norm_num
    · exact lt_of_le_of_ne this e
  · intro k t
    simp only [dataxBLPA]
    have := hn.cap k t
    constructor <;> split_ifs <;> first | exact this.1 | exact this.2 | norm_num

/-- Every unit is in exactly one area. -/
theorem sum_unitsIn (h1 : OneCard c) (hk : AllKnown c) (f : Fin m → ℚ) :
    ∑ j, ∑ i ∈ unitsIn c j, f i = ∑ i, f i := by
  have : ∀ j, ∑ i ∈ unitsIn c j, f i = ∑ i, if (c.units i).loc = (c.areas j).name then f i else 0 := by
    intro j; unfold unitsIn; rw [Finset.sum_filter]
  simp only [this]
  rw [Finset.sum_comm]
  refine Finset.sum_congr rfl fun i _ => ?_
  obtain ⟨j, hj⟩ := hk.loc i
  rw [Finset.sum_eq_single j]
  · rw [if_pos hj.symm]
  · intro b _ hb
    rw [if_neg]
    intro e
    exact hb (h1.areas (e.symm.trans hj.symm))
  · intro hx; exact absurd (Finset.mem_univ _) hx

/-- The loads of the simulation are the scaled profiles. -/
theorem loads_scaled (h : setup sl fuel c = .ok s) {raw : ℕ → ℕ → ℚ} (hraw : leeiRead (n + 1) c.leei = .ok raw)
    (j : Fin (n + 1)) (hp : 0 < (c.areas j).peak) (h0 : ∀ h < 8760, 0 ≤ raw j h) (hb : ∃ h < 8760, 1 / 1000 ≤ raw j h) :
    Scaled (raw j) (c.areas j).peak (s.hour.HRLOAD j) := by
  obtain ⟨raw', hr', hl, _⟩ := C64_loads h
  have e : raw' = raw := Except.ok.inj (hr'.symm.trans hraw)
  subst e
  obtain ⟨⟨x, hx, a1⟩, a2, a3⟩ := hl j hp.le hb
  obtain ⟨z, hz, hz1⟩ := hb
  have hpos : 0 < raw' j x := by
    rcases (h0 x hx).lt_or_eq with h | h
    · exact h
    · have := a3 z x
      rw [← h, a1, mul_zero] at this
      have : 0 < (c.areas j).peak * raw' j z := mul_pos hp (by linarith)
      linarith
  have hval : ∀ h, s.hour.HRLOAD j h = (c.areas j).peak * raw' j h / raw' j x := by
    intro h
    rw [eq_div_iff hpos.ne', a3 h x, a1]
  refine ⟨x, hx, hpos, fun h hh => ?_, hval⟩
  have := a2 h hh
  rw [hval h, div_le_iff₀ hpos] at this
  exact le_of_mul_le_mul_left this hp

theorem C64_step (h : setup sl fuel c = .ok s) : s.hour.JSTEP = c.misc.JSTEP := by
  obtain ⟨wr, raw, T, ITAB, ID', hw, _, _, _, _, rfl⟩ := setup_ok h
  rfl

/-- The hour whose loads a draw uses. -/
theorem evaluated_hour (h : setup sl fuel c = .ok s) (hstep : c.misc.JSTEP = 1 ∨ c.misc.JSTEP = 24) {T k : ℕ}
    (hof : hourOf k = T - 1) : Evaluated c.misc.JSTEP s.hour.HRLOAD T (hourUsed s.hour k) := by
  have hJs := C64_step h
  rcases hstep with e | e
  · have e1 : hourUsed s.hour k = T - 1 := by
      unfold hourUsed
      rw [hJs, e, if_neg (by norm_num), hof]
    have e2 : ∀ h, standsFor c.misc.JSTEP T h ↔ h = T - 1 := fun h => by
      unfold standsFor; rw [e, if_neg (by norm_num)]
    refine ⟨(e2 _).2 e1, fun h0 e0 => ?_⟩
    rw [(e2 _).1 e0, e1]
    exact ⟨le_rfl, fun x => absurd x (lt_irrefl _)⟩
  · have e1 : hourUsed s.hour k = s.hour.MXPLHR ((T - 1) / 24) := by
      unfold hourUsed
      rw [hJs, e, if_pos (by norm_num), hof]
    have e2 : ∀ h, standsFor c.misc.JSTEP T h ↔ h / 24 = (T - 1) / 24 := fun h => by
      unfold standsFor; rw [e, if_pos rfl]
    obtain ⟨_, _, _, _, _, _, hm⟩ := C64_loads h
    obtain ⟨m1, m2, m3⟩ := hm ((T - 1) / 24)
    rw [← e1] at m1 m2 m3
    refine ⟨(e2 _).2 (by omega), fun h0 e0 => ?_⟩
    have e0 := (e2 _).1 e0
    exact m3 h0 (by omega) (by omega)

/-- C71 (what happens). For every accepted sensible input with a sound network in which no area has exactly one unit,
in every run in hourly or daily mode, at every draw (hour `T` of year `y`, counted from 1; the loads are those of the
hour `H` that the draw evaluates) in which no line or area limit
binds (the evaluation without re-dispatch returns), for every forecast tier: the unserved energy recorded for the pool
is what the pool lacks according to the cards, up to less than 1 MW per area: the peaks of the area cards times the
profile of the load file at that hour times the forecast factor, minus the capacity of the units given by their
random numbers, for the season *after* the current one and the planned outages of week `weekInEffect`. -/
theorem C71_energy_partial (h1 : OneCard c) (hs : Sensible c) (hl : NoLone c) (hn : SoundNetwork c)
    (h : setup sl fuel c = .ok s) (hstep : c.misc.JSTEP = 1 ∨ c.misc.JSTEP = 24) (hfreq : c.misc.JFREQ = 1)
    (hnum : ∀ k, (c.lines k).number ≤ l) (hlfu : ∀ j, 0 ≤ (c.areas j).lfu ∧ (c.areas j).lfu < 40)
    {raw : ℕ → ℕ → ℚ} (hraw : leeiRead (n + 1) c.leei = .ok raw) (hpk : ∀ j, 0 < (c.areas j).peak)
    (h0 : ∀ (j : Fin (n + 1)), ∀ h < 8760, 0 ≤ raw j h) (hb : ∀ j : Fin (n + 1), ∃ h < 8760, 1 / 1000 ≤ raw j h)
    (JSEED : ℤ) {log : List Ev} {st st' : St _} {ev : Ev} (hr : Reach s.cfg (s.start JSEED) log st)
    (hst : step s.cfg st = .ok (.next ev st')) (hk : ev.kind = 1) (y T : ℕ) (hT : ev.time = ((8760 * y + T : ℕ) : ℚ))
    (hT1 : 1 ≤ T) (hT2 : T ≤ 8760) (hpos : ∀ (j : Fin (n + 1)) (h : ℕ), standsFor c.misc.JSTEP T h → 0 < raw j h)
    {LP : LEnds n l} (hLP : ∀ k, (c.areas (LP k).1).name = (c.lines k).src ∧ (c.areas (LP k).2).name = (c.lines k).dst)
    {w' : HourSt (n + 1) m l (NetSt n l)}
    (hfree : hourBody { s.hour with transm := hourTransm noRedispatch LP (fun k => dataxBLPA (c.lines k)) 0 c.misc.NLS }
      ev.time (fun i => st.RATING.getD i 0) (fun i => st.PLNDST.getD i 0) st.world.h = .ok w')
    (t : Fin 5) (ht : t.val < s.hour.NFCST) :
    ∃ (season : Fin 4) (load : Fin (n + 1) → ℕ → ℚ) (H : ℕ), ((season : ℕ) : ℤ) = (seasonOf T + 1) % 4 ∧
    (∀ j : Fin (n + 1), Scaled (raw j) (c.areas j).peak (load j)) ∧ Evaluated c.misc.JSTEP load T H ∧
    let lack := max 0 (∑ j, load j H * forecast (c.areas j).lfu t -
      ∑ i, outcome (c.units i) (variate (st'.world.h.IGSEED i)) * (c.units i).cap season *
        (if offInHour (c.units i) (8760 * y + T) then 0 else 1))
    let mwh := (st'.world.h.H.MGNTP t + st'.world.h.H.MGNGP t) - (st.world.h.H.MGNTP t + st.world.h.H.MGNGP t)
    let hours := (st'.world.h.H.LOLTP t + st'.world.h.H.LOLGP t) - (st.world.h.H.LOLTP t + st.world.h.H.LOLGP t)
    lack - (n + 1 : ℕ) < mwh ∧ mwh ≤ lack ∧ (lack < 1 → hours = 0) ∧ (((n + 1 : ℕ) : ℚ) ≤ lack → hours = 1) ∧
      (hours = 0 ∨ hours = 1) ∧ 0 ≤ mwh := by
  have hload : ∀ j : Fin (n + 1), Scaled (raw j) (c.areas j).peak (s.hour.HRLOAD j) := fun j =>
    loads_scaled h hraw j (hpk j) (h0 j) (hb j)
  have hJs : s.hour.JSTEP = c.misc.JSTEP := (C64_step h)
  have hJF : s.hour.JFREQ = 1 := by
    obtain ⟨wr, raw, T, ITAB, ID', hw, _, _, _, _, rfl⟩ := setup_ok h
    exact hfreq
  have hJ : StepOK s.hour.JSTEP := by
    rw [hJs]
    rcases hstep with e | e <;> rw [e]
    · left; norm_num
    · right; norm_num
  have hFE : ∀ j, s.hour.FCTERR j = dataxFCTERR (c.areas j).lfu := by
    obtain ⟨wr, raw, T, ITAB, ID', hw, _, _, _, _, rfl⟩ := setup_ok h
    exact fun j => rfl
  -- the real event does the same
  have hreal : hourBody s.hour ev.time (fun i => st.RATING.getD i 0) (fun i => st.PLNDST.getD i 0) st.world.h =
      .ok w' := by
    refine hourBody_mono (c' := { s.hour with transm := hourTransm noRedispatch LP (fun k => dataxBLPA (c.lines k)) 0 c.misc.NLS })
      rfl ?_ hfree
    intro t w r e
    obtain ⟨LP', BLPA', e1, e2, e3, _⟩ := C64_lines_partial h1 h hnum
    obtain ⟨wr, H, hwa, x1, x2⟩ := setup_wiring h1 h
    have hLP' : wr.LP = LP := funext fun k => Prod.ext (h1.areas ((hwa.src k).trans (hLP k).1.symm))
      (h1.areas ((hwa.dst k).trans (hLP k).2.symm))
    have hb : ∀ a b, dataxLINENO wr.LP wr.number a b < l :=
      lineno_bound wr.LP fun k => by rw [hwa.number k]; have := hnum k; omega
    rw [x1]
    show netCall (dataxLINENO wr.LP wr.number) fuel c.misc.IOI wr.LP (fun k => dataxBLPA (c.lines k)) 0 c.misc.NLS t w = _
    unfold netCall
    rw [helpCheck_small hb, hLP']
    show hourTransm _ _ _ _ _ _ _ = _
    change hourTransm _ _ _ _ _ _ _ = _ at e
    unfold hourTransm at e ⊢
    generalize hx : transm noRedispatch LP (fun k => dataxBLPA (c.lines k)) 0 c.misc.NLS t w = x at e
    cases x with
    | error x => cases e
    | ok x => rw [transm_mono (lp := redispatch fuel c.misc.IOI) (fun x o h => by cases h) hx]; exact e
  have hworld : st'.world.h = w' := by
    rcases step_world (cfg := s.cfg) hJ hr hst with ⟨_, e, _⟩ | ⟨e, _⟩ | ⟨e, _⟩
    · change (hourFx s.hour ev.time st.RATING st.PLNDST st.world.h).map _ = _ at e
      unfold hourFx at e
      rw [hreal] at e
      rw [← Except.ok.inj e]
    · rw [hk] at e; norm_num at e
    · rw [hk] at e; norm_num at e
  -- the hour
  have hmx : ∀ d < 365, s.hour.MXPLHR d < 8760 := fun d hd => by
    obtain ⟨_, _, _, _, _, _, hm⟩ := C64_loads h
    have := (hm d).2.1
    omega
  obtain ⟨y', k, hk', hclock, hof⟩ : ∃ y' k : ℕ, k < 8760 ∧ ev.time = 8760 * (y' : ℚ) + (k : ℚ) ∧ hourOf k = T - 1 := by
    by_cases hT' : T = 8760
    · exact ⟨y + 1, 0, by norm_num, by rw [hT, hT']; push_cast; ring, by rw [hT']; rfl⟩
    · exact ⟨y, T, by omega, by rw [hT]; push_cast; ring, by unfold hourOf; rw [if_neg (by omega)]⟩
  have hev : Evaluated c.misc.JSTEP s.hour.HRLOAD T (hourUsed s.hour k) := evaluated_hour h hstep hof
  obtain ⟨season, hsea, hcap⟩ : ∃ season : Fin 4, ((season : ℕ) : ℤ) = (seasonOf T + 1) % 4 ∧ ∀ j,
      (hourDraw s.hour (hourOf k / 24) (fun i => st.RATING.getD i 0) (fun i => st.PLNDST.getD i 0) st.world.h).1.SYSCON j =
      ∑ i ∈ unitsIn c j, outcome (c.units i) (variate ((hourDraw s.hour (hourOf k / 24) (fun i => st.RATING.getD i 0)
        (fun i => st.PLNDST.getD i 0) st.world.h).2.IGSEED i)) * (c.units i).cap season *
      (if offInHour (c.units i) (8760 * y + T) then 0 else 1) := by
    obtain ⟨s0, e0, _⟩ := C69_capacity_partial h1 hs hl h hJ JSEED hr hst hk y T hT hT1 hT2 (hourOf k / 24) 0
    refine ⟨s0, e0, fun j => ?_⟩
    obtain ⟨s1, e1, f1⟩ := C69_capacity_partial h1 hs hl h hJ JSEED hr hst hk y T hT hT1 hT2 (hourOf k / 24) j
    have : s1 = s0 := by
      apply Fin.ext
      have := e1.trans e0.symm
      exact_mod_cast this
    rw [← this]
    exact f1
  have hseed : ∀ i, (hourDraw s.hour (hourOf k / 24) (fun i => st.RATING.getD i 0) (fun i => st.PLNDST.getD i 0)
      st.world.h).2.IGSEED i = st'.world.h.IGSEED i := by
    intro i
    rw [hworld]
    have e := hreal
    obtain ⟨_, hb⟩ := hourBody_used s.hour hJF y' k hk' hmx (fun i => st.RATING.getD i 0) (fun i => st.PLNDST.getD i 0)
      st.world.h
    rw [hclock, hb] at e
    obtain ⟨hist, _, _, hd⟩ := tierLoop_hist _ _ _ _ e
    rw [hd.1]
  refine ⟨season, s.hour.HRLOAD, hourUsed s.hour k, hsea, hload, hev, ?_⟩
  have hk2 : AllKnown c := by
    obtain ⟨w, raw, T, ITAB, ID', hw, _⟩ := setup_ok h
    exact (wiring_iff h1 (wiring_pos hw)).1.2 ⟨w, hw⟩
  have hlim : st.world.h.net.BN.c3 = st.world.h.net.BN.c4 := by
    funext j
    obtain ⟨a, b⟩ := C64_limits_run h hJ JSEED hr j
    rw [a, b]
  have hL : ∀ j, 0 < s.hour.HRLOAD j (hourUsed s.hour k) := by
    intro j
    obtain ⟨x, _, hx, _, e⟩ := hload j
    rw [e]
    exact div_pos (mul_pos (hpk j) (hpos j _ hev.1)) hx
  rw [hclock] at hfree
  have main := C60_pool_energy
    { s.hour with transm := hourTransm noRedispatch LP (fun k => dataxBLPA (c.lines k)) 0 c.misc.NLS }
    (sound_grid h1 hn hLP) rfl hmx hJF (fun j => (c.areas j).lfu) hlfu
    hFE y' k hk' hL (fun i => st.RATING.getD i 0) (fun i => st.PLNDST.getD i 0) st.world.h w' hlim hfree t ht
  have hlack : (∑ j, (s.hour.HRLOAD j (hourUsed s.hour k) * s.hour.FCTERR j t - (hourDraw s.hour (hourOf k / 24)
      (fun i => st.RATING.getD i 0) (fun i => st.PLNDST.getD i 0) st.world.h).1.SYSCON j)) =
      ∑ j, s.hour.HRLOAD j (hourUsed s.hour k) * forecast (c.areas j).lfu t -
      ∑ i, outcome (c.units i) (variate (st'.world.h.IGSEED i)) * (c.units i).cap season *
        (if offInHour (c.units i) (8760 * y + T) then 0 else 1) := by
    rw [Finset.sum_sub_distrib]
    congr 1
    · refine Finset.sum_congr rfl fun j _ => ?_
      obtain ⟨_, _, _, hf, _⟩ := C64_loads h
      have := hf j t (hourUsed s.hour k)
      unfold findld at this
      rw [this]
    · rw [← sum_unitsIn h1 hk2]
      refine Finset.sum_congr rfl fun j _ => ?_
      rw [hcap j]
      refine Finset.sum_congr rfl fun i _ => ?_
      rw [hseed]
  rw [hworld] at hlack ⊢
  rw [← hlack]
  exact main

end Narp.Props
