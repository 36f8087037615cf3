import Verif.Props.NetworkFree
import Verif.Props.CardReport
import Verif.Spec.Figures

/-!
# C114: the final report from the cards, the random streams and the sharing rule
-/

namespace Narp.Props
open Narp Narp.Spec BigOperators

/-! ## The tiers of an hour are determined -/

section Tiers
variable {N : ℕ} {ν : Type} {df : Fin 5 → Fin N → ℚ} {as as' : Bool → Fin 5 → ν → Option (Fin N → ℚ) × ν → Prop}

theorem HourTiers_mono (hm : ∀ {first t net r}, as first t net r → as' first t net r) {ts first net hist net'}
    (h : HourTiers df as ts first net hist net') : HourTiers df as' ts first net hist net' := by
  induction h with
  | done => exact .done
  | everybody all _ ih => exact .everybody all ih
  | assisted a b c d _ ih => exact .assisted a b (hm c) d ih
  | helped a b c d => exact .helped a b (hm c) d
  | scheduled a b c => exact .scheduled a b (hm c)

theorem HourTiers_unique (hu : ∀ {first t net r r'}, as first t net r → as first t net r' → r = r') {ts first net hist net' }
    (h : HourTiers df as ts first net hist net') : ∀ {hist2 net2}, HourTiers df as ts first net hist2 net2 → hist2 = hist := by
  have no : ∀ {t}, (∀ j, 1 ≤ df t j) → (∃ j, df t j < 1) → False := fun a ⟨j, hj⟩ => absurd (a j) (not_le.2 hj)
  induction h with
  | done => intro _ _ h2; cases h2; rfl
  | everybody all _ ih =>
    intro _ _ h2
    cases h2 with
    | everybody _ r => rw [ih r]
    | assisted _ b => exact (no all b).elim
    | helped _ b => exact (no all b).elim
    | scheduled _ b => exact (no all b).elim
  | assisted a b c d _ ih =>
    intro _ _ h2
    cases h2 with
    | everybody all _ => exact (no all b).elim
    | assisted _ _ c' _ r =>
      have := hu c c'
      simp only [Prod.mk.injEq, Option.some.injEq] at this
      obtain ⟨rfl, rfl⟩ := this
      rw [ih r]
    | helped _ _ c' d' =>
      have := hu c c'
      simp only [Prod.mk.injEq, Option.some.injEq] at this
      obtain ⟨rfl, rfl⟩ := this
      obtain ⟨j, hj⟩ := d
      exact absurd hj (not_le.2 (d' j))
    | scheduled _ _ c' => have := hu c c'; simp at this
  | helped a b c d =>
    intro _ _ h2
    cases h2 with
    | everybody all _ => exact (no all b).elim
    | assisted _ _ c' d' r =>
      have := hu c c'
      simp only [Prod.mk.injEq, Option.some.injEq] at this
      obtain ⟨rfl, rfl⟩ := this
      obtain ⟨j, hj⟩ := d'
      exact absurd hj (not_le.2 (d j))
    | helped => rfl
    | scheduled => rfl
  | scheduled a b c =>
    intro _ _ h2
    cases h2 with
    | everybody all _ => exact (no all b).elim
    | assisted _ _ c' => have := hu c c'; simp at this
    | helped => rfl
    | scheduled => rfl

/-- Every entry is a shortage of some area. -/
theorem HourTiers_short [Nonempty (Fin N)] {ts first net hist net'} (h : HourTiers df as ts first net hist net') :
    ∀ e ∈ hist, ∃ j, 1 ≤ e.2 j := by
  induction h with
  | done => simp
  | everybody all _ ih =>
    intro e he
    rcases List.mem_cons.1 he with rfl | he
    · exact ⟨Classical.arbitrary _, all _⟩
    · exact ih e he
  | assisted _ _ _ d _ ih =>
    intro e he
    rcases List.mem_cons.1 he with rfl | he
    · exact d
    · exact ih e he
  | helped => simp
  | scheduled => simp

/-- A tier is recorded for the pool if and only if it is for some area. -/
theorem tierCount_shares [Nonempty (Fin N)] {ts first net hist net'} (h : HourTiers df as ts first net hist net')
    (hts : ts.Nodup) {share : Fin 5 → Fin N → ℚ} {t : Fin 5} (hs : TierShares share hist t) :
    (tierCount hist t : ℚ) = if ∃ j, 1 ≤ share t j then 1 else 0 := by
  have hle : tierCount hist t ≤ 1 := by
    have hn : (hist.map Prod.fst).Nodup := hts.sublist (HourTiers_tiers h).sublist
    have := List.nodup_iff_count_le_one.1 hn t
    rw [List.count, List.countP_map] at this
    refine le_trans (le_of_eq ?_) this
    unfold tierCount
    refine List.countP_congr fun e _ => ?_
    simp
  by_cases e : ∃ j, 1 ≤ share t j
  · rw [if_pos e]
    obtain ⟨j, hj⟩ := e
    have h1 := (hs j).2
    rw [if_pos hj] at h1
    have h1 : hoursShort hist j t = 1 := by exact_mod_cast h1
    have h2 : hoursShort hist j t ≤ tierCount hist t := by
      unfold hoursShort tierCount
      refine List.countP_mono_left fun e _ he => ?_
      simp only [decide_eq_true_eq] at he ⊢
      exact he.1
    have : tierCount hist t = 1 := by omega
    rw [this]; norm_num
  · rw [if_neg e]
    have : tierCount hist t = 0 := by
      unfold tierCount
      rw [List.countP_eq_zero]
      intro x hx hxt
      have hxt : x.1 = t := by simpa using hxt
      obtain ⟨j, hj⟩ := HourTiers_short h x hx
      have h1 := (hs j).2
      rw [if_neg fun a => e ⟨j, a⟩] at h1
      have h1 : hoursShort hist j t = 0 := by exact_mod_cast h1
      unfold hoursShort at h1
      rw [List.countP_eq_zero] at h1
      exact h1 x hx (by simp [hxt, hj])
    rw [this]; norm_num

end Tiers

theorem assist_unique {n m l : ℕ} {ν : Type} {c : HourIn n m l ν} {d : Draw n l} {hr : ℕ} {first : Bool} {t : Fin 5} {net : ν}
    {r r' : Option (Fin n → ℚ) × ν} (h : assist c d hr first t net r) (h' : assist c d hr first t net r') : r = r' := by
  obtain ⟨J, S, e, x⟩ := h
  obtain ⟨J', S', e', x'⟩ := h'
  rw [e] at e'
  simp only [Except.ok.injEq, Prod.mk.injEq] at e'
  obtain ⟨⟨rfl, rfl⟩, e'⟩ := e'
  exact Prod.ext (x.trans x'.symm) e'

variable {n m l : ℕ} {sl : ℕ → ℚ → ℚ} {fuel : ℕ} {c : Cards n m l} {s : Setup n m l}

/-- An evaluation without re-dispatch that returns is that of the program. -/
theorem transm_free (h1 : OneCard c) (h : setup sl fuel c = .ok s) (hnum : ∀ k, (c.lines k).number ≤ l) {LP : LEnds n l}
    (hLP : ∀ k, (c.areas (LP k).1).name = (c.lines k).src ∧ (c.areas (LP k).2).name = (c.lines k).dst) {t w r}
    (e : hourTransm noRedispatch LP (fun k => dataxBLPA (c.lines k)) 0 c.misc.NLS t w = .ok r) : s.hour.transm t w = .ok r := by
  obtain ⟨wr, H, hwa, x1, x2⟩ := setup_wiring h1 h
  have hLP' : wr.LP = LP := funext fun k => Prod.ext (h1.areas ((hwa.src k).trans (hLP k).1.symm))
    (h1.areas ((hwa.dst k).trans (hLP k).2.symm))
  have hb : ∀ a b, dataxLINENO wr.LP wr.number a b < l :=
    lineno_bound wr.LP fun k => by rw [hwa.number k]; have := hnum k; omega
  rw [x1]
  show netCall (dataxLINENO wr.LP wr.number) fuel c.misc.IOI wr.LP (fun k => dataxBLPA (c.lines k)) 0 c.misc.NLS t w = _
  unfold netCall
  rw [helpCheck_small hb, hLP']
  show hourTransm _ _ _ _ _ _ _ = _
  unfold hourTransm at e ⊢
  generalize hx : transm noRedispatch LP (fun k => dataxBLPA (c.lines k)) 0 c.misc.NLS t w = x at e
  cases x with
  | error x => cases e
  | ok x => rw [transm_mono (lp := redispatch fuel c.misc.IOI) (fun x o h => by cases h) hx]; exact e

/-! ## One draw -/

/-- What a draw of the run records, according to the shares and to whether it counts for its day. -/
structure DrawShows {k : ℕ} (N : ℕ) (share : Fin 5 → Fin k → ℚ) (peak : Prop) (d : DrawLog k) : Prop where
  areas : ∀ t : Fin 5, t.val < N → TierShares share d.tiers t
  pool : ∀ t : Fin 5, t.val < N → (tierCount d.tiers t : ℚ) = if ∃ j, 1 ≤ share t j then 1 else 0
  peak : d.peak = true ↔ peak

theorem draw_shows {step : ℕ} {raw : ℕ → ℕ → ℚ} {JSEED : ℤ} (hc : Calm sl fuel c s step raw JSEED)
    (hder : c.misc.NLS = 0 → ∀ i, (c.units i).der ≤ 100) {H : ℕ → ℕ}
    (hH : ∀ d, 1 ≤ d → d ≤ 8760 / step → Evaluated step s.hour.HRLOAD (step * d) (H d))
    {log : List Ev} {st st' : St _} {ev : Ev} (hr : Reach s.cfg (s.start JSEED) log st)
    (hst : Narp.step s.cfg st = .ok (.next ev st')) (hk : ev.kind = 1) {d : DrawLog (n + 1)}
    (hd : DrawOf s.hour ev.time (fun i => st.RATING.getD i 0) (fun i => st.PLNDST.getD i 0) st.world.h st'.world.h.net d) :
    DrawShows s.hour.NFCST
      (fun t j => yearShare c step s.hour.HRLOAD H t j (log.countP fun e => e.kind = 4) (drawsThisYear log + 1))
      (PeakDraw step s.hour.HRLOAD (step * (drawsThisYear log + 1))) d := by
  obtain ⟨h1, hs, hl, hn, h, hstep, hstep', hfreq, hnum, hlfu, hraw, hpk, h0, hb, LP, hLP, hfree⟩ := hc
  have hstepc : c.misc.JSTEP = 1 ∨ c.misc.JSTEP = 24 := by
    rw [hstep]; rcases hstep' with e | e <;> rw [e] <;> simp
  have hJs : s.hour.JSTEP = step := by rw [C64_step h, hstep]; norm_num
  have hJ : StepOK s.hour.JSTEP := by
    rw [hJs]
    rcases hstep' with e | e <;> rw [e]
    · left; norm_num
    · right; norm_num
  have hpos : 0 < step := by rcases hstep' with e | e <;> rw [e] <;> norm_num
  have hdvd : step * (8760 / step) = 8760 := by rcases hstep' with e | e <;> rw [e]
  have hJF : s.hour.JFREQ = 1 := by
    obtain ⟨wr, raw, T, ITAB, ID', hw, _, _, _, _, rfl⟩ := setup_ok h
    exact hfreq
  have hFE : ∀ j, s.hour.FCTERR j = dataxFCTERR (c.areas j).lfu := by
    obtain ⟨wr, raw, T, ITAB, ID', hw, _, _, _, _, rfl⟩ := setup_ok h
    exact fun j => rfl
  obtain ⟨_, _, _, _, _, _, hm⟩ := C64_loads h
  have hmx : ∀ d < 365, s.hour.MXPLHR d < 8760 := fun d hd => by
    have := (hm d).2.1
    omega
  obtain ⟨p1, p2⟩ := draw_position (cfg := s.cfg) hJ hr hst hk
  have hJc : s.cfg.JSTEP = step := hJs
  set Y := log.countP fun e => e.kind = 4 with hY
  set D := drawsThisYear log + 1 with hD
  rw [hJc] at p1
  have hT : ev.time = ((8760 * Y + step * D : ℕ) : ℚ) := by rw [p1, hD]; push_cast; ring
  have hle : step * D ≤ 8760 := by
    rw [hT] at p2
    have : ((8760 * Y + step * D : ℕ) : ℚ) ≤ ((8760 * (Y + 1) : ℕ) : ℚ) := by push_cast at p2 ⊢; exact p2
    have : 8760 * Y + step * D ≤ 8760 * (Y + 1) := by exact_mod_cast this
    omega
  have hge : 1 ≤ step * D := Nat.mul_pos hpos (by omega)
  obtain ⟨w', hw'⟩ := hfree log st ev st' hr hst hk
  obtain ⟨season, y', k, htime, hsea, hk', hfr, hev, hseed, hL, hlo, hcp⟩ := draw_hour h1 hs hl h hstepc hfreq hnum hraw hpk
    (fun j x hx => (h0 j x hx).le) hb JSEED hr hst hk Y (step * D) hT hge hle (fun j x hx => by
      refine h0 j x ?_
      unfold standsFor at hx
      split_ifs at hx <;> omega) hLP hw'
  obtain ⟨y'', k'', hk'', htime', hti, hpeak⟩ := hd
  have hyk : 8760 * y'' + k'' = 8760 * y' + k := by
    have : ((8760 * y'' + k'' : ℕ) : ℚ) = ((8760 * y' + k : ℕ) : ℚ) := by push_cast; rw [← htime', ← htime]
    exact_mod_cast this
  have hkk : k'' = k := by omega
  subst hkk
  have hyT : 8760 * y'' + k'' = 8760 * Y + step * D := by
    have : ((8760 * y'' + k'' : ℕ) : ℚ) = ((8760 * Y + step * D : ℕ) : ℚ) := by rw [← hT, htime']; push_cast; rfl
    exact_mod_cast this
  obtain ⟨hist, g1, _⟩ := C59_recorded_used
    { s.hour with transm := hourTransm noRedispatch LP (fun k => dataxBLPA (c.lines k)) 0 c.misc.NLS }
    hJF y' k'' hk' hmx _ _ _ _ hfr
  have hsh := fun t ht => hour_shares
    { s.hour with transm := hourTransm noRedispatch LP (fun k => dataxBLPA (c.lines k)) 0 c.misc.NLS }
    (sound_grid h1 hn hLP) rfl (fun j => (c.areas j).lfu) hlfu hFE (hourOf k'' / 24) (hourUsed s.hour k'') hL
    (fun i => st.RATING.getD i 0) (fun i => st.PLNDST.getD i 0) st.world.h
    (by
      rw [show st.world.h.net.BN.c3 = fun j => (c.areas j).flowLimit from
          funext fun j => (C64_limits_run h hJ JSEED hr j).1,
        show st.world.h.net.BN.c4 = fun j => (c.areas j).flowLimit from
          funext fun j => (C64_limits_run h hJ JSEED hr j).2])
    (fun j => by
      obtain ⟨_, a, b, _⟩ := C64_units h1 h (hourOf k'' / 24) (fun i => st.RATING.getD i 0) (fun i => st.PLNDST.getD i 0) st.world.h j
      show (hourDraw s.hour _ _ _ _).1.TRNSFR j + (hourDraw s.hour _ _ _ _).1.TRNSFJ j = 0
      rw [a, b, add_zero])
    (fun e => by
      show 0 ≤ ∑ j, (hourDraw s.hour _ _ _ _).1.SYSCON j
      rw [hcp]
      refine Finset.sum_nonneg fun j _ => Finset.sum_nonneg fun i _ => ?_
      refine mul_nonneg (mul_nonneg (outcome_nonneg (hder e i) _) (hs.cap i _)) ?_
      split_ifs <;> norm_num) g1 t ht
  have hreal := HourTiers_mono (as' := assist s.hour (hourDraw s.hour (hourOf k'' / 24) (fun i => st.RATING.getD i 0)
      (fun i => st.PLNDST.getD i 0) st.world.h).1 (hourUsed s.hour k''))
    (fun {first t net r} ha => by
      obtain ⟨J, S, e, x⟩ := ha
      exact ⟨J, S, transm_free h1 h hnum hLP e, x⟩) g1
  have hti' : HourTiers (deficit s.hour (hourDraw s.hour (hourOf k'' / 24) (fun i => st.RATING.getD i 0)
      (fun i => st.PLNDST.getD i 0) st.world.h).1 (hourUsed s.hour k''))
      (assist s.hour (hourDraw s.hour (hourOf k'' / 24) (fun i => st.RATING.getD i 0)
      (fun i => st.PLNDST.getD i 0) st.world.h).1 (hourUsed s.hour k''))
      ((List.finRange 5).take s.hour.NFCST) true st.world.h.net d.tiers st'.world.h.net := hti
  have hhist : d.tiers = hist := (HourTiers_unique (as := assist s.hour _ _) (fun a b => assist_unique a b) hti' hreal).symm
  have hD' : D ≤ 8760 / step := by
    rw [Nat.le_div_iff_mul_le hpos, mul_comm]; exact hle
  rw [hstep] at hev
  have hH' : hourUsed s.hour k'' = H D := evaluated_unique hev (hH D (by omega) hD')
  have hsea' : season = ratingSeason (step * D) := by
    apply Fin.ext
    show _ = ((seasonOf _ + 1) % 4).toNat
    rw [← hsea]; simp
  have hdr : draws (log ++ [ev]) = 8760 / step * Y + D := by
    have e := draws_time (cfg := s.cfg) hJ hr
    rw [hJc] at e
    have e' : drawsThisYear log * step + 8760 * Y = draws log * step := by
      have : ((drawsThisYear log * step + 8760 * Y : ℕ) : ℚ) = ((draws log * step : ℕ) : ℚ) := by
        push_cast; unfold draws; linarith
      exact_mod_cast this
    have : draws (log ++ [ev]) = draws log + 1 := by
      unfold draws; rw [List.countP_append]; simp [hk]
    rw [this]
    rw [← hdvd] at e'
    have e'' : step * (drawsThisYear log + 8760 / step * Y) = step * draws log := by rw [← mul_comm (draws log), ← e']; ring
    have := Nat.eq_of_mul_eq_mul_left hpos e''
    omega
  have hshare : ∀ t j, yearShare c step s.hour.HRLOAD H t j Y D = borne c.misc.NLS
      (hourDraw s.hour (hourOf k'' / 24) (fun i => st.RATING.getD i 0) (fun i => st.PLNDST.getD i 0) st.world.h).1.SYSCON
      (fun j => s.hour.HRLOAD j (hourUsed s.hour k'') * s.hour.FCTERR j t) j := by
    intro t j
    unfold yearShare areaLack
    rw [hlo t, hcp, hH', hsea']
    congr 1
    funext j
    unfold areaCap
    refine Finset.sum_congr rfl fun i _ => ?_
    have := (C73_streams h hstepc JSEED (.step hr hst)).1 i
    rw [this, hdr]
    rfl
  have hareas : ∀ t : Fin 5, t.val < s.hour.NFCST → TierShares (fun t j => yearShare c step s.hour.HRLOAD H t j Y D) d.tiers t := by
    intro t ht j
    have := hsh t ht j
    rw [hhist, show (fun t j => yearShare c step s.hour.HRLOAD H t j Y D) = _ from funext fun t => funext fun j => hshare t j]
    exact this
  refine ⟨hareas, fun t ht => ?_, ?_⟩
  · exact tierCount_shares hti' ((List.take_sublist _ _).nodup (List.nodup_finRange 5)) (hareas t ht)
  · rw [hpeak]
    unfold PeakDraw
    have hJ24 : s.hour.JSTEP = 24 ↔ step = 24 := by rw [hJs]; exact_mod_cast Iff.rfl
    rw [hJ24]
    refine or_congr Iff.rfl ?_
    by_cases e : step * D = 8760
    · have : k'' = 0 := by omega
      subst this
      constructor
      · intro hx; exfalso; push_cast at hx
      · intro hx; exact absurd hx.1 (by omega)
    · have hkT : k'' = step * D := by omega
      have hof : hourOf k'' = step * D - 1 := by unfold hourOf; rw [if_neg (by omega), hkT]
      rw [hof]
      have hm' := hm ((step * D - 1) / 24)
      constructor
      · intro hx
        have : s.hour.MXPLHR ((step * D - 1) / 24) = step * D - 1 := by omega
        rw [this] at hm'
        exact ⟨by omega, hm'⟩
      · rintro ⟨_, hx⟩
        obtain ⟨a1, a2, a3⟩ := hx
        obtain ⟨b1, b2, b3⟩ := hm'
        have hab : step * D - 1 = s.hour.MXPLHR ((step * D - 1) / 24) := by
          rcases lt_trichotomy (step * D - 1) (s.hour.MXPLHR ((step * D - 1) / 24)) with q | q | q
          · exact absurd ((b3 _ a1 a2).2 q) (not_lt.2 (a3 _ b1 b2).1)
          · exact q
          · exact absurd ((a3 _ b1 b2).2 q) (not_lt.2 (b3 _ a1 a2).1)
        omega

/-! ## All draws of a run -/

/-- In a study in which no limit binds: what the draws of the years that have ended, and of the current one, record. -/
theorem history_shows {step : ℕ} {raw : ℕ → ℕ → ℚ} {JSEED : ℤ} (hc : Calm sl fuel c s step raw JSEED)
    (hder : c.misc.NLS = 0 → ∀ i, (c.units i).der ≤ 100) {H : ℕ → ℕ}
    (hH : ∀ d, 1 ≤ d → d ≤ 8760 / step → Evaluated step s.hour.HRLOAD (step * d) (H d))
    {log : List Ev} {st : St _} {done : List (List (DrawLog (n + 1)))} {cur : List (DrawLog (n + 1))}
    (hh : History s.hour s.year s.JPLOUT s.RATES snapNet (s.start JSEED) log st done cur) :
    let good := fun y ds => ∀ i d, ds[i]? = some d → DrawShows s.hour.NFCST
      (fun t j => yearShare c step s.hour.HRLOAD H t j y (i + 1)) (PeakDraw step s.hour.HRLOAD (step * (i + 1))) d
    Reach s.cfg (s.start JSEED) log st ∧ done.length = log.countP (fun e => e.kind = 4) ∧ cur.length = drawsThisYear log ∧
    (∀ y ds, done[y]? = some ds → good y ds) ∧ good (log.countP fun e => e.kind = 4) cur := by
  intro good
  induction hh with
  | start => exact ⟨.start, rfl, rfl, by simp, by intro i d h; simp at h⟩
  | @draw log st done cur ev st' d hh hs hk hd ih =>
    obtain ⟨i0, i1, i2, i3, i4⟩ := ih
    have hc4 : (log ++ [ev]).countP (fun e => e.kind = 4) = log.countP (fun e => e.kind = 4) := by
      rw [List.countP_append]; simp [hk]
    refine ⟨.step i0 hs, by rw [hc4]; exact i1, ?_, i3, ?_⟩
    · rw [drawsThisYear_snoc, if_neg (by rw [hk]; norm_num), if_pos hk]; simp [i2]
    · rw [hc4]
      intro i d' hd'
      rw [List.getElem?_append] at hd'
      split_ifs at hd' with hlt
      · exact i4 i d' hd'
      · have h0 : i - cur.length = 0 := by
          by_contra hne
          rw [List.getElem?_eq_none (by simp; omega)] at hd'
          cases hd'
        rw [h0] at hd'
        simp only [List.length_cons, List.length_nil, Nat.zero_add, Nat.lt_add_one, List.getElem?_eq_getElem,
          List.getElem_cons_zero, Option.some.injEq] at hd'
        subst hd'
        have hi : i = drawsThisYear log := by omega
        rw [hi]
        exact draw_shows hc hder hH i0 hs hk hd
  | @year log st done cur ev st' hh hs hk ih =>
    obtain ⟨i0, i1, i2, i3, i4⟩ := ih
    have hc4 : (log ++ [ev]).countP (fun e => e.kind = 4) = log.countP (fun e => e.kind = 4) + 1 := by
      rw [List.countP_append]; simp [hk]
    refine ⟨.step i0 hs, by rw [hc4, ← i1]; simp, ?_, ?_, by intro i d h; simp at h⟩
    · rw [drawsThisYear_snoc, if_pos hk]; rfl
    · intro y ds hy
      rw [List.getElem?_append] at hy
      split_ifs at hy with hlt
      · exact i3 y ds hy
      · have h0 : y - done.length = 0 := by
          by_contra hne
          rw [List.getElem?_eq_none (by simp; omega)] at hy
          cases hy
        rw [h0] at hy
        simp only [List.length_cons, List.length_nil, Nat.zero_add, Nat.lt_add_one, List.getElem?_eq_getElem,
          List.getElem_cons_zero, Option.some.injEq] at hy
        subst hy
        have hy : y = log.countP fun e => e.kind = 4 := by omega
        rw [hy]
        exact i4
  | @other log st done cur ev st' hh hs hk1 hk ih =>
    obtain ⟨i0, i1, i2, i3, i4⟩ := ih
    have hc4 : (log ++ [ev]).countP (fun e => e.kind = 4) = log.countP (fun e => e.kind = 4) := by
      rw [List.countP_append]; simp [hk]
    refine ⟨.step i0 hs, by rw [hc4]; exact i1, ?_, i3, by rw [hc4]; exact i4⟩
    rw [drawsThisYear_snoc, if_neg hk, if_neg hk1]; exact i2

/-! ## The statistics of the draws of a year -/

theorem sum_map_range {α : Type} (ds : List α) (f : α → ℚ) (g : ℕ → ℚ) (h : ∀ i d, ds[i]? = some d → f d = g i) :
    (ds.map f).sum = ∑ i ∈ Finset.range ds.length, g i := by
  have : ds.map f = (List.range ds.length).map g := by
    apply List.ext_getElem
    · simp
    · intro i h1 h2
      simp only [List.getElem_map, List.getElem_range]
      exact h i _ (List.getElem?_eq_getElem (by simpa using h1))
  rw [this]
  rfl

theorem yearValue_carry {k : ℕ} (carried : Prop) [Decidable carried] {f : List (DrawLog k) → ℚ} {years : List (List (DrawLog k))}
    {v : ℕ → ℚ} (h : ∀ y ds, years[y]? = some ds → f ds = v y) {y : ℕ} (hy : y < years.length) :
    yearValue carried f years y = withCarry carried v y := by
  have hget : years.getD y [] = years[y] := by
    rw [List.getD_eq_getElem?_getD, List.getElem?_eq_getElem hy]; rfl
  unfold yearValue withCarry
  rw [Finset.sum_Ico_succ_top (by split_ifs <;> omega), hget, h y _ (List.getElem?_eq_getElem hy), add_comm]
  congr 1
  split_ifs with e
  · rw [sum_map_range _ f v fun i d hd => h i d (by
      rw [List.getElem?_take] at hd
      split_ifs at hd
      exact hd), List.length_take, min_eq_left hy.le, Finset.range_eq_Ico]
  · simp

/-- What the draws of a full year add up to. -/
theorem year_sums {k N per : ℕ} {share : Fin 5 → Fin k → ℕ → ℚ} {peak : ℕ → Prop} {ds : List (DrawLog k)} (hl : ds.length = per)
    (h : ∀ i d, ds[i]? = some d → DrawShows N (fun t j => share t j (i + 1)) (peak (i + 1)) d) (t : Fin 5) (ht : t.val < N) :
    (∀ j, hoursIn j t ds = lossHours (share t j) per) ∧ (∀ j, energyIn j t ds = wholeMWh (share t j) per) ∧
    (∀ j, daysIn j t ds = lossDays (share t j) peak per) ∧ poolHoursIn t ds = poolLossHours (share t) per ∧
    poolEnergyIn t ds = ∑ j, wholeMWh (share t j) per ∧ poolDaysIn t ds = poolLossDays (share t) peak per := by
  subst hl
  refine ⟨fun j => ?_, fun j => ?_, fun j => ?_, ?_, ?_, ?_⟩
  · exact sum_map_range _ _ _ fun i d hd => ((h i d hd).areas t ht j).2
  · exact sum_map_range _ _ _ fun i d hd => ((h i d hd).areas t ht j).1
  · refine sum_map_range _ _ _ fun i d hd => ?_
    have a := (h i d hd).peak
    have b := ((h i d hd).areas t ht j).2
    rw [b]
    by_cases e : d.peak = true
    · have := a.1 e
      simp only [e, this, if_true, true_and]
    · have : ¬ peak (i + 1) := fun x => e (a.2 x)
      simp [e, this]
  · exact sum_map_range _ _ _ fun i d hd => (h i d hd).pool t ht
  · refine (sum_map_range _ _ _ fun i d hd => ?_).trans Finset.sum_comm
    exact Finset.sum_congr rfl fun j _ => ((h i d hd).areas t ht j).1
  · refine sum_map_range _ _ _ fun i d hd => ?_
    have a := (h i d hd).peak
    have b := (h i d hd).pool t ht
    rw [b]
    by_cases e : d.peak = true
    · have := a.1 e
      simp only [e, this, if_true, true_and]
    · have : ¬ peak (i + 1) := fun x => e (a.2 x)
      simp [e, this]

/-- The hours that the draws of a study evaluate. -/
theorem hours_exist {step : ℕ} {raw : ℕ → ℕ → ℚ} {JSEED : ℤ} (hc : Calm sl fuel c s step raw JSEED) :
    ∃ H : ℕ → ℕ, ∀ d, 1 ≤ d → d ≤ 8760 / step → Evaluated step s.hour.HRLOAD (step * d) (H d) := by
  have hstepc : c.misc.JSTEP = 1 ∨ c.misc.JSTEP = 24 := by
    rw [hc.steps]; rcases hc.mode with e | e <;> rw [e] <;> simp
  have hpos : 0 < step := by rcases hc.mode with e | e <;> rw [e] <;> norm_num
  have hdvd : step * (8760 / step) = 8760 := by rcases hc.mode with e | e <;> rw [e]
  have hH : ∀ d, ∃ H, 1 ≤ d → d ≤ 8760 / step → Evaluated step s.hour.HRLOAD (step * d) H := by
    intro d
    by_cases hd : 1 ≤ d ∧ d ≤ 8760 / step
    · have hle : step * d ≤ 8760 := by
        have := Nat.mul_le_mul_left step hd.2
        omega
      have hge : 1 ≤ step * d := Nat.mul_pos hpos hd.1
      obtain ⟨k, hk⟩ : ∃ k, hourOf k = step * d - 1 := by
        by_cases e : step * d = 8760
        · exact ⟨0, by rw [e]; rfl⟩
        · exact ⟨step * d, by unfold hourOf; rw [if_neg (by omega)]⟩
      have := evaluated_hour hc.accepted hstepc hk
      rw [hc.steps] at this
      exact ⟨_, fun _ _ => this⟩
    · exact ⟨0, fun a b => absurd ⟨a, b⟩ hd⟩
  choose H hH using hH
  exact ⟨H, hH⟩

/-- The final report of a study in which no limit binds. `Y` years were simulated; `share t j y d` is what area `j` bears
at draw `d` of year `y` in forecast tier `t`, `peak d` says that draw `d` counts for its day, `per` is the number of draws
in a year. -/
structure ReportFigures (c : Cards n m l) (hourly : Prop) (Y : ℕ) (share : Fin 5 → Fin (n + 1) → ℕ → ℕ → ℚ) (peak : ℕ → Prop) (per : ℕ)
    (R : Report (n + 1)) : Prop where
  years : R.years = Y
  lines : R.summary.length = n + 2
  /-- A line for every area: means over the years and standard errors of the loss-of-load days and hours and of the energy. -/
  areas : ∀ j : Fin (n + 1), ∃ q, R.summary[j.val]? = some q ∧ q.name = some (areaLabel (c.areas j).name) ∧
    q.peak = (c.areas j).peak ∧
    Line hourly (figures (tiersOf c) Y (Carried (n + 1) (tiersOf c) j) fun t y => lossDays (share t j y) peak per)
      (figures (tiersOf c) Y (Carried (n + 1) (tiersOf c) j) fun t y => lossHours (share t j y) per)
      (figures (tiersOf c) Y (Carried (n + 1) (tiersOf c) j) fun t y => wholeMWh (share t j y) per) q
  /-- A line for the pool: the figures of the last year, divided by the number of years. -/
  pool : ∃ q, R.summary[n + 1]? = some q ∧ q.name = none ∧ q.peak = ∑ j, (c.areas j).peak ∧
    q.lole.1 = weighted (tiersOf c) (fun t => poolLossDays (fun j => share t j (Y - 1)) peak per) / Y ∧
    (hourly → ∃ a b, q.hourly = some (a, b) ∧
      a.1 = weighted (tiersOf c) (fun t => poolLossHours (fun j => share t j (Y - 1)) per) / Y ∧
      b.1 = weighted (tiersOf c) (fun t => ∑ j, wholeMWh (share t j (Y - 1)) per) / Y)
  /-- The distributions: in how many years the figures of the mean forecast fell into class `k`. -/
  dist : ∀ (j : Fin (n + 1)) (k : Fin 22), ∃ d, (R.dist j)[k.val]? = some d ∧ d.cls = k.val ∧
    d.dp = ((List.range Y).countP fun y => cls 1 (withCarry (Carried (n + 1) (tiersOf c) j (meanTier c))
      (fun y => lossDays (share (meanTier c) j y) peak per) y) = k.val : ℕ) ∧
    d.hl = ((List.range Y).countP fun y => cls 1 (withCarry (Carried (n + 1) (tiersOf c) j (meanTier c))
      (fun y => lossHours (share (meanTier c) j y) per) y) = k.val : ℕ) ∧
    d.eue = ((List.range Y).countP fun y => cls ⌊c.misc.MAXEUE / 20⌋ (withCarry (Carried (n + 1) (tiersOf c) j (meanTier c))
      (fun y => wholeMWh (share (meanTier c) j y) per) y) = k.val : ℕ) ∧
    d.pdp = d.dp / Y ∧ d.phl = d.hl / Y ∧ d.peue = d.eue / Y
  /-- What is printed as the deviation of the pool in percent. -/
  poolErr : ∃ q, R.summary[n + 1]? = some q ∧
    q.lole.2.pct = some (lastPct ((List.range Y).map fun y => weighted (tiersOf c) fun t => poolLossDays (fun j => share t j y) peak per)
      (weighted (tiersOf c) fun t => poolLossDays (fun j => share t j (Y - 1)) peak per)) ∧
    (hourly → ∃ a b, q.hourly = some (a, b) ∧
      a.2.pct = some (lastPct ((List.range Y).map fun y => weighted (tiersOf c) fun t => poolLossHours (fun j => share t j y) per)
        (weighted (tiersOf c) fun t => poolLossHours (fun j => share t j (Y - 1)) per)) ∧
      b.2.pct = some (lastPct ((List.range Y).map fun y => weighted (tiersOf c) fun t => ∑ j, wholeMWh (share t j y) per)
        (weighted (tiersOf c) fun t => ∑ j, wholeMWh (share t j (Y - 1)) per)))

/-- C114 (what happens). Every study in which no limit binds, that runs to its end, prints a final report, and all its
figures are given by the cards, the random streams and the sharing rule. -/
theorem C114_report_partial {step : ℕ} {raw : ℕ → ℕ → ℚ} {JSEED : ℤ} (hc : Calm sl fuel c s step raw JSEED)
    (hder : c.misc.NLS = 0 → ∀ i, (c.units i).der ≤ 100) (hF : 1 ≤ c.misc.FINISH) (hE : 20 ≤ c.misc.MAXEUE) :
    ∃ (load : Fin (n + 1) → ℕ → ℚ) (H : ℕ → ℕ), (∀ j : Fin (n + 1), Scaled (raw j) (c.areas j).peak (load j)) ∧
    (∀ d, 1 ≤ d → d ≤ 8760 / step → Evaluated step load (step * d) (H d)) ∧
    ∀ log st e, Reach s.cfg (s.start JSEED) log st → Narp.step s.cfg st = .ok (.exit e) →
    ∃ Y r, 1 ≤ Y ∧ Y = log.countP (fun e => e.kind = 4) ∧ st.world.y.rep = some r ∧ ∀ ITAB, ∃ R, s.report ITAB r = .ok R ∧
      ReportFigures c (step ≠ 24) Y (yearShare c step load H) (fun d => PeakDraw step load (step * d)) (8760 / step) R := by
  obtain ⟨H, hH⟩ := hours_exist hc
  refine ⟨s.hour.HRLOAD, H, fun j => loads_scaled hc.accepted hc.load j (hc.peak j) (fun x hx => (hc.pos j x hx).le) (hc.some_load j),
    hH, fun log st e hr he => ?_⟩
  have hstepc : c.misc.JSTEP = 1 ∨ c.misc.JSTEP = 24 := by
    rw [hc.steps]; rcases hc.mode with e | e <;> rw [e] <;> simp
  obtain ⟨years, r, hh, hne, hfull, hrep, hR⟩ := C72_report_partial hc.accepted hstepc hc.freq hF hE JSEED hr he
  obtain ⟨_, hlen, _, hshow, _⟩ := history_shows hc hder hH hh
  have hNF := (setup_tiers hc.accepted).1
  have hper : ∀ ds ∈ years, ds.length = 8760 / step := by
    intro ds hds
    have := hfull ds hds
    rw [hc.steps] at this
    rcases hc.mode with e | e
    · rw [e] at this ⊢
      have : (ds.length : ℚ) = (8760 : ℕ) := by push_cast at this ⊢; linarith
      exact_mod_cast this
    · rw [e] at this ⊢
      have : (ds.length : ℚ) = (365 : ℕ) := by push_cast at this ⊢; linarith
      exact_mod_cast this
  have sums : ∀ y ds, years[y]? = some ds → ∀ t : Fin 5, t.val < tiersOf c → _ := fun y ds hy t ht =>
    year_sums (share := fun t j => yearShare c step s.hour.HRLOAD H t j y)
      (peak := fun d => PeakDraw step s.hour.HRLOAD (step * d)) (hper ds (List.mem_of_getElem? hy)) (hshow y ds hy) t
      (by rw [hNF]; exact ht)
  have hfig : ∀ (f : Fin (n + 1) → Fin 5 → List (DrawLog (n + 1)) → ℚ) (v : Fin (n + 1) → Fin 5 → ℕ → ℚ),
      (∀ y ds, years[y]? = some ds → ∀ t : Fin 5, t.val < tiersOf c → ∀ j, f j t ds = v j t y) →
      ∀ j, annualC (tiersOf c) f years j = figures (tiersOf c) years.length (Carried (n + 1) (tiersOf c) j) (v j) := by
    intro f v hfv j
    refine List.map_congr_left fun y hy => ?_
    rw [List.mem_range] at hy
    exact weighted_congr fun t ht => yearValue_carry _ (fun y ds hd => hfv y ds hd t ht j) hy
  have hN : (meanTier c).val < tiersOf c := by unfold tiersOf meanTier; split_ifs <;> norm_num
  have hcls : ∀ (f : Fin (n + 1) → Fin 5 → List (DrawLog (n + 1)) → ℚ) (v : Fin (n + 1) → Fin 5 → ℕ → ℚ),
      (∀ y ds, years[y]? = some ds → ∀ t : Fin 5, t.val < tiersOf c → ∀ j, f j t ds = v j t y) → ∀ (w : ℚ) (k : ℕ) j,
      ((List.range years.length).countP fun y => cls w
        (yearValue (Carried (n + 1) (tiersOf c) j (meanTier c)) (f j (meanTier c)) years y) = k) =
      (List.range years.length).countP fun y => cls w
        (withCarry (Carried (n + 1) (tiersOf c) j (meanTier c)) (v j (meanTier c)) y) = k := by
    intro f v hfv w k j
    refine List.countP_congr fun y hy => ?_
    rw [List.mem_range] at hy
    rw [yearValue_carry _ (fun y ds hd => hfv y ds hd _ hN j) hy]
  refine ⟨years.length, r, List.length_pos_of_ne_nil hne, hlen, hrep, fun ITAB => ?_⟩
  obtain ⟨R, hRep, hS⟩ := hR ITAB
  have hour : c.misc.JSTEP ≠ 24 ↔ step ≠ 24 := by rw [hc.steps]; exact_mod_cast Iff.rfl
  refine ⟨R, hRep, hS.count, hS.lines, fun j => ?_, ?_, fun j k => ?_, ?_⟩
  · obtain ⟨q, a1, a2, a3, _, _, a4⟩ := hS.areas j
    refine ⟨q, a1, a2, a3, ?_⟩
    rw [hfig _ (fun j t y => lossDays (yearShare c step s.hour.HRLOAD H t j y)
        (fun d => PeakDraw step s.hour.HRLOAD (step * d)) (8760 / step)) (fun y ds hy t ht => (sums y ds hy t ht).2.2.1),
      hfig _ (fun j t y => lossHours (yearShare c step s.hour.HRLOAD H t j y) (8760 / step)) (fun y ds hy t ht => (sums y ds hy t ht).1),
      hfig _ (fun j t y => wholeMWh (yearShare c step s.hour.HRLOAD H t j y) (8760 / step)) (fun y ds hy t ht => (sums y ds hy t ht).2.1)] at a4
    exact ⟨a4.days, fun h => a4.none fun h' => h (hour.1 h'), fun h => a4.some (hour.2 h)⟩
  · obtain ⟨q, last, a1, a2, a3, a4, _, a5, a6⟩ := hS.pool
    have hlast : years[years.length - 1]? = some last := by rw [← List.getLast?_eq_getElem?]; exact a2
    refine ⟨q, a1, a3, a4, ?_, fun h => ?_⟩
    · rw [a5, weighted_congr fun t ht => (sums _ _ hlast t ht).2.2.2.2.2]
    · obtain ⟨a, b, b1, b2, b3⟩ := a6 (hour.2 h)
      exact ⟨a, b, b1, by rw [b2, weighted_congr fun t ht => (sums _ _ hlast t ht).2.2.2.1],
        by rw [b3, weighted_congr fun t ht => (sums _ _ hlast t ht).2.2.2.2.1]⟩
  · obtain ⟨d, d1, d2, _, d4, d5, d6, d7, d8, d9⟩ := hS.dist j k
    refine ⟨d, d1, d2, ?_, ?_, ?_, d7, d8, d9⟩
    · rw [d4, hcls _ (fun j t y => lossDays (yearShare c step s.hour.HRLOAD H t j y)
        (fun d => PeakDraw step s.hour.HRLOAD (step * d)) (8760 / step)) (fun y ds hy t ht => (sums y ds hy t ht).2.2.1)]
    · rw [d5, hcls _ (fun j t y => lossHours (yearShare c step s.hour.HRLOAD H t j y) (8760 / step))
        (fun y ds hy t ht => (sums y ds hy t ht).1)]
    · rw [d6, hcls _ (fun j t y => wholeMWh (yearShare c step s.hour.HRLOAD H t j y) (8760 / step))
        (fun y ds hy t ht => (sums y ds hy t ht).2.1)]
  · obtain ⟨q, last, a1, a2, a3, a4⟩ := hS.poolErr
    have hlast : years[years.length - 1]? = some last := by rw [← List.getLast?_eq_getElem?]; exact a2
    have hP : ∀ (f : Fin 5 → List (DrawLog (n + 1)) → ℚ) (v : Fin 5 → ℕ → ℚ),
        (∀ y ds, years[y]? = some ds → ∀ t : Fin 5, t.val < tiersOf c → f t ds = v t y) →
        lastPct (annualP (tiersOf c) f years) (weighted (tiersOf c) fun t => f t last) =
        lastPct ((List.range years.length).map fun y => weighted (tiersOf c) fun t => v t y)
          (weighted (tiersOf c) fun t => v t (years.length - 1)) := by
      intro f v hfv
      rw [weighted_congr fun t ht => hfv _ _ hlast t ht]
      congr 1
      apply List.ext_getElem
      · simp [annualP]
      · intro y h1 h2
        have hy : y < years.length := by simpa using h2
        refine (List.getElem_map (fun ds => weighted (tiersOf c) fun t => f t ds)).trans ?_
        simp only [List.getElem_map, List.getElem_range]
        exact weighted_congr fun t ht => hfv y _ (List.getElem?_eq_getElem hy) t ht
    refine ⟨q, a1, ?_, fun h => ?_⟩
    · rw [a3, hP _ _ fun y ds hy t ht => (sums y ds hy t ht).2.2.2.2.2]
    · obtain ⟨a, b, b1, b2, b3⟩ := a4 (hour.2 h)
      exact ⟨a, b, b1, by rw [b2, hP _ _ fun y ds hy t ht => (sums y ds hy t ht).2.2.2.1],
        by rw [b3, hP _ _ fun y ds hy t ht => (sums y ds hy t ht).2.2.2.2.1]⟩

/-- C114, every year: what every year end finds in the books. The pool's counters are cleared every year; those of an area
may contain earlier years (`Carried`). -/
theorem C114_year_partial {step : ℕ} {raw : ℕ → ℕ → ℚ} {JSEED : ℤ} (hc : Calm sl fuel c s step raw JSEED)
    (hder : c.misc.NLS = 0 → ∀ i, (c.units i).der ≤ 100) :
    ∃ (load : Fin (n + 1) → ℕ → ℚ) (H : ℕ → ℕ), (∀ j : Fin (n + 1), Scaled (raw j) (c.areas j).peak (load j)) ∧
    (∀ d, 1 ≤ d → d ≤ 8760 / step → Evaluated step load (step * d) (H d)) ∧
    let share := yearShare c step load H
    let peak := fun d => PeakDraw step load (step * d)
    let per := 8760 / step
    ∀ log st evs, Ends s.hour s.year s.JPLOUT s.RATES snapNet (s.start JSEED) log st evs →
    ∀ y e, evs[y]? = some e → ∀ t : Fin 5, t.val < s.hour.NFCST →
      e.H.LOLTP t + e.H.LOLGP t = poolLossHours (fun j => share t j y) per ∧
      e.H.MGNTP t + e.H.MGNGP t = ∑ j, wholeMWh (share t j y) per ∧
      e.P.LOLTP t + e.P.LOLGP t = poolLossDays (fun j => share t j y) peak per ∧
      ∀ j : Fin (n + 1), e.H.LOLTA j t + e.H.LOLGA j t =
          withCarry (Carried (n + 1) s.hour.NFCST j t) (fun y => lossHours (share t j y) per) y ∧
        e.H.MGNTA j t + e.H.MGNGA j t = withCarry (Carried (n + 1) s.hour.NFCST j t) (fun y => wholeMWh (share t j y) per) y ∧
        e.P.LOLTA j t + e.P.LOLGA j t = withCarry (Carried (n + 1) s.hour.NFCST j t) (fun y => lossDays (share t j y) peak per) y := by
  obtain ⟨H, hH⟩ := hours_exist hc
  refine ⟨s.hour.HRLOAD, H, fun j => loads_scaled hc.accepted hc.load j (hc.peak j) (fun x hx => (hc.pos j x hx).le) (hc.some_load j),
    hH, ?_⟩
  intro share peak per log st evs hE y e he t ht
  have h := hc.accepted
  have hJs : s.hour.JSTEP = step := by rw [C64_step h, hc.steps]; norm_num
  have hJ : StepOK s.hour.JSTEP := by
    rw [hJs]
    rcases hc.mode with e | e <;> rw [e]
    · left; norm_num
    · right; norm_num
  have hJF : s.hour.JFREQ = 1 := by
    obtain ⟨wr, raw, T, ITAB, ID', hw, _, _, _, _, rfl⟩ := setup_ok h
    exact hc.freq
  obtain ⟨_, _, _, _, _, _, hmx⟩ := C64_loads h
  obtain ⟨done, cur, hh, hlen, _, hold, _, _⟩ := ends_history hJ hJF (fun _ d hd => by have := (hmx d).2.1; omega) hE
  obtain ⟨_, _, _, hshow, _⟩ := history_shows hc hder hH hh
  have hper : ∀ ds ∈ done, ds.length = 8760 / step := by
    intro ds hds
    have := (history_full hJ hh).2 ds hds
    rw [hJs] at this
    rcases hc.mode with e | e
    · rw [e] at this ⊢
      have : (ds.length : ℚ) = (8760 : ℕ) := by push_cast at this ⊢; linarith
      exact_mod_cast this
    · rw [e] at this ⊢
      have : (ds.length : ℚ) = (365 : ℕ) := by push_cast at this ⊢; linarith
      exact_mod_cast this
  have sums : ∀ y ds, done[y]? = some ds → _ := fun y ds hy =>
    year_sums (share := fun t j => share t j y) (peak := peak) (hper ds (List.mem_of_getElem? hy)) (hshow y ds hy) t ht
  have hylt : y < evs.length := by
    by_contra hn
    rw [List.getElem?_eq_none (by omega)] at he
    cases he
  have hy : y < done.length := by omega
  have hNF : s.year.NFCST = s.hour.NFCST := by obtain ⟨a, b, _⟩ := setup_tiers h; rw [a, b]
  have hget : done.getD y [] = done[y] := by
    rw [List.getD_eq_getElem?_getD, List.getElem?_eq_getElem hy]; rfl
  obtain ⟨hh1, hp1⟩ := hold y e he
  rw [hNF] at hh1 hp1
  obtain ⟨_, _, _, s4, s5, s6⟩ := sums y _ (List.getElem?_eq_getElem hy)
  refine ⟨?_, ?_, ?_, fun j => ⟨?_, ?_, ?_⟩⟩
  · rw [hh1.lp t ht, hget]; exact s4
  · rw [hh1.ep t ht, hget]; exact s5
  · rw [hp1.lp t ht, hget]; exact s6
  · rw [hh1.lole j t]; exact yearValue_carry _ (fun y ds hd => (sums y ds hd).1 j) hy
  · rw [hh1.eue j t]; exact yearValue_carry _ (fun y ds hd => (sums y ds hd).2.1 j) hy
  · rw [hp1.lole j t]; exact yearValue_carry _ (fun y ds hd => (sums y ds hd).2.2.1 j) hy

/-- Without load forecast uncertainty, for the first area; and with it, for the first five areas of at least five: the
annual values are those of the years. -/
theorem figures_plain {Y : ℕ} {j : Fin (n + 1)} (hj : j.val < tiersOf c) (hn : tiersOf c ≤ n + 1) (v : Fin 5 → ℕ → ℚ) :
    figures (tiersOf c) Y (Carried (n + 1) (tiersOf c) j) v = (List.range Y).map fun y => weighted (tiersOf c) fun t => v t y := by
  unfold figures
  refine List.map_congr_left fun y _ => weighted_congr fun t ht => ?_
  have : ¬ Carried (n + 1) (tiersOf c) j t := fun h => h ⟨hj, by omega⟩
  unfold withCarry
  rw [if_neg this]
  simp

/-- C114 from the cards alone: an ample network and legal settings. The run ends, and its report has these figures. -/
theorem C114_ample_partial {step : ℕ} {raw : ℕ → ℕ → ℚ} (hc : AmpleStudy sl fuel c s step raw) (hIOJ : c.misc.IOJ = 0 ∨ c.misc.JSTEP = 24)
    (hF : 1 ≤ c.misc.FINISH) (hE : 20 ≤ c.misc.MAXEUE) (hK : c.misc.KWHERE = 1 → 1 ≤ c.misc.KVLOC ∧ c.misc.KVLOC ≤ n + 1) (JSEED : ℤ) :
    ∃ (load : Fin (n + 1) → ℕ → ℚ) (H : ℕ → ℕ), (∀ j : Fin (n + 1), Scaled (raw j) (c.areas j).peak (load j)) ∧
    (∀ d, 1 ≤ d → d ≤ 8760 / step → Evaluated step load (step * d) (H d)) ∧
    ∃ (log : List Ev) (st : St _) (e : Exit) (Y : ℕ) (r : RepIn (n + 1)), Reach s.cfg (s.start JSEED) log st ∧
      Narp.step s.cfg st = .ok (.exit e) ∧ (e = .converged ∨ e = .finished) ∧ 1 ≤ Y ∧ st.world.y.rep = some r ∧
      ∀ ITAB, ∃ R, s.report ITAB r = .ok R ∧
        ReportFigures c (step ≠ 24) Y (yearShare c step load H) (fun d => PeakDraw step load (step * d)) (8760 / step) R := by
  obtain ⟨load, H, a, b, main⟩ := C114_report_partial (C110_calm hc JSEED) (fun _ i => (hc.derating i).2) hF hE
  refine ⟨load, H, a, b, ?_⟩
  obtain ⟨log, st, e, hr, hx, he⟩ := C110_completes hc hIOJ hE hK JSEED
  obtain ⟨Y, r, h1, _, h2, h3⟩ := main log st e hr hx
  exact ⟨log, st, e, Y, r, hr, hx, he, h1, h2, h3⟩

/-- C114 applies: two areas joined by an ample line; the first depends on the second in every hour, and the pool is short
whenever enough units are out. -/
example (sl : ℕ → ℚ → ℚ) (fuel : ℕ) : ∃ (s : Setup 1 4 1) (raw : ℕ → ℕ → ℚ), AmpleStudy sl fuel (ampleCards (-100) 260 1000) s 1 raw ∧
    ∃ (load : Fin 2 → ℕ → ℚ) (H : ℕ → ℕ) (log : List Ev) (st : St _) (e : Exit) (Y : ℕ) (r : RepIn 2),
      Reach s.cfg (s.start 1) log st ∧ Narp.step s.cfg st = .ok (.exit e) ∧ 1 ≤ Y ∧ st.world.y.rep = some r ∧
      ∀ ITAB, ∃ R, s.report ITAB r = .ok R ∧ ReportFigures (ampleCards (-100) 260 1000) (1 ≠ 24) Y
        (yearShare (ampleCards (-100) 260 1000) 1 load H) (fun d => PeakDraw 1 load (1 * d)) (8760 / 1) R := by
  obtain ⟨s, raw, h, hs⟩ := ample_study sl fuel (adm := -100) (cap := 260) (lim := 1000) (by norm_num) (by norm_num) (by norm_num)
  obtain ⟨load, H, _, _, log, st, e, Y, r, a, b, _, c1, d, f⟩ := C114_ample_partial hs (.inl rfl) (by simp [ampleCards, demoCards])
    (by simp [ampleCards, demoCards]; norm_num) (by simp [ampleCards, demoCards]) 1
  exact ⟨s, raw, hs, load, H, log, st, e, Y, r, a, b, c1, d, f⟩

end Narp.Props
