import Verif.Props.CardStop

/-!
# C45 in a run: the last hour of the year is no peak hour

The load file of this study has its only peak in the last hour of the year, and the system is always short.
-/

namespace Narp.Props
open Narp Narp.Spec BigOperators

/-- 730 rows of twelve hours of 14 MW, but 15 MW in the very last hour. -/
@[irreducible] def lastRows : List (List ℚ) :=
  (List.range 730).map fun i => (List.range 12).map fun k => if i = 729 ∧ k = 11 then 15 else 14

theorem lastRows_length : lastRows.length = 730 := by
  unfold lastRows
  rw [List.length_map, List.length_range]

theorem lastRows_row : ∀ r ∈ lastRows, r.length = 12 := by
  unfold lastRows
  intro r hr
  obtain ⟨i, _, rfl⟩ := List.mem_map.1 hr
  rw [List.length_map, List.length_range]

theorem lastRows_get {h : ℕ} (hh : h < 8760) :
    (lastRows.getD (h / 12) []).getD (h % 12) 0 = if h = 8759 then 15 else 14 := by
  have e : lastRows.getD (h / 12) [] = (List.range 12).map fun k => if h / 12 = 729 ∧ k = 11 then (15 : ℚ) else 14 := by
    unfold lastRows
    rw [List.getD_eq_getElem?_getD, List.getElem?_map, List.getElem?_range (by omega)]
    rfl
  rw [e, List.getD_eq_getElem?_getD, List.getElem?_map, List.getElem?_range (by omega)]
  simp only [Option.map_some, Option.getD_some]
  have hiff : (h / 12 = 729 ∧ h % 12 = 11) ↔ h = 8759 := by omega
  simp only [hiff]

def lastBlocks : List Block := [⟨'1', [], lastRows⟩, ⟨'2', [], lastRows⟩]

theorem last_read : ∃ raw, leeiRead 2 (lastBlocks.flatMap Block.lines) = .ok raw ∧
    ∀ j < 2, ∀ h < 8760, raw j h = if h = 8759 then 15 else 14 := by
  obtain ⟨H, h1, h2⟩ := C20_read_partial 2 lastBlocks (fun b => if b.c = '1' then 1 else 2)
    (by
      intro b hb
      simp only [lastBlocks, List.mem_cons, List.not_mem_nil, or_false] at hb
      rcases hb with rfl | rfl <;> decide)
    (by
      show [1, 2].Nodup
      decide)
    (by
      intro b hb
      simp only [lastBlocks, List.mem_cons, List.not_mem_nil, or_false] at hb
      rcases hb with rfl | rfl <;> exact ⟨lastRows_length, lastRows_row⟩)
  refine ⟨H, h1, fun j hj h hh => ?_⟩
  rcases (by omega : j = 0 ∨ j = 1) with rfl | rfl
  · have := h2 _ List.mem_cons_self h hh
    rw [if_pos rfl] at this
    exact this.trans (lastRows_get hh)
  · have := h2 _ (List.mem_cons_of_mem _ List.mem_cons_self) h hh
    rw [if_neg (by decide)] at this
    exact this.trans (lastRows_get hh)

/-- The always short study with this load file. -/
def lastCards : Cards 1 4 1 := { scarceCards with leei := lastBlocks.flatMap Block.lines }

theorem last_one : OneCard lastCards := ⟨scarce_one.areas, scarce_one.units⟩
theorem last_sensible : Sensible lastCards := ⟨scarce_sensible.cap, scarce_sensible.dur, scarce_sensible.apart⟩
theorem last_lone : NoLone lastCards := scarce_lone
theorem last_derating (i : Fin 4) : 0 ≤ (lastCards.units i).der ∧ (lastCards.units i).der ≤ 100 := scarce_derating i

/-- The input is accepted and always short, and the pool's load is largest, on its day and in the whole year, in the last hour. -/
theorem last_ok (sl : ℕ → ℚ → ℚ) (fuel : ℕ) : ∃ s, setup sl fuel lastCards = .ok s ∧ Scarce lastCards s.hour.HRLOAD ∧
    ∀ h < 8759, ∑ a, s.hour.HRLOAD a h < ∑ a, s.hour.HRLOAD a 8759 := by
  obtain ⟨raw, h, r⟩ := last_read
  obtain ⟨s, hs⟩ := C64_accepted (c := lastCards) sl fuel last_one (by norm_num)
    ⟨scarce_known.loc, scarce_known.src, scarce_known.dst, scarce_known.csrc, scarce_known.cdst, scarce_known.own⟩
    last_sensible (NoLone.once (c := lastCards) last_lone) ⟨raw, h⟩ rfl rfl
  have hread : leeiRead (1 + 1) lastCards.leei = .ok raw := h
  have hp : ∀ j, 900 ≤ (lastCards.areas j).peak := by
    intro j
    fin_cases j <;> simp [lastCards, scarceCards]; norm_num
  have hraw : ∀ j : Fin 2, ∀ x < 8760, 14 ≤ raw j x ∧ raw j x ≤ 15 := by
    intro j x hx
    rw [r j j.isLt x hx]
    split_ifs <;> norm_num
  have hload : ∀ j : Fin 2, ∃ k : ℚ, 60 ≤ k ∧ ∀ x, s.hour.HRLOAD j x = k * raw j x := by
    intro j
    obtain ⟨x, hx, hx0, _, hv⟩ := loads_scaled hs hread j (by linarith [hp j])
      (fun h hh => by have := (hraw j h hh).1; linarith) ⟨0, by norm_num, by have := (hraw j 0 (by norm_num)).1; linarith⟩
    refine ⟨(lastCards.areas j).peak / raw j x, ?_, fun z => ?_⟩
    · rw [le_div_iff₀ hx0]
      have := (hraw j x hx).2
      have := hp j
      linarith
    · rw [hv]; ring
  refine ⟨s, hs, ?_, ?_⟩
  · intro j t x hx season
    have hsum : ∑ i ∈ unitsIn lastCards j, (lastCards.units i).cap (season i) ≤ 400 := by
      have hcap : ∀ i, 0 ≤ (lastCards.units i).cap (season i) ∧ (lastCards.units i).cap (season i) ≤ 100 := by
        intro i; fin_cases i <;> simp [lastCards, scarceCards, demoCards] <;> norm_num
      calc _ ≤ ∑ i, (lastCards.units i).cap (season i) :=
            Finset.sum_le_univ_sum_of_nonneg fun i => (hcap i).1
        _ ≤ ∑ _i : Fin 4, (100 : ℚ) := Finset.sum_le_sum fun i _ => (hcap i).2
        _ = 400 := by simp; norm_num
    have hf : forecast (lastCards.areas j).lfu t = 1 := by
      fin_cases j <;> simp [lastCards, scarceCards, forecast]
    obtain ⟨k, hk, hv⟩ := hload j
    rw [hv, hf, mul_one]
    have := (hraw j x hx).1
    nlinarith
  · intro x hx
    refine Finset.sum_lt_sum_of_nonempty ⟨0, Finset.mem_univ _⟩ fun j _ => ?_
    obtain ⟨k, hk, hv⟩ := hload j
    rw [hv, hv, r j j.isLt x (by omega), r j j.isLt 8759 (by norm_num), if_neg (by omega), if_pos rfl]
    linarith

/-- C45 (refuted in a run). The last hour of the year has the largest pool load of its day (indeed of the year), and its draw, which
takes place in every run, finds every area short: the hourly counters of every area and of the pool grow by one hour.
But not one of the peak counters changes. -/
theorem C45_run_refuted (sl : ℕ → ℚ → ℚ) (fuel : ℕ) (JSEED : ℤ) : ∃ s, setup sl fuel lastCards = .ok s ∧
    IsFirstMax (fun h => ∑ a, s.hour.HRLOAD a h) (24 * (8759 / 24)) 24 8759 ∧
    ∃ log st st' ev, Reach s.cfg (s.start JSEED) log st ∧ step s.cfg st = .ok (.next ev st') ∧ ev.kind = 1 ∧
      ev.time = ((8760 : ℕ) : ℚ) ∧
      (∀ j, st'.world.h.H.LOLTA j 0 + st'.world.h.H.LOLGA j 0 = st.world.h.H.LOLTA j 0 + st.world.h.H.LOLGA j 0 + 1) ∧
      st'.world.h.H.LOLTP 0 + st'.world.h.H.LOLGP 0 = st.world.h.H.LOLTP 0 + st.world.h.H.LOLGP 0 + 1 ∧
      st'.world.h.P = st.world.h.P := by
  obtain ⟨s, hs, hsc, hmax⟩ := last_ok sl fuel
  refine ⟨s, hs, ?_, ?_⟩
  · refine ⟨by norm_num, by norm_num, fun k h1 h2 => ?_⟩
    rcases (by omega : k < 8759 ∨ k = 8759) with hk | rfl
    · exact ⟨(hmax k hk).le, fun _ => hmax k hk⟩
    · exact ⟨le_rfl, fun h => absurd h (lt_irrefl _)⟩
  have hJs : s.hour.JSTEP = 1 := by
    rw [(C72_settings hs JSEED).1]
    show (((1 : ℤ)) : ℚ) = 1
    norm_num
  have hJ : StepOK s.hour.JSTEP := .inl hJs
  have hJF : s.hour.JFREQ = 1 := by
    obtain ⟨wr, raw, T, ITAB, ID', hw, _, _, _, _, rfl⟩ := setup_ok hs
    rfl
  have h1t : tiersOf lastCards = 1 := by
    have hlfu : ∀ j, (lastCards.areas j).lfu = 0 := by intro j; fin_cases j <;> rfl
    unfold tiersOf
    rw [if_neg (by simpa using hlfu)]
  have hne : s.hour.JSTEP = 24 → ∀ d < 365, s.hour.MXPLHR d < 8760 := fun h => by rw [hJs] at h; norm_num at h
  obtain ⟨log, st, st', ev, hr, hst, hk, hT⟩ := scarce_draws last_one last_sensible last_lone last_derating hs
    rfl rfl rfl (by simp [lastCards, scarceCards, demoCards]; norm_num) (by simp [lastCards, scarceCards, demoCards])
    (by simp [lastCards, scarceCards, demoCards]) hsc JSEED 8760 (by norm_num) (by norm_num)
  refine ⟨log, st, st', ev, hr, hst, hk, hT, ?_⟩
  obtain ⟨evs, hE⟩ := ends_of_reach hr
  obtain ⟨done, cur, hh, _⟩ := ends_history hJ hJF hne hE
  rcases step_world (cfg := s.cfg) hJ hr hst with ⟨_, hx, _⟩ | ⟨hx, _⟩ | ⟨hx, _⟩
  · simp only [Setup.cfg, narpCfg, hourFx] at hx
    cases hb : hourBody s.hour ev.time (fun i => st.RATING.getD i 0) (fun i => st.PLNDST.getD i 0) st.world.h with
    | error x => rw [hb] at hx; cases hx
    | ok w' =>
      rw [hb] at hx
      have hw : ({ h := w', y := st.world.y } : World _ _ _ _ _) = st'.world := Except.ok.inj hx
      have hw' : st'.world.h = w' := by rw [← hw]
      rw [hT] at hb
      obtain ⟨d, hd, hrec⟩ := drawOf_exists hJF hne hb
      rw [← hT] at hd
      have hh' := History.draw hh hst hk (by rw [hw']; exact hd)
      obtain ⟨a, b⟩ := (history_scarce last_one last_sensible last_derating hs hJ hsc h1t JSEED hh').2 d (by simp)
      rw [hw']
      refine ⟨fun j => ?_, ?_, ?_⟩
      · rw [hrec.areaHours j 0, a j]; norm_num
      · rw [hrec.poolHours 0, b]; norm_num
      · have hb2 : hourBody s.hour (8760 * ((1 : ℕ) : ℚ) + ((0 : ℕ) : ℚ)) (fun i => st.RATING.getD i 0)
            (fun i => st.PLNDST.getD i 0) st.world.h = .ok w' := by
          rw [← hb]
          congr 1
          norm_num
        exact C45_last_hour_refuted.1 s.hour (by rw [hJs]; norm_num) hJF 1 _ _ _ _ hb2
  · rw [hk] at hx
    rcases hx with hx | hx <;> norm_num at hx
  · rw [hk] at hx; norm_num at hx

end Narp.Props
