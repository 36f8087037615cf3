import Verif.Props.SeasonRefuted

/-!
# C104: the books of an hour do not balance with the capacities of the season
-/

namespace Narp.Props
open Narp Narp.Spec BigOperators

/-- Two areas with an ample line. In the first quarter both need 200 MW, `A` has 100 MW and `B` has 300 MW (190 MW in the
later seasons). No unit ever fails and none is ever on planned outage. -/
def bothCards : Cards 1 4 1 :=
  { demoCards 1 (-100) 1000 with
    areas := ![⟨1, ['A'], 200, 0, fun _ => 0, 1000⟩, ⟨2, ['B'], 200, 0, fun _ => 0, 1000⟩]
    units := ![⟨1, ['P'], ['A'], fun _ => 50, 0, 0, 0, ⟨1, 0, 0, 0, 0⟩⟩, ⟨2, ['Q'], ['A'], fun _ => 50, 0, 0, 0, ⟨1, 0, 0, 0, 0⟩⟩,
      ⟨3, ['R'], ['B'], ![150, 95, 95, 95], 0, 0, 0, ⟨1, 0, 0, 0, 0⟩⟩,
      ⟨4, ['S'], ['B'], ![150, 95, 95, 95], 0, 0, 0, ⟨1, 0, 0, 0, 0⟩⟩]
    leei := seasonBlocks.flatMap Block.lines }

theorem both_one : OneCard bothCards := by
  constructor
  · intro a b; fin_cases a <;> fin_cases b <;> simp [bothCards]
  · intro a b; fin_cases a <;> fin_cases b <;> simp [bothCards]

theorem both_sensible : Sensible bothCards := by
  constructor
  · intro i k; fin_cases i <;> fin_cases k <;> simp [bothCards]
  · intro i; fin_cases i <;> simp [bothCards]
  · intro i k; fin_cases i <;> simp [bothCards, covers]

theorem both_lone : NoLone bothCards := by
  intro i
  fin_cases i
  exacts [⟨1, by decide, rfl⟩, ⟨0, by decide, rfl⟩, ⟨3, by decide, rfl⟩, ⟨2, by decide, rfl⟩]

theorem both_units : unitsIn bothCards 0 = {0, 1} ∧ unitsIn bothCards 1 = {2, 3} := by
  constructor <;> decide +kernel

theorem both_study (sl : ℕ → ℚ → ℚ) (fuel : ℕ) : ∃ (s : Setup 1 4 1) (raw : ℕ → ℕ → ℚ),
    AmpleStudy sl fuel bothCards s 1 raw ∧
    (∀ h < 8760, raw 0 h = 5) ∧ ∀ h < 8760, raw 1 h = if h < 2184 then 10 else 5 := by
  obtain ⟨raw, h, r0, r1⟩ := season_read
  have hk : AllKnown bothCards := by
    constructor
    · intro i; fin_cases i <;> simp [bothCards, demoCards]
    · intro i; exact ⟨0, by fin_cases i; rfl⟩
    · intro i; exact ⟨1, by fin_cases i; rfl⟩
    · intro x hx; cases hx
    · intro x hx; cases hx
    · intro x hx; cases hx
  have hread : leeiRead (1 + 1) bothCards.leei = .ok raw := h
  obtain ⟨s, hs'⟩ := C64_accepted (c := bothCards) sl fuel both_one (by norm_num) hk both_sensible both_lone.once
    ⟨raw, h⟩ rfl rfl
  have hraw : ∀ j : Fin 2, ∀ h < 8760, 5 ≤ raw j h := by
    intro j h hh
    fin_cases j
    · show 5 ≤ raw 0 h; rw [r0 h hh]
    · show 5 ≤ raw 1 h; rw [r1 h hh]; split_ifs <;> norm_num
  have hpp : poolPeak bothCards = 400 := by
    unfold poolPeak
    rw [Fin.sum_univ_two]
    simp [bothCards, forecast]
    norm_num
  refine ⟨s, raw, ⟨both_one, both_sensible, both_lone, ?_, hs', rfl, .inl rfl, rfl,
    by intro k; fin_cases k; simp [bothCards, demoCards],
    by intro j; fin_cases j <;> simp [bothCards], hread, by intro j; fin_cases j <;> simp [bothCards],
    fun j x hx => by have := hraw j x hx; linarith,
    fun j => ⟨0, by norm_num, by have := hraw j 0 (by norm_num); linarith⟩,
    by intro i; fin_cases i <;> simp [bothCards], ⟨?_, ?_⟩, ?_⟩, r0, r1⟩
  · constructor
    · intro k; fin_cases k; simp [bothCards, demoCards]
    · intro a
      fin_cases a
      · exact .refl
      · exact .single ⟨0, .inl ⟨rfl, rfl⟩⟩
    · intro k t; fin_cases k; simp [bothCards, demoCards]
    · intro k t; fin_cases k; simp [bothCards, demoCards]
  · rw [hpp]; intro k t; fin_cases k; simp [bothCards, demoCards]; norm_num
  · rw [hpp]; intro j; fin_cases j <;> simp [bothCards] <;> norm_num
  · intro load hload t x hx season
    refine ⟨0, ?_⟩
    have e : load 0 x = 200 := by
      obtain ⟨y, hy, _, _, e⟩ := hload 0
      rw [e]
      show 200 * raw 0 x / raw 0 y = 200
      rw [r0 x hx, r0 y hy]; norm_num
    rw [e, both_units.1, Finset.sum_pair (by decide)]
    simp [bothCards, forecast]
    norm_num

/-- The loads of this study. -/
theorem both_loads {raw : ℕ → ℕ → ℚ} (r0 : ∀ h < 8760, raw 0 h = 5)
    (r1 : ∀ h < 8760, raw 1 h = if h < 2184 then 10 else 5) {load : Fin 2 → ℕ → ℚ}
    (hload : ∀ j : Fin 2, Scaled (raw j) (bothCards.areas j).peak (load j)) {x : ℕ} (hx : x < 8760) :
    load 0 x = 200 ∧ load 1 x = if x < 2184 then 200 else 100 := by
  constructor
  · obtain ⟨y, hy, _, _, e⟩ := hload 0
    rw [e]
    show 200 * raw 0 x / raw 0 y = 200
    rw [r0 x hx, r0 y hy]; norm_num
  · obtain ⟨y, hy, _, hm, e⟩ := hload 1
    have hy2 : raw 1 y = 10 := by
      have h0 := hm 0 (by norm_num)
      have e0 := r1 0 (by norm_num)
      rw [if_pos (by norm_num)] at e0
      have ey := r1 y hy
      change raw 1 0 ≤ raw 1 y at h0
      rw [e0] at h0
      split_ifs at ey
      · exact ey
      · rw [ey] at h0; norm_num at h0
    rw [e]
    show 200 * raw 1 x / raw 1 y = _
    rw [hy2, r1 x hx]
    split_ifs <;> norm_num


/-- What is recorded when both areas are short: exactly one tier entry, with at least 1 MW in both. -/
theorem both_entry {hist : List (Fin 5 × (Fin 2 → ℚ))} (h0 : hoursShort hist 0 0 = 1) (h1 : hoursShort hist 1 0 = 1)
    (hp : tierCount hist 0 = 1) : ∃ e ∈ hist, e.1 = 0 ∧ 1 ≤ e.2 0 ∧ 1 ≤ e.2 1 := by
  unfold hoursShort at h0 h1
  unfold tierCount at hp
  obtain ⟨e, he⟩ := List.length_eq_one_iff.1 ((List.countP_eq_length_filter (l := hist)).symm.trans hp)
  have hmem : ∀ x ∈ hist, x.1 = 0 → x = e := by
    intro x hx hx0
    have : x ∈ hist.filter (fun e => decide (e.1 = 0)) := List.mem_filter.2 ⟨hx, by simpa using hx0⟩
    rw [he] at this
    exact List.mem_singleton.1 this
  obtain ⟨a, ha, ha2⟩ := List.countP_pos_iff.1 (by rw [h0]; norm_num)
  obtain ⟨b, hb, hb2⟩ := List.countP_pos_iff.1 (by rw [h1]; norm_num)
  have ha3 := of_decide_eq_true ha2
  have hb3 := of_decide_eq_true hb2
  have e1 := hmem a ha ha3.1
  have e2 := hmem b hb hb3.1
  refine ⟨a, ha, ha3.1, ha3.2, ?_⟩
  rw [e1, ← e2]
  exact hb3.2

/-- C104 (what fails). In this study no limit ever binds; but in every hour of the first quarter of every year of every run
no flows whatever make the books balance: whatever list of shortages explains the counters that the hour adds, in some
tier no flows on the lines give capacity according to the cards in the season of the calendar, plus shortage, as load
plus net export in every area. -/
theorem C104_season_refuted (sl : ℕ → ℚ → ℚ) (fuel : ℕ) : ∃ (s : Setup 1 4 1) (raw : ℕ → ℕ → ℚ),
    AmpleStudy sl fuel bothCards s 1 raw ∧
    ∀ JSEED log st st' ev, Reach s.cfg (s.start JSEED) log st → step s.cfg st = .ok (.next ev st') → ev.kind = 1 →
      ∀ y T : ℕ, ev.time = ((8760 * y + T : ℕ) : ℚ) → 1 ≤ T → T ≤ 2184 →
      ¬ ∃ (load : Fin 2 → ℕ → ℚ) (H : ℕ) (fwd bwd : Fin 1 → ℚ) (limit : Fin 2 → ℚ) (hist : List (Fin 5 × (Fin 2 → ℚ)))
          (isPeak : Bool) (LP : LEnds 1 1),
        (∀ j : Fin 2, Scaled (raw j) (bothCards.areas j).peak (load j)) ∧ Evaluated 1 load T H ∧
        Recorded hist isPeak st.world.h st'.world.h ∧
        ∀ e ∈ hist, ∃ F, BooksBalance LP fwd bwd limit
          (fun j => ∑ i ∈ unitsIn bothCards j, outcome (bothCards.units i) (variate (st'.world.h.IGSEED i)) *
            (bothCards.units i).cap (seasonNow T) * (if plannedOut (bothCards.units i) (weekNow T) then 0 else 1))
          (fun j => load j H * forecast (bothCards.areas j).lfu e.1) e.2 F := by
  obtain ⟨s, raw, hs, r0, r1⟩ := both_study sl fuel
  refine ⟨s, raw, hs, ?_⟩
  intro JSEED log st st' ev hr hst hk y T hT hT1 hT2
  obtain ⟨LP, hLP⟩ := ends_exist hs.one hs.accepted
  obtain ⟨w', hfree⟩ := ample_free hs JSEED hLP hr ev.time
  have ht : s.hour.NFCST = 1 := by
    rw [(setup_tiers hs.accepted).1]
    unfold tiersOf
    rw [if_neg]
    rintro ⟨j, hj⟩
    revert hj
    fin_cases j <;> simp [bothCards]
  have hstands : ∀ h, standsFor bothCards.misc.JSTEP T h → h = T - 1 := by
    intro h hh
    unfold standsFor at hh
    rw [if_neg (by simp [bothCards, demoCards])] at hh
    exact hh
  have hJ : bothCards.misc.JSTEP = 1 := rfl
  have hz : ∀ i, (bothCards.units i).dfor = 0 ∧ (bothCards.units i).fout = 0 := by
    intro i; fin_cases i <;> simp [bothCards]
  have hstr := (C73_streams hs.accepted (.inl rfl) JSEED (Reach.step hr hst)).1
  have ho : ∀ i, outcome (bothCards.units i) (variate (st'.world.h.IGSEED i)) = 1 := by
    intro i
    rw [hstr i]
    unfold outcome
    rw [(hz i).1, (hz i).2, if_pos]
    have := number_lt_one i (draws (log ++ [ev]))
    have e : variate (stream 123456 i (draws (log ++ [ev]))) = number (stream 123456 i (draws (log ++ [ev]))) := by
      unfold variate number; norm_num
    rw [e]; linarith
  have hno : ∀ i k, ¬ plannedOut (bothCards.units i) k := by
    intro i k
    fin_cases i <;> simp [bothCards, plannedOut, covers]
  have hoff : ∀ i, ¬ offInHour (bothCards.units i) (8760 * y + T) := fun i ⟨k, _, hk⟩ => hno i k hk
  have h3 : (T : ℚ) < 4369 / 2 := by
    have : (T : ℚ) ≤ 2184 := by exact_mod_cast hT2
    linarith
  have hso : seasonOf (T : ℚ) = 0 := by unfold seasonOf; rw [if_pos h3]
  have hf : ∀ j t, forecast (bothCards.areas j).lfu t = 1 := by
    intro j t; fin_cases j <;> simp [bothCards, forecast]
  have hN : bothCards.misc.NLS ≠ 0 := by simp [bothCards, demoCards]
  -- what the program adds
  have area : ∀ j : Fin 2, (st'.world.h.H.LOLTA j 0 + st'.world.h.H.LOLGA j 0) - (st.world.h.H.LOLTA j 0 + st.world.h.H.LOLGA j 0) = 1 := by
    intro j
    obtain ⟨season, load, H, hq, hl, hE, _, main⟩ := C112_draw_partial hs.one hs.sensible hs.lone hs.network
      (fun _ i => (hs.derating i).2) hs.accepted (.inl rfl)
      rfl hs.number hs.lfu hs.load hs.peak (fun j h hh => (hs.pos j h hh).le) hs.some_load JSEED hr hst hk y T hT hT1 (by omega)
      (fun j h hh => hs.pos j h (by rw [hstands h hh]; omega)) hLP hfree 0 (by rw [ht]; decide) j
    have hH : H = T - 1 := hstands H hE.1
    obtain ⟨l0, l1⟩ := both_loads r0 r1 hl (x := T - 1) (by omega)
    rw [if_pos (by omega)] at l1
    have hseas : season = 1 := by
      have : ((season : ℕ) : ℤ) = 1 := by rw [hq, hso]; norm_num
      exact Fin.ext (by exact_mod_cast this)
    have hcap : (fun j => ∑ i ∈ unitsIn bothCards j, outcome (bothCards.units i) (variate (st'.world.h.IGSEED i)) *
        (bothCards.units i).cap season * (if offInHour (bothCards.units i) (8760 * y + T) then 0 else 1)) = ![100, 190] := by
      funext a
      rw [Finset.sum_congr rfl (fun i _ => by rw [ho, if_neg (hoff i), hseas, one_mul, mul_one])]
      fin_cases a
      · show ∑ i ∈ unitsIn bothCards 0, _ = _
        rw [both_units.1, Finset.sum_pair (by decide)]
        simp [bothCards]; norm_num
      · show ∑ i ∈ unitsIn bothCards 1, _ = _
        rw [both_units.2, Finset.sum_pair (by decide)]
        simp [bothCards]; norm_num
    have hld : (fun j => load j H * forecast (bothCards.areas j).lfu 0) = ![200, 200] := by
      funext a
      rw [hf, hH, mul_one]
      fin_cases a
      · exact l0
      · exact l1
    rw [hcap, hld] at main
    rw [main, if_pos]
    unfold borne
    rw [if_pos hN]
    unfold ownShort allShort
    fin_cases j <;> simp [Fin.sum_univ_two] <;> norm_num
  obtain ⟨_, _, _, _, _, _, main⟩ := C71_energy_partial hs.one hs.sensible hs.lone hs.network hs.accepted (.inl rfl)
    rfl hs.number hs.lfu hs.load hs.peak (fun j h hh => (hs.pos j h hh).le) hs.some_load JSEED hr hst hk y T hT hT1 (by omega)
    (fun j h hh => hs.pos j h (by rw [hstands h hh]; omega)) hLP hfree 0 (by rw [ht]; decide)
  rintro ⟨load, H, fwd, bwd, limit, hist, isPeak, LP', hl, hE, hrec, hbal⟩
  have a0 : hoursShort hist 0 0 = 1 := by
    have e1 := hrec.areaHours 0 0
    have e2 := area 0
    have : ((hoursShort hist 0 0 : ℕ) : ℚ) = 1 := by linarith
    exact_mod_cast this
  have a1 : hoursShort hist 1 0 = 1 := by
    have e1 := hrec.areaHours 1 0
    have e2 := area 1
    have : ((hoursShort hist 1 0 : ℕ) : ℚ) = 1 := by linarith
    exact_mod_cast this
  have hc1 : tierCount hist 0 = 1 := by
    have h1 : hoursShort hist 0 0 ≤ tierCount hist 0 :=
      List.countP_mono_left fun x _ hx => by
        have := of_decide_eq_true hx
        exact decide_eq_true this.1
    have h2 := hrec.poolHours 0
    obtain ⟨_, _, _, _, hh, _⟩ := main
    have h4 : ((tierCount hist 0 : ℕ) : ℚ) = 0 ∨ ((tierCount hist 0 : ℕ) : ℚ) = 1 := by
      rcases hh with e | e
      · left; linarith
      · right; linarith
    rcases h4 with e | e
    · have : tierCount hist 0 = 0 := by exact_mod_cast e
      omega
    · exact_mod_cast e
  obtain ⟨e, he, _, s0, s1⟩ := both_entry a0 a1 hc1
  obtain ⟨F, hB⟩ := hbal e he
  have hH : H = T - 1 := hstands H hE.1
  obtain ⟨l0, l1⟩ := both_loads r0 r1 hl (x := T - 1) (by omega)
  rw [if_pos (by omega)] at l1
  have hseas : seasonNow T = 0 := by
    apply Fin.ext
    show (seasonOf (T : ℚ)).toNat = 0
    rw [hso]; rfl
  have hcap : ∀ j, (∑ i ∈ unitsIn bothCards j, outcome (bothCards.units i) (variate (st'.world.h.IGSEED i)) *
      (bothCards.units i).cap (seasonNow T) * (if plannedOut (bothCards.units i) (weekNow T) then 0 else 1)) = ![100, 300] j := by
    intro a
    rw [Finset.sum_congr rfl (fun i _ => by rw [ho, if_neg (hno i _), hseas, one_mul, mul_one])]
    fin_cases a
    · show ∑ i ∈ unitsIn bothCards 0, _ = _
      rw [both_units.1, Finset.sum_pair (by decide)]
      simp [bothCards]; norm_num
    · show ∑ i ∈ unitsIn bothCards 1, _ = _
      rw [both_units.2, Finset.sum_pair (by decide)]
      simp [bothCards]; norm_num
  have b0 := hB.book 0
  have b1 := hB.book 1
  have hz := sum_netOut LP' F
  rw [Fin.sum_univ_two] at hz
  simp only [hcap, hf, hH, l0, l1] at b0 b1
  simp at b0 b1
  linarith

end Narp.Props
