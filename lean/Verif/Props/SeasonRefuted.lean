import Verif.Props.FinalReport
import Verif.Props.MeanCapacity

/-!
# What the wrong season costs: C69, C71, C106, C112, C114
-/

namespace Narp.Spec
open BigOperators

/-- The calendar week (1 = first week of the year) of hour `T` (1 = first hour) of a year. -/
def weekNow (T : ℕ) : ℕ := (T - 1) / 168 + 1

end Narp.Spec

namespace Narp.Props
open Narp Narp.Spec BigOperators

/-- The season (of four) in which hour `T` of a year lies. -/
def seasonNow (T : ℕ) : Fin 4 := ⟨(seasonOf T).toNat, by unfold seasonOf; split_ifs <;> decide⟩

variable {n m l : ℕ} {sl : ℕ → ℚ → ℚ} {fuel : ℕ} {c : Cards n m l} {s : Setup n m l}

/-- What area `j` bears at draw `d` of year `y`, in the season and the week of the calendar. -/
def calendarShare (c : Cards n m l) (step : ℕ) (load : Fin (n + 1) → ℕ → ℚ) (H : ℕ → ℕ) (t : Fin 5) (j : Fin (n + 1)) (y d : ℕ) : ℚ :=
  areaLack c (fun j d => load j (H d)) (fun d => seasonNow (step * d))
    (fun i _ d => plannedOut (c.units i) (weekNow (step * d))) (8760 / step) t j y d

/-- What the pool lacks at draw `d` of year `y`, in the season and the week of the calendar. -/
def calendarLack (c : Cards n m l) (step : ℕ) (load : Fin (n + 1) → ℕ → ℚ) (H : ℕ → ℕ) (t : Fin 5) (y d : ℕ) : ℚ :=
  poolLack c (fun j d => load j (H d)) (fun d => seasonNow (step * d))
    (fun i _ d => plannedOut (c.units i) (weekNow (step * d))) (8760 / step) t y d

/-- C69 (what fails). In every draw of every run: if the ratings of the units of an area for the season after the current
one are not higher than those for the current one, and lower for a unit that is not out at this draw, then the capacity
available to the area is less than the cards say for the current season (units without planned outages). -/
theorem C69_capacity_refuted (h1 : OneCard c) (hs : Sensible c) (hl : NoLone c) (h : setup sl fuel c = .ok s)
    (hJ : StepOK s.hour.JSTEP) (JSEED : ℤ) {log : List Ev} {st st' : St _} {ev : Ev}
    (hr : Reach s.cfg (s.start JSEED) log st) (hst : step s.cfg st = .ok (.next ev st')) (hk : ev.kind = 1)
    (y T : ℕ) (hT : ev.time = ((8760 * y + T : ℕ) : ℚ)) (hT1 : 1 ≤ T) (hT2 : T ≤ 8760) {j : Fin (n + 1)}
    (hd : ∀ i, 0 ≤ (c.units i).der ∧ (c.units i).der ≤ 100)
    (hplan : ∀ i ∈ unitsIn c j, ∀ k, ¬ plannedOut (c.units i) k)
    (hle : ∀ i ∈ unitsIn c j, (c.units i).cap (seasonNow T + 1) ≤ (c.units i).cap (seasonNow T))
    {i0 : Fin m} (hi0 : i0 ∈ unitsIn c j) (hlt : (c.units i0).cap (seasonNow T + 1) < (c.units i0).cap (seasonNow T))
    (hin : 0 < nextShare s st i0) :
    nextCapacity s st j < ∑ i ∈ unitsIn c j, nextShare s st i * (c.units i).cap (seasonNow T) := by
  obtain ⟨season, hq, hc⟩ := C69_capacity_partial h1 hs hl h hJ JSEED hr hst hk y T hT hT1 hT2 0 j
  have hseason : season = seasonNow T + 1 := by
    have : ((season : ℕ) : ℤ) = ((seasonNow T + 1 : Fin 4) : ℕ) := by
      have hb : 0 ≤ seasonOf T ∧ seasonOf T < 4 := by unfold seasonOf; split_ifs <;> decide
      rw [hq, Fin.val_add]
      have e1 : ((1 : Fin 4) : ℕ) = 1 := rfl
      have e2 : ((seasonNow T : Fin 4) : ℕ) = (seasonOf T).toNat := rfl
      rw [e1, e2]
      omega
    exact Fin.ext (by exact_mod_cast this)
  unfold nextCapacity
  rw [hc]
  have hoff : ∀ i ∈ unitsIn c j, ¬ offInHour (c.units i) (8760 * y + T) := fun i hi ⟨k, _, hk⟩ => hplan i hi k hk
  have hn : ∀ i, 0 ≤ nextShare s st i := fun i => by
    rw [← outcome_share h st 0 i]; exact (outcome_bounds (hd i) _).1
  refine Finset.sum_lt_sum (fun i hi => ?_) ⟨i0, hi0, ?_⟩
  · rw [if_neg (hoff i hi), mul_one, outcome_share h st 0 i, hseason]
    exact mul_le_mul_of_nonneg_left (hle i hi) (hn i)
  · rw [if_neg (hoff i0 hi0), mul_one, outcome_share h st 0 i0, hseason]
    exact mul_lt_mul_of_pos_left hlt hin

/-- The random numbers of the program are below 1. -/
theorem number_lt_one (i k : ℕ) : number (stream 123456 i k) < 1 := by
  obtain ⟨y, hy, hlt, _⟩ := stream_class i k
  rw [hy]
  unfold number
  have : (y : ℚ) ≤ 33554431 := by exact_mod_cast Nat.le_of_lt_succ hlt
  push_cast
  linarith

/-! ## A study that is never short, and what the program reports -/

/-- Area `A` has the same load all year, area `B` twice as much in the first quarter as later. -/
def seasonBlocks : List Block :=
  [⟨'1', [], List.replicate 730 (List.replicate 12 5)⟩,
   ⟨'2', [], List.replicate 182 (List.replicate 12 10) ++ List.replicate 548 (List.replicate 12 5)⟩]

theorem season_get {h : ℕ} (hh : h < 8760) :
    ((List.replicate 182 (List.replicate 12 (10 : ℚ)) ++ List.replicate 548 (List.replicate 12 5)).getD (h / 12) []).getD (h % 12) 0 =
      if h < 2184 then 10 else 5 := by
  rw [List.getD_eq_getElem?_getD (l := List.replicate 182 (List.replicate 12 (10 : ℚ)) ++ _), List.getElem?_append,
    List.length_replicate]
  by_cases e : h < 2184
  · rw [if_pos (by omega), if_pos e, List.getElem?_replicate, if_pos (by omega), Option.getD_some,
      List.getD_eq_getElem?_getD, List.getElem?_replicate, if_pos (by omega), Option.getD_some]
  · rw [if_neg (by omega), if_neg e, List.getElem?_replicate, if_pos (by omega), Option.getD_some,
      List.getD_eq_getElem?_getD, List.getElem?_replicate, if_pos (by omega), Option.getD_some]

theorem season_read : ∃ raw, leeiRead 2 (seasonBlocks.flatMap Block.lines) = .ok raw ∧
    (∀ h < 8760, raw 0 h = 5) ∧ ∀ h < 8760, raw 1 h = if h < 2184 then 10 else 5 := by
  obtain ⟨H, h1, h2⟩ := C20_read_partial 2 seasonBlocks (fun b => if b.c = '1' then 1 else 2)
    (by
      intro b hb
      simp only [seasonBlocks, List.mem_cons, List.not_mem_nil, or_false] at hb
      rcases hb with rfl | rfl <;> decide)
    (by decide)
    (by
      intro b hb
      simp only [seasonBlocks, List.mem_cons, List.not_mem_nil, or_false] at hb
      rcases hb with rfl | rfl
      · exact ⟨List.length_replicate, fun r hr => by rw [List.eq_of_mem_replicate hr]; rfl⟩
      · refine ⟨by rw [List.length_append, List.length_replicate, List.length_replicate], fun r hr => ?_⟩
        rcases List.mem_append.1 hr with hr | hr <;> rw [List.eq_of_mem_replicate hr] <;> rfl)
  refine ⟨H, h1, fun h hh => ?_, fun h hh => ?_⟩
  · have := h2 _ List.mem_cons_self h hh
    rw [if_pos rfl] at this
    exact this.trans (flat_get 5 hh)
  · have := h2 _ (List.mem_cons_of_mem _ List.mem_cons_self) h hh
    rw [if_neg (by decide)] at this
    exact this.trans (season_get hh)

/-- Two areas with an ample line. `A` needs 200 MW and has 20 MW; `B` needs 200 MW in the first quarter, 100 MW later, and
has 380 MW in the first quarter, 280 MW later. No unit ever fails and none is ever on planned outage: in the first
quarter there are 400 MW for a load of 400 MW, and later 300 MW for 300 MW. -/
def seasonCards : Cards 1 4 1 :=
  { demoCards 1 (-100) 1000 with
    areas := ![⟨1, ['A'], 200, 0, fun _ => 0, 1000⟩, ⟨2, ['B'], 200, 0, fun _ => 0, 1000⟩]
    units := ![⟨1, ['P'], ['A'], fun _ => 10, 0, 0, 0, ⟨1, 0, 0, 0, 0⟩⟩, ⟨2, ['Q'], ['A'], fun _ => 10, 0, 0, 0, ⟨1, 0, 0, 0, 0⟩⟩,
      ⟨3, ['R'], ['B'], ![190, 140, 140, 140], 0, 0, 0, ⟨1, 0, 0, 0, 0⟩⟩,
      ⟨4, ['S'], ['B'], ![190, 140, 140, 140], 0, 0, 0, ⟨1, 0, 0, 0, 0⟩⟩]
    leei := seasonBlocks.flatMap Block.lines }

theorem season_one : OneCard seasonCards := by
  constructor
  · intro a b; fin_cases a <;> fin_cases b <;> simp [seasonCards]
  · intro a b; fin_cases a <;> fin_cases b <;> simp [seasonCards]

theorem season_sensible : Sensible seasonCards := by
  constructor
  · intro i k; fin_cases i <;> fin_cases k <;> simp [seasonCards]
  · intro i; fin_cases i <;> simp [seasonCards]
  · intro i k; fin_cases i <;> simp [seasonCards, covers]

theorem season_lone : NoLone seasonCards := by
  intro i
  fin_cases i
  exacts [⟨1, by decide, rfl⟩, ⟨0, by decide, rfl⟩, ⟨3, by decide, rfl⟩, ⟨2, by decide, rfl⟩]

theorem season_units : unitsIn seasonCards 0 = {0, 1} ∧ unitsIn seasonCards 1 = {2, 3} := by
  constructor <;> decide +kernel

theorem season_study (sl : ℕ → ℚ → ℚ) (fuel : ℕ) : ∃ (s : Setup 1 4 1) (raw : ℕ → ℕ → ℚ),
    AmpleStudy sl fuel seasonCards s 1 raw ∧
    (∀ h < 8760, raw 0 h = 5) ∧ ∀ h < 8760, raw 1 h = if h < 2184 then 10 else 5 := by
  obtain ⟨raw, h, r0, r1⟩ := season_read
  have hk : AllKnown seasonCards := by
    constructor
    · intro i; fin_cases i <;> simp [seasonCards, demoCards]
    · intro i; exact ⟨0, by fin_cases i; rfl⟩
    · intro i; exact ⟨1, by fin_cases i; rfl⟩
    · intro x hx; cases hx
    · intro x hx; cases hx
    · intro x hx; cases hx
  have hread : leeiRead (1 + 1) seasonCards.leei = .ok raw := h
  obtain ⟨s, hs'⟩ := C64_accepted (c := seasonCards) sl fuel season_one (by norm_num) hk season_sensible season_lone.once
    ⟨raw, h⟩ rfl rfl
  have hraw : ∀ j : Fin 2, ∀ h < 8760, 5 ≤ raw j h := by
    intro j h hh
    fin_cases j
    · show 5 ≤ raw 0 h; rw [r0 h hh]
    · show 5 ≤ raw 1 h; rw [r1 h hh]; split_ifs <;> norm_num
  have hpp : poolPeak seasonCards = 400 := by
    unfold poolPeak
    rw [Fin.sum_univ_two]
    simp [seasonCards, forecast]
    norm_num
  refine ⟨s, raw, ⟨season_one, season_sensible, season_lone, ?_, hs', rfl, .inl rfl, rfl,
    by intro k; fin_cases k; simp [seasonCards, demoCards],
    by intro j; fin_cases j <;> simp [seasonCards], hread, by intro j; fin_cases j <;> simp [seasonCards],
    fun j x hx => by have := hraw j x hx; linarith,
    fun j => ⟨0, by norm_num, by have := hraw j 0 (by norm_num); linarith⟩,
    by intro i; fin_cases i <;> simp [seasonCards], ⟨?_, ?_⟩, ?_⟩, r0, r1⟩
  · constructor
    · intro k; fin_cases k; simp [seasonCards, demoCards]
    · intro a
      fin_cases a
      · exact .refl
      · exact .single ⟨0, .inl ⟨rfl, rfl⟩⟩
    · intro k t; fin_cases k; simp [seasonCards, demoCards]
    · intro k t; fin_cases k; simp [seasonCards, demoCards]
  · rw [hpp]; intro k t; fin_cases k; simp [seasonCards, demoCards]; norm_num
  · rw [hpp]; intro j; fin_cases j <;> simp [seasonCards] <;> norm_num
  · intro load hload t x hx season
    refine ⟨0, ?_⟩
    have e : load 0 x = 200 := by
      obtain ⟨y, hy, _, _, e⟩ := hload 0
      rw [e]
      show 200 * raw 0 x / raw 0 y = 200
      rw [r0 x hx, r0 y hy]; norm_num
    rw [e, season_units.1, Finset.sum_pair (by decide)]
    simp [seasonCards, forecast]
    norm_num

/-- The loads of this study. -/
theorem season_loads {raw : ℕ → ℕ → ℚ} (r0 : ∀ h < 8760, raw 0 h = 5)
    (r1 : ∀ h < 8760, raw 1 h = if h < 2184 then 10 else 5) {load : Fin 2 → ℕ → ℚ}
    (hload : ∀ j : Fin 2, Scaled (raw j) (seasonCards.areas j).peak (load j)) {x : ℕ} (hx : x < 8760) :
    load 0 x = 200 ∧ load 1 x = if x < 2184 then 200 else 100 := by
  constructor
  · obtain ⟨y, hy, _, _, e⟩ := hload 0
    rw [e]
    show 200 * raw 0 x / raw 0 y = 200
    rw [r0 x hx, r0 y hy]; norm_num
  · obtain ⟨y, hy, _, hm, e⟩ := hload 1
    have hy2 : raw 1 y = 10 := by
      have h0 := hm 0 (by norm_num)
      have e0 := r1 0 (by norm_num)
      rw [if_pos (by norm_num)] at e0
      have ey := r1 y hy
      change raw 1 0 ≤ raw 1 y at h0
      rw [e0] at h0
      split_ifs at ey
      · exact ey
      · rw [ey] at h0; norm_num at h0
    rw [e]
    show 200 * raw 1 x / raw 1 y = _
    rw [hy2, r1 x hx]
    split_ifs <;> norm_num

/-- What each area has and bears when the ratings of season `q x` are used at draw `x`. -/
theorem season_share {raw : ℕ → ℕ → ℚ} (r0 : ∀ h < 8760, raw 0 h = 5)
    (r1 : ∀ h < 8760, raw 1 h = if h < 2184 then 10 else 5) {load : Fin 2 → ℕ → ℚ}
    (hload : ∀ j : Fin 2, Scaled (raw j) (seasonCards.areas j).peak (load j)) {H : ℕ → ℕ}
    (hH : ∀ d, 1 ≤ d → d ≤ 8760 → Evaluated 1 load d (H d)) (q : ℕ → Fin 4) (off : Fin 4 → ℕ → ℕ → Prop)
    [∀ i y d, Decidable (off i y d)] (hoff : ∀ i y d, ¬ off i y d) (y : ℕ) {d : ℕ} (h1 : 1 ≤ d) (h2 : d ≤ 8760) (t : Fin 5) :
    let B : ℚ := if q d = 0 then 380 else 280
    let need : ℚ := if d ≤ 2184 then 200 else 100
    (areaLack seasonCards (fun j d => load j (H d)) q off 8760 t 0 y d =
      180 * (max 0 (200 + need - (20 + B)) / (180 + max 0 (need - B)))) ∧
    poolLack seasonCards (fun j d => load j (H d)) q off 8760 t y d = max 0 (200 + need - (20 + B)) ∧
    areaLack seasonCards (fun j d => load j (H d)) q off 8760 t 1 y d =
      max 0 (need - B) * (max 0 (200 + need - (20 + B)) / (180 + max 0 (need - B))) := by
  intro B need
  have hHd : H d = d - 1 := by
    have := (hH d h1 h2).1
    unfold standsFor at this
    rw [if_neg (by norm_num)] at this
    exact this
  obtain ⟨l0, l1⟩ := season_loads r0 r1 hload (x := d - 1) (by omega)
  have l1' : load 1 (d - 1) = need := by
    rw [l1]
    show _ = if d ≤ 2184 then (200 : ℚ) else 100
    by_cases e : d ≤ 2184
    · rw [if_pos e, if_pos (by omega)]
    · rw [if_neg e, if_neg (by omega)]
  have ho : ∀ i, outcome (seasonCards.units i) (number (stream 123456 i (8760 * y + d))) = 1 := by
    intro i
    have hz : (seasonCards.units i).dfor = 0 ∧ (seasonCards.units i).fout = 0 := by
      fin_cases i <;> simp [seasonCards]
    unfold outcome
    rw [hz.1, hz.2, if_pos (by have := number_lt_one i (8760 * y + d); linarith)]
  have hcap : ∀ i, (seasonCards.units i).cap (q d) = ![10, 10, B / 2, B / 2] i := by
    intro i
    show _ = ![10, 10, (if q d = 0 then (380 : ℚ) else 280) / 2, (if q d = 0 then (380 : ℚ) else 280) / 2] i
    generalize q d = k
    fin_cases i <;> fin_cases k <;> simp [seasonCards] <;> norm_num
  have hterm : ∀ i, outcome (seasonCards.units i) (number (stream 123456 i (8760 * y + d))) * (seasonCards.units i).cap (q d) *
      (if off i y d then 0 else 1) = ![10, 10, B / 2, B / 2] i := by
    intro i
    rw [ho, if_neg (hoff i y d), hcap]; ring
  have a0 : areaCap seasonCards q off 8760 y d 0 = 20 := by
    unfold areaCap
    rw [season_units.1, Finset.sum_pair (by decide), hterm, hterm]
    simp; norm_num
  have a1 : areaCap seasonCards q off 8760 y d 1 = B := by
    unfold areaCap
    rw [season_units.2, Finset.sum_pair (by decide), hterm, hterm]
    simp
  have hf : ∀ j, forecast (seasonCards.areas j).lfu t = 1 := by
    intro j; fin_cases j <;> simp [seasonCards, forecast]
  have hall : allShort (areaCap seasonCards q off 8760 y d) (fun j => load j (H d) * forecast (seasonCards.areas j).lfu t) =
      max 0 (200 + need - (20 + B)) := by
    unfold allShort
    rw [Fin.sum_univ_two, Fin.sum_univ_two, hf, hf, hHd, l0, l1', a0, a1, mul_one, mul_one]
  have own0 : ownShort (areaCap seasonCards q off 8760 y d) (fun j => load j (H d) * forecast (seasonCards.areas j).lfu t) 0 = 180 := by
    show max 0 (load 0 (H d) * forecast (seasonCards.areas 0).lfu t - areaCap seasonCards q off 8760 y d 0) = 180
    rw [hf, hHd, l0, a0]; norm_num
  have own1 : ownShort (areaCap seasonCards q off 8760 y d) (fun j => load j (H d) * forecast (seasonCards.areas j).lfu t) 1 =
      max 0 (need - B) := by
    show max 0 (load 1 (H d) * forecast (seasonCards.areas 1).lfu t - areaCap seasonCards q off 8760 y d 1) = _
    rw [hf, hHd, l1', a1, mul_one]
  have hN : seasonCards.misc.NLS ≠ 0 := by simp [seasonCards, demoCards]
  refine ⟨?_, ?_, ?_⟩
  · unfold areaLack borne
    rw [if_pos hN, hall, Fin.sum_univ_two, own0, own1]
  · unfold poolLack
    rw [Fin.sum_univ_two, hf, hf, Finset.sum_congr rfl (fun i _ => hterm i), Fin.sum_univ_four]
    simp only [hHd, l0, l1', mul_one]
    congr 1
    simp
    ring
  · unfold areaLack borne
    rw [if_pos hN, hall, Fin.sum_univ_two, own0, own1]

/-- According to the cards this system never lacks anything, in any hour of any year. -/
theorem season_adequate {raw : ℕ → ℕ → ℚ} (r0 : ∀ h < 8760, raw 0 h = 5)
    (r1 : ∀ h < 8760, raw 1 h = if h < 2184 then 10 else 5) {load : Fin 2 → ℕ → ℚ}
    (hload : ∀ j : Fin 2, Scaled (raw j) (seasonCards.areas j).peak (load j)) {H : ℕ → ℕ}
    (hH : ∀ d, 1 ≤ d → d ≤ 8760 → Evaluated 1 load d (H d)) (t : Fin 5) (j : Fin 2) (y : ℕ) {d : ℕ} (h1 : 1 ≤ d) (h2 : d ≤ 8760) :
    calendarLack seasonCards 1 load H t y d = 0 ∧ calendarShare seasonCards 1 load H t j y d = 0 := by
  have hoff : ∀ (i : Fin 4) (_ d : ℕ), ¬ plannedOut (seasonCards.units i) (weekNow (1 * d)) := by
    intro i _ d
    fin_cases i <;> simp [seasonCards, plannedOut, covers]
  obtain ⟨b0, b1, b2⟩ := season_share r0 r1 hload hH (fun d => seasonNow (1 * d))
    (fun i _ d => plannedOut (seasonCards.units i) (weekNow (1 * d))) hoff y h1 h2 t
  have hz : max 0 (200 + (if d ≤ 2184 then (200 : ℚ) else 100) - (20 + if seasonNow (1 * d) = 0 then (380 : ℚ) else 280)) = 0 := by
    rw [one_mul]
    have : seasonNow d = 0 ↔ d ≤ 2184 := by
      have hv : seasonNow d = 0 ↔ seasonOf d = 0 := by
        rw [Fin.ext_iff]
        show (seasonOf d).toNat = 0 ↔ _
        have : 0 ≤ seasonOf (d : ℚ) := by unfold seasonOf; split_ifs <;> decide
        omega
      rw [hv]
      unfold seasonOf
      by_cases e : d ≤ 2184
      · have : (d : ℚ) < 4369 / 2 := by
          have : (d : ℚ) ≤ 2184 := by exact_mod_cast e
          linarith
        simp [this, e]
      · have : ¬ (d : ℚ) < 4369 / 2 := by
          have : (2185 : ℚ) ≤ d := by exact_mod_cast Nat.lt_of_not_le e
          linarith
        rw [if_neg this]
        refine ⟨fun h => ?_, fun h => absurd h e⟩
        split_ifs at h <;> simp at h
    by_cases e : d ≤ 2184
    · rw [if_pos e, if_pos (this.2 e)]; norm_num
    · rw [if_neg e, if_neg (fun h => e (this.1 h))]; norm_num
  rw [hz, zero_div, mul_zero] at b0
  rw [hz] at b1
  rw [hz, zero_div, mul_zero] at b2
  refine ⟨b1, ?_⟩
  fin_cases j
  · exact b0
  · exact b2

/-- The program has area `A` bear 100 MW in every hour of the first quarter of every year. -/
theorem season_found {raw : ℕ → ℕ → ℚ} (r0 : ∀ h < 8760, raw 0 h = 5)
    (r1 : ∀ h < 8760, raw 1 h = if h < 2184 then 10 else 5) {load : Fin 2 → ℕ → ℚ}
    (hload : ∀ j : Fin 2, Scaled (raw j) (seasonCards.areas j).peak (load j)) {H : ℕ → ℕ}
    (hH : ∀ d, 1 ≤ d → d ≤ 8760 → Evaluated 1 load d (H d)) (t : Fin 5) (y : ℕ) {d : ℕ} (h1 : 1 ≤ d) (h2 : d ≤ 8760) :
    yearLack seasonCards 1 load H t y d = (if d ≤ 2184 then 100 else 0) ∧
    yearShare seasonCards 1 load H t 0 y d = if d ≤ 2184 then 100 else 0 := by
  have hoff : ∀ (i : Fin 4) (y d : ℕ), ¬ offInHour (seasonCards.units i) (8760 * y + 1 * d) := by
    rintro i y d ⟨k, _, h⟩
    revert h
    fin_cases i <;> simp [seasonCards, plannedOut, covers]
  obtain ⟨b0, b1, _⟩ := season_share r0 r1 hload hH (fun d => ratingSeason (1 * d))
    (fun i y d => offInHour (seasonCards.units i) (8760 * y + 1 * d)) hoff y h1 h2 t
  have hz : max 0 (200 + (if d ≤ 2184 then (200 : ℚ) else 100) - (20 + if ratingSeason (1 * d) = 0 then (380 : ℚ) else 280)) =
      if d ≤ 2184 then 100 else 0 := by
    rw [one_mul]
    by_cases e : d ≤ 2184
    · have h3 : (d : ℚ) < 4369 / 2 := by
        have : (d : ℚ) ≤ 2184 := by exact_mod_cast e
        linarith
      have : ¬ ratingSeason d = 0 := by
        unfold ratingSeason seasonOf
        simp [h3]
      rw [if_pos e, if_neg this, if_pos e]; norm_num
    · rw [if_neg e, if_neg e]
      split_ifs <;> norm_num
  rw [hz] at b1 b0
  refine ⟨b1, ?_⟩
  refine b0.trans ?_
  by_cases e : d ≤ 2184
  · rw [if_pos e, if_pos e]
    have : max 0 ((200 : ℚ) - if ratingSeason (1 * d) = 0 then (380 : ℚ) else 280) = 0 := by
      split_ifs <;> norm_num
    rw [this]; norm_num
  · rw [if_neg e, if_neg e]; norm_num

theorem first_quarter {α : Type} [AddCommMonoid α] (f : ℕ → α) (a : α) (h : ∀ d, 1 ≤ d → d ≤ 8760 → f d = if d ≤ 2184 then a else 0) :
    ∑ d ∈ Finset.range 8760, f (d + 1) = 2184 • a := by
  rw [Finset.sum_congr rfl fun d hd => h (d + 1) (by omega) (by have := Finset.mem_range.1 hd; omega), ← Finset.sum_filter]
  have : Finset.filter (fun d => d + 1 ≤ 2184) (Finset.range 8760) = Finset.range 2184 := by
    ext d; simp only [Finset.mem_filter, Finset.mem_range]; omega
  rw [this, Finset.sum_const, Finset.card_range]

theorem season_books {raw : ℕ → ℕ → ℚ} (r0 : ∀ h < 8760, raw 0 h = 5)
    (r1 : ∀ h < 8760, raw 1 h = if h < 2184 then 10 else 5) {load : Fin 2 → ℕ → ℚ}
    (hload : ∀ j : Fin 2, Scaled (raw j) (seasonCards.areas j).peak (load j)) {H : ℕ → ℕ}
    (hH : ∀ d, 1 ≤ d → d ≤ 8760 → Evaluated 1 load d (H d)) (t : Fin 5) (y : ℕ) :
    lossHours (yearShare seasonCards 1 load H t 0 y) (8760 / 1) = 2184 ∧
    wholeMWh (yearShare seasonCards 1 load H t 0 y) (8760 / 1) = 218400 := by
  rw [Nat.div_one]
  constructor
  · unfold lossHours
    rw [first_quarter (fun d => if 1 ≤ yearShare seasonCards 1 load H t 0 y d then (1 : ℚ) else 0) 1 fun d h1 h2 => ?_]
    · norm_num
    · rw [(season_found r0 r1 hload hH t y h1 h2).2]
      by_cases e : d ≤ 2184
      · rw [if_pos e, if_pos e, if_pos (by norm_num)]
      · rw [if_neg e, if_neg e, if_neg (by norm_num)]
  · unfold wholeMWh
    rw [first_quarter (fun d => (⌊yearShare seasonCards 1 load H t 0 y d⌋₊ : ℚ)) 100 fun d h1 h2 => ?_]
    · norm_num
    · rw [(season_found r0 r1 hload hH t y h1 h2).2]
      by_cases e : d ≤ 2184
      · rw [if_pos e]; norm_num
      · rw [if_neg e]; norm_num

/-- What the calendar and the cards say about `seasonCards`: nobody ever lacks anything. -/
def NeverShort (raw : ℕ → ℕ → ℚ) : Prop :=
  ∀ (load : Fin 2 → ℕ → ℚ) (H : ℕ → ℕ), (∀ j : Fin 2, Scaled (raw j) (seasonCards.areas j).peak (load j)) →
    (∀ d, 1 ≤ d → d ≤ 8760 → Evaluated 1 load d (H d)) → ∀ (t : Fin 5) (j : Fin 2) (y d : ℕ), 1 ≤ d → d ≤ 8760 →
    calendarLack seasonCards 1 load H t y d = 0 ∧ calendarShare seasonCards 1 load H t j y d = 0

/-- C106, C112 (what fails). No limit ever binds in the study `seasonCards`, and according to the cards and the calendar
nobody ever lacks anything in it; but in every run every year end finds 2184 loss-of-load hours for area `A` and for
the pool, and 218400 MWh not served in area `A`. -/
theorem C106_season_refuted (sl : ℕ → ℚ → ℚ) (fuel : ℕ) : ∃ (s : Setup 1 4 1) (raw : ℕ → ℕ → ℚ),
    AmpleStudy sl fuel seasonCards s 1 raw ∧ NeverShort raw ∧
    ∀ JSEED log st evs, Ends s.hour s.year s.JPLOUT s.RATES snapNet (s.start JSEED) log st evs →
      ∀ (y : ℕ) e, evs[y]? = some e → e.H.LOLTP 0 + e.H.LOLGP 0 = 2184 ∧ 0 < e.H.MGNTP 0 + e.H.MGNGP 0 ∧
        e.H.LOLTA 0 0 + e.H.LOLGA 0 0 = 2184 ∧ e.H.MGNTA 0 0 + e.H.MGNGA 0 0 = 218400 := by
  obtain ⟨s, raw, hs, r0, r1⟩ := season_study sl fuel
  refine ⟨s, raw, hs, fun load H hl hH t j y d h1 h2 => season_adequate r0 r1 hl hH t j y h1 h2, ?_⟩
  intro JSEED log st evs hE y e he
  have ht : s.hour.NFCST = 1 := by
    rw [(setup_tiers hs.accepted).1]
    unfold tiersOf
    rw [if_neg]
    rintro ⟨j, hj⟩
    revert hj
    fin_cases j <;> simp [seasonCards]
  have hcalm := C110_calm hs JSEED
  obtain ⟨load, H, hl, hH, main⟩ := C106_year_partial hcalm
  have hb := main log st evs hE y e he 0 (by rw [ht]; decide)
  have hH' : ∀ d, 1 ≤ d → d ≤ 8760 → Evaluated 1 load d (H d) := fun d a b => by
    have := hH d a (by rw [Nat.div_one]; exact b)
    rw [one_mul] at this; exact this
  have hcard : ∀ q : ℚ, 0 < q → q ≤ 100 →
      (Finset.filter (fun d => q ≤ yearLack seasonCards 1 load H 0 y (d + 1)) (Finset.range (8760 / 1))).card = 2184 := by
    intro q hq1 hq2
    rw [Nat.div_one, Finset.card_filter,
      first_quarter (fun d => if q ≤ yearLack seasonCards 1 load H 0 y d then 1 else 0) 1 fun d h1 h2 => ?_]
    · rfl
    · rw [(season_found r0 r1 hl hH' 0 y h1 h2).1]
      by_cases e : d ≤ 2184
      · rw [if_pos e, if_pos e, if_pos hq2]
      · rw [if_neg e, if_neg e, if_neg (not_le.2 hq1)]
  have u1 := hb.atMost
  have u2 := hb.atLeast
  rw [hcard 1 (by norm_num) (by norm_num)] at u1
  rw [hcard ((1 + 1 : ℕ) : ℚ) (by norm_num) (by norm_num)] at u2
  have u3 := hb.least
  rw [Nat.div_one, first_quarter (fun d => max 0 (yearLack seasonCards 1 load H 0 y d - ((1 + 1 : ℕ) : ℚ))) 98 fun d h1 h2 => by
    rw [(season_found r0 r1 hl hH' 0 y h1 h2).1]
    split_ifs <;> norm_num] at u3
  obtain ⟨load', H', hl', hH2, main'⟩ := C112_year_partial hcalm (fun _ i => (hs.derating i).2)
  have hH2' : ∀ d, 1 ≤ d → d ≤ 8760 → Evaluated 1 load' d (H' d) := fun d a b => by
    have := hH2 d a (by rw [Nat.div_one]; exact b)
    rw [one_mul] at this; exact this
  obtain ⟨m1, m2⟩ := main' log st evs hE y e he 0 (by rw [ht]; decide) 0
  have hfirst : (if (0 : Fin 2).val < s.hour.NFCST ∧ (0 : Fin 5).val < 1 + 1 then y else 0) = y := by
    rw [if_pos (by rw [ht]; decide)]
  rw [hfirst, Nat.Ico_succ_singleton, Finset.sum_singleton] at m1 m2
  obtain ⟨q1, q2⟩ := season_books r0 r1 hl' hH2' 0 y
  refine ⟨le_antisymm (by exact_mod_cast u1) (by exact_mod_cast u2), lt_of_lt_of_le (by norm_num) u3, ?_, ?_⟩
  · rw [m2, q1]
  · rw [m1, q2]

/-- C114 (what fails). The run of this study, in which according to the cards and the calendar nobody ever lacks
anything, ends, and its report shows 2184 loss-of-load hours and 218400 MWh per year for area `A`. -/
theorem C114_season_refuted (sl : ℕ → ℚ → ℚ) (fuel : ℕ) (JSEED : ℤ) : ∃ (s : Setup 1 4 1) (raw : ℕ → ℕ → ℚ),
    AmpleStudy sl fuel seasonCards s 1 raw ∧ NeverShort raw ∧
    ∃ (log : List Ev) (st : St _) (e : Exit) (r : RepIn 2), Reach s.cfg (s.start JSEED) log st ∧
      step s.cfg st = .ok (.exit e) ∧ st.world.y.rep = some r ∧ ∀ ITAB, ∃ R, s.report ITAB r = .ok R ∧
      ∃ q, R.summary[0]? = some q ∧ q.name = some (areaLabel (seasonCards.areas 0).name) ∧
        ∃ a b, q.hourly = some (a, b) ∧ a.1 = 2184 ∧ b.1 = 218400 := by
  obtain ⟨s, raw, hs, r0, r1⟩ := season_study sl fuel
  refine ⟨s, raw, hs, fun load H hl hH t j y d h1 h2 => season_adequate r0 r1 hl hH t j y h1 h2, ?_⟩
  obtain ⟨load, H, hl, hH, log, st, e, Y, r, hr, hx, _, hY, hrep, hR⟩ := C114_ample_partial hs (.inl rfl)
    (by simp [seasonCards, demoCards]) (by simp [seasonCards, demoCards]; norm_num) (by simp [seasonCards, demoCards]) JSEED
  refine ⟨log, st, e, r, hr, hx, hrep, fun ITAB => ?_⟩
  obtain ⟨R, hR1, hF⟩ := hR ITAB
  obtain ⟨q, hq, hnm, _, hline⟩ := hF.areas 0
  refine ⟨R, hR1, q, hq, hnm, ?_⟩
  obtain ⟨a, b, hab, ha, _, hb, _⟩ := hline.some (by norm_num)
  have hH' : ∀ d, 1 ≤ d → d ≤ 8760 → Evaluated 1 load d (H d) := fun d a b => by
    have := hH d a (by rw [Nat.div_one]; exact b)
    rw [one_mul] at this; exact this
  have ht : tiersOf seasonCards = 1 := by
    unfold tiersOf
    rw [if_neg]
    rintro ⟨j, hj⟩
    revert hj
    fin_cases j <;> simp [seasonCards]
  have hw : ∀ v : Fin 5 → ℚ, weighted 1 v = v 0 := by
    intro v
    have : (List.finRange 5).take 1 = [0] := by decide
    unfold weighted
    rw [this]
    simp [weight]
  have hfig : ∀ (v : Fin 5 → ℕ → ℚ) (x : ℚ), (∀ y, v 0 y = x) →
      figures (tiersOf seasonCards) Y (Carried 2 (tiersOf seasonCards) 0) v = List.replicate Y x := by
    intro v x hv
    rw [figures_plain (by rw [ht]; decide) (by rw [ht]; decide), ht]
    simp only [hw, hv]
    rw [List.map_const', List.length_range]
  have hY0 : (Y : ℚ) ≠ 0 := by
    have : Y ≠ 0 := by omega
    exact_mod_cast this
  have hmean : ∀ x : ℚ, mean (List.replicate Y x) = x := by
    intro x
    unfold mean
    rw [List.sum_replicate, List.length_replicate, nsmul_eq_mul]
    field_simp
  have f1 := hfig (fun t y => lossHours (yearShare seasonCards 1 load H t 0 y) (8760 / 1)) 2184
    (fun y => (season_books r0 r1 hl hH' 0 y).1)
  have f2 := hfig (fun t y => wholeMWh (yearShare seasonCards 1 load H t 0 y) (8760 / 1)) 218400
    (fun y => (season_books r0 r1 hl hH' 0 y).2)
  refine ⟨a, b, hab, ?_, ?_⟩
  · exact ha.trans ((congrArg mean f1).trans (hmean _))
  · exact hb.trans ((congrArg mean f2).trans (hmean _))

/-- C69_capacity_refuted applies: at the first draw of every completed run of this study area `B` has less than the
380 MW that its cards say. -/
theorem C69_applies_refuted (sl : ℕ → ℚ → ℚ) (fuel : ℕ) (JSEED : ℤ) : ∃ (s : Setup 1 4 1) (log : List Ev) (st st' : St _) (ev : Ev),
    setup sl fuel seasonCards = .ok s ∧ Reach s.cfg (s.start JSEED) log st ∧ step s.cfg st = .ok (.next ev st') ∧
    ev.kind = 1 ∧ ev.time = 1 ∧ nextCapacity s st 1 < 380 := by
  obtain ⟨s, raw, hs, r0, r1⟩ := season_study sl fuel
  have hJs : s.hour.JSTEP = 1 := by rw [C64_step hs.accepted, hs.steps]; norm_num
  have hJ : StepOK s.hour.JSTEP := .inl hJs
  obtain ⟨log, st, e, hr, hx, _⟩ := C110_completes hs (.inl rfl) (by simp [seasonCards, demoCards]; norm_num)
    (by simp [seasonCards, demoCards]) JSEED
  have hd : 0 < draws log := by
    obtain ⟨years, cur, hh, _, hexit, _⟩ := C33_cards hs.accepted (.inl rfl) rfl (by simp [seasonCards, demoCards]) (some 0)
      ⟨rfl, rfl⟩ (.inl rfl) JSEED hr
    obtain ⟨rfl, hne, _⟩ := hexit e hx
    have hfull := history_full hJ hh
    obtain ⟨ds, rest, rfl⟩ := List.exists_cons_of_ne_nil hne
    have h1 := hfull.2 ds List.mem_cons_self
    have h2 := hfull.1.2
    rw [hJs, mul_one] at h1
    have h3 : ds.length = 8760 := by exact_mod_cast h1
    simp only [List.map_cons, List.sum_cons, List.length_nil] at h2
    unfold draws
    omega
  obtain ⟨log1, st1, ev, st2, hr1, hd1, hst, hk⟩ := reach_each_draw hr 0 hd
  have htime : ev.time = 1 := by
    have h1 := C07_draw_times hJ (Reach.step hr1 hst)
    have h0 : (log1.filter fun e => decide (e.kind = 1)) = [] := by
      rw [← List.length_eq_zero_iff, ← List.countP_eq_length_filter]; exact hd1
    rw [List.filter_append, h0] at h1
    have hc : (log1 ++ [ev]).countP (fun e => decide (e.kind = 1)) = 1 := by
      rw [List.countP_append, show log1.countP (fun e => decide (e.kind = 1)) = 0 from hd1]
      simp [hk]
    rw [hc] at h1
    simp only [List.nil_append, List.filter_cons, hk, decide_true, if_true, List.filter_nil, List.map_cons, List.map_nil] at h1
    have h2 : [ev.time] = [((0 : ℕ) + 1 : ℚ) * s.cfg.JSTEP] := h1
    have h3 : ev.time = ((0 : ℕ) + 1 : ℚ) * s.cfg.JSTEP := List.singleton_inj.1 h2
    rw [h3, show s.cfg.JSTEP = 1 from hJs]
    norm_num
  refine ⟨s, log1, st1, st2, ev, hs.accepted, hr1, hst, hk, htime, ?_⟩
  have hq : seasonNow 1 = 0 := by
    apply Fin.ext
    show (seasonOf ((1 : ℕ) : ℚ)).toNat = 0
    unfold seasonOf
    norm_num
  have hz : ∀ i, (seasonCards.units i).dfor = 0 ∧ (seasonCards.units i).fout = 0 := by
    intro i; fin_cases i <;> simp [seasonCards]
  have hshare : ∀ i, nextShare s st1 i = 1 := by
    intro i
    rw [nextShare_eq hs.accepted (.inl rfl) hr1, (hz i).1, (hz i).2]
    unfold unitState
    rw [if_pos (by have := number_lt_one i (draws log1 + 1); linarith)]
    rfl
  have := C69_capacity_refuted season_one season_sensible season_lone hs.accepted hJ JSEED hr1 hst hk 0 1
    (by rw [htime]; norm_num) le_rfl (by norm_num) (j := 1) hs.derating
    (by intro i _ k; fin_cases i <;> simp [seasonCards, plannedOut, covers])
    (by rw [hq]; intro i hi; fin_cases i <;> simp [seasonCards] <;> norm_num) (i0 := 2)
    (by rw [season_units.2]; decide) (by rw [hq]; simp [seasonCards]; norm_num) (by rw [hshare]; norm_num)
  rw [season_units.2, Finset.sum_pair (by decide), hshare, hshare, hq] at this
  simp [seasonCards] at this
  norm_num at this
  exact this

/-- C71 (what fails). In this study, in which according to the cards and the calendar nobody ever lacks anything, every
draw in the first quarter of every year of every run records more than 98 MWh not served, and an hour with loss of load. -/
theorem C71_season_refuted (sl : ℕ → ℚ → ℚ) (fuel : ℕ) : ∃ (s : Setup 1 4 1) (raw : ℕ → ℕ → ℚ),
    AmpleStudy sl fuel seasonCards s 1 raw ∧ NeverShort raw ∧
    ∀ JSEED log st st' ev, Reach s.cfg (s.start JSEED) log st → step s.cfg st = .ok (.next ev st') → ev.kind = 1 →
      ∀ y T : ℕ, ev.time = ((8760 * y + T : ℕ) : ℚ) → 1 ≤ T → T ≤ 2184 →
      98 < (st'.world.h.H.MGNTP 0 + st'.world.h.H.MGNGP 0) - (st.world.h.H.MGNTP 0 + st.world.h.H.MGNGP 0) ∧
      (st'.world.h.H.LOLTP 0 + st'.world.h.H.LOLGP 0) - (st.world.h.H.LOLTP 0 + st.world.h.H.LOLGP 0) = 1 := by
  obtain ⟨s, raw, hs, r0, r1⟩ := season_study sl fuel
  refine ⟨s, raw, hs, fun load H hl hH t j y d h1 h2 => season_adequate r0 r1 hl hH t j y h1 h2, ?_⟩
  intro JSEED log st st' ev hr hst hk y T hT hT1 hT2
  obtain ⟨LP, hLP⟩ := ends_exist hs.one hs.accepted
  obtain ⟨w', hfree⟩ := ample_free hs JSEED hLP hr ev.time
  have ht : s.hour.NFCST = 1 := by
    rw [(setup_tiers hs.accepted).1]
    unfold tiersOf
    rw [if_neg]
    rintro ⟨j, hj⟩
    revert hj
    fin_cases j <;> simp [seasonCards]
  have hstands : ∀ h, standsFor seasonCards.misc.JSTEP T h → h = T - 1 := by
    intro h hh
    unfold standsFor at hh
    rw [if_neg (by simp [seasonCards, demoCards])] at hh
    exact hh
  obtain ⟨season, load, H, hq, hl, hE, main⟩ := C71_energy_partial hs.one hs.sensible hs.lone hs.network hs.accepted (.inl rfl)
    rfl hs.number hs.lfu hs.load hs.peak (fun j h hh => (hs.pos j h hh).le) hs.some_load JSEED hr hst hk y T hT hT1 (by omega)
    (fun j h hh => hs.pos j h (by rw [hstands h hh]; omega)) hLP hfree 0 (by rw [ht]; decide)
  have hH : H = T - 1 := hstands H hE.1
  obtain ⟨l0, l1⟩ := season_loads r0 r1 hl (x := T - 1) (by omega)
  rw [if_pos (by omega)] at l1
  have hseas : season = 1 := by
    have h3 : (T : ℚ) < 4369 / 2 := by
      have : (T : ℚ) ≤ 2184 := by exact_mod_cast hT2
      linarith
    have : ((season : ℕ) : ℤ) = 1 := by
      rw [hq]; unfold seasonOf; rw [if_pos h3]; norm_num
    exact Fin.ext (by exact_mod_cast this)
  have hz : ∀ i, (seasonCards.units i).dfor = 0 ∧ (seasonCards.units i).fout = 0 := by
    intro i; fin_cases i <;> simp [seasonCards]
  have hstr := (C73_streams hs.accepted (.inl rfl) JSEED (Reach.step hr hst)).1
  have ho : ∀ i, outcome (seasonCards.units i) (variate (st'.world.h.IGSEED i)) = 1 := by
    intro i
    rw [hstr i]
    unfold outcome
    rw [(hz i).1, (hz i).2, if_pos]
    have := number_lt_one i (draws (log ++ [ev]))
    have e : variate (stream 123456 i (draws (log ++ [ev]))) = number (stream 123456 i (draws (log ++ [ev]))) := by
      unfold variate number; norm_num
    rw [e]; linarith
  have hoff : ∀ i, ¬ offInHour (seasonCards.units i) (8760 * y + T) := by
    rintro i ⟨k, _, h⟩
    revert h
    fin_cases i <;> simp [seasonCards, plannedOut, covers]
  have hsum : ∑ i, outcome (seasonCards.units i) (variate (st'.world.h.IGSEED i)) * (seasonCards.units i).cap season *
      (if offInHour (seasonCards.units i) (8760 * y + T) then 0 else 1) = 300 := by
    rw [Finset.sum_congr rfl (fun i _ => by rw [ho, if_neg (hoff i), hseas, one_mul, mul_one]), Fin.sum_univ_four]
    simp [seasonCards]; norm_num
  have hneed : ∑ j, load j H * forecast (seasonCards.areas j).lfu 0 = 400 := by
    rw [Fin.sum_univ_two, hH, l0, l1]
    simp [seasonCards, forecast]; norm_num
  rw [hsum, hneed] at main
  obtain ⟨m1, _, _, m2, _⟩ := main
  norm_num at m1 m2
  constructor
  · linarith
  · linarith

end Narp.Props
