import Verif.Props.SeasonRefuted
import Verif.Props.CompareDaily

/-!
# C107 fails in daily mode: a lower peak moves the evaluated hour
-/

namespace Narp.Props
open Narp Narp.Spec BigOperators

/-- 730 rows of twelve hours, alternating between two values. -/
@[irreducible] def halves (a b : ℚ) : List (List ℚ) := (List.range 730).map fun i => List.replicate 12 (if i % 2 = 0 then a else b)

theorem halves_length (a b : ℚ) : (halves a b).length = 730 := by
  unfold halves
  rw [List.length_map, List.length_range]

theorem halves_row (a b : ℚ) : ∀ r ∈ halves a b, r.length = 12 := by
  unfold halves
  intro r hr
  obtain ⟨i, _, rfl⟩ := List.mem_map.1 hr
  exact List.length_replicate

/-- In the first half of each day area `A` has a third of its peak and area `B` its peak; in the second half `A` has its
peak and `B` 4/15 of it. -/
def dayBlocks : List Block := [⟨'1', [], halves 5 15⟩, ⟨'2', [], halves 15 4⟩]

theorem day_get (a b : ℚ) {h : ℕ} (hh : h < 8760) :
    ((halves a b).getD (h / 12) []).getD (h % 12) 0 = if h / 12 % 2 = 0 then a else b := by
  have e : (halves a b).getD (h / 12) [] = List.replicate 12 (if h / 12 % 2 = 0 then a else b) := by
    unfold halves
    rw [List.getD_eq_getElem?_getD, List.getElem?_map, List.getElem?_range (by omega)]
    rfl
  rw [e, List.getD_eq_getElem?_getD, List.getElem?_replicate, if_pos (by omega), Option.getD_some]

theorem day_read : ∃ raw, leeiRead 2 (dayBlocks.flatMap Block.lines) = .ok raw ∧
    (∀ h < 8760, raw 0 h = if h / 12 % 2 = 0 then 5 else 15) ∧ ∀ h < 8760, raw 1 h = if h / 12 % 2 = 0 then 15 else 4 := by
  obtain ⟨H, h1, h2⟩ := C20_read_partial 2 dayBlocks (fun b => if b.c = '1' then 1 else 2)
    (by
      intro b hb
      simp only [dayBlocks, List.mem_cons, List.not_mem_nil, or_false] at hb
      rcases hb with rfl | rfl <;> decide)
    (by
      show [1, 2].Nodup
      decide)
    (by
      intro b hb
      simp only [dayBlocks, List.mem_cons, List.not_mem_nil, or_false] at hb
      rcases hb with rfl | rfl
      · exact ⟨halves_length 5 15, halves_row 5 15⟩
      · exact ⟨halves_length 15 4, halves_row 15 4⟩)
  refine ⟨H, h1, fun h hh => ?_, fun h hh => ?_⟩
  · have := h2 _ List.mem_cons_self h hh
    rw [if_pos rfl] at this
    exact this.trans (day_get 5 15 hh)
  · have := h2 _ (List.mem_cons_of_mem _ List.mem_cons_self) h hh
    rw [if_neg (by decide)] at this
    exact this.trans (day_get 15 4 hh)

/-- Two areas with an ample line and units that never fail, 10 MW in `A` and 220 MW in `B`, in daily mode. The load of
`A` (peak 150 MW) is uncertain by 20 %, that of `B` (peak `p`) is not. -/
def peakCards (p : ℚ) : Cards 1 4 1 :=
  { demoCards 1 (-100) 1000 with
    areas := ![⟨1, ['A'], 150, 20, fun _ => 0, 1000⟩, ⟨2, ['B'], p, 0, fun _ => 0, 1000⟩]
    units := ![⟨1, ['P'], ['A'], fun _ => 5, 0, 0, 0, ⟨1, 0, 0, 0, 0⟩⟩, ⟨2, ['Q'], ['A'], fun _ => 5, 0, 0, 0, ⟨1, 0, 0, 0, 0⟩⟩,
      ⟨3, ['R'], ['B'], fun _ => 110, 0, 0, 0, ⟨1, 0, 0, 0, 0⟩⟩, ⟨4, ['S'], ['B'], fun _ => 110, 0, 0, 0, ⟨1, 0, 0, 0, 0⟩⟩]
    misc := { (demoCards 1 (-100) 1000).misc with JSTEP := 24 }
    leei := dayBlocks.flatMap Block.lines }

theorem peak_units (p : ℚ) : unitsIn (peakCards p) 0 = {0, 1} := by
  ext i
  simp only [unitsIn, Finset.mem_filter, Finset.mem_univ, true_and]
  fin_cases i <;> simp [peakCards]

theorem peak_study (sl : ℕ → ℚ → ℚ) (fuel : ℕ) : ∃ raw : ℕ → ℕ → ℚ,
    (∀ h < 8760, raw 0 h = if h / 12 % 2 = 0 then 5 else 15) ∧ (∀ h < 8760, raw 1 h = if h / 12 % 2 = 0 then 15 else 4) ∧
    ∀ p : ℚ, 0 < p → p ≤ 500 → ∃ s : Setup 1 4 1, AmpleStudy sl fuel (peakCards p) s 24 raw := by
  obtain ⟨raw, h, r0, r1⟩ := day_read
  refine ⟨raw, r0, r1, fun p hp0 hp1 => ?_⟩
  have h1 : OneCard (peakCards p) := by
    constructor
    · intro a b; fin_cases a <;> fin_cases b <;> simp [peakCards]
    · intro a b; fin_cases a <;> fin_cases b <;> simp [peakCards]
  have hsen : Sensible (peakCards p) := by
    constructor
    · intro i k; fin_cases i <;> simp [peakCards]
    · intro i; fin_cases i <;> simp [peakCards]
    · intro i k; fin_cases i <;> simp [peakCards, covers]
  have hlone : NoLone (peakCards p) := by
    intro i
    fin_cases i
    exacts [⟨1, by decide, rfl⟩, ⟨0, by decide, rfl⟩, ⟨3, by decide, rfl⟩, ⟨2, by decide, rfl⟩]
  have hk : AllKnown (peakCards p) := by
    constructor
    · intro i; fin_cases i <;> simp [peakCards, demoCards]
    · intro i; exact ⟨0, by fin_cases i; rfl⟩
    · intro i; exact ⟨1, by fin_cases i; rfl⟩
    · intro x hx; cases hx
    · intro x hx; cases hx
    · intro x hx; cases hx
  have hread : leeiRead (1 + 1) (peakCards p).leei = .ok raw := h
  obtain ⟨s, hs'⟩ := C64_accepted (c := peakCards p) sl fuel h1 (by norm_num) hk hsen hlone.once ⟨raw, h⟩ rfl rfl
  have hraw : ∀ j : Fin 2, ∀ h < 8760, 4 ≤ raw j h := by
    intro j h hh
    fin_cases j
    · show 4 ≤ raw 0 h; rw [r0 h hh]; split_ifs <;> norm_num
    · show 4 ≤ raw 1 h; rw [r1 h hh]; split_ifs <;> norm_num
  have hpp : poolPeak (peakCards p) ≤ 1000 := by
    unfold poolPeak
    rw [Fin.sum_univ_two]
    simp [peakCards, forecast]
    linarith
  refine ⟨s, h1, hsen, hlone, ?_, hs', rfl, .inr rfl, rfl,
    by intro k; fin_cases k; simp [peakCards, demoCards],
    by intro j; fin_cases j <;> simp [peakCards]; norm_num, hread, by intro j; fin_cases j <;> simp [peakCards, hp0],
    fun j x hx => by have := hraw j x hx; linarith,
    fun j => ⟨0, by norm_num, by have := hraw j 0 (by norm_num); linarith⟩,
    by intro i; fin_cases i <;> simp [peakCards], ⟨?_, ?_⟩, ?_⟩
  · constructor
    · intro k; fin_cases k; simp [peakCards, demoCards]
    · intro a
      fin_cases a
      · exact .refl
      · exact .single ⟨0, .inl ⟨rfl, rfl⟩⟩
    · intro k t; fin_cases k; simp [peakCards, demoCards]
    · intro k t; fin_cases k; simp [peakCards, demoCards]
  · intro k t; fin_cases k; exact ⟨hpp, hpp⟩
  · intro j; fin_cases j <;> exact hpp
  · intro load hload t x hx season
    refine ⟨0, ?_⟩
    have e : 50 ≤ load 0 x := by
      obtain ⟨y, hy, hy0, _, e⟩ := hload 0
      rw [e]
      show 50 ≤ 150 * raw 0 x / raw 0 y
      have a1 : 5 ≤ raw 0 x := by rw [r0 x hx]; split_ifs <;> norm_num
      have a2 : raw 0 y ≤ 15 := by rw [r0 y hy]; split_ifs <;> norm_num
      rw [le_div_iff₀ (show (0 : ℚ) < raw 0 y from hy0)]
      linarith
    have hf : 1 / 2 ≤ forecast ((peakCards p).areas 0).lfu t := by
      fin_cases t <;> simp [peakCards, forecast] <;> norm_num
    rw [peak_units, Finset.sum_pair (by decide)]
    have : (50 : ℚ) * (1 / 2) ≤ load 0 x * forecast ((peakCards p).areas 0).lfu t :=
      mul_le_mul e hf (by norm_num) (by linarith)
    simp only [peakCards, Matrix.cons_val_zero, Matrix.cons_val_one] at this ⊢
    linarith

/-- The loads of these studies. -/
theorem peak_loads {raw : ℕ → ℕ → ℚ} (r0 : ∀ h < 8760, raw 0 h = if h / 12 % 2 = 0 then 5 else 15)
    (r1 : ∀ h < 8760, raw 1 h = if h / 12 % 2 = 0 then 15 else 4) {p : ℚ} {load : Fin 2 → ℕ → ℚ}
    (hload : ∀ j : Fin 2, Scaled (raw j) ((peakCards p).areas j).peak (load j)) {x : ℕ} (hx : x < 8760) :
    load 0 x = (if x / 12 % 2 = 0 then 50 else 150) ∧ load 1 x = if x / 12 % 2 = 0 then p else p * (4 / 15) := by
  constructor
  · obtain ⟨y, hy, _, hm, e⟩ := hload 0
    have hy2 : raw 0 y = 15 := by
      have h0 := hm 12 (by norm_num)
      have e0 := r0 12 (by norm_num)
      rw [if_neg (by norm_num)] at e0
      have ey := r0 y hy
      change raw 0 12 ≤ raw 0 y at h0
      rw [e0] at h0
      split_ifs at ey
      · rw [ey] at h0; norm_num at h0
      · exact ey
    rw [e]
    show 150 * raw 0 x / raw 0 y = _
    rw [hy2, r0 x hx]
    split_ifs <;> norm_num
  · obtain ⟨y, hy, _, hm, e⟩ := hload 1
    have hy2 : raw 1 y = 15 := by
      have h0 := hm 0 (by norm_num)
      have e0 := r1 0 (by norm_num)
      rw [if_pos (by norm_num)] at e0
      have ey := r1 y hy
      change raw 1 0 ≤ raw 1 y at h0
      rw [e0] at h0
      split_ifs at ey
      · exact ey
      · rw [ey] at h0; norm_num at h0
    rw [e]
    show p * raw 1 x / raw 1 y = _
    rw [hy2, r1 x hx]
    split_ifs <;> ring

/-- What the pool lacks at a draw, by the half of the day that is evaluated. -/
theorem peak_lack {raw : ℕ → ℕ → ℚ} (r0 : ∀ h < 8760, raw 0 h = if h / 12 % 2 = 0 then 5 else 15)
    (r1 : ∀ h < 8760, raw 1 h = if h / 12 % 2 = 0 then 15 else 4) {p : ℚ} {load : Fin 2 → ℕ → ℚ}
    (hload : ∀ j : Fin 2, Scaled (raw j) ((peakCards p).areas j).peak (load j)) {H : ℕ → ℕ}
    (hH : ∀ d, 1 ≤ d → d ≤ 8760 / 24 → Evaluated 24 load (24 * d) (H d)) (t : Fin 5) (y : ℕ) {d : ℕ} (h1 : 1 ≤ d) (h2 : d ≤ 365) :
    (100 + p * (4 / 15) < p → yearLack (peakCards p) 24 load H t y d = max 0 (50 * forecast 20 t + p - 230)) ∧
    (p < 100 + p * (4 / 15) → yearLack (peakCards p) 24 load H t y d = max 0 (150 * forecast 20 t + p * (4 / 15) - 230)) := by
  obtain ⟨hst, hmax⟩ := hH d h1 h2
  have hstands : ∀ h, standsFor 24 (24 * d) h ↔ h / 24 = (24 * d - 1) / 24 := fun h => by
    unfold standsFor; rw [if_pos rfl]
  rw [hstands] at hst
  have hHlt : H d < 8760 := by omega
  obtain ⟨l0, l1⟩ := peak_loads r0 r1 hload hHlt
  have hoff : ∀ i, ¬ offInHour ((peakCards p).units i) (8760 * y + 24 * d) := by
    rintro i ⟨k, _, h⟩
    revert h
    fin_cases i <;> simp [peakCards, plannedOut, covers]
  have ho : ∀ i, outcome ((peakCards p).units i) (number (stream 123456 i (8760 / 24 * y + d))) = 1 := by
    intro i
    have hz : ((peakCards p).units i).dfor = 0 ∧ ((peakCards p).units i).fout = 0 := by
      fin_cases i <;> simp [peakCards]
    unfold outcome
    rw [hz.1, hz.2, if_pos (by have := number_lt_one i (8760 / 24 * y + d); linarith)]
  have hsum : ∑ i, outcome ((peakCards p).units i) (number (stream 123456 i (8760 / 24 * y + d))) *
      ((peakCards p).units i).cap (ratingSeason (24 * d)) * (if offInHour ((peakCards p).units i) (8760 * y + 24 * d) then 0 else 1) = 230 := by
    rw [Finset.sum_congr rfl (fun i _ => by rw [ho, if_neg (hoff i), one_mul, mul_one]), Fin.sum_univ_four]
    simp [peakCards]; norm_num
  have hneed : ∑ j, load j (H d) * forecast ((peakCards p).areas j).lfu t = load 0 (H d) * forecast 20 t + load 1 (H d) := by
    rw [Fin.sum_univ_two]
    have : forecast ((peakCards p).areas 1).lfu t = 1 := by simp [peakCards, forecast]
    rw [this, mul_one]
    rfl
  have hlack : yearLack (peakCards p) 24 load H t y d = max 0 (load 0 (H d) * forecast 20 t + load 1 (H d) - 230) := by
    unfold yearLack poolLack
    rw [hsum, hneed]
  have hcmp : ∀ h, h / 24 = (24 * d - 1) / 24 → load 0 h + load 1 h ≤ load 0 (H d) + load 1 (H d) := by
    intro h hh
    have := (hmax h ((hstands h).2 hh)).1
    rwa [Fin.sum_univ_two, Fin.sum_univ_two] at this
  rw [hlack, l0, l1]
  constructor
  · intro hp
    have hev : H d / 12 % 2 = 0 := by
      by_contra hodd
      have h3 := hcmp (24 * (d - 1)) (by omega)
      obtain ⟨k0, k1⟩ := peak_loads r0 r1 hload (x := 24 * (d - 1)) (by omega)
      rw [k0, k1, l0, l1, if_pos (by omega), if_pos (by omega), if_neg hodd, if_neg hodd] at h3
      linarith
    rw [if_pos hev, if_pos hev]
  · intro hp
    have hodd : ¬ H d / 12 % 2 = 0 := by
      intro hev
      have h3 := hcmp (24 * (d - 1) + 12) (by omega)
      obtain ⟨k0, k1⟩ := peak_loads r0 r1 hload (x := 24 * (d - 1) + 12) (by omega)
      rw [k0, k1, l0, l1, if_neg (by omega), if_neg (by omega), if_pos hev, if_pos hev] at h3
      linarith
    rw [if_neg hodd, if_neg hodd]

/-- C107 (what fails in daily mode). Two studies in which no limit binds; they differ only in the peak of area `B`, 150 MW
in the first and 135 MW in the second. The first never has a loss of load. The second, with the lower peak, has one on
every day of every year in the highest forecast tier: the program evaluates the hour in which the mean forecasts of all
areas add up to the most, and that is now the hour in which the uncertain load is high. -/
theorem C107_daily_refuted (sl : ℕ → ℚ → ℚ) (fuel : ℕ) : ∃ (s s' : Setup 1 4 1) (raw : ℕ → ℕ → ℚ),
    AmpleStudy sl fuel (peakCards 150) s 24 raw ∧ AmpleStudy sl fuel (peakCards 135) s' 24 raw ∧
    BetterByArea (peakCards 150) (peakCards 135) le_rfl ∧
    (∀ JSEED log st evs, Ends s.hour s.year s.JPLOUT s.RATES snapNet (s.start JSEED) log st evs →
      ∀ (y : ℕ) e, evs[y]? = some e → ∀ t : Fin 5, e.H.LOLTP t + e.H.LOLGP t ≤ 0 ∧ e.H.MGNTP t + e.H.MGNGP t ≤ 0) ∧
    (∀ JSEED log st evs, Ends s'.hour s'.year s'.JPLOUT s'.RATES snapNet (s'.start JSEED) log st evs →
      ∀ (y : ℕ) e, evs[y]? = some e → e.H.LOLTP 0 + e.H.LOLGP 0 = 365 ∧ 365 * 29 ≤ e.H.MGNTP 0 + e.H.MGNGP 0) := by
  obtain ⟨raw, r0, r1, hst⟩ := peak_study sl fuel
  obtain ⟨s, hs⟩ := hst 150 (by norm_num) (by norm_num)
  obtain ⟨s', hs'⟩ := hst 135 (by norm_num) (by norm_num)
  have htiers : ∀ p, tiersOf (peakCards p) = 5 := by
    intro p
    unfold tiersOf
    rw [if_pos ⟨0, by simp [peakCards]⟩]
  have hd : 8760 / 24 = 365 := by norm_num
  refine ⟨s, s', raw, hs, hs', ?_, ?_, ?_⟩
  · refine ⟨⟨rfl, ?_, ?_, fun _ _ => le_rfl, fun _ => le_rfl, fun _ => le_rfl, fun _ => le_rfl, fun _ _ h => h⟩, ?_, fun _ => rfl⟩
    · intro j; fin_cases j <;> rfl
    · intro j; fin_cases j <;> simp [peakCards]; norm_num
    · intro j; fin_cases j <;> rfl
  · intro JSEED log st evs hE y e he t
    obtain ⟨load, H, hl, hH, main⟩ := C106_year_partial (C110_calm hs JSEED)
    have hb := main log st evs hE y e he t (by rw [(setup_tiers hs.accepted).1, htiers]; exact t.isLt)
    have hz : ∀ d < 365, yearLack (peakCards 150) 24 load H t y (d + 1) = 0 := by
      intro d hd'
      rw [(peak_lack r0 r1 hl hH t y (d := d + 1) (by omega) (by omega)).1 (by norm_num)]
      fin_cases t <;> simp [forecast] <;> norm_num
    have u1 := hb.atMost
    have u2 := hb.most
    rw [hd] at u1 u2
    rw [Finset.sum_eq_zero fun d hd' => hz d (Finset.mem_range.1 hd')] at u2
    have hempty : Finset.filter (fun d => 1 ≤ yearLack (peakCards 150) 24 load H t y (d + 1)) (Finset.range 365) = ∅ := by
      rw [Finset.filter_eq_empty_iff]
      intro d hd'
      rw [hz d (Finset.mem_range.1 hd')]; norm_num
    rw [hempty, Finset.card_empty] at u1
    exact ⟨by exact_mod_cast u1, u2⟩
  · intro JSEED log st evs hE y e he
    obtain ⟨load, H, hl, hH, main⟩ := C106_year_partial (C110_calm hs' JSEED)
    have hb := main log st evs hE y e he 0 (by rw [(setup_tiers hs'.accepted).1, htiers]; decide)
    have hz : ∀ d < 365, yearLack (peakCards 135) 24 load H 0 y (d + 1) = 31 := by
      intro d hd'
      rw [(peak_lack r0 r1 hl hH 0 y (d := d + 1) (by omega) (by omega)).2 (by norm_num)]
      simp [forecast]; norm_num
    have u1 := hb.atMost
    have u2 := hb.atLeast
    have u3 := hb.least
    rw [hd] at u1 u2 u3
    have hall : ∀ q : ℚ, q ≤ 31 →
        Finset.filter (fun d => q ≤ yearLack (peakCards 135) 24 load H 0 y (d + 1)) (Finset.range 365) = Finset.range 365 := by
      intro q hq
      rw [Finset.filter_eq_self]
      intro d hd'
      rw [hz d (Finset.mem_range.1 hd')]; exact hq
    rw [hall 1 (by norm_num), Finset.card_range] at u1
    rw [hall _ (by norm_num), Finset.card_range] at u2
    rw [Finset.sum_congr rfl fun d hd' => by rw [hz d (Finset.mem_range.1 hd')], Finset.sum_const, Finset.card_range] at u3
    norm_num at u1 u2 u3
    exact ⟨le_antisymm u1 u2, by linarith⟩

/-- Every study with an ample network and legal settings has a run with a year end. -/
theorem first_year_end {n m l : ℕ} {sl : ℕ → ℚ → ℚ} {fuel : ℕ} {c : Cards n m l} {s : Setup n m l} {step : ℕ} {raw : ℕ → ℕ → ℚ}
    (hc : AmpleStudy sl fuel c s step raw) (hIOJ : c.misc.IOJ = 0 ∨ c.misc.JSTEP = 24)
    (hE : 20 ≤ c.misc.MAXEUE) (hK : c.misc.KWHERE = 1 → 1 ≤ c.misc.KVLOC ∧ c.misc.KVLOC ≤ n + 1) (hF : 1 ≤ c.misc.FINISH)
    {a : Fin (n + 1)} (ha : Chooses c (some a)) (JSEED : ℤ) :
    ∃ log st evs e, Ends s.hour s.year s.JPLOUT s.RATES snapNet (s.start JSEED) log st evs ∧ evs[0]? = some e := by
  have hJstep : c.misc.JSTEP = 1 ∨ c.misc.JSTEP = 24 := by
    rw [hc.steps]; rcases hc.mode with e | e <;> rw [e] <;> simp
  have hJ : StepOK s.hour.JSTEP := by
    rw [C64_step hc.accepted]
    rcases hJstep with e | e <;> rw [e]
    · left; norm_num
    · right; norm_num
  obtain ⟨log, st, x, hr, hx, _⟩ := C110_completes hc hIOJ hE hK JSEED
  obtain ⟨evs, hEn⟩ := ends_of_reach hr
  obtain ⟨years, cur, hh, _, hexit, _⟩ := C33_cards hc.accepted hJstep hc.freq hF (some a) ha (.inl rfl) JSEED hr
  obtain ⟨rfl, hne, _⟩ := hexit x hx
  have hfull := history_full hJ hh
  have hlen : evs.length = years.length := by rw [ends_length hEn]; exact hfull.1.1.symm
  exact ⟨log, st, evs, evs[0]'(by rw [hlen]; exact List.length_pos_iff.2 hne), hEn, List.getElem?_eq_getElem _⟩

/-- The two studies of `C107_daily_refuted`, and the one of `C106_season_refuted`, have runs with year ends. -/
example (sl : ℕ → ℚ → ℚ) (fuel : ℕ) (JSEED : ℤ) : ∃ (s s' : Setup 1 4 1) (raw raw' : ℕ → ℕ → ℚ),
    AmpleStudy sl fuel (peakCards 135) s 24 raw ∧ AmpleStudy sl fuel seasonCards s' 1 raw' ∧
    (∃ log st evs e, Ends s.hour s.year s.JPLOUT s.RATES snapNet (s.start JSEED) log st evs ∧ evs[0]? = some e) ∧
    (∃ log st evs e, Ends s'.hour s'.year s'.JPLOUT s'.RATES snapNet (s'.start JSEED) log st evs ∧ evs[0]? = some e) := by
  obtain ⟨raw, _, _, hst⟩ := peak_study sl fuel
  obtain ⟨s, hs⟩ := hst 135 (by norm_num) (by norm_num)
  obtain ⟨s', raw', hs', _, _⟩ := season_study sl fuel
  exact ⟨s, s', raw, raw', hs, hs',
    first_year_end hs (.inr rfl) (by simp [peakCards, demoCards]; norm_num) (by simp [peakCards, demoCards])
      (by simp [peakCards, demoCards]) (a := 0) ⟨rfl, rfl⟩ JSEED,
    first_year_end hs' (.inl rfl) (by simp [seasonCards, demoCards]; norm_num) (by simp [seasonCards, demoCards])
      (by simp [seasonCards, demoCards]) (a := 0) ⟨rfl, rfl⟩ JSEED⟩

end Narp.Props
