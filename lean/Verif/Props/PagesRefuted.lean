import Verif.Props.BalanceRefuted
import Verif.Props.AnnualPages

/-!
# C122: annual pages with the losses of other years
-/

namespace Narp.Props
open Narp Narp.Spec BigOperators

/-- `bothCards` in daily mode, with annual tables. -/
def bothDaily : Cards 1 4 1 := { bothCards with misc := { bothCards.misc with JSTEP := 24, IOJ := 1 } }

theorem bothDay_one : OneCard bothDaily := by
  constructor
  · intro a b; fin_cases a <;> fin_cases b <;> simp [bothDaily, bothCards]
  · intro a b; fin_cases a <;> fin_cases b <;> simp [bothDaily, bothCards]

theorem bothDay_sensible : Sensible bothDaily := by
  constructor
  · intro i k; fin_cases i <;> fin_cases k <;> simp [bothDaily, bothCards]
  · intro i; fin_cases i <;> simp [bothDaily, bothCards]
  · intro i k; fin_cases i <;> simp [bothDaily, bothCards, covers]

theorem bothDay_lone : NoLone bothDaily := by
  intro i
  fin_cases i
  exacts [⟨1, by decide, rfl⟩, ⟨0, by decide, rfl⟩, ⟨3, by decide, rfl⟩, ⟨2, by decide, rfl⟩]

theorem bothDay_units : unitsIn bothDaily 0 = {0, 1} ∧ unitsIn bothDaily 1 = {2, 3} := by
  constructor <;> decide +kernel

theorem bothDay_study (sl : ℕ → ℚ → ℚ) (fuel : ℕ) : ∃ (s : Setup 1 4 1) (raw : ℕ → ℕ → ℚ),
    AmpleStudy sl fuel bothDaily s 24 raw ∧
    (∀ h < 8760, raw 0 h = 5) ∧ ∀ h < 8760, raw 1 h = if h < 2184 then 10 else 5 := by
  obtain ⟨raw, h, r0, r1⟩ := season_read
  have hk : AllKnown bothDaily := by
    constructor
    · intro i; fin_cases i <;> simp [bothDaily, bothCards, demoCards]
    · intro i; exact ⟨0, by fin_cases i; rfl⟩
    · intro i; exact ⟨1, by fin_cases i; rfl⟩
    · intro x hx; cases hx
    · intro x hx; cases hx
    · intro x hx; cases hx
  have hread : leeiRead (1 + 1) bothDaily.leei = .ok raw := h
  obtain ⟨s, hs'⟩ := C64_accepted (c := bothDaily) sl fuel bothDay_one (by norm_num) hk bothDay_sensible bothDay_lone.once
    ⟨raw, h⟩ rfl rfl
  have hraw : ∀ j : Fin 2, ∀ h < 8760, 5 ≤ raw j h := by
    intro j h hh
    fin_cases j
    · show 5 ≤ raw 0 h; rw [r0 h hh]
    · show 5 ≤ raw 1 h; rw [r1 h hh]; split_ifs <;> norm_num
  have hpp : poolPeak bothDaily = 400 := by
    unfold poolPeak
    rw [Fin.sum_univ_two]
    simp [bothDaily, bothCards, forecast]
    norm_num
  refine ⟨s, raw, ⟨bothDay_one, bothDay_sensible, bothDay_lone, ?_, hs', rfl, .inr rfl, rfl,
    by intro k; fin_cases k; simp [bothDaily, bothCards, demoCards],
    by intro j; fin_cases j <;> simp [bothDaily, bothCards], hread, by intro j; fin_cases j <;> simp [bothDaily, bothCards],
    fun j x hx => by have := hraw j x hx; linarith,
    fun j => ⟨0, by norm_num, by have := hraw j 0 (by norm_num); linarith⟩,
    by intro i; fin_cases i <;> simp [bothDaily, bothCards], ⟨?_, ?_⟩, ?_⟩, r0, r1⟩
  · constructor
    · intro k; fin_cases k; simp [bothDaily, bothCards, demoCards]
    · intro a
      fin_cases a
      · exact .refl
      · exact .single ⟨0, .inl ⟨rfl, rfl⟩⟩
    · intro k t; fin_cases k; simp [bothDaily, bothCards, demoCards]
    · intro k t; fin_cases k; simp [bothDaily, bothCards, demoCards]
  · rw [hpp]; intro k t; fin_cases k; simp [bothDaily, bothCards, demoCards]; norm_num
  · rw [hpp]; intro j; fin_cases j <;> simp [bothDaily, bothCards] <;> norm_num
  · intro load hload t x hx season
    refine ⟨0, ?_⟩
    have e : load 0 x = 200 := by
      obtain ⟨y, hy, _, _, e⟩ := hload 0
      rw [e]
      show 200 * raw 0 x / raw 0 y = 200
      rw [r0 x hx, r0 y hy]; norm_num
    rw [e, bothDay_units.1, Finset.sum_pair (by decide)]
    simp [bothDaily, bothCards, forecast]
    norm_num


/-- What area `B` bears at draw `d` when the ratings of season `q d` are used. -/
theorem bothDay_share {raw : ℕ → ℕ → ℚ} (r0 : ∀ h < 8760, raw 0 h = 5)
    (r1 : ∀ h < 8760, raw 1 h = if h < 2184 then 10 else 5) {load : Fin 2 → ℕ → ℚ}
    (hload : ∀ j : Fin 2, Scaled (raw j) (bothDaily.areas j).peak (load j)) {H : ℕ → ℕ}
    (hH : ∀ d, 1 ≤ d → d ≤ 365 → Evaluated 24 load (24 * d) (H d)) (q : ℕ → Fin 4) (off : Fin 4 → ℕ → ℕ → Prop)
    [∀ i y d, Decidable (off i y d)] (hoff : ∀ i y d, ¬ off i y d) (y : ℕ) {d : ℕ} (h1 : 1 ≤ d) (h2 : d ≤ 365) (t : Fin 5) :
    areaLack bothDaily (fun j d => load j (H d)) q off 365 t 1 y d = if d ≤ 91 ∧ q d ≠ 0 then 10 else 0 := by
  have hHd : 24 * (d - 1) ≤ H d ∧ H d < 24 * d := by
    have := (hH d h1 h2).1
    unfold standsFor at this
    rw [if_pos rfl] at this
    omega
  have hx : H d < 8760 := by omega
  obtain ⟨l0, l1⟩ := both_loads r0 r1 (load := load) hload (x := H d) hx
  have l1' : load 1 (H d) = if d ≤ 91 then 200 else 100 := by
    rw [l1]
    by_cases e : d ≤ 91
    · rw [if_pos e, if_pos (by omega)]
    · rw [if_neg e, if_neg (by omega)]
  have ho : ∀ i, outcome (bothDaily.units i) (number (stream 123456 i (365 * y + d))) = 1 := by
    intro i
    have hz : (bothDaily.units i).dfor = 0 ∧ (bothDaily.units i).fout = 0 := by
      fin_cases i <;> simp [bothDaily, bothCards]
    unfold outcome
    rw [hz.1, hz.2, if_pos (by have := number_lt_one i (365 * y + d); linarith)]
  have hcap : ∀ i, (bothDaily.units i).cap (q d) = ![50, 50, if q d = 0 then (150 : ℚ) else 95, if q d = 0 then (150 : ℚ) else 95] i := by
    intro i
    generalize q d = k
    fin_cases i <;> fin_cases k <;> simp [bothDaily, bothCards]
  have hterm : ∀ i, outcome (bothDaily.units i) (number (stream 123456 i (365 * y + d))) * (bothDaily.units i).cap (q d) *
      (if off i y d then 0 else 1) = ![50, 50, if q d = 0 then (150 : ℚ) else 95, if q d = 0 then (150 : ℚ) else 95] i := by
    intro i
    rw [ho, if_neg (hoff i y d), hcap]; ring
  have a0 : areaCap bothDaily q off 365 y d 0 = 100 := by
    unfold areaCap
    rw [bothDay_units.1, Finset.sum_pair (by decide), hterm, hterm]
    simp; norm_num
  have a1 : areaCap bothDaily q off 365 y d 1 = if q d = 0 then 300 else 190 := by
    unfold areaCap
    rw [bothDay_units.2, Finset.sum_pair (by decide), hterm, hterm]
    simp; split_ifs <;> norm_num
  have hf : ∀ j, forecast (bothDaily.areas j).lfu t = 1 := by
    intro j; fin_cases j <;> simp [bothDaily, bothCards, forecast]
  have hN : bothDaily.misc.NLS ≠ 0 := by simp [bothDaily, bothCards, demoCards]
  have hc : areaCap bothDaily q off 365 y d = ![100, if q d = 0 then 300 else 190] := by
    funext j; fin_cases j
    · exact a0
    · exact a1
  have hl : (fun j => load j (H d) * forecast (bothDaily.areas j).lfu t) = ![200, if d ≤ 91 then 200 else 100] := by
    funext j
    rw [hf, mul_one]
    fin_cases j
    · exact l0
    · exact l1'
  unfold areaLack borne
  rw [if_pos hN, hc, hl]
  unfold allShort ownShort
  rw [Fin.sum_univ_two, Fin.sum_univ_two, Fin.sum_univ_two]
  by_cases e1 : d ≤ 91 <;> by_cases e2 : q d = 0 <;> simp [e1, e2] <;> norm_num

/-- According to the cards and the calendar area `B` never lacks anything; the program has it bear 10 MW on each of the
first 91 days of every year. -/
theorem bothDay_shares {raw : ℕ → ℕ → ℚ} (r0 : ∀ h < 8760, raw 0 h = 5)
    (r1 : ∀ h < 8760, raw 1 h = if h < 2184 then 10 else 5) {load : Fin 2 → ℕ → ℚ}
    (hload : ∀ j : Fin 2, Scaled (raw j) (bothDaily.areas j).peak (load j)) {H : ℕ → ℕ}
    (hH : ∀ d, 1 ≤ d → d ≤ 365 → Evaluated 24 load (24 * d) (H d)) (y : ℕ) {d : ℕ} (h1 : 1 ≤ d) (h2 : d ≤ 365) (t : Fin 5) :
    calendarShare bothDaily 24 load H t 1 y d = 0 ∧ yearShare bothDaily 24 load H t 1 y d = if d ≤ 91 then 10 else 0 := by
  have hno : ∀ i k, ¬ plannedOut (bothDaily.units i) k := by
    intro i k
    fin_cases i <;> simp [bothDaily, bothCards, plannedOut, covers]
  have hq : d ≤ 91 → seasonOf ((24 * d : ℕ) : ℚ) = 0 := by
    intro e
    have : ((24 * d : ℕ) : ℚ) < 4369 / 2 := by
      have : ((24 * d : ℕ) : ℚ) ≤ 2184 := by exact_mod_cast (by omega : 24 * d ≤ 2184)
      linarith
    unfold seasonOf
    rw [if_pos this]
  constructor
  · refine (bothDay_share r0 r1 hload hH (fun d => seasonNow (24 * d)) (fun i _ d => plannedOut (bothDaily.units i) (weekNow (24 * d)))
      (fun i _ d => hno i _) y h1 h2 t).trans ?_
    rw [if_neg]
    rintro ⟨e, h⟩
    refine h (Fin.ext ?_)
    show (seasonOf ((24 * d : ℕ) : ℚ)).toNat = 0
    rw [hq e]; rfl
  · refine (bothDay_share r0 r1 hload hH (fun d => ratingSeason (24 * d)) (fun i y d => offInHour (bothDaily.units i) (8760 * y + 24 * d))
      (fun i y d ⟨k, _, h⟩ => hno i k h) y h1 h2 t).trans ?_
    by_cases e : d ≤ 91
    · have hne : ratingSeason (24 * d) ≠ 0 := by
        intro h
        have : ((seasonOf ((24 * d : ℕ) : ℚ) + 1) % 4).toNat = 0 := congrArg Fin.val h
        rw [hq e] at this
        exact absurd this (by decide)
      rw [if_pos e, if_pos ⟨e, hne⟩]
    · rw [if_neg e, if_neg fun h => e h.1]

theorem sum_quarter {f : ℕ → ℚ} (h : ∀ d, 1 ≤ d → d ≤ 365 → f d = if d ≤ 91 then 1 else 0) :
    ∑ d ∈ Finset.range 365, f (d + 1) = 91 := by
  rw [Finset.sum_congr rfl fun d hd => h (d + 1) (by omega) (by have := Finset.mem_range.1 hd; omega), ← Finset.sum_filter,
    Finset.sum_const, show (Finset.filter (fun d => d + 1 ≤ 91) (Finset.range 365)).card = 91 from by decide +kernel]
  norm_num

theorem bothDay_days {raw : ℕ → ℕ → ℚ} (r0 : ∀ h < 8760, raw 0 h = 5)
    (r1 : ∀ h < 8760, raw 1 h = if h < 2184 then 10 else 5) {load : Fin 2 → ℕ → ℚ}
    (hload : ∀ j : Fin 2, Scaled (raw j) (bothDaily.areas j).peak (load j)) {H : ℕ → ℕ}
    (hH : ∀ d, 1 ≤ d → d ≤ 365 → Evaluated 24 load (24 * d) (H d)) (y : ℕ) (t : Fin 5) :
    lossDays (yearShare bothDaily 24 load H t 1 y) (fun _ => True) 365 = 91 := by
  unfold lossDays
  refine (Finset.sum_congr rfl fun d hd => ?_).trans (sum_quarter (f := fun d => if d ≤ 91 then 1 else 0) fun d _ _ => rfl)
  rw [(bothDay_shares r0 r1 hload hH y (by omega) (by have := Finset.mem_range.1 hd; omega) t).2]
  by_cases e : d + 1 ≤ 91
  · simp [e]
  · simp [e]

/-- C122 (what fails). In this study no limit ever binds, and according to the cards and the calendar area `B` never
lacks anything; by the program's season it bears 1 MW or more on 91 days of every year. The page of the second year says
182 days: those of the first year are in it. -/
theorem C122_season_refuted (sl : ℕ → ℚ → ℚ) (fuel : ℕ) (JSEED : ℤ) (old : List Char) : ∃ (s : Setup 1 4 1) (raw : ℕ → ℕ → ℚ),
    AmpleStudy sl fuel bothDaily s 24 raw ∧
    (∀ load : Fin 2 → ℕ → ℚ, (∀ j : Fin 2, Scaled (raw j) (bothDaily.areas j).peak (load j)) → ∀ H : ℕ → ℕ,
      (∀ d, 1 ≤ d → d ≤ 365 → Evaluated 24 load (24 * d) (H d)) → ∀ y,
      (∀ d, 1 ≤ d → d ≤ 365 → calendarShare bothDaily 24 load H 0 1 y d = 0) ∧
      lossDays (yearShare bothDaily 24 load H 0 1 y) (fun _ => True) 365 = 91) ∧
    ∃ (log : List Ev) (t : St _) (e : Exit) (p : List (List (List Char))),
      Reach (fileCfg s.hour s.year s.JPLOUT s.RATES snapNet s.NAMA s.SUSTAT) (narpInit s.hour.JSTEP 4 (worldInit
        (fun i => (programSeeds JSEED 4 1).1 i) (fun k => (programSeeds JSEED 4 1).2 k) s.net s.INTVT s.ITAB, old)) log t ∧
      Narp.step (fileCfg s.hour s.year s.JPLOUT s.RATES snapNet s.NAMA s.SUSTAT) t = .ok (.exit e) ∧
      p <:+: lineWords t.world.2 ∧ ∃ area pool, YearPage False 1 2 area pool p ∧ (area (1 : Fin 2) 0).days = 182 := by
  obtain ⟨s, raw, hs, r0, r1⟩ := bothDay_study sl fuel
  refine ⟨s, raw, hs, fun load hl H hH y => ⟨fun d h1 h2 => (bothDay_shares r0 r1 hl hH y h1 h2 0).1, bothDay_days r0 r1 hl hH y 0⟩, ?_⟩
  have hd : bothDaily.misc.JSTEP = 24 := rfl
  have hF : 1 ≤ bothDaily.misc.FINISH := by simp [bothDaily, bothCards, demoCards]
  have hE : 20 ≤ bothDaily.misc.MAXEUE := by simp [bothDaily, bothCards, demoCards]; norm_num
  have hnm : ∀ j, NameCard ((![['A'], ['B']] : Fin 2 → List Char) j) (bothDaily.areas j).name := by
    intro j
    fin_cases j
    · exact ⟨⟨by simp, by decide⟩, by decide, .inl rfl⟩
    · exact ⟨⟨by simp, by decide⟩, by decide, .inl rfl⟩
  obtain ⟨load, H, h1, h2, log, t, e, _, _, _, a, b, _⟩ := C121_cards hs (.inr hd) hF hE
    (by simp [bothDaily, bothCards, demoCards]) hnm JSEED old
  have hcalm := C110_calm hs JSEED
  have hl : load = s.hour.HRLOAD := funext fun j => scaled_unique (h1 j)
    (loads_scaled hs.accepted hs.load j (hs.peak j) (fun x hx => (hs.pos j x hx).le) (hs.some_load j))
  subst hl
  obtain ⟨pages, last, q1, q2, q3⟩ := pages_of_run hcalm (fun _ i => (hs.derating i).2) h2 hF
    (by simp [bothDaily]) hnm a b
  obtain ⟨evs, _, _, _, _, hEn, _⟩ := C121_output (Y := bothDaily.misc.FINISH.toNat) (calm_stepOK hcalm) (by omega)
    (finish_years hs.accepted hF) (by
      intro j
      rw [(year_settings hs.accepted).2, strip_quotes (hnm j)]
      simp only [List.mem_append, not_or]
      exact ⟨shown_nl (hnm j).1, by decide⟩) a b
  obtain ⟨years, cur, hh, _, hexit, _⟩ := C33_cards hs.accepted (.inr rfl) rfl hF (some 0) ⟨rfl, rfl⟩ (.inl rfl) JSEED hEn.reach
  obtain ⟨_, _, hwhy⟩ := hexit e (via_step file_via b)
  have hlen := (history_full (calm_stepOK hcalm) hh).1.1
  have hy : 1 < years.length := by
    rcases hwhy with e | e
    · have : (10 : ℤ) = years.length := e
      omega
    · have := e.1
      have e2 : (chosenYears bothDaily (some 0) years).length = years.length := by
        simp [chosenYears]
      omega
  have hpl : 1 < pages.length := by omega
  have hp := q3 1 _ (List.getElem?_eq_getElem hpl)
  have hti : tiersOf bothDaily = 1 := by
    unfold tiersOf
    rw [if_neg]
    rintro ⟨j, hj⟩
    revert hj
    fin_cases j <;> simp [bothDaily, bothCards]
  have hH' : ∀ d, 1 ≤ d → d ≤ 365 → Evaluated 24 s.hour.HRLOAD (24 * d) (H d) := h2
  rw [hti] at hp
  have hpk : (fun d => PeakDraw 24 s.hour.HRLOAD (24 * d)) = fun _ => True := by
    funext d; exact propext ⟨fun _ => trivial, fun _ => .inl rfl⟩
  rw [hpk] at hp
  have hp' : YearPage False 1 2 (areaFig bothDaily (yearShare bothDaily 24 s.hour.HRLOAD H) (fun _ => True) 365 1)
      (poolFig (yearShare bothDaily 24 s.hour.HRLOAD H) (fun _ => True) 365 1) pages[1] := by
    simpa using hp
  refine ⟨log, t, e, pages[1], a, b, ?_, _, _, hp', ?_⟩
  · rw [q1]
    obtain ⟨u, v, hh⟩ := infix_flatten (List.getElem_mem hpl)
    exact ⟨lineWords old ++ u, v ++ last, by rw [← hh]; simp only [List.append_assoc]⟩
  · show withCarry _ _ 1 = 182
    have hc : Carried 2 (tiersOf bothDaily) 1 0 := by rw [hti]; unfold Carried; decide
    unfold withCarry
    rw [if_pos hc, show Finset.Ico 0 (1 + 1) = {0, 1} from by decide, Finset.sum_pair (by decide),
      bothDay_days r0 r1 h1 hH' 0 0, bothDay_days r0 r1 h1 hH' 1 0]
    norm_num

end Narp.Props
