import Verif.Props.Frequency
import Verif.Props.CardStop

/-!
# C105 applies: a run of 1000 years
-/

namespace Narp.Props
open Narp Narp.Spec BigOperators

section
variable {σ : Type} {cfg : Cfg σ} {s₀ : St σ}

/-- A run passes through every number of draws up to its own. -/
theorem reach_draws {log : List Ev} {st : St σ} (h : Reach cfg s₀ log st) :
    ∀ j ≤ draws log, ∃ log' st', Reach cfg s₀ log' st' ∧ draws log' = j := by
  induction h with
  | start => exact fun j hj => ⟨[], s₀, .start, by simp [draws] at hj ⊢; omega⟩
  | @step log st ev st' hr hs ih =>
    intro j hj
    by_cases e : j ≤ draws log
    · exact ih j e
    · refine ⟨_, _, .step hr hs, ?_⟩
      have : draws (log ++ [ev]) ≤ draws log + 1 := by
        unfold draws
        rw [List.countP_append]
        have := List.countP_le_length (p := fun e : Ev => decide (e.kind = 1)) (l := [ev])
        simp only [List.length_singleton] at this
        omega
      omega

end

/-- The input of `scarceCards` with outage rates for the first unit (2 % derated by half, 8 % out), a run of 1000 years
and a tolerance that is never met. -/
def longCards : Cards 1 4 1 :=
  { scarceCards with
    units := ![⟨1, ['P'], ['A'], fun _ => 100, 2 / 100, 8 / 100, 50, ⟨1, 0, 0, 0, 0⟩⟩,
      ⟨2, ['Q'], ['A'], fun _ => 100, 0, 0, 0, ⟨1, 0, 0, 0, 0⟩⟩,
      ⟨3, ['R'], ['B'], fun _ => 60, 0, 0, 0, ⟨1, 0, 0, 0, 0⟩⟩, ⟨4, ['S'], ['B'], fun _ => 40, 0, 0, 0, ⟨1, 0, 0, 0, 0⟩⟩]
    misc := { scarceCards.misc with CVTEST := -1, FINISH := 1000 } }

theorem long_one : OneCard longCards := by
  constructor
  · exact scarce_one.areas
  · intro a b; fin_cases a <;> fin_cases b <;> simp [longCards]

theorem long_known : AllKnown longCards := by
  constructor
  · intro i; fin_cases i <;> simp [longCards, scarceCards, demoCards]
  · intro i; exact ⟨0, by fin_cases i; rfl⟩
  · intro i; exact ⟨1, by fin_cases i; rfl⟩
  · intro x hx; cases hx
  · intro x hx; cases hx
  · intro x hx; cases hx

theorem long_sensible : Sensible longCards := by
  constructor
  · intro i k; fin_cases i <;> simp [longCards]
  · intro i; fin_cases i <;> simp [longCards]
  · intro i k; fin_cases i <;> simp [longCards, covers]

theorem long_lone : NoLone longCards := by
  intro i
  fin_cases i
  exacts [⟨1, by decide, rfl⟩, ⟨0, by decide, rfl⟩, ⟨3, by decide, rfl⟩, ⟨2, by decide, rfl⟩]

theorem long_derating (i : Fin 4) : 0 ≤ (longCards.units i).der ∧ (longCards.units i).der ≤ 100 := by
  fin_cases i <;> simp [longCards]; norm_num

theorem long_ok (sl : ℕ → ℚ → ℚ) (fuel : ℕ) : ∃ s, setup sl fuel longCards = .ok s ∧ Scarce longCards s.hour.HRLOAD := by
  obtain ⟨raw, h, r0, r1⟩ := flat_read
  obtain ⟨s, hs⟩ := C64_accepted (c := longCards) sl fuel long_one (by norm_num) long_known long_sensible
    long_lone.once ⟨raw, h⟩ rfl rfl
  refine ⟨s, hs, ?_⟩
  have hread : leeiRead (1 + 1) longCards.leei = .ok raw := h
  have hpk : ∀ j, 0 < (longCards.areas j).peak := by
    intro j; fin_cases j <;> simp [longCards, scarceCards]
  have hflat : ∀ j : Fin 2, ∀ h < 8760, 5 ≤ raw j h ∧ ∀ h' < 8760, raw j h = raw j h' := by
    intro j h hh
    fin_cases j
    · refine ⟨?_, fun h' hh' => ?_⟩
      · show 5 ≤ raw 0 h; rw [r0 h hh]
      · show raw 0 h = raw 0 h'; rw [r0 h hh, r0 h' hh']
    · refine ⟨?_, fun h' hh' => ?_⟩
      · show 5 ≤ raw 1 h; rw [r1 h hh]; norm_num
      · show raw 1 h = raw 1 h'; rw [r1 h hh, r1 h' hh']
  intro j t h hh season
  obtain ⟨x, hx, hx0, _, hv⟩ := loads_scaled hs hread j (hpk j) (fun h hh => by have := (hflat j h hh).1; linarith)
    ⟨0, by norm_num, by have := (hflat j 0 (by norm_num)).1; linarith⟩
  have hload : s.hour.HRLOAD j h = (longCards.areas j).peak := by
    rw [hv, (hflat j h hh).2 x hx]
    field_simp
  have hsum : ∑ i ∈ unitsIn longCards j, (longCards.units i).cap (season i) ≤ 400 := by
    have hcap : ∀ i, 0 ≤ (longCards.units i).cap (season i) ∧ (longCards.units i).cap (season i) ≤ 100 := by
      intro i; fin_cases i <;> simp [longCards] <;> norm_num
    calc _ ≤ ∑ i, (longCards.units i).cap (season i) :=
          Finset.sum_le_univ_sum_of_nonneg fun i => (hcap i).1
      _ ≤ ∑ _i : Fin 4, (100 : ℚ) := Finset.sum_le_sum fun i _ => (hcap i).2
      _ = 400 := by simp; norm_num
  have hf : forecast (longCards.areas j).lfu t = 1 := by
    fin_cases j <;> simp [longCards, scarceCards, forecast]
  have hp : 900 ≤ (longCards.areas j).peak := by
    fin_cases j <;> simp [longCards, scarceCards]; norm_num
  rw [hload, hf]
  linarith

/-- The run of this input makes 8760000 draws, and passes through every number of draws before. -/
theorem long_run (sl : ℕ → ℚ → ℚ) (fuel : ℕ) (JSEED : ℤ) : ∃ s : Setup 1 4 1, setup sl fuel longCards = .ok s ∧
    ∀ j ≤ 8760000, ∃ log st, Reach s.cfg (s.start JSEED) log st ∧ draws log = j := by
  obtain ⟨s, hs, hsc⟩ := long_ok sl fuel
  refine ⟨s, hs, ?_⟩
  have hlfu : ∀ j, (longCards.areas j).lfu = 0 := by intro j; fin_cases j <;> rfl
  have h1t : tiersOf longCards = 1 := by
    unfold tiersOf
    rw [if_neg (by simpa using hlfu)]
  have hJs : s.hour.JSTEP = 1 := by
    have := (C72_settings hs JSEED).1
    rw [this]
    show (((1 : ℤ)) : ℚ) = 1
    norm_num
  have hJ : StepOK s.hour.JSTEP := .inl hJs
  have hE : 20 ≤ longCards.misc.MAXEUE := by simp [longCards, scarceCards, demoCards]; norm_num
  obtain ⟨log, st, e, hr, he, _⟩ := C43_cards_partial long_one long_sensible long_lone long_derating hs (.inl rfl)
    rfl (.inl rfl) hE (by simp [longCards, scarceCards, demoCards]) hsc JSEED
  obtain ⟨years, cur, hh, _, hexit, _⟩ := C33_cards hs (.inl rfl) rfl (by simp [longCards]) (some 0)
    ⟨rfl, rfl⟩ (.inl rfl) JSEED hr
  obtain ⟨rfl, hne, hx⟩ := hexit e he
  have hfull := history_full hJ hh
  have hall := (history_scarce long_one long_sensible long_derating hs hJ hsc h1t JSEED hh).1
  have hL : ∀ ds ∈ years, (ds.length : ℚ) = 8760 := by
    intro ds hds
    have := hfull.2 ds hds
    rw [hJs] at this
    linarith
  have hch : chosenYears longCards (some 0) years = List.replicate years.length 8760 := by
    have := annual_scarce years hall 8760 hL 0
    simp only [if_true] at this
    rw [List.map_const', List.length_range] at this
    rw [← this]
    unfold chosenYears annualC
    refine List.map_congr_left fun y _ => ?_
    simp only [h1t]
    rfl
  have hlen : years.length = 1000 := by
    rcases hx with hx | hx
    · have : (1000 : ℤ) = years.length := hx
      omega
    · exfalso
      obtain ⟨_, _, h3⟩ := hx
      rw [hch, mean_const _ (List.length_pos_iff.2 hne)] at h3
      have h0 : 0 ≤ stdErr (List.replicate years.length (8760 : ℚ)) := Real.sqrt_nonneg _
      have : ((if longCards.misc.CVTEST = 0 then 0.025 else longCards.misc.CVTEST) * 8760 : ℚ) = -8760 := by
        simp [longCards]
      rw [this] at h3
      have h4 : ((-8760 : ℚ) : ℝ) < 0 := by norm_num
      linarith
  have hd : draws log = 8760000 := by
    have h2 := hfull.1.2
    have : (years.map List.length).sum = (years.map List.length).length • 8760 := List.sum_eq_card_nsmul _ _ fun x hx => by
      obtain ⟨ds, hds, rfl⟩ := List.mem_map.1 hx
      exact_mod_cast hL ds hds
    rw [this, List.length_map, List.length_nil, smul_eq_mul] at h2
    unfold draws
    omega
  intro j hj
  exact reach_draws hr j (by rw [hd]; exact hj)

/-- C105 applies: the first unit of `longCards` delivers, over the first 8388608 draws of its run, 91 % of its capacity
(100 % less 8 % out less half of 2 %) up to 3/2 draws. -/
theorem C105_applies (sl : ℕ → ℚ → ℚ) (fuel : ℕ) (JSEED : ℤ) {K : ℕ} (hK : K = 8388608) :
    ∃ (s : Setup 1 4 1) (log : ℕ → List Ev) (st : ℕ → St _), setup sl fuel longCards = .ok s ∧
      (∀ j < K, Reach s.cfg (s.start JSEED) (log j) (st j) ∧ draws (log j) = j) ∧
      |∑ j ∈ Finset.range K, nextShare s (st j) 0 - K * (91 / 100)| ≤ 3 / 2 := by
  obtain ⟨s, hs, hrun⟩ := long_run sl fuel JSEED
  have : ∀ j : ℕ, ∃ log st, j < K → Reach s.cfg (s.start JSEED) log st ∧ draws log = j := by
    intro j
    by_cases h : j < K
    · obtain ⟨log, st, a⟩ := hrun j (by omega)
      exact ⟨log, st, fun _ => a⟩
    · exact ⟨[], s.start JSEED, fun h' => absurd h' h⟩
  choose log st h using this
  refine ⟨s, log, st, hs, h, ?_⟩
  have := C105_run_mean hs (.inl rfl) 0 (by simp [longCards]; norm_num) (by simp [longCards]; norm_num)
    (by simp [longCards]; norm_num)
    (long_derating 0) JSEED 0 hK log st (fun j hj => (h j hj).1) (fun j hj => by rw [(h j hj).2, zero_add])
  have e : (1 - (longCards.units 0).fout - (longCards.units 0).dfor * ((longCards.units 0).der / 100)) = 91 / 100 := by
    simp [longCards]; norm_num
  rw [e] at this
  exact this

end Narp.Props
