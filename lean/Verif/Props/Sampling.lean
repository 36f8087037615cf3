import Verif.Props.Random
import Mathlib.Tactic.FinCases
import Mathlib.Tactic.Positivity

/-!
# Sampling of unit and line states (C14, C15, C22)
-/

namespace Narp.Props
open Narp Narp.Spec

/-- C14. With the thresholds made from the outage rates of the input, a unit is sampled in state `s`
exactly when the variate lies in the interval of [0,1) of that state (lengths 1-FOR-DFOR, DFOR, FOR),
and the available capacity is the fraction of that state times rating times maintenance status. -/
theorem C14_unit_state {n : ℕ} (seed : Fin n → ℤ) (FOR DFOR pct RATING PLNDST : Fin n → ℚ) (i : Fin n)
    (hD : 0 ≤ DFOR i)
    (hu0 : 0 ≤ variate (mul31 65539 (seed i))) (hu1 : variate (mul31 65539 (seed i)) < 1) :
    let r := gstate seed (fun i => dataxPROBG (DFOR i) (FOR i)) RATING (fun i => dataxDERATE (pct i)) PLNDST
    ∃ s : UnitState, (∀ s', variate (r.1 i) ∈ unitInterval (FOR i) (DFOR i) s' ↔ s' = s) ∧
      r.2.1 i = unitFraction (pct i) s ∧ r.2.2 i = unitFraction (pct i) s * RATING i * PLNDST i := by
  simp only [gstate, dataxPROBG, dataxDERATE, Matrix.cons_val_zero, Matrix.cons_val_one]
  generalize variate (mul31 65539 (seed i)) = u at hu0 hu1
  unfold unitPct
  by_cases h1 : u < 1 - (DFOR i + FOR i)
  · refine ⟨.full, ?_, ?_, ?_⟩
    · intro s'
      cases s' <;> simp [unitInterval, Set.mem_Ico] <;> first | (constructor <;> linarith) | (intros; linarith)
    · simp [h1, unitFraction]
    · simp [h1, unitFraction]
  · by_cases h2 : u < 1 - FOR i
    · refine ⟨.derated, ?_, ?_, ?_⟩
      · intro s'
        cases s' <;> simp [unitInterval, Set.mem_Ico] <;> first | (constructor <;> linarith) | (intros; linarith)
      · simp [h1, h2, unitFraction]
      · simp [h1, h2, unitFraction]
    · refine ⟨.out, ?_, ?_, ?_⟩
      · intro s'
        cases s' <;> simp [unitInterval, Set.mem_Ico] <;> first | (constructor <;> linarith) | (intros; linarith)
      · simp [h1, h2, unitFraction]
      · simp [h1, h2, unitFraction]

/-- C14 (bounds). The available capacity is between 0 and the rating, and 0 under maintenance. -/
theorem C14_avail_bounds {n : ℕ} (seed : Fin n → ℤ) (PROBG : Fin n → Fin 2 → ℚ)
    (pct RATING PLNDST : Fin n → ℚ) (i : Fin n) (hp0 : 0 ≤ pct i) (hp1 : pct i ≤ 100)
    (hR : 0 ≤ RATING i) (hP : PLNDST i = 0 ∨ PLNDST i = 1) :
    let A := (gstate seed PROBG RATING (fun i => dataxDERATE (pct i)) PLNDST).2.2 i
    0 ≤ A ∧ A ≤ RATING i ∧ (PLNDST i = 0 → A = 0) := by
  simp only [gstate, dataxDERATE, unitPct]
  have hd0 : 0 ≤ 1 - pct i / 100 := by linarith
  have hd1 : 1 - pct i / 100 ≤ 1 := by linarith
  have hm1 : (1 - pct i / 100) * RATING i ≤ RATING i := by nlinarith
  have hm0 : 0 ≤ (1 - pct i / 100) * RATING i := mul_nonneg hd0 hR
  rcases hP with hP | hP <;> simp only [hP] <;> split_ifs <;>
    refine ⟨?_, ?_, ?_⟩ <;> simp only [mul_zero, mul_one, one_mul, zero_mul] <;>
    first | linarith | exact fun _ => rfl | (intro _; trivial)

/-- one unit, 10 % forced outage rate, 5 % derating rate, first draw of the program -/
def unitDemo : (Fin 1 → ℤ) × (Fin 1 → ℚ) × (Fin 1 → ℚ) :=
  gstate (fun _ => 123456 * 9649599 % 2147483648) (fun _ => dataxPROBG (1/20) (1/10)) (fun _ => 200)
    (fun _ => dataxDERATE 30) (fun _ => 1)

example : variate (unitDemo.1 0) < 1 ∧ 0 ≤ variate (unitDemo.1 0) ∧ unitDemo.2.1 0 = 1 ∧
    unitDemo.2.2 0 = 200 := by decide +kernel

/-- The two implementations of the unit sampling agree except when the variate hits a threshold;
there the second one takes the better state. -/
theorem C14_variants_agree {n : ℕ} (seed : Fin n → ℤ) (PROBG : Fin n → Fin 2 → ℚ)
    (RATING DERATE PLNDST : Fin n → ℚ) (i : Fin n) :
    let u := variate ((gstate seed PROBG RATING DERATE PLNDST).1 i)
    let a := (gstate seed PROBG RATING DERATE PLNDST).2.1 i
    let b := (gstate' (fun i => variate ((gstate seed PROBG RATING DERATE PLNDST).1 i)) PROBG RATING
      DERATE PLNDST).1 i
    (u ≠ PROBG i 0 → u ≠ PROBG i 1 → a = b) ∧
      (u = PROBG i 0 → b = 1) ∧ (u = PROBG i 1 → PROBG i 0 < PROBG i 1 → b = DERATE i ∧ a = 0) := by
  simp only [gstate, gstate', unitPct]
  generalize variate (mul31 65539 (seed i)) = u
  have hb : ∀ u : ℚ, bisectLeft [PROBG i 0, PROBG i 1] u =
      if u ≤ PROBG i 0 then 0 else if u ≤ PROBG i 1 then 1 else 2 := by
    intro u
    unfold bisectLeft
    by_cases h1 : u ≤ PROBG i 0
    · simp [List.takeWhile, h1, not_lt.2 h1]
    · have h1' : PROBG i 0 < u := not_le.1 h1
      by_cases h2 : u ≤ PROBG i 1
      · simp [List.takeWhile, h1', h1, h2, not_lt.2 h2]
      · have h2' : PROBG i 1 < u := not_le.1 h2
        simp [List.takeWhile, h1', h2', h1, h2]
  refine ⟨?_, ?_, ?_⟩
  · intro n1 n2
    rw [hb]
    rcases lt_or_gt_of_ne n1 with h1 | h1
    · simp [h1, h1.le]
    · rcases lt_or_gt_of_ne n2 with h2 | h2
      · simp [not_lt.2 h1.le, not_le.2 h1, h2, h2.le]
      · simp [not_lt.2 h1.le, not_le.2 h1, not_lt.2 h2.le, not_le.2 h2]
  · intro h
    rw [hb]; simp [h]
  · intro h hlt
    rw [hb]
    have h1 : ¬ u ≤ PROBG i 0 := by rw [h]; exact not_le.2 hlt
    have h2 : ¬ u < PROBG i 0 := by rw [h]; exact not_lt.2 hlt.le
    have h3 : u ≤ PROBG i 1 := h.le
    have h4 : ¬ u < PROBG i 1 := not_lt.2 h.ge
    rw [if_neg h1, if_pos h3, if_neg h2, if_neg h4]
    exact ⟨rfl, rfl⟩

/-! ## C15, C22 -/

/-- C22. The thresholds made from the outage rates and from the line state probabilities are
non-decreasing, in [0,1], and the line thresholds are the probabilities of the first `k+1` states. -/
theorem C22_thresholds :
    (∀ FOR DFOR : ℚ, 0 ≤ FOR → 0 ≤ DFOR → FOR + DFOR ≤ 1 →
      0 ≤ dataxPROBG DFOR FOR 0 ∧ dataxPROBG DFOR FOR 0 ≤ dataxPROBG DFOR FOR 1 ∧
      dataxPROBG DFOR FOR 1 ≤ 1 ∧ dataxPROBG DFOR FOR 0 = 1 - FOR - DFOR ∧
      dataxPROBG DFOR FOR 1 = 1 - FOR) ∧
    (∀ p : Fin 6 → ℚ, (∀ k : Fin 6, dataxPROBL p k = cumProb p (k + 1)) ∧
      ((∀ k, 0 ≤ p k) → (∀ j k : Fin 6, j ≤ k → dataxPROBL p j ≤ dataxPROBL p k) ∧
        (∀ k, 0 ≤ dataxPROBL p k)) ∧
      dataxPROBL p 5 = p 0 + p 1 + p 2 + p 3 + p 4 + p 5) := by
  have hk : ∀ (p : Fin 6 → ℚ) (k : Fin 6), dataxPROBL p k = cumProb p (k + 1) := by
    intro p k
    fin_cases k <;> simp [dataxPROBL, cumProb, List.finRange_succ]
  refine ⟨?_, ?_⟩
  · intro F D h1 h2 h3
    refine ⟨?_, ?_, ?_, ?_, rfl⟩ <;>
      simp only [dataxPROBG, Matrix.cons_val_zero, Matrix.cons_val_one] <;> linarith
  · intro p
    refine ⟨hk p, fun h0 => ⟨?_, ?_⟩, ?_⟩
    · intro j k hjk
      rw [hk, hk]
      have h := fun k => h0 k
      have a0 := h0 0; have a1 := h0 1; have a2 := h0 2; have a3 := h0 3; have a4 := h0 4; have a5 := h0 5
      revert hjk
      fin_cases j <;> fin_cases k <;> simp [cumProb] <;> linarith
    · intro k
      rw [hk]
      have a0 := h0 0; have a1 := h0 1; have a2 := h0 2; have a3 := h0 3; have a4 := h0 4; have a5 := h0 5
      fin_cases k <;> simp [cumProb] <;> linarith
    · rw [hk]; simp [cumProb]

example : dataxPROBL ![1/2, 1/4, 1/8, 1/16, 1/32, 1/32] 2 = 7/8 := by decide +kernel

/-- C15. For line state probabilities summing to 1 and a variate in [0,1] the sampled state of every
line is the one state in 1..6 whose interval contains the variate. -/
theorem C15_line_state {n : ℕ} (seed : Fin n → ℤ) (p : Fin n → Fin 6 → ℚ) (i : Fin n)
    (h0 : ∀ k, 0 ≤ p i k) (h1 : cumProb (p i) 6 = 1)
    (hu : variate (mul31 65539 (seed i)) ≤ 1) :
    let r := lstate seed (fun k l => dataxPROBL (p l) k)
    ∃ s : ℕ, 1 ≤ s ∧ s ≤ 6 ∧ r.2 i = s ∧
      ∀ s', 1 ≤ s' → s' ≤ 6 → (inLineInterval (p i) s' (variate (r.1 i)) ↔ s' = s) := by
  simp only [lstate]
  generalize variate (mul31 65539 (seed i)) = u at hu
  have hk := (C22_thresholds.2 (p i)).1
  have a0 := h0 0; have a1 := h0 1; have a2 := h0 2; have a3 := h0 3; have a4 := h0 4; have a5 := h0 5
  have k0 := hk 0; have k1 := hk 1; have k2 := hk 2; have k3 := hk 3; have k4 := hk 4
  unfold lineState
  simp only [k0, k1, k2, k3, k4]
  generalize p i = q at *
  simp only [cumProb] at *
  simp at *
  split_ifs with c1 c2 c3 c4 c5
  on_goal 1 => refine ⟨1, by norm_num, by norm_num, rfl, ?_⟩
  on_goal 2 => refine ⟨2, by norm_num, by norm_num, rfl, ?_⟩
  on_goal 3 => refine ⟨3, by norm_num, by norm_num, rfl, ?_⟩
  on_goal 4 => refine ⟨4, by norm_num, by norm_num, rfl, ?_⟩
  on_goal 5 => refine ⟨5, by norm_num, by norm_num, rfl, ?_⟩
  on_goal 6 => refine ⟨6, by norm_num, by norm_num, rfl, ?_⟩
  all_goals
    intro s' hs1 hs6
    interval_cases s' <;> simp [inLineInterval, cumProb] <;>
      first | linarith | (constructor <;> linarith) | (intros; linarith)

/-- C15 (order). Larger variates never give smaller states. -/
theorem C15_monotone (p : Fin 6 → ℚ) {u v : ℚ} (h : u ≤ v) :
    lineState p u ≤ lineState p v := by
  unfold lineState
  split_ifs <;> first | omega | (exfalso; linarith)

/-- one line with six states, first draw of the program without units -/
def lineDemo : (Fin 1 → ℤ) × (Fin 1 → ℤ) :=
  lstate (fun _ => 123456 * 9649599 % 2147483648)
    (fun k _ => dataxPROBL ![1/2, 1/4, 1/8, 1/16, 1/32, 1/32] k)

example : variate (lineDemo.1 0) ≤ 1 ∧ lineDemo.2 0 = 1 ∧
    cumProb ![1/2, 1/4, 1/8, 1/16, 1/32, 1/32] 6 = 1 := by decide +kernel

/-- The vectorised line sampling (`line_prob_sampling.lstate`) gives the same state when the variate
is below the last threshold and hits none; above the last threshold it gives the invalid state 0. -/
theorem C15_variants (p : Fin 6 → ℚ) (u : ℚ) :
    ((∀ k, u ≠ p k) → u < p 5 → lineStateVec p u = lineState p u) ∧
      ((∀ k, p k ≤ u) → lineStateVec p u = 0) := by
  have hv : lineStateVec p u = if u < p 0 then 1 else if u < p 1 then 2 else if u < p 2 then 3
      else if u < p 3 then 4 else if u < p 4 then 5 else if u < p 5 then 6 else 0 := by
    have hfr : List.finRange 6 = [0, 1, 2, 3, 4, 5] := by decide
    simp only [lineStateVec, hfr, List.foldl_cons, List.foldl_nil]
    by_cases c0 : u < p 0
    · simp [c0]
    by_cases c1 : u < p 1
    · simp [c0, c1]
    by_cases c2 : u < p 2
    · simp [c0, c1, c2]
    by_cases c3 : u < p 3
    · simp [c0, c1, c2, c3]
    by_cases c4 : u < p 4
    · simp [c0, c1, c2, c3, c4]
    by_cases c5 : u < p 5
    · simp [c0, c1, c2, c3, c4, c5]
    · simp [c0, c1, c2, c3, c4, c5]
  rw [hv]
  refine ⟨fun hne h5 => ?_, fun h => ?_⟩
  · unfold lineState
    have hl : ∀ k, (u ≤ p k ↔ u < p k) := fun k => ⟨fun h => lt_of_le_of_ne h (hne k), le_of_lt⟩
    simp only [hl, h5, if_true]
  · simp only [not_lt.2 (h _), if_false]

end Narp.Props
