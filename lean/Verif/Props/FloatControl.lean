import Verif.Model.FloatControl
import Verif.Lemmas.Float
import Verif.Props.Control

/-!
# C100: the calendar in binary64 arithmetic
-/

namespace Narp.Props
open Narp Narp.Spec

variable {σ : Type}

/-- A whole number of half hours. -/
def Half (x : ℚ) : Prop := ∃ k : ℤ, x = k / 2

theorem Half.add {x y : ℚ} (hx : Half x) (hy : Half y) : Half (x + y) := by
  obtain ⟨a, rfl⟩ := hx
  obtain ⟨b, rfl⟩ := hy
  exact ⟨a + b, by push_cast; ring⟩

theorem Half.f64 {x : ℚ} (h : Half x) (hb : |x| ≤ 2 ^ 52) : f64 x = x := by
  obtain ⟨k, rfl⟩ := h
  apply f64_of_isF64
  refine ⟨k, -1, ?_, by norm_num, by rw [zpow_neg_one]; ring⟩
  have : |(k : ℚ)| ≤ 2 ^ 53 := by
    rw [abs_div, abs_two, div_le_iff₀ (by norm_num)] at hb
    norm_num at hb ⊢; linarith
  exact_mod_cast this

theorem half_occ {J : ℚ} (hJ : StepOK J) (i : Fin 7) (m : ℕ) : Half (occ J i m).time := by
  have hm : ∀ (k : ℤ) (b : ℚ), Half b → Half (b + m * k) := fun k b hb =>
    hb.add ⟨2 * m * k, by push_cast; ring⟩
  have hJi : ∃ k : ℤ, J = k := by rcases hJ with rfl | rfl; exacts [⟨1, by norm_num⟩, ⟨24, by norm_num⟩]
  obtain ⟨k, rfl⟩ := hJi
  match i with
  | 0 => exact hm k k ⟨2 * k, by push_cast; ring⟩
  | 1 => exact hm 168 (1/2) ⟨1, by norm_num⟩
  | 2 => exact hm 8760 (1/2) ⟨1, by norm_num⟩
  | 3 => exact hm 8760 (4369/2) ⟨4369, by norm_num⟩
  | 4 => exact hm 8760 (8737/2) ⟨8737, by norm_num⟩
  | 5 => exact hm 8760 (13105/2) ⟨13105, by norm_num⟩
  | 6 => exact hm 8760 8760 ⟨17520, by norm_num⟩

theorem eventsF_eq {cfg : Cfg σ} (hJ : StepOK cfg.JSTEP) (s : St σ) (kind : ℚ) (h : Half s.CLOCK)
    (h0 : 0 ≤ s.CLOCK) (hb : s.CLOCK ≤ 2 ^ 51) : eventsF cfg s kind = events cfg s kind := by
  have ex : ∀ d : ℤ, 0 ≤ d → d ≤ 8760 → f64 (s.CLOCK + d) = s.CLOCK + d := by
    intro d d0 d1
    have d0' : (0 : ℚ) ≤ d := by exact_mod_cast d0
    have d1' : (d : ℚ) ≤ 8760 := by exact_mod_cast d1
    apply Half.f64 (h.add ⟨2 * d, by push_cast; ring⟩)
    rw [abs_of_nonneg (by linarith)]
    norm_num at hb ⊢; linarith
  have e1 := ex 168 (by norm_num) (by norm_num)
  have e2 := ex 8760 (by norm_num) (by norm_num)
  have e3 : f64 (s.CLOCK + cfg.JSTEP) = s.CLOCK + cfg.JSTEP := by
    rcases hJ with h | h
    · have := ex 1 (by norm_num) (by norm_num); push_cast at this; rw [h]; exact this
    · have := ex 24 (by norm_num) (by norm_num); push_cast at this; rw [h]; exact this
  push_cast at e1 e2
  unfold eventsF events hourEvF hourEv weekF week quartrF quartr yearEvF yearEv
  rw [e1, e2, e3]

/-- C100 (one step). In every run with whole-hour horizon up to 2^50 hours, an iteration of the loop in binary64
arithmetic is the exact one. -/
theorem stepF_eq {cfg : Cfg σ} (hJ : StepOK cfg.JSTEP) {H : ℕ} (hF : cfg.FINISH = H) (hH : H ≤ 2 ^ 50) {N : ℕ} {w : σ}
    {log : List Ev} {s : St σ} (h : Reach cfg (narpInit cfg.JSTEP N w) log s) : stepF cfg s = step cfg s := by
  obtain ⟨n, q, hI⟩ := reach_inv hJ.lo hJ.hi h
  obtain ⟨i, q0, c1, hq, hrem, _, _⟩ := step_shape hI
  have hH' : (H : ℚ) ≤ 1125899906842624 := by exact_mod_cast hH
  have hH0 : (0 : ℚ) ≤ H := Nat.cast_nonneg _
  have hfin : f64 (cfg.FINISH + 1) = cfg.FINISH + 1 := by
    rw [hF]
    apply Half.f64 ⟨2 * (H + 1), by push_cast; ring⟩
    rw [abs_of_nonneg (by linarith)]
    norm_num; linarith
  -- the time read by the test is the time of the removed event
  unfold stepF step
  rw [hfin]
  by_cases h1 : s.cal.IPOINT = -1
  · rw [if_pos h1, if_pos h1]
  rw [if_neg h1, if_neg h1]
  cases ht : rd s.cal.E (s.cal.IPOINT + 1) with
  | error e => rfl
  | ok t =>
    dsimp only [bind, Except.bind, pure, Except.pure]
    by_cases h2 : s.CLOCK > t
    · rw [if_pos h2, if_pos h2]
    rw [if_neg h2, if_neg h2]
    by_cases h3 : s.RFLAG = 1
    · rw [if_pos h3, if_pos h3]
    rw [if_neg h3, if_neg h3]
    by_cases h4 : t > cfg.FINISH + 1
    · rw [if_pos h4, if_pos h4]
    rw [if_neg h4, if_neg h4, hrem]
    dsimp only
    have htime : (occ cfg.JSTEP i (n i)).time = t := by
      unfold remove at hrem
      rw [ht] at hrem
      simp only [bind, Except.bind, pure, Except.pure] at hrem
      repeat' split at hrem
      all_goals first | cases hrem; rfl | (cases hrem)
    rw [eventsF_eq hJ]
    · exact half_occ hJ i (n i)
    · exact hI.clock0.trans (hI.clock _ (by rw [hq]; exact List.mem_cons_self))
    · dsimp only
      rw [htime]
      push Not at h4
      refine h4.trans ?_
      rw [hF]; norm_num; linarith

/-- C100 (the run). For a horizon of whole hours up to 2^50 (128 000 million years) the loop run in binary64 arithmetic
processes the same events at the same times, ends in the same way and in the same state as the exact one, whatever the
handlers do. -/
theorem C100_calendar {cfg : Cfg σ} (hJ : StepOK cfg.JSTEP) {H : ℕ} (hF : cfg.FINISH = H) (hH : H ≤ 2 ^ 50) (N : ℕ)
    (w : σ) (fuel : ℕ) : contrlF cfg fuel (narpInit cfg.JSTEP N w) = contrl cfg fuel (narpInit cfg.JSTEP N w) := by
  have : ∀ fuel log s, Reach cfg (narpInit cfg.JSTEP N w) log s → contrlF cfg fuel s = contrl cfg fuel s := by
    intro fuel
    induction fuel with
    | zero => intro log s _; rfl
    | succ k ih =>
      intro log s h
      unfold contrlF contrl
      rw [stepF_eq hJ hF hH h]
      cases hs : step cfg s with
      | error e => rfl
      | ok r =>
        cases r with
        | exit e => rfl
        | next ev s' => exact ih _ _ (Reach.step h hs)
  exact this fuel [] _ Reach.start

/-- C100 (the number of the year). At the end of year `k` the number found in binary64 arithmetic is `k`. -/
theorem C100_year_number (k : ℕ) (hk : k ≤ 2 ^ 36) : yearNoF (8760 * k) = k := by
  have hk' : (k : ℚ) ≤ 68719476736 := by exact_mod_cast hk
  have hk0 : (0 : ℚ) ≤ k := Nat.cast_nonneg _
  have e : f64 (8760 * (k : ℚ) + 1) = 8760 * k + 1 := by
    apply Half.f64 ⟨2 * (8760 * k + 1), by push_cast; ring⟩
    rw [abs_of_nonneg (by linarith)]
    norm_num; linarith
  have e2 : (8760 * (k : ℚ) + 1) / 8760 = k + 1 / 8760 := by field_simp
  unfold yearNoF
  rw [e, e2]
  have hI : ∀ m : ℕ, m ≤ 2 ^ 37 → IsF64 (m : ℚ) := fun m hm => by
    have := isF64_int (m := (m : ℤ)) (by rw [abs_of_nonneg (by positivity)]; norm_num; omega)
    exact_mod_cast this
  have lo : (k : ℚ) ≤ f64 (k + 1 / 8760) := le_f64_of_isF64 (hI k (by omega)) (by norm_num)
  have hi : f64 ((k : ℚ) + 1 / 8760) ≤ k + 1 / 2 := by
    have hF : IsF64 ((k : ℚ) + 1 / 2) := by
      rw [← Half.f64 (x := (k : ℚ) + 1 / 2) ⟨2 * k + 1, by push_cast; ring⟩ (by
        rw [abs_of_nonneg (by linarith)]; norm_num; linarith)]
      exact f64_isF64 _
    exact f64_le_of_isF64 hF (by norm_num)
  unfold pyInt
  rw [if_pos (by linarith), Int.floor_eq_iff]
  push_cast
  constructor <;> linarith

/-- the hypotheses of `C100_calendar`: ten years, hourly -/
example : ∃ cfg : Cfg ℕ, StepOK cfg.JSTEP ∧ cfg.FINISH = (87600 : ℕ) :=
  ⟨{ JSTEP := 1, FINISH := 87600, JPLOUT := [], RATES := [], hourFx := fun _ _ _ u => .ok (u + 1),
     yearFx := fun _ _ u => .ok (u, 0) }, Or.inl rfl, by norm_num⟩

/-- C100, a horizon that is not met exactly: with horizons beyond 2^53 hours an hourly step would be lost. -/
example : f64 (2 ^ 53 + 1) = 2 ^ 53 := by decide +kernel

end Narp.Props
