import Verif.Props.Converge
import Verif.Spec.Changes

/-!
# C84: what the convergence test sees for the weighted statistics of the pool
-/

namespace Narp.Props
open Narp.Spec

theorem changesFrom_append (p : ℚ) (xs : List ℚ) (x : ℚ) :
    changesFrom p (xs ++ [x]) = changesFrom p xs ++ [x - xs.getLastD p] := by
  induction xs generalizing p with
  | nil => rfl
  | cons a xs ih =>
    simp only [List.cons_append, changesFrom, ih a, List.getLastD_cons]

theorem changes_append (xs : List ℚ) (x : ℚ) : changes (xs ++ [x]) = changes xs ++ [x - xs.getLastD 0] :=
  changesFrom_append 0 xs x

theorem changes_length (xs : List ℚ) : (changes xs).length = xs.length := by
  unfold changes
  generalize (0 : ℚ) = p
  induction xs generalizing p with
  | nil => rfl
  | cons a xs ih => simp [changesFrom, ih a]

theorem changes_sum (xs : List ℚ) : (changes xs).sum = xs.getLastD 0 := by
  induction xs using List.reverseRecOn with
  | nil => rfl
  | append_singleton xs x ih =>
    rw [changes_append, List.sum_append, ih]
    simp

variable {n : ℕ} {α : Type}

theorem selSum_pool (c : YearIn) (hN : c.NFCST ≤ 5) (ha : c.KWHERE ≠ 1) (hp : c.KVTYPE = 1) (CH CP : Cum n)
    (e : YearEnd n α) (hH : WholeCnt e.H) (hP : WholeCnt e.P) :
    selSum c CH CP (poolW c.NFCST e.H) (poolW c.NFCST e.P) = .ok (annualStat c none e) := by
  unfold selSum annualStat
  simp only [ha, hp, if_true, if_false]
  by_cases w : c.KVWHEN = 1 <;> by_cases s : c.KVSTAT = 1 <;> simp only [w, s, if_true, if_false, poolW, zero_add]
  · rw [weighted_sumTG hH.LOLTP hH.LOLGP hN]
  · rw [weighted_sumTG hH.MGNTP hH.MGNGP hN]
  · rw [weighted_sumTG hP.LOLTP hP.LOLGP hN]
  · rw [weighted_sumTG hP.MGNTP hP.MGNGP hN]

/-- C84 (what happens). For the weighted statistics of the pool: after any history of years the yearly event signals the
end of the run iff the horizon is reached or the year-to-year *changes* of the annual values (not the values themselves)
satisfy the convergence rule. -/
theorem C84_changes_partial (c : YearIn) (hN : c.NFCST ≤ 5) (ha : c.KWHERE ≠ 1) (hp : c.KVTYPE = 1)
    (evs : List (YearEnd n α)) (e : YearEnd n α)
    (hw : ∀ e' ∈ evs ++ [e], WholeCnt e'.H ∧ WholeCnt e'.P) (hclk : ClocksOK (evs ++ [e])) (I T : ℤ)
    (y : YearSt n α) (h : yearRun c evs (YearSt.init n α I T) = .ok y)
    (r : (Cnt n × Cnt n) × YearSt n α × ℤ)
    (h2 : yearBody c e.CLOCK e.cal e.net e.LSFLG e.H e.P y = .ok r) :
    (r.2.2 = 1 ↔ e.CLOCK ≥ c.FINISH ∨ Converged c.CVTEST (changes ((evs ++ [e]).map (annualStat c none)))) ∧
      (r.2.2 = 0 ∨ r.2.2 = 1) := by
  -- one year
  have one : ∀ (evs : List (YearEnd n α)) (e : YearEnd n α) (y : YearSt n α) (r : (Cnt n × Cnt n) × YearSt n α × ℤ),
      WholeCnt e.H ∧ WholeCnt e.P → e.CLOCK = 8760 * ((evs.length : ℚ) + 1) →
      y.XLAST = (changes (evs.map (annualStat c none))).sum →
      y.SSQ = ((changes (evs.map (annualStat c none))).map fun x => x ^ 2).sum →
      yearBody c e.CLOCK e.cal e.net e.LSFLG e.H e.P y = .ok r →
      (r.2.2 = 1 ↔ e.CLOCK ≥ c.FINISH ∨ Converged c.CVTEST (changes ((evs ++ [e]).map (annualStat c none)))) ∧
      (r.2.2 = 0 ∨ r.2.2 = 1) ∧ r.2.1.XLAST = (changes ((evs ++ [e]).map (annualStat c none))).sum ∧
      r.2.1.SSQ = ((changes ((evs ++ [e]).map (annualStat c none))).map fun x => x ^ 2).sum := by
    intro evs e y r hwe hck i1 i2 h2
    obtain ⟨⟨H', P'⟩, y', rf⟩ := r
    obtain ⟨_, _, _, _, _, _, _, ⟨SUM, hS, hcv⟩, _⟩ := yearBody_ok h2
    rw [selSum_pool c hN ha hp _ _ e hwe.1 hwe.2] at hS
    cases hS
    rw [List.map_append, List.map_cons, List.map_nil, changes_append]
    set xs := evs.map (annualStat c none) with hxs
    set x := annualStat c none e with hx
    have hsum : x = (changes xs ++ [x - xs.getLastD 0]).sum := by
      rw [List.sum_append, changes_sum]; simp
    have hlen : pyInt ((e.CLOCK + 1) / 8760) = ((changes xs ++ [x - xs.getLastD 0]).length : ℤ) := by
      rw [hck]
      have := iyear_eq (evs.length + 1)
      push_cast at this
      rw [this]
      simp [changes_length, hxs]
    rw [hlen, i1, i2] at hcv
    obtain ⟨k1, k2, k3, k4, _⟩ := C33_convergence_test (changes xs) (x - xs.getLastD 0) e.CLOCK c.FINISH c.CVTEST
    rw [← hsum] at k1 k2 k3 k4
    rw [← hcv] at k1 k2 k3 k4
    exact ⟨k1, k2, k4.trans hsum, k3⟩
  have main : ∀ (evs : List (YearEnd n α)) (y : YearSt n α), (∀ e' ∈ evs, WholeCnt e'.H ∧ WholeCnt e'.P) →
      ClocksOK evs → yearRun c evs (YearSt.init n α I T) = .ok y →
      y.XLAST = (changes (evs.map (annualStat c none))).sum ∧
      y.SSQ = ((changes (evs.map (annualStat c none))).map fun x => x ^ 2).sum := by
    intro evs
    induction evs using List.reverseRecOn with
    | nil => intro y _ _ h; cases h; simp [YearSt.init, changes, changesFrom]
    | append_singleton evs e ih =>
      intro y hw hclk h
      obtain ⟨y1, r, h1, h2, rfl⟩ := yearRun_append h
      have hc1 : ClocksOK evs := fun i e' he' =>
        hclk i e' (by rw [List.getElem?_append_left (by
          rw [List.getElem?_eq_some_iff] at he'; exact he'.1)]; exact he')
      obtain ⟨i1, i2⟩ := ih y1 (fun e he => hw e (by simp [he])) hc1 h1
      have := one evs e y1 r (hw e (by simp)) (hclk evs.length e (by simp)) i1 i2 h2
      exact ⟨this.2.2.1, this.2.2.2⟩
  have hc1 : ClocksOK evs := fun i e' he' =>
    hclk i e' (by rw [List.getElem?_append_left (by
      rw [List.getElem?_eq_some_iff] at he'; exact he'.1)]; exact he')
  obtain ⟨i1, i2⟩ := main evs y (fun e he => hw e (by simp [he])) hc1 h
  have := one evs e y r (hw e (by simp)) (hclk evs.length e (by simp)) i1 i2 h2
  exact ⟨this.1, this.2.1⟩

/-- The changes of a constant statistic. -/
theorem changes_constant (x : ℚ) (k : ℕ) : changes (List.replicate (k + 1) x) = x :: List.replicate k 0 := by
  have : ∀ k, changesFrom x (List.replicate k x) = List.replicate k 0 := fun k => by
    induction k with
    | zero => rfl
    | succ k ih => simp [List.replicate_succ, changesFrom, ih]
  unfold changes
  rw [List.replicate_succ, changesFrom, this]
  simp

/-- A constant statistic is not converged by its changes, for tolerances up to 0.8. -/
theorem constant_changes (x : ℚ) (hx : 0 ≤ x) (N : ℕ) (tol : ℚ) (ht : 0 ≤ tol ∧ tol ≤ 4 / 5) :
    ¬ Converged tol (changes (List.replicate N x)) := by
  rintro ⟨h5, hm, h⟩
  rw [changes_length, List.length_replicate] at h5
  obtain ⟨k, rfl⟩ : ∃ k, N = k + 1 := ⟨N - 1, by omega⟩
  rw [changes_constant] at hm h
  have hsum : (x :: List.replicate k 0).sum = x := by simp
  have hlen : (x :: List.replicate k 0).length = k + 1 := by simp
  have hK : (5 : ℚ) ≤ (k : ℚ) + 1 := by exact_mod_cast h5
  have hK0 : (0 : ℚ) < (k : ℚ) + 1 := by linarith
  have hmean : mean (x :: List.replicate k 0) = x / (k + 1) := by
    unfold mean; rw [hsum, hlen]; push_cast; rfl
  have hvar : variance (x :: List.replicate k 0) = x ^ 2 / (k + 1) - (x / (k + 1)) ^ 2 := by
    rw [variance_eq _ (by simp), hmean, hlen]
    simp
  set T : ℚ := if tol = 0 then 0.025 else tol with hT
  have hT1 : 0 ≤ T ∧ T ≤ 4 / 5 := by
    rw [hT]; split_ifs
    · norm_num
    · exact ht
  have hx0 : x ≠ 0 := by
    rintro rfl
    rw [hmean, zero_div] at hm
    exact hm rfl
  have hxp : 0 < x := lt_of_le_of_ne hx (Ne.symm hx0)
  unfold stdErr at h
  have hpos : (0 : ℚ) ≤ T * mean (x :: List.replicate k 0) := by
    rw [hmean]; exact mul_nonneg hT1.1 (div_nonneg hx hK0.le)
  have hsq : ((variance (x :: List.replicate k 0) : ℝ) / ((x :: List.replicate k 0).length : ℝ)) <
      ((T * mean (x :: List.replicate k 0) : ℚ) : ℝ) ^ 2 := (Real.sqrt_lt' (lt_of_le_of_lt (Real.sqrt_nonneg _) h)).1 h
  have hq : variance (x :: List.replicate k 0) / ((k : ℚ) + 1) < (T * (x / (k + 1))) ^ 2 := by
    rw [hmean, hlen] at hsq
    have : (((variance (x :: List.replicate k 0) / ((k : ℚ) + 1) : ℚ)) : ℝ) < (((T * (x / (k + 1))) ^ 2 : ℚ) : ℝ) := by
      push_cast at hsq ⊢
      exact hsq
    exact_mod_cast this
  rw [hvar] at hq
  have e1 : (x ^ 2 / ((k : ℚ) + 1) - (x / (k + 1)) ^ 2) / (k + 1) = (x / (k + 1)) ^ 2 * ((k : ℚ) / (k + 1)) := by
    field_simp
    ring
  rw [e1, mul_pow] at hq
  have hy : 0 < (x / ((k : ℚ) + 1)) ^ 2 := by positivity
  have h3 : (k : ℚ) / (k + 1) < T ^ 2 := by
    by_contra hc
    push Not at hc
    nlinarith [mul_le_mul_of_nonneg_left hc hy.le]
  have h4 : (4 : ℚ) / 5 ≤ (k : ℚ) / (k + 1) := by
    rw [div_le_div_iff₀ (by norm_num) hK0]; linarith
  nlinarith [hT1.1, hT1.2]

/-- C84, refuted the other way round: if the weighted statistic of the pool is the same in every year (standard error 0),
the run is never declared converged, for any tolerance up to 0.8: it goes on to the horizon. -/
theorem C84_constant_refuted (c : YearIn) (hN : c.NFCST ≤ 5) (ha : c.KWHERE ≠ 1) (hp : c.KVTYPE = 1)
    (ht : 0 ≤ c.CVTEST ∧ c.CVTEST ≤ 4 / 5) (x : ℚ) (hx : 0 ≤ x)
    (evs : List (YearEnd n α)) (e : YearEnd n α) (hconst : ∀ e' ∈ evs ++ [e], annualStat c none e' = x)
    (hw : ∀ e' ∈ evs ++ [e], WholeCnt e'.H ∧ WholeCnt e'.P) (hclk : ClocksOK (evs ++ [e])) (I T : ℤ)
    (y : YearSt n α) (h : yearRun c evs (YearSt.init n α I T) = .ok y)
    (r : (Cnt n × Cnt n) × YearSt n α × ℤ)
    (h2 : yearBody c e.CLOCK e.cal e.net e.LSFLG e.H e.P y = .ok r) : r.2.2 = 1 ↔ e.CLOCK ≥ c.FINISH := by
  rw [(C84_changes_partial c hN ha hp evs e hw hclk I T y h r h2).1]
  have : (evs ++ [e]).map (annualStat c none) = List.replicate (evs ++ [e]).length x := by
    rw [List.eq_replicate_iff]
    refine ⟨by simp, fun b hb => ?_⟩
    obtain ⟨e', he', rfl⟩ := List.mem_map.1 hb
    exact hconst e' he'
  rw [this]
  exact ⟨fun h => h.resolve_right (constant_changes x hx _ _ ht), .inl⟩

/-- Non-vacuity: six years with 100 loss-of-load hours each; the run goes on. By the rule of the guide it has converged. -/
example : ∃ y r, yearRun poolYear ((List.range 5).map fun i => demoEnd i 100) (YearSt.init 1 Unit 100 0) = .ok y ∧
    yearBody poolYear (8760 * 6) initfl () (fun _ => 0) (demoCnt 100) (demoCnt 2) y = .ok r ∧ r.2.2 = 0 ∧
    Converged poolYear.CVTEST [100, 100, 100, 100, 100, 100] := by
  have h1 : ((yearRun poolYear ((List.range 5).map fun i => demoEnd i 100) (YearSt.init 1 Unit 100 0)).bind fun y =>
      (yearBody poolYear (8760 * 6) initfl () (fun _ => 0) (demoCnt 100) (demoCnt 2) y).map fun r => r.2.2)
      = .ok 0 := by decide +kernel
  cases hy : yearRun poolYear ((List.range 5).map fun i => demoEnd i 100) (YearSt.init 1 Unit 100 0) with
  | error e => rw [hy] at h1; cases h1
  | ok y =>
    rw [hy] at h1
    simp only [Except.bind] at h1
    cases hr : yearBody poolYear (8760 * 6) initfl () (fun _ => 0) (demoCnt 100) (demoCnt 2) y with
    | error e => rw [hr] at h1; cases h1
    | ok r =>
      rw [hr] at h1
      refine ⟨y, r, rfl, hr, Except.ok.inj h1, ?_, ?_, ?_⟩
      · decide
      · norm_num [mean]
      · have : variance [100, 100, 100, 100, 100, 100] = 0 := by norm_num [variance, mean]
        unfold stdErr
        rw [this]
        have hm : mean [100, 100, 100, 100, 100, 100] = 100 := by norm_num [mean]
        rw [hm]
        have hc : poolYear.CVTEST = 0 ∨ 0 < poolYear.CVTEST := by decide +kernel
        rcases hc with hc | hc
        · rw [if_pos hc]; norm_num
        · rw [if_neg hc.ne']
          have : (0 : ℝ) < ((poolYear.CVTEST * 100 : ℚ) : ℝ) := by exact_mod_cast (by linarith : (0 : ℚ) < poolYear.CVTEST * 100)
          simpa using this

end Narp.Props
