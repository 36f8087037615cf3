import Verif.Props.Year

/-!
# C31, C33: sums over the years and the convergence test
-/

namespace Narp.Props
open Narp.Spec BigOperators

variable {n : ℕ} {α : Type}

/-! ## C31 -/

theorem wavg_eq (N : ℕ) (hN : N ≤ 5) (x : Fin 5 → ℚ) : wavg N x = weighted N x := by
  unfold wavg weighted XPROB weight
  rw [Fin.sum_univ_five]
  have : N = 0 ∨ N = 1 ∨ N = 2 ∨ N = 3 ∨ N = 4 ∨ N = 5 := by omega
  rcases this with rfl | rfl | rfl | rfl | rfl | rfl <;>
    simp [List.finRange_succ] <;> ring

theorem weighted_sumTG {N : ℕ} {T G : Fin 5 → ℚ} (hT : ∀ t, Whole (T t)) (hG : ∀ t, Whole (G t)) (hN : N ≤ 5) :
    wavg N (sumTG N T G) = weighted N fun t => T t + G t := by
  rw [← wavg_eq N hN]
  unfold wavg
  refine Finset.sum_congr rfl fun t _ => ?_
  by_cases h : t.val < N
  · rw [if_pos h, if_pos h, sumTG_whole hT hG, if_pos h]
  · rw [if_neg h, if_neg h]

/-- The sums `s` are the sums of the annual counters `cs` (one entry per year), over the `N` tiers in use;
total = transmission + generation; the `SW` sums are the sums of the weighted averages. -/
structure CumIs (N : ℕ) (cs : List (Cnt n)) (s : Cum n) : Prop where
  SOLTA : ∀ j (t : Fin 5), t.val < N → s.SOLTA j t = (cs.map fun c => c.LOLTA j t).sum
  SOLGA : ∀ j (t : Fin 5), t.val < N → s.SOLGA j t = (cs.map fun c => c.LOLGA j t).sum
  SOLSA : ∀ j (t : Fin 5), t.val < N → s.SOLSA j t = (cs.map fun c => c.LOLTA j t + c.LOLGA j t).sum
  SGNTA : ∀ j (t : Fin 5), t.val < N → s.SGNTA j t = (cs.map fun c => c.MGNTA j t).sum
  SGNGA : ∀ j (t : Fin 5), t.val < N → s.SGNGA j t = (cs.map fun c => c.MGNGA j t).sum
  SGNSA : ∀ j (t : Fin 5), t.val < N → s.SGNSA j t = (cs.map fun c => c.MGNTA j t + c.MGNGA j t).sum
  SWLTA : ∀ j, s.SWLTA j = (cs.map fun c => weighted N (c.LOLTA j)).sum
  SWLGA : ∀ j, s.SWLGA j = (cs.map fun c => weighted N (c.LOLGA j)).sum
  SWLSA : ∀ j, s.SWLSA j = (cs.map fun c => weighted N fun t => c.LOLTA j t + c.LOLGA j t).sum
  SWNTA : ∀ j, s.SWNTA j = (cs.map fun c => weighted N (c.MGNTA j)).sum
  SWNGA : ∀ j, s.SWNGA j = (cs.map fun c => weighted N (c.MGNGA j)).sum
  SWNSA : ∀ j, s.SWNSA j = (cs.map fun c => weighted N fun t => c.MGNTA j t + c.MGNGA j t).sum
  SOLTP : ∀ t : Fin 5, t.val < N → s.SOLTP t = (cs.map fun c => c.LOLTP t).sum
  SOLGP : ∀ t : Fin 5, t.val < N → s.SOLGP t = (cs.map fun c => c.LOLGP t).sum
  SOLSP : ∀ t : Fin 5, t.val < N → s.SOLSP t = (cs.map fun c => c.LOLTP t + c.LOLGP t).sum
  SGNTP : ∀ t : Fin 5, t.val < N → s.SGNTP t = (cs.map fun c => c.MGNTP t).sum
  SGNGP : ∀ t : Fin 5, t.val < N → s.SGNGP t = (cs.map fun c => c.MGNGP t).sum
  SGNSP : ∀ t : Fin 5, t.val < N → s.SGNSP t = (cs.map fun c => c.MGNTP t + c.MGNGP t).sum

theorem cumIs_zero (N : ℕ) : CumIs N [] (Cum.zero n) := by
  constructor <;> simp [Cum.zero]

theorem CumIs.snoc {N : ℕ} (hN : N ≤ 5) {cs : List (Cnt n)} {s : Cum n} (h : CumIs N cs s) {c : Cnt n}
    (hc : WholeCnt c) : CumIs N (cs ++ [c]) (accum N c s) := by
  constructor
  · intro j t ht; simp [accum, addTo, ht, h.SOLTA j t ht]
  · intro j t ht; simp [accum, addTo, ht, h.SOLGA j t ht]
  · intro j t ht
    simp [accum, addTo, ht, h.SOLSA j t ht, sumTG_whole (hc.LOLTA j) (hc.LOLGA j)]
  · intro j t ht; simp [accum, addTo, ht, h.SGNTA j t ht]
  · intro j t ht; simp [accum, addTo, ht, h.SGNGA j t ht]
  · intro j t ht
    simp [accum, addTo, ht, h.SGNSA j t ht, sumTG_whole (hc.MGNTA j) (hc.MGNGA j)]
  · intro j; simp [accum, h.SWLTA j, wavg_eq N hN]
  · intro j; simp [accum, h.SWLGA j, wavg_eq N hN]
  · intro j; simp [accum, h.SWLSA j, weighted_sumTG (hc.LOLTA j) (hc.LOLGA j) hN]
  · intro j; simp [accum, h.SWNTA j, wavg_eq N hN]
  · intro j; simp [accum, h.SWNGA j, wavg_eq N hN]
  · intro j; simp [accum, h.SWNSA j, weighted_sumTG (hc.MGNTA j) (hc.MGNGA j) hN]
  · intro t ht; simp [accum, addTo, ht, h.SOLTP t ht]
  · intro t ht; simp [accum, addTo, ht, h.SOLGP t ht]
  · intro t ht
    simp [accum, addTo, ht, h.SOLSP t ht, sumTG_whole hc.LOLTP hc.LOLGP]
  · intro t ht; simp [accum, addTo, ht, h.SGNTP t ht]
  · intro t ht; simp [accum, addTo, ht, h.SGNGP t ht]
  · intro t ht
    simp [accum, addTo, ht, h.SGNSP t ht, sumTG_whole hc.MGNTP hc.MGNGP]

/-- C31 (what holds). After any history of year ends with whole-number counters, every cumulative statistic of
the areas (per tier and weighted) and of the pool (per tier) is the sum of the annual ones, and total =
transmission + generation. -/
theorem C31_cumulative (c : YearIn) (hN : c.NFCST ≤ 5) (evs : List (YearEnd n α))
    (hw : ∀ e ∈ evs, WholeCnt e.H ∧ WholeCnt e.P) (I T : ℤ) (y : YearSt n α)
    (h : yearRun c evs (YearSt.init n α I T) = .ok y) :
    CumIs c.NFCST (evs.map YearEnd.H) y.CH ∧ CumIs c.NFCST (evs.map YearEnd.P) y.CP := by
  induction evs using List.reverseRecOn generalizing y with
  | nil => cases h; exact ⟨cumIs_zero _, cumIs_zero _⟩
  | append_singleton evs e ih =>
    obtain ⟨y1, ⟨⟨H', P'⟩, y', rf⟩, h1, h2, rfl⟩ := yearRun_append h
    obtain ⟨i1, i2⟩ := ih (fun e he => hw e (by simp [he])) y1 h1
    obtain ⟨_, e1, e2, _⟩ := yearBody_ok h2
    have hwe := hw e (by simp)
    simp only [List.map_append, List.map_cons, List.map_nil]
    rw [e1, e2]
    exact ⟨i1.snoc hN hwe.1, i2.snoc hN hwe.2⟩

/-- C31 (sums of squares, used for the standard deviations of the report): the squares of the weighted annual
values of every area. -/
theorem C31_squares (c : YearIn) (hN : c.NFCST ≤ 5) (evs : List (YearEnd n α))
    (hw : ∀ e ∈ evs, WholeCnt e.H ∧ WholeCnt e.P) (I T : ℤ) (y : YearSt n α)
    (h : yearRun c evs (YearSt.init n α I T) = .ok y) (j : Fin n) :
    y.XNEWA j 0 = (evs.map fun e => (weighted c.NFCST fun t => e.H.LOLTA j t + e.H.LOLGA j t) ^ 2).sum ∧
    y.XNEWA j 1 = (evs.map fun e => (weighted c.NFCST fun t => e.H.MGNTA j t + e.H.MGNGA j t) ^ 2).sum ∧
    y.XNEWA j 2 = (evs.map fun e => (weighted c.NFCST fun t => e.P.LOLTA j t + e.P.LOLGA j t) ^ 2).sum ∧
    y.XNEWP 0 = (evs.map fun e => (weighted c.NFCST fun t => e.H.LOLTP t + e.H.LOLGP t) ^ 2).sum ∧
    y.XNEWP 1 = (evs.map fun e => (weighted c.NFCST fun t => e.H.MGNTP t + e.H.MGNGP t) ^ 2).sum ∧
    y.XNEWP 2 = (evs.map fun e => (weighted c.NFCST fun t => e.P.LOLTP t + e.P.LOLGP t) ^ 2).sum := by
  induction evs using List.reverseRecOn generalizing y with
  | nil => cases h; simp [YearSt.init]
  | append_singleton evs e ih =>
    obtain ⟨y1, ⟨⟨H', P'⟩, y', rf⟩, h1, h2, rfl⟩ := yearRun_append h
    obtain ⟨i1, i2, i3, i4, i5, i6⟩ := ih (fun e he => hw e (by simp [he])) y1 h1
    obtain ⟨_, _, _, e1, e2, _⟩ := yearBody_ok h2
    obtain ⟨wH, wP⟩ := hw e (by simp)
    simp only [List.map_append, List.map_cons, List.map_nil, List.sum_append, List.sum_cons, List.sum_nil,
      add_zero]
    rw [e1, e2]
    unfold newA newP poolW
    simp only [zero_add, weighted_sumTG (wH.LOLTA j) (wH.LOLGA j) hN, weighted_sumTG (wH.MGNTA j) (wH.MGNGA j) hN,
      weighted_sumTG (wP.LOLTA j) (wP.LOLGA j) hN, weighted_sumTG wH.LOLTP wH.LOLGP hN,
      weighted_sumTG wH.MGNTP wH.MGNGP hN, weighted_sumTG wP.LOLTP wP.LOLGP hN]
    rw [i1, i2, i3, i4, i5, i6]
    exact ⟨rfl, rfl, rfl, rfl, rfl, rfl⟩

/-- C31 (refuted for the weighted pool statistics). Whatever the years before, the weighted pool sums given to
the final report are those of the last year alone. -/
theorem C31_pool_weighted_refuted (c : YearIn) (hN : c.NFCST ≤ 5) (e : YearEnd n α) (hw : WholeCnt e.H)
    (y : YearSt n α) (r : (Cnt n × Cnt n) × YearSt n α × ℤ)
    (h : yearBody c e.CLOCK e.cal e.net e.LSFLG e.H e.P y = .ok r) (hrep : e.CLOCK ≥ c.FINISH) :
    ∃ rep, r.2.1.rep = some rep ∧ rep.WH.SWLS = weighted c.NFCST (fun t => e.H.LOLTP t + e.H.LOLGP t) ∧
      rep.WH.SWNS = weighted c.NFCST (fun t => e.H.MGNTP t + e.H.MGNGP t) := by
  obtain ⟨⟨H', P'⟩, y', rf⟩ := r
  obtain ⟨_, _, _, _, _, _, _, _, h9, _⟩ := yearBody_ok h
  obtain ⟨rep, h1, _, _, _, _, _, _, h2, h3⟩ := h9 (Or.inr hrep)
  refine ⟨rep, h1, ?_, ?_⟩
  · rw [h2]; simp only [poolW, zero_add]; exact weighted_sumTG hw.LOLTP hw.LOLGP hN
  · rw [h2]; simp only [poolW, zero_add]; exact weighted_sumTG hw.MGNTP hw.MGNGP hN

/-- C31 (weights). The weights of one tier, and of five tiers, sum to one. -/
theorem C31_weights : weighted 1 (fun _ => 1) = 1 ∧ weighted 5 (fun _ => 1) = 1 := by
  constructor <;> decide +kernel

/-! ### A history of two years (one area, one tier) -/

/-- one tier, statistic tested: hourly LOLE of area 0; horizon two years -/
def demoYear : YearIn where
  NFCST := 1
  NORR := 0
  LSTEP := 100
  IOJ := 0
  INDX := 0
  KWHERE := 1
  KVWHEN := 1
  KVSTAT := 1
  KVTYPE := 1
  KVLOC := 0
  CVTEST := 0
  FINISH := 17520
  INTV := 100

/-- `k` loss-of-load hours by generation, 30 MW each, in area 0; two of them at daily peaks -/
def demoCnt (k : ℚ) : Cnt 1 where
  LOLTA := fun _ _ => 0
  LOLGA := fun _ t => if t = 0 then k else 0
  LOLTP := fun _ => 0
  LOLGP := fun t => if t = 0 then k else 0
  MGNTA := fun _ _ => 0
  MGNGA := fun _ t => if t = 0 then 30 * k else 0
  MGNTP := fun _ => 0
  MGNGP := fun t => if t = 0 then 30 * k else 0

theorem demoCnt_whole (k : ℕ) : WholeCnt (demoCnt k) := by
  have h0 : Whole 0 := ⟨0, by simp⟩
  have hk : Whole (k : ℚ) := ⟨k, rfl⟩
  have hk2 : Whole (30 * (k : ℚ)) := ⟨30 * k, by push_cast; rfl⟩
  constructor <;> intros <;> simp only [demoCnt] <;> (try split_ifs) <;> assumption

/-- The year end of year `i+1` with `k` loss-of-load hours. -/
def demoEnd (i : ℕ) (k : ℚ) : YearEnd 1 Unit := ⟨8760 * (i + 1), initfl, (), fun _ => 0, demoCnt k, demoCnt 2⟩

example : (yearRun demoYear [demoEnd 0 10, demoEnd 1 4] (YearSt.init 1 Unit 100 0)).map (fun y =>
    [y.CH.SOLGA 0 0, y.CH.SWNSA 0, y.CH.SOLSP 0, y.hist.HLOLE 0 10, y.hist.HLOLE 0 4, y.hist.EUES 0 3,
      y.hist.DPLOLE 0 2, y.XNEWA 0 0])
    = .ok [14, 420, 14, 1, 1, 1, 2, 116] := by decide +kernel

/-- the report of these two years is given 4 (the second year alone) as weighted pool sum, not 14 -/
example : (yearRun demoYear [demoEnd 0 10, demoEnd 1 4] (YearSt.init 1 Unit 100 0)).map (fun y =>
    y.rep.map fun r => (r.IYEAR, r.WH.SWLS)) = .ok (some (2, 4)) := by decide +kernel

example : ∀ e ∈ [demoEnd 0 10, demoEnd 1 4], WholeCnt e.H ∧ WholeCnt e.P := by
  intro e he
  rcases List.mem_cons.1 he with rfl | he
  · exact ⟨demoCnt_whole 10, demoCnt_whole 2⟩
  · rw [List.mem_singleton] at he; subst he; exact ⟨demoCnt_whole 4, demoCnt_whole 2⟩

/-! ## C33 -/

/-- The model's comparison is the comparison with the real square root; a negative radicand (nan) is never
below anything. -/
theorem sqrtLt_iff (V X : ℚ) : sqrtLt V X = true ↔ 0 ≤ V ∧ Real.sqrt (V : ℝ) < (X : ℝ) := by
  unfold sqrtLt
  rw [decide_eq_true_eq]
  constructor
  · rintro ⟨h0, hX, h⟩
    refine ⟨h0, ?_⟩
    rw [Real.sqrt_lt' (by exact_mod_cast hX)]
    have : ((V : ℚ) : ℝ) < ((X * X : ℚ) : ℝ) := by exact_mod_cast h
    push_cast at this
    rw [sq]; exact this
  · rintro ⟨h0, h⟩
    have hX : (0 : ℝ) < X := lt_of_le_of_lt (Real.sqrt_nonneg _) h
    rw [Real.sqrt_lt' hX, sq] at h
    exact ⟨h0, by exact_mod_cast hX, by exact_mod_cast h⟩

theorem sum_sq_dev (xs : List ℚ) (m : ℚ) :
    (xs.map fun x => (x - m) ^ 2).sum = (xs.map fun x => x ^ 2).sum - 2 * m * xs.sum + xs.length * m ^ 2 := by
  induction xs with
  | nil => simp
  | cons a xs ih =>
    simp only [List.map_cons, List.sum_cons, List.length_cons, ih]
    push_cast; ring

theorem variance_eq (xs : List ℚ) (h : xs ≠ []) :
    variance xs = (xs.map fun x => x ^ 2).sum / xs.length - mean xs ^ 2 := by
  have hl : (xs.length : ℚ) ≠ 0 := by simpa using h
  unfold variance
  rw [sum_sq_dev]
  unfold mean
  field_simp
  ring

theorem variance_nonneg (xs : List ℚ) : 0 ≤ variance xs := by
  unfold variance
  refine div_nonneg (List.sum_nonneg ?_) (Nat.cast_nonneg _)
  intro x hx
  obtain ⟨a, _, rfl⟩ := List.mem_map.1 hx
  positivity

/-- C33 (the test itself). When the test has been fed the running sums of the annual values `xs`, and is now
called for one more year with value `x`: it raises the flag iff the horizon is reached or the standard error
of the mean of the annual values is below the tolerance times their mean (with at least five years); the flag
is 0 or 1; its state becomes the new running sum and the new sum of squares; and the number under the root is
the variance of the annual values over their number, never negative. -/
theorem C33_convergence_test (xs : List ℚ) (x CLOCK FINISH tol : ℚ) :
    let ys := xs ++ [x]
    let r := cvchk CLOCK FINISH ys.length tol ys.sum xs.sum (xs.map fun x => x ^ 2).sum
    (r.1 = 1 ↔ CLOCK ≥ FINISH ∨ Converged tol ys) ∧ (r.1 = 0 ∨ r.1 = 1) ∧
      r.2.1 = (ys.map fun x => x ^ 2).sum ∧ r.2.2 = ys.sum ∧ 0 ≤ variance ys := by
  intro ys r
  have hne : ys ≠ [] := by simp [ys]
  have hl : (ys.length : ℚ) ≠ 0 := by simpa using hne
  have hss : (xs.map fun x => x ^ 2).sum + (ys.sum - xs.sum) ^ 2 = (ys.map fun x => x ^ 2).sum := by
    simp [ys]
  have hV : ((ys.map fun x => x ^ 2).sum / ((ys.length : ℤ) : ℚ) - (ys.sum / ((ys.length : ℤ) : ℚ)) ^ 2) /
      ((ys.length : ℤ) : ℚ) = variance ys / ys.length := by
    rw [variance_eq ys hne]; rfl
  have hM : ys.sum / ((ys.length : ℤ) : ℚ) = mean ys := rfl
  have hr : r = if (ys.length : ℤ) < 5 then (if CLOCK ≥ FINISH then 1 else 0, (ys.map fun x => x ^ 2).sum, ys.sum)
      else if mean ys = 0 then (if CLOCK ≥ FINISH then 1 else 0, (ys.map fun x => x ^ 2).sum, ys.sum)
      else if sqrtLt (variance ys / ys.length) (if tol ≠ 0 then tol * mean ys else 0.025 * mean ys) then
        (1, (ys.map fun x => x ^ 2).sum, ys.sum)
      else (if CLOCK ≥ FINISH then 1 else 0, (ys.map fun x => x ^ 2).sum, ys.sum) := by
    rw [hM] at hV
    simp only [r, cvchk, hss, hM, hV]
  have hconv : Converged tol ys ↔ ¬ (ys.length : ℤ) < 5 ∧ mean ys ≠ 0 ∧
      sqrtLt (variance ys / ys.length) (if tol ≠ 0 then tol * mean ys else 0.025 * mean ys) = true := by
    unfold Converged
    rw [sqrtLt_iff]
    have hv : 0 ≤ variance ys / ys.length := div_nonneg (variance_nonneg _) (Nat.cast_nonneg _)
    have e : (if tol ≠ 0 then tol * mean ys else 0.025 * mean ys) = (if tol = 0 then 0.025 else tol) * mean ys := by
      by_cases h : tol = 0 <;> simp [h]
    rw [e]
    have e2 : ((variance ys / ys.length : ℚ) : ℝ) = (variance ys : ℝ) / ys.length := by push_cast; rfl
    rw [e2]
    unfold stdErr
    constructor
    · rintro ⟨h1, h2, h3⟩; exact ⟨by omega, h2, hv, h3⟩
    · rintro ⟨h1, h2, _, h3⟩; exact ⟨by omega, h2, h3⟩
  rw [hconv, hr]
  refine ⟨?_, ?_, ?_, ?_, variance_nonneg ys⟩
  · split_ifs <;> simp_all
  · split_ifs <;> simp
  · split_ifs <;> rfl
  · split_ifs <;> rfl

/-- `cvchk.py:85-138` (`_cvchk`), with real square roots: `STD = pow(VAR, 0.5)`,
`STDERR = STD / IYEAR**0.5`. -/
noncomputable def cvchk' (CLOCK FINISH : ℚ) (IYEAR : ℤ) (CVTEST SUM XLAST SSQ : ℚ) : ℤ × ℚ × ℚ :=
  open Classical in
  let RFLAG : ℤ := if CLOCK ≥ FINISH then 1 else 0
  let DIFF := SUM - XLAST
  let XLAST := SUM
  let SSQ := SSQ + DIFF ^ 2
  if IYEAR < 5 then (RFLAG, SSQ, XLAST)
  else
    let XMEAN := SUM / IYEAR
    let XX := if CVTEST = 0 then 0.025 * XMEAN else CVTEST * XMEAN
    let VAR := (SSQ / IYEAR) - XMEAN ^ 2
    if XMEAN = 0 then (RFLAG, SSQ, XLAST)
    else if 0 ≤ VAR ∧ Real.sqrt (VAR : ℝ) / Real.sqrt (IYEAR : ℝ) < (XX : ℝ) then (1, SSQ, XLAST)
    else (RFLAG, SSQ, XLAST)

/-- C33 (the two implementations agree), for all arguments. -/
theorem C33_variants_agree (CLOCK FINISH : ℚ) (IYEAR : ℤ) (CVTEST SUM XLAST SSQ : ℚ) :
    cvchk CLOCK FINISH IYEAR CVTEST SUM XLAST SSQ = cvchk' CLOCK FINISH IYEAR CVTEST SUM XLAST SSQ := by
  unfold cvchk cvchk'
  simp only
  by_cases h5 : IYEAR < 5
  · rw [if_pos h5, if_pos h5]
  rw [if_neg h5, if_neg h5]
  by_cases hm : SUM / (IYEAR : ℚ) = 0
  · rw [if_pos hm, if_pos hm]
  rw [if_neg hm, if_neg hm]
  have hI : (0 : ℚ) < IYEAR := by exact_mod_cast (by omega : 0 < IYEAR)
  generalize hV : (SSQ + (SUM - XLAST) ^ 2) / (IYEAR : ℚ) - (SUM / IYEAR) ^ 2 = V
  have hx : (if CVTEST ≠ 0 then CVTEST * (SUM / IYEAR) else 0.025 * (SUM / IYEAR)) =
      (if CVTEST = 0 then 0.025 * (SUM / IYEAR) else CVTEST * (SUM / (IYEAR : ℚ))) := by
    by_cases h : CVTEST = 0 <;> simp [h]
  rw [hx]
  generalize (if CVTEST = 0 then 0.025 * (SUM / IYEAR) else CVTEST * (SUM / (IYEAR : ℚ))) = X
  have key : sqrtLt (V / IYEAR) X = true ↔ (0 ≤ V ∧ Real.sqrt (V : ℝ) / Real.sqrt (IYEAR : ℝ) < (X : ℝ)) := by
    rw [sqrtLt_iff]
    have e : ((V / IYEAR : ℚ) : ℝ) = (V : ℝ) / (IYEAR : ℝ) := by push_cast; rfl
    have hnn : 0 ≤ V / (IYEAR : ℚ) ↔ 0 ≤ V := by
      constructor
      · intro h
        have := mul_nonneg h hI.le
        rwa [div_mul_cancel₀ _ hI.ne'] at this
      · intro h; exact div_nonneg h hI.le
    rw [e, hnn]
    constructor
    · rintro ⟨h0, h⟩
      rw [Real.sqrt_div (by exact_mod_cast h0)] at h
      exact ⟨h0, h⟩
    · rintro ⟨h0, h⟩
      rw [Real.sqrt_div (by exact_mod_cast h0)]
      exact ⟨h0, h⟩
  by_cases hk : sqrtLt (V / IYEAR) X = true
  · rw [if_pos hk, if_pos (key.1 hk)]
  · rw [if_neg hk, if_neg (fun h => hk (key.2 h))]

/-- The annual value of the statistic that the input selects for the convergence test: area `j` or pool
(`none`), hourly or peak, loss of load or unserved energy, average over the tiers or the reference tier. -/
def annualStat (c : YearIn) (a : Option (Fin n)) (e : YearEnd n α) : ℚ :=
  let D := if c.KVWHEN = 1 then e.H else e.P
  let x : Fin 5 → ℚ := match a with
    | some j => if c.KVSTAT = 1 then fun t => D.LOLTA j t + D.LOLGA j t else fun t => D.MGNTA j t + D.MGNGA j t
    | none => if c.KVSTAT = 1 then fun t => D.LOLTP t + D.LOLGP t else fun t => D.MGNTP t + D.MGNGP t
  if c.KVTYPE = 1 then weighted c.NFCST x else x c.NORR

/-- `a` is the area number selected by the input for an area statistic, or `none` for the pool. -/
def Selects (c : YearIn) (a : Option (Fin n)) : Prop :=
  match a with
  | some j => c.KWHERE = 1 ∧ c.KVLOC = (j.val : ℤ)
  | none => c.KWHERE ≠ 1

theorem selSum_eq (c : YearIn) (a : Option (Fin n)) (ha : Selects c a) (hp : a.isSome ∨ c.KVTYPE ≠ 1)
    (hR : c.NORR.val < c.NFCST) (evs : List (YearEnd n α)) (CH CP : Cum n) (WH WP : PoolW)
    (h1 : CumIs c.NFCST (evs.map YearEnd.H) CH) (h2 : CumIs c.NFCST (evs.map YearEnd.P) CP) :
    selSum c CH CP WH WP = .ok (evs.map (annualStat c a)).sum := by
  have hC : CumIs c.NFCST (evs.map fun e => if c.KVWHEN = 1 then e.H else e.P)
      (if c.KVWHEN = 1 then CH else CP) := by
    by_cases h : c.KVWHEN = 1
    · simp only [h, if_true]; exact h1
    · simp only [h, if_false]; exact h2
  unfold selSum annualStat
  simp only
  generalize (if c.KVWHEN = 1 then CH else CP) = C at hC ⊢
  cases a with
  | some j =>
    obtain ⟨k1, k2⟩ := ha
    have hidx : pyIdx n c.KVLOC = .ok j.val := by
      rw [k2]; unfold pyIdx
      rw [if_pos (by omega), if_pos (by exact_mod_cast j.isLt)]; rfl
    rw [if_pos k1, hidx]
    simp only [j.isLt, dif_pos, Fin.eta]
    by_cases s1 : c.KVSTAT = 1 <;> by_cases t1 : c.KVTYPE = 1 <;> simp only [s1, t1, if_true, if_false] <;>
      congr 1
    · rw [hC.SWLSA, List.map_map]; rfl
    · rw [hC.SOLSA j _ hR, List.map_map]; rfl
    · rw [hC.SWNSA, List.map_map]; rfl
    · rw [hC.SGNSA j _ hR, List.map_map]; rfl
  | none =>
    have t1 : c.KVTYPE ≠ 1 := by simpa using hp
    have k1 : c.KWHERE ≠ 1 := ha
    rw [if_neg k1]
    by_cases s1 : c.KVSTAT = 1 <;> simp only [s1, t1, if_true, if_false] <;> congr 1
    · rw [hC.SOLSP _ hR, List.map_map]; rfl
    · rw [hC.SGNSP _ hR, List.map_map]; rfl

theorem iyear_eq (k : ℕ) : pyInt (((8760 : ℚ) * k + 1) / 8760) = (k : ℤ) := by
  have hq : ((8760 : ℚ) * k + 1) / 8760 = (k : ℚ) + 1 / 8760 := by field_simp
  rw [hq, pyInt, if_pos (by positivity), Int.floor_eq_iff]
  push_cast
  constructor
  · linarith [show (0 : ℚ) ≤ 1 / 8760 by norm_num]
  · linarith [show (1 : ℚ) / 8760 < 1 by norm_num]

/-- The `i`-th year ends at clock `8760 (i+1)` (this is C07). -/
def ClocksOK (evs : List (YearEnd n α)) : Prop :=
  ∀ (i : ℕ) (e : YearEnd n α), evs[i]? = some e → e.CLOCK = 8760 * ((i : ℚ) + 1)

/-- C33 (in the simulation). For every area statistic, and every pool statistic of the reference
tier: after any history of years the yearly event signals the end of the run iff the horizon is reached or
the annual values of the selected statistic satisfy the convergence rule. -/
theorem C33_run (c : YearIn) (hN : c.NFCST ≤ 5) (hR : c.NORR.val < c.NFCST) (a : Option (Fin n))
    (ha : Selects c a) (hp : a.isSome ∨ c.KVTYPE ≠ 1) (evs : List (YearEnd n α)) (e : YearEnd n α)
    (hw : ∀ e' ∈ evs ++ [e], WholeCnt e'.H ∧ WholeCnt e'.P) (hclk : ClocksOK (evs ++ [e])) (I T : ℤ)
    (y : YearSt n α) (h : yearRun c evs (YearSt.init n α I T) = .ok y)
    (r : (Cnt n × Cnt n) × YearSt n α × ℤ)
    (h2 : yearBody c e.CLOCK e.cal e.net e.LSFLG e.H e.P y = .ok r) :
    (r.2.2 = 1 ↔ e.CLOCK ≥ c.FINISH ∨ Converged c.CVTEST ((evs ++ [e]).map (annualStat c a))) ∧
      (r.2.2 = 0 ∨ r.2.2 = 1) := by
  have main : ∀ (evs : List (YearEnd n α)) (y : YearSt n α), (∀ e' ∈ evs, WholeCnt e'.H ∧ WholeCnt e'.P) →
      ClocksOK evs → yearRun c evs (YearSt.init n α I T) = .ok y →
      y.XLAST = (evs.map (annualStat c a)).sum ∧
      y.SSQ = ((evs.map (annualStat c a)).map fun x => x ^ 2).sum := by
    intro evs
    induction evs using List.reverseRecOn with
    | nil => intro y _ _ h; cases h; simp [YearSt.init]
    | append_singleton evs e ih =>
      intro y hw hclk h
      obtain ⟨y1, ⟨⟨H', P'⟩, y', rf⟩, h1, h2, rfl⟩ := yearRun_append h
      have hc1 : ClocksOK evs := fun i e' he' =>
        hclk i e' (by rw [List.getElem?_append_left (by
          rw [List.getElem?_eq_some_iff] at he'; exact he'.1)]; exact he')
      obtain ⟨i1, i2⟩ := ih y1 (fun e he => hw e (by simp [he])) hc1 h1
      obtain ⟨_, _, _, _, _, _, _, ⟨SUM, hS, hcv⟩, _⟩ := yearBody_ok h2
      obtain ⟨j1, j2⟩ := C31_cumulative c hN (evs ++ [e]) hw I T y' h
      rw [selSum_eq c a ha hp hR (evs ++ [e]) _ _ _ _ j1 j2] at hS
      cases hS
      have hck := hclk evs.length e (by simp)
      have hy : pyInt ((e.CLOCK + 1) / 8760) = (((evs.map (annualStat c a)) ++ [annualStat c a e]).length : ℤ) := by
        rw [hck]
        have := iyear_eq (evs.length + 1)
        push_cast at this
        rw [this]; simp
      rw [hy, i1, i2, List.map_append, List.map_cons, List.map_nil] at hcv
      obtain ⟨_, _, k3, k4, _⟩ := C33_convergence_test (evs.map (annualStat c a)) (annualStat c a e) e.CLOCK
        c.FINISH c.CVTEST
      rw [← hcv] at k3 k4
      rw [List.map_append, List.map_cons, List.map_nil]
      exact ⟨k4, k3⟩
  have hc1 : ClocksOK evs := fun i e' he' =>
    hclk i e' (by rw [List.getElem?_append_left (by
      rw [List.getElem?_eq_some_iff] at he'; exact he'.1)]; exact he')
  obtain ⟨i1, i2⟩ := main evs y (fun e he => hw e (by simp [he])) hc1 h
  have hrun := yearRun_append' h h2
  obtain ⟨⟨H', P'⟩, y', rf⟩ := r
  obtain ⟨_, _, _, _, _, _, _, ⟨SUM, hS, hcv⟩, _⟩ := yearBody_ok h2
  obtain ⟨j1, j2⟩ := C31_cumulative c hN (evs ++ [e]) hw I T y' hrun
  rw [selSum_eq c a ha hp hR (evs ++ [e]) _ _ _ _ j1 j2] at hS
  cases hS
  have hck := hclk evs.length e (by simp)
  have hy : pyInt ((e.CLOCK + 1) / 8760) = (((evs.map (annualStat c a)) ++ [annualStat c a e]).length : ℤ) := by
    rw [hck]
    have := iyear_eq (evs.length + 1)
    push_cast at this
    rw [this]; simp
  rw [hy, i1, i2, List.map_append, List.map_cons, List.map_nil] at hcv
  obtain ⟨k1, k2, _, _, _⟩ := C33_convergence_test (evs.map (annualStat c a)) (annualStat c a e) e.CLOCK
    c.FINISH c.CVTEST
  rw [← hcv] at k1 k2
  rw [List.map_append, List.map_cons, List.map_nil]
  exact ⟨k1, k2⟩

/-- the weighted pool LOLE is tested; the horizon is far away -/
def poolYear : YearIn := { demoYear with KWHERE := 2, FINISH := 876000 }

/-- five years with 100, 200, ..., 500 loss-of-load hours -/
def growing : List (YearEnd 1 Unit) := (List.range 5).map fun i => demoEnd i (100 * ((i : ℚ) + 1))

/-- C33 (refuted for the weighted pool statistics). Five years with 100, 200, 300, 400, 500 loss-of-load hours:
the run is declared converged, although the horizon is not reached and the standard error of the mean (63.2) is
far above the tolerance (2.5 percent of 300). -/
theorem C33_pool_weighted_refuted :
    ∃ y r, yearRun poolYear (growing.take 4) (YearSt.init 1 Unit 100 0) = .ok y ∧
      yearBody poolYear (8760 * 5) initfl () (fun _ => 0) (demoCnt 500) (demoCnt 2) y = .ok r ∧ r.2.2 = 1 ∧
      ¬ (8760 * 5 ≥ poolYear.FINISH) ∧
      ¬ Converged poolYear.CVTEST (growing.map (annualStat poolYear none)) := by
  have h1 : ((yearRun poolYear (growing.take 4) (YearSt.init 1 Unit 100 0)).bind fun y =>
      (yearBody poolYear (8760 * 5) initfl () (fun _ => 0) (demoCnt 500) (demoCnt 2) y).map fun r => r.2.2)
      = .ok 1 := by decide +kernel
  have h2 : growing.map (annualStat poolYear none) = [100, 200, 300, 400, 500] := by decide +kernel
  cases hy : yearRun poolYear (growing.take 4) (YearSt.init 1 Unit 100 0) with
  | error e => rw [hy] at h1; cases h1
  | ok y =>
    rw [hy] at h1
    simp only [Except.bind] at h1
    cases hr : yearBody poolYear (8760 * 5) initfl () (fun _ => 0) (demoCnt 500) (demoCnt 2) y with
    | error e => rw [hr] at h1; cases h1
    | ok r =>
      rw [hr] at h1
      simp only [Except.map, Except.ok.injEq] at h1
      refine ⟨y, r, rfl, hr, h1, ?_, ?_⟩
      · show ¬ ((8760 : ℚ) * 5 ≥ 876000); norm_num
      · rw [h2]
        rintro ⟨_, _, h⟩
        have hm : mean [100, 200, 300, 400, 500] = 300 := by decide +kernel
        have hv : variance [100, 200, 300, 400, 500] = 20000 := by decide +kernel
        unfold stdErr at h
        rw [hm, hv] at h
        rw [show poolYear.CVTEST = 0 from rfl, if_pos rfl] at h
        rw [Real.sqrt_lt' (by norm_num)] at h
        norm_num at h

/-- hourly LOLE of area 0, five years 300 +- 2: converged -/
example : (yearRun { demoYear with FINISH := 876000 } ([300, 302, 298, 300].zipIdx.map fun p => demoEnd p.2 p.1)
      (YearSt.init 1 Unit 100 0)).bind (fun y =>
      (yearBody { demoYear with FINISH := 876000 } (8760 * 5) initfl () (fun _ => 0) (demoCnt 300) (demoCnt 2) y).map
        fun r => r.2.2) = .ok 1 := by decide +kernel

example : Selects (n := 1) demoYear (some 0) ∧ ((some 0 : Option (Fin 1)).isSome = true ∨ demoYear.KVTYPE ≠ 1) ∧
    demoYear.NORR.val < demoYear.NFCST ∧ ClocksOK growing := by
  refine ⟨⟨rfl, rfl⟩, Or.inl rfl, by decide, ?_⟩
  intro i e he
  simp only [growing, List.getElem?_map, Option.map_eq_some_iff] at he
  obtain ⟨k, hk, rfl⟩ := he
  rw [List.getElem?_eq_some_iff] at hk
  obtain ⟨_, hk⟩ := hk
  rw [List.getElem_range] at hk
  rw [hk]; rfl

end Narp.Props
