import Verif.Model.Text
import Verif.Props.AnnualTable
import Mathlib.Algebra.BigOperators.Field

/-!
# C63: the final report
-/

namespace Narp.Props
open Narp.Spec BigOperators

variable {n : ℕ} {α : Type}

/-! ## Specification of the report -/

/-- The row the first table should show after the years `evs`: means over the years, and the mean shortage over
all years. `hourly` tells whether the hourly columns are printed. -/
def wantFinal (hourly : Bool) (N : ℕ) (evs : List (YearEnd n α)) (a : Option (Fin n)) (tier : Option (Fin 5))
    (tag : Tag) : Row :=
  let l := evs.map fun e => pickTier N tier (wantLole e.H a tag)
  let u := evs.map fun e => pickTier N tier (wantEue e.H a tag)
  let lp := evs.map fun e => pickTier N tier (wantLole e.P a tag)
  let up := evs.map fun e => pickTier N tier (wantEue e.P a tag)
  ⟨a.map Fin.val, tier.map Fin.val, if hourly then some (mean l, meanShort u.sum l.sum, mean u) else none,
    (mean lp, meanShort up.sum lp.sum), tag⟩

/-- The rows of the tiers (printed only if there are several). -/
def wantTiers (hourly : Bool) (N : ℕ) (evs : List (YearEnd n α)) (a : Option (Fin n)) : List Row :=
  if N ≠ 1 then
    ((List.finRange 5).take N).flatMap fun t => [Tag.GC, .TC, .GT].map (wantFinal hourly N evs a (some t))
  else []

/-- The rows of the weighted averages. -/
def wantAvg (hourly : Bool) (N : ℕ) (evs : List (YearEnd n α)) (a : Option (Fin n)) : List Row :=
  [Tag.GC, .TC, .GT].map (wantFinal hourly N evs a none)

/-- What the code shows instead for the weighted averages of the pool: the values of the last year `e` alone,
divided by the number `k` of years. -/
def lastAvg (hourly : Bool) (N : ℕ) (k : ℕ) (e : YearEnd n α) (tag : Tag) : Row :=
  let l := weighted N (wantLole e.H none tag)
  let u := weighted N (wantEue e.H none tag)
  let lp := weighted N (wantLole e.P none tag)
  let up := weighted N (wantEue e.P none tag)
  ⟨none, none, if hourly then some (l / k, meanShort u l, u / k) else none, (lp / k, meanShort up lp), tag⟩

/-- The annual values behind the three columns of the summary: loss-of-load hours, unserved energy,
loss-of-load days (total of both causes, weighted over the tiers). -/
def annHours (N : ℕ) (evs : List (YearEnd n α)) (j : Fin n) : List ℚ :=
  evs.map fun e => weighted N fun t => e.H.LOLTA j t + e.H.LOLGA j t

/-- unserved energy -/
def annEnergy (N : ℕ) (evs : List (YearEnd n α)) (j : Fin n) : List ℚ :=
  evs.map fun e => weighted N fun t => e.H.MGNTA j t + e.H.MGNGA j t

/-- loss-of-load days -/
def annDays (N : ℕ) (evs : List (YearEnd n α)) (j : Fin n) : List ℚ :=
  evs.map fun e => weighted N fun t => e.P.LOLTA j t + e.P.LOLGA j t

/-- The same for the pool. -/
def annHoursP (N : ℕ) (evs : List (YearEnd n α)) : List ℚ :=
  evs.map fun e => weighted N fun t => e.H.LOLTP t + e.H.LOLGP t

/-- unserved energy -/
def annEnergyP (N : ℕ) (evs : List (YearEnd n α)) : List ℚ :=
  evs.map fun e => weighted N fun t => e.H.MGNTP t + e.H.MGNGP t

/-- loss-of-load days -/
def annDaysP (N : ℕ) (evs : List (YearEnd n α)) : List ℚ :=
  evs.map fun e => weighted N fun t => e.P.LOLTP t + e.P.LOLGP t

/-- Reserve in percent of the peak. -/
def reservePct (cap peak : ℚ) : ℚ := (cap - peak) / peak * 100

/-- What should be printed for annual values `xs`: the standard error of the mean in percent of the mean. -/
noncomputable def wantSd (xs : List ℚ) : Option ℝ :=
  if mean xs > 0 then some (stdErr xs / (mean xs : ℝ) * 100) else some 0

/-! ## What the report is given -/

/-- The years `evs` were simulated from the initial state without an error, the year `e` came next and ended the
run (horizon or convergence), and `r` is what it handed to the report. -/
def RunEnds (c : YearIn) (I T : ℤ) (evs : List (YearEnd n α)) (e : YearEnd n α) (r : RepIn n) : Prop :=
  ∃ y q, yearRun c evs (YearSt.init n α I T) = .ok y ∧
    yearBody c e.CLOCK e.cal e.net e.LSFLG e.H e.P y = .ok q ∧ (q.2.2 = 1 ∨ e.CLOCK ≥ c.FINISH) ∧
    q.2.1.rep = some r

theorem RunEnds.facts {c : YearIn} {I T : ℤ} {evs : List (YearEnd n α)} {e : YearEnd n α} {r : RepIn n}
    (h : RunEnds c I T evs e r) (hclk : ClocksOK (evs ++ [e])) :
    r.IYEAR = ((evs ++ [e]).length : ℤ) ∧ r.WH = poolW c.NFCST e.H ∧ r.WP = poolW c.NFCST e.P ∧
    ∃ y, yearRun c (evs ++ [e]) (YearSt.init n α I T) = .ok y ∧ r.CH = y.CH ∧ r.CP = y.CP ∧ r.hist = y.hist ∧
      r.XNEWA = y.XNEWA ∧ r.XNEWP = y.XNEWP := by
  obtain ⟨y, ⟨⟨H', P'⟩, y', rf⟩, h1, h2, h3, h4⟩ := h
  have hrun := yearRun_append' h1 h2
  obtain ⟨_, _, _, _, _, _, _, _, h9, _⟩ := yearBody_ok h2
  obtain ⟨r', e1, e2, e3, e4, e5, e6, e7, e8, e9⟩ := h9 h3
  simp only at h4
  rw [e1] at h4
  cases h4
  refine ⟨?_, e8, e9, y', hrun, e3, e4, e5, e6, e7⟩
  rw [e2, hclk evs.length e (by simp)]
  have := iyear_eq (evs.length + 1)
  push_cast at this
  rw [this]; simp

theorem mean_eq (xs : List ℚ) (k : ℤ) (h : k = xs.length) : xs.sum / (k : ℚ) = mean xs := by
  subst h; rfl

/-! ## The first table -/

/-- One printed row from the sums over the years. -/
theorem repRow_eq (INDX : ℤ) (a : Option ℕ) (t : Option ℕ) (l u lp up : List ℚ) (k : ℤ) (hl : k = l.length)
    (hu : k = u.length) (hlp : k = lp.length) (tag : Tag) :
    repRow INDX a t l.sum u.sum lp.sum up.sum k tag =
      ⟨a, t, if decide (INDX ≠ 1) then some (mean l, meanShort u.sum l.sum, mean u) else none,
        (mean lp, meanShort up.sum lp.sum), tag⟩ := by
  unfold repRow mkRow
  rw [mean_eq l k hl, mean_eq u k hu, mean_eq lp k hlp]
  by_cases h : INDX = 1 <;> simp [h, xlol, meanShort]

/-- C63 (first table). When the run ends after the years `evs` and `e`, the report states that number of years,
and its first table shows, for every area, for every tier (if there are several) and cause, and for the weighted
averages, the mean over the years of the annual loss of load and unserved energy and the mean shortage over all
years; likewise for every tier and cause of the pool. The weighted averages of the pool are not of
this kind (C89): they are those of the last year divided by the number of years, see `C63_pool_average_refuted`. -/
theorem C63_rows (c : YearIn) (hN : c.NFCST ≤ 5) (I T : ℤ) (evs : List (YearEnd n α)) (e : YearEnd n α)
    (hw : ∀ e' ∈ evs ++ [e], WholeCnt e'.H ∧ WholeCnt e'.P) (hclk : ClocksOK (evs ++ [e])) (r : RepIn n)
    (h : RunEnds c I T evs e r) (ITAB : ℤ) (NAMA : Fin n → String) (S : Sus n) (R : Report n)
    (hR : report c.NFCST c.INDX c.LSTEP ITAB NAMA r S = .ok R) :
    R.years = ((evs ++ [e]).length : ℤ) ∧
    R.rows =
      ((List.finRange n).flatMap fun j => wantTiers (c.INDX ≠ 1) c.NFCST (evs ++ [e]) (some j) ++
        wantAvg (c.INDX ≠ 1) c.NFCST (evs ++ [e]) (some j)) ++
      wantTiers (c.INDX ≠ 1) c.NFCST (evs ++ [e]) none ++
      [Tag.GC, .TC, .GT].map (lastAvg (c.INDX ≠ 1) c.NFCST (evs ++ [e]).length e) := by
  obtain ⟨hI, hWH, hWP, y, hy, h1, h2, _⟩ := h.facts hclk
  obtain ⟨cH, cP⟩ := C31_cumulative c hN (evs ++ [e]) hw I T y hy
  rw [← h1] at cH
  rw [← h2] at cP
  unfold report at hR
  split at hR
  · cases hR
  · simp only [Except.ok.injEq] at hR
    subst hR
    refine ⟨hI, ?_⟩
    simp only
    obtain ⟨wH, wP⟩ := hw e (by simp)
    unfold repPool
    rw [List.append_assoc]
    generalize hE : evs ++ [e] = E at *
    have tier : ∀ (a : Option (Fin n)) (f : Fin 5 → List Row),
        (∀ t : Fin 5, t.val < c.NFCST → f t = [Tag.GC, .TC, .GT].map (wantFinal (c.INDX ≠ 1) c.NFCST E a (some t))) →
        (if c.NFCST ≠ 1 then ((List.finRange 5).take c.NFCST).flatMap f else []) =
          wantTiers (c.INDX ≠ 1) c.NFCST E a := by
      intro a f hf
      unfold wantTiers
      split_ifs
      · rw [List.flatMap_def, List.flatMap_def]
        congr 1
        exact List.map_congr_left fun t ht => hf t (mem_take_finRange ht)
      · rfl
    congr 1
    · rw [List.flatMap_def, List.flatMap_def]
      congr 1
      refine List.map_congr_left fun j _ => ?_
      unfold repArea
      congr 1
      · refine tier (some j) _ fun t ht => ?_
        rw [cH.SOLTA j t ht, cH.SOLGA j t ht, cH.SOLSA j t ht, cH.SGNTA j t ht, cH.SGNGA j t ht, cH.SGNSA j t ht,
          cP.SOLTA j t ht, cP.SOLGA j t ht, cP.SOLSA j t ht, cP.SGNTA j t ht, cP.SGNGA j t ht, cP.SGNSA j t ht]
        simp only [List.map_map]
        rw [repRow_eq, repRow_eq, repRow_eq] <;> first | rfl | simpa using hI
      · unfold wantAvg
        rw [cH.SWLTA j, cH.SWLGA j, cH.SWLSA j, cH.SWNTA j, cH.SWNGA j, cH.SWNSA j,
          cP.SWLTA j, cP.SWLGA j, cP.SWLSA j, cP.SWNTA j, cP.SWNGA j, cP.SWNSA j]
        simp only [List.map_map]
        rw [repRow_eq, repRow_eq, repRow_eq] <;> first | rfl | simpa using hI
    · congr 1
      · refine tier none _ fun t ht => ?_
        rw [cH.SOLTP t ht, cH.SOLGP t ht, cH.SOLSP t ht, cH.SGNTP t ht, cH.SGNGP t ht, cH.SGNSP t ht,
          cP.SOLTP t ht, cP.SOLGP t ht, cP.SOLSP t ht, cP.SGNTP t ht, cP.SGNGP t ht, cP.SGNSP t ht]
        simp only [List.map_map]
        rw [repRow_eq, repRow_eq, repRow_eq] <;> first | rfl | simpa using hI
      · rw [hWH, hWP, hI]
        simp only [poolW, zero_add, weighted_sumTG wH.LOLTP wH.LOLGP hN, weighted_sumTG wH.MGNTP wH.MGNGP hN,
          weighted_sumTG wP.LOLTP wP.LOLGP hN, weighted_sumTG wP.MGNTP wP.MGNGP hN, wavg_eq c.NFCST hN]
        by_cases h1 : c.INDX = 1 <;>
          simp [h1, repRow, mkRow, lastAvg, xlol, meanShort, wantLole, wantEue]

/-! ## The summary -/

/-- What the loop of the summary makes of an area's line. -/
def withRes (a : Fin 6 → ℚ) : Fin 6 → ℚ := if a 0 > 0 then Function.update a 2 (reservePct (a 1) (a 0)) else a

theorem withRes_of_ne (a : Fin 6 → ℚ) {k : Fin 6} (h : k ≠ 2) : withRes a k = a k := by
  unfold withRes; split_ifs
  · exact Function.update_of_ne h _ _
  · rfl

theorem sumLoop (INDX : ℤ) (NAMA : Fin n → String) (r : RepIn n) (l : List (Fin n)) (hl : l.Nodup)
    (s : Sus n × List SumRow) :
    (∀ j, (l.foldl (sumBody INDX NAMA r) s).1.area j = if j ∈ l then withRes (s.1.area j) else s.1.area j) ∧
    (l.foldl (sumBody INDX NAMA r) s).1.pool 0 = s.1.pool 0 + (l.map fun j => s.1.area j 0).sum ∧
    (l.foldl (sumBody INDX NAMA r) s).1.pool 1 = s.1.pool 1 + (l.map fun j => s.1.area j 1).sum ∧
    (∀ k : Fin 6, k ≠ 0 → k ≠ 1 → (l.foldl (sumBody INDX NAMA r) s).1.pool k = s.1.pool k) ∧
    (l.foldl (sumBody INDX NAMA r) s).2 =
      s.2 ++ l.map fun j => sumRow INDX (some (NAMA j)) (withRes (s.1.area j)) (repSSQA r j) := by
  induction l generalizing s with
  | nil => simp
  | cons i l ih =>
    rw [List.nodup_cons] at hl
    rw [List.foldl_cons]
    obtain ⟨h1, h2, h3, h4, h5⟩ := ih hl.2 (sumBody INDX NAMA r s i)
    have ha : (sumBody INDX NAMA r s i).1.area = Function.update s.1.area i (withRes (s.1.area i)) := rfl
    have ho : ∀ j, j ∈ l → (sumBody INDX NAMA r s i).1.area j = s.1.area j := by
      intro j hj
      rw [ha, Function.update_of_ne (by rintro rfl; exact hl.1 hj)]
    have hp0 : (sumBody INDX NAMA r s i).1.pool 0 = s.1.pool 0 + s.1.area i 0 := by
      have : (sumBody INDX NAMA r s i).1.pool 0 = s.1.pool 0 + withRes (s.1.area i) 0 := by
        unfold sumBody withRes reservePct
        simp only
        rw [Function.update_of_ne (by decide), Function.update_self]
      rw [this, withRes_of_ne _ (by decide)]
    have hp1 : (sumBody INDX NAMA r s i).1.pool 1 = s.1.pool 1 + s.1.area i 1 := by
      have : (sumBody INDX NAMA r s i).1.pool 1 = s.1.pool 1 + withRes (s.1.area i) 1 := by
        unfold sumBody withRes reservePct
        simp only
        rw [Function.update_self, Function.update_of_ne (by decide)]
      rw [this, withRes_of_ne _ (by decide)]
    have hpk : ∀ k : Fin 6, k ≠ 0 → k ≠ 1 → (sumBody INDX NAMA r s i).1.pool k = s.1.pool k := by
      intro k k0 k1
      unfold sumBody
      simp only
      rw [Function.update_of_ne k1, Function.update_of_ne k0]
    have hr : (sumBody INDX NAMA r s i).2 =
        s.2 ++ [sumRow INDX (some (NAMA i)) (withRes (s.1.area i)) (repSSQA r i)] := rfl
    refine ⟨?_, ?_, ?_, ?_, ?_⟩
    · intro j
      rw [h1 j]
      by_cases hj : j ∈ l
      · rw [if_pos hj, if_pos (by simp [hj]), ho j hj]
      · rw [if_neg hj]
        by_cases e : j = i
        · subst e; rw [if_pos (by simp), ha, Function.update_self]
        · rw [if_neg (by simp [e, hj]), ha, Function.update_of_ne e]
    · rw [h2, hp0, List.map_cons, List.sum_cons, add_assoc]
      congr 3
      exact List.map_congr_left fun j hj => by rw [ho j hj]
    · rw [h3, hp1, List.map_cons, List.sum_cons, add_assoc]
      congr 3
      exact List.map_congr_left fun j hj => by rw [ho j hj]
    · intro k k0 k1; rw [h4 k k0 k1, hpk k k0 k1]
    · rw [h5, hr, List.map_cons, List.append_assoc, List.singleton_append]
      congr 2
      exact List.map_congr_left fun j hj => by rw [ho j hj]

theorem sd_eq (xs : List ℚ) (hne : xs ≠ []) (k : ℤ) (hk : k = xs.length) :
    Sd.pct ⟨((xs.map fun x => x ^ 2).sum / k - (xs.sum / k) ^ 2) / k, xs.sum / k⟩ = wantSd xs := by
  rw [mean_eq xs k hk, hk]
  unfold Sd.pct wantSd stdErr
  have : (xs.map fun x => x ^ 2).sum / (((xs.length : ℕ) : ℤ) : ℚ) - mean xs ^ 2 = variance xs := by
    rw [variance_eq xs hne]; rfl
  simp only [this]
  have hv : 0 ≤ variance xs / (((xs.length : ℕ) : ℤ) : ℚ) :=
    div_nonneg (variance_nonneg _) (by positivity)
  simp only [hv, if_true]
  push_cast
  rfl

/-- C63 (summary of the areas). The summary has one line per area, in order, and one for the pool. The line of an
area shows its name, peak and capacity as given; its reserve in percent of the peak; and the means over the years
of loss-of-load hours, unserved energy and loss-of-load days (hours and energy only in hourly mode) with the
standard error of each mean in percent of it, which is always a number. -/
theorem C63_summary_areas (c : YearIn) (hN : c.NFCST ≤ 5) (I T : ℤ) (evs : List (YearEnd n α)) (e : YearEnd n α)
    (hw : ∀ e' ∈ evs ++ [e], WholeCnt e'.H ∧ WholeCnt e'.P) (hclk : ClocksOK (evs ++ [e])) (r : RepIn n)
    (h : RunEnds c I T evs e r) (ITAB : ℤ) (NAMA : Fin n → String) (S : Sus n) (R : Report n)
    (hR : report c.NFCST c.INDX c.LSTEP ITAB NAMA r S = .ok R) :
    R.summary.length = n + 1 ∧ ∀ j : Fin n, ∃ s, R.summary[j.val]? = some s ∧ s.name = some (NAMA j) ∧
      s.peak = S.area j 0 ∧ s.cap = S.area j 1 ∧
      (0 < S.area j 0 → s.res = reservePct (S.area j 1) (S.area j 0)) ∧
      s.lole.1 = mean (annDays c.NFCST (evs ++ [e]) j) ∧
      s.lole.2.pct = wantSd (annDays c.NFCST (evs ++ [e]) j) ∧
      (c.INDX = 1 → s.hourly = none) ∧
      (c.INDX ≠ 1 → ∃ a b, s.hourly = some (a, b) ∧
        a.1 = mean (annHours c.NFCST (evs ++ [e]) j) ∧ a.2.pct = wantSd (annHours c.NFCST (evs ++ [e]) j) ∧
        b.1 = mean (annEnergy c.NFCST (evs ++ [e]) j) ∧ b.2.pct = wantSd (annEnergy c.NFCST (evs ++ [e]) j)) := by
  obtain ⟨hI, _, _, y, hy, h1, h2, _, h4, _⟩ := h.facts hclk
  obtain ⟨cH, cP⟩ := C31_cumulative c hN (evs ++ [e]) hw I T y hy
  rw [← h1] at cH
  rw [← h2] at cP
  have hsq := C31_squares c hN (evs ++ [e]) hw I T y hy
  rw [← h4] at hsq
  unfold report at hR
  split at hR
  · cases hR
  · rename_i S' rows hs
    simp only [Except.ok.injEq] at hR
    subst hR
    simp only
    unfold repSummary at hs
    simp only at hs
    split at hs
    · cases hs
    · simp only [Except.ok.injEq, Prod.mk.injEq] at hs
      obtain ⟨_, hs⟩ := hs
      obtain ⟨_, _, _, _, h5⟩ := sumLoop c.INDX NAMA r (List.finRange n) (List.nodup_finRange n) (repMeans r S, [])
      rw [h5, List.nil_append] at hs
      rw [← hs]
      refine ⟨by simp, fun j => ?_⟩
      refine ⟨sumRow c.INDX (some (NAMA j)) (withRes ((repMeans r S).area j)) (repSSQA r j), ?_, rfl, ?_⟩
      · rw [List.getElem?_append_left (by simp), List.getElem?_map]
        simp
      have hH : r.CH.SWLSA j = (annHours c.NFCST (evs ++ [e]) j).sum := by
        rw [cH.SWLSA j]; simp [annHours]; rfl
      have hE : r.CH.SWNSA j = (annEnergy c.NFCST (evs ++ [e]) j).sum := by
        rw [cH.SWNSA j]; simp [annEnergy]; rfl
      have hD : r.CP.SWLSA j = (annDays c.NFCST (evs ++ [e]) j).sum := by
        rw [cP.SWLSA j]; simp [annDays]; rfl
      obtain ⟨q1, q2, q3, _⟩ := hsq j
      have q1' : r.XNEWA j 0 = ((annHours c.NFCST (evs ++ [e]) j).map fun x => x ^ 2).sum := by
        rw [q1]; simp [annHours]; rfl
      have q2' : r.XNEWA j 1 = ((annEnergy c.NFCST (evs ++ [e]) j).map fun x => x ^ 2).sum := by
        rw [q2]; simp [annEnergy]; rfl
      have q3' : r.XNEWA j 2 = ((annDays c.NFCST (evs ++ [e]) j).map fun x => x ^ 2).sum := by
        rw [q3]; simp [annDays]; rfl
      have nH : annHours c.NFCST (evs ++ [e]) j ≠ [] := by simp [annHours]
      have nE : annEnergy c.NFCST (evs ++ [e]) j ≠ [] := by simp [annEnergy]
      have nD : annDays c.NFCST (evs ++ [e]) j ≠ [] := by simp [annDays]
      have lH : r.IYEAR = (annHours c.NFCST (evs ++ [e]) j).length := by rw [hI]; simp [annHours]
      have lE : r.IYEAR = (annEnergy c.NFCST (evs ++ [e]) j).length := by rw [hI]; simp [annEnergy]
      have lD : r.IYEAR = (annDays c.NFCST (evs ++ [e]) j).length := by rw [hI]; simp [annDays]
      have sH := sd_eq _ nH _ lH
      have sE := sd_eq _ nE _ lE
      have sD := sd_eq _ nD _ lD
      rw [← q1', ← hH] at sH
      rw [← q2', ← hE] at sE
      rw [← q3', ← hD] at sD
      refine ⟨?_, ?_, ?_, ?_, ?_, ?_, ?_⟩
      · exact withRes_of_ne _ (by decide)
      · exact withRes_of_ne _ (by decide)
      · intro hp
        show withRes _ 2 = _
        unfold withRes
        rw [if_pos (by exact hp), Function.update_self]
        rfl
      · show withRes _ 4 = _
        rw [withRes_of_ne _ (by decide), ← mean_eq _ _ lD, ← hD]; rfl
      · show Sd.pct ⟨_, withRes _ 4⟩ = _
        rw [withRes_of_ne _ (by decide)]; exact sD
      · intro h1; simp [sumRow, h1]
      · intro h1
        refine ⟨_, _, by unfold sumRow; rw [if_pos h1], ?_, ?_, ?_, ?_⟩
        · simp only; rw [withRes_of_ne _ (by decide), ← mean_eq _ _ lH, ← hH]; rfl
        · simp only; rw [withRes_of_ne _ (by decide)]; exact sH
        · simp only; rw [withRes_of_ne _ (by decide), ← mean_eq _ _ lE, ← hE]; rfl
        · simp only; rw [withRes_of_ne _ (by decide)]; exact sE

/-- The standard error of the code's pool lines: computed from the true squares but the last year's value `x`. -/
def poolSd (xs : List ℚ) (x : ℚ) : Sd :=
  ⟨((xs.map fun x => x ^ 2).sum / xs.length - (x / xs.length) ^ 2) / xs.length, x / xs.length⟩

/-- C63 (summary of the pool; what holds). The pool's line shows the sums of the areas' peaks and capacities
(SUSTAT's last row starts at 0). Its magnitudes are those of the last year divided by the number of years, and
its reserve is that of the last area. The standard deviations printed are always numbers. -/
theorem C63_summary_pool_partial (c : YearIn) (hN : c.NFCST ≤ 5) (I T : ℤ) (evs : List (YearEnd n α))
    (e : YearEnd n α) (hw : ∀ e' ∈ evs ++ [e], WholeCnt e'.H ∧ WholeCnt e'.P) (hclk : ClocksOK (evs ++ [e]))
    (r : RepIn n) (h : RunEnds c I T evs e r) (ITAB : ℤ) (NAMA : Fin n → String) (S : Sus n)
    (hS : S.pool 0 = 0 ∧ S.pool 1 = 0) (R : Report n)
    (hR : report c.NFCST c.INDX c.LSTEP ITAB NAMA r S = .ok R) :
    ∃ s, R.summary[n]? = some s ∧ s.name = none ∧
      s.peak = ∑ j, S.area j 0 ∧ s.cap = ∑ j, S.area j 1 ∧
      (∀ j : Fin n, j.val + 1 = n → 0 < S.area j 0 → s.res = reservePct (S.area j 1) (S.area j 0)) ∧
      s.lole = ((weighted c.NFCST fun t => e.P.LOLTP t + e.P.LOLGP t) / (evs ++ [e]).length,
        poolSd (annDaysP c.NFCST (evs ++ [e])) (weighted c.NFCST fun t => e.P.LOLTP t + e.P.LOLGP t)) ∧
      s.lole.2.pct.isSome ∧
      (c.INDX ≠ 1 → s.hourly = some
        (((weighted c.NFCST fun t => e.H.LOLTP t + e.H.LOLGP t) / (evs ++ [e]).length,
          poolSd (annHoursP c.NFCST (evs ++ [e])) (weighted c.NFCST fun t => e.H.LOLTP t + e.H.LOLGP t)),
         ((weighted c.NFCST fun t => e.H.MGNTP t + e.H.MGNGP t) / (evs ++ [e]).length,
          poolSd (annEnergyP c.NFCST (evs ++ [e])) (weighted c.NFCST fun t => e.H.MGNTP t + e.H.MGNGP t)))) := by
  obtain ⟨hI, hWH, hWP, y, hy, h1, h2, _, h4, h5⟩ := h.facts hclk
  obtain ⟨wH, wP⟩ := hw e (by simp)
  unfold report at hR
  split at hR
  · cases hR
  · rename_i S' rows hs
    simp only [Except.ok.injEq] at hR
    subst hR
    simp only
    unfold repSummary at hs
    simp only at hs
    split at hs
    · cases hs
    · rename_i i hi
      simp only [Except.ok.injEq, Prod.mk.injEq] at hs
      obtain ⟨_, hs⟩ := hs
      have hil : i.val + 1 = n := by
        rw [List.getLast?_eq_getElem?] at hi
        rw [List.getElem?_eq_some_iff] at hi
        obtain ⟨hlt, hi⟩ := hi
        simp at hi hlt
        rw [← hi]; simp; omega
      have hsq := C31_squares c hN (evs ++ [e]) hw I T y hy i
      rw [← h5] at hsq
      obtain ⟨_, _, _, q1, q2, q3⟩ := hsq
      obtain ⟨k1, k2, k3, k4, k5⟩ := sumLoop c.INDX NAMA r (List.finRange n) (List.nodup_finRange n)
        (repMeans r S, [])
      have hsum : ∀ f : Fin n → ℚ, ((List.finRange n).map f).sum = ∑ j, f j := fun f => by
        rw [← List.ofFn_eq_map, List.sum_ofFn]
      rw [hsum] at k2 k3
      simp only [List.mem_finRange, if_true] at k1
      rw [k5, List.nil_append, k1 i] at hs
      have hlen : ((List.finRange n).map fun j =>
          sumRow c.INDX (some (NAMA j)) (withRes ((repMeans r S).area j)) (repSSQA r j)).length = n := by simp
      rw [← hs]
      have hget : ∀ (l : List SumRow) (x : SumRow), l.length = n → (l ++ [x])[n]? = some x := by
        intro l x hl; rw [List.getElem?_append_right (by rw [hl]), hl, Nat.sub_self]; rfl
      refine ⟨_, hget _ _ hlen, rfl, ?_⟩
      have pn : ∀ (P : Fin 6 → ℚ) (b : Prop) [Decidable b] (x : ℚ) (k : Fin 6), k ≠ 2 →
          (if b then Function.update P 2 x else P) k = P k := by
        intro P b _ x k hk
        split_ifs
        · exact Function.update_of_ne hk _ _
        · rfl
      have vH : r.WH.SWLS = weighted c.NFCST fun t => e.H.LOLTP t + e.H.LOLGP t := by
        rw [hWH]; simp only [poolW, zero_add]; exact weighted_sumTG wH.LOLTP wH.LOLGP hN
      have vE : r.WH.SWNS = weighted c.NFCST fun t => e.H.MGNTP t + e.H.MGNGP t := by
        rw [hWH]; simp only [poolW, zero_add]; exact weighted_sumTG wH.MGNTP wH.MGNGP hN
      have vD : r.WP.SWLS = weighted c.NFCST fun t => e.P.LOLTP t + e.P.LOLGP t := by
        rw [hWP]; simp only [poolW, zero_add]; exact weighted_sumTG wP.LOLTP wP.LOLGP hN
      have lk : ((r.IYEAR : ℤ) : ℚ) = ((evs ++ [e]).length : ℚ) := by rw [hI]; rfl
      have sd : ∀ (f : YearEnd n α → ℚ) (X : ℚ), X = ((evs ++ [e]).map fun e => (f e) ^ 2).sum →
          (⟨(X / r.IYEAR - (f e / r.IYEAR) ^ 2) / r.IYEAR, f e / r.IYEAR⟩ : Sd) = poolSd ((evs ++ [e]).map f) (f e) := by
        intro f X hX
        unfold poolSd
        rw [lk, hX]
        simp only [List.length_map, List.map_map]
        rfl
      have num : ∀ (f : YearEnd n α → ℚ), (poolSd ((evs ++ [e]).map f) (f e)).pct.isSome := by
        intro f
        unfold Sd.pct poolSd
        simp only
        split_ifs with h1 h2
        · rfl
        · exfalso
          apply h2
          have hk1 : (1 : ℚ) ≤ (((evs ++ [e]).map f).length : ℚ) := by simp
          generalize hk : (((evs ++ [e]).map f).length : ℚ) = k at *
          have hx : (f e) ^ 2 ≤ (((evs ++ [e]).map f).map fun x => x ^ 2).sum := by
            simp only [List.map_append, List.map_cons, List.map_nil, List.sum_append, List.sum_cons, List.sum_nil,
              add_zero]
            have : 0 ≤ ((evs.map f).map fun x => x ^ 2).sum := by
              apply List.sum_nonneg
              intro x hx
              obtain ⟨a, _, rfl⟩ := List.mem_map.1 hx
              positivity
            linarith
          apply div_nonneg _ (by linarith)
          rw [sub_nonneg, div_pow]
          have hk0 : (0 : ℚ) < k := by linarith
          calc (f e) ^ 2 / k ^ 2 ≤ (f e) ^ 2 / k :=
                div_le_div_of_nonneg_left (by positivity) hk0 (by nlinarith)
            _ ≤ _ := div_le_div_of_nonneg_right hx hk0.le
        · rfl
      have mk : ∀ k : Fin 6, (repMeans r S).area i k = _ := fun k => rfl
      refine ⟨?_, ?_, ?_, ?_, ?_, ?_⟩
      · show (if _ then Function.update _ 2 _ else _ : Fin 6 → ℚ) 0 = _
        rw [pn _ _ _ _ (by decide), k2]
        show S.pool 0 + _ = _
        rw [hS.1, zero_add]; rfl
      · show (if _ then Function.update _ 2 _ else _ : Fin 6 → ℚ) 1 = _
        rw [pn _ _ _ _ (by decide), k3]
        show S.pool 1 + _ = _
        rw [hS.2, zero_add]; rfl
      · intro j hj hp
        have : j = i := Fin.ext (by omega)
        subst this
        show (if _ then Function.update _ 2 _ else _ : Fin 6 → ℚ) 2 = _
        rw [if_pos (by rw [withRes_of_ne _ (by decide)]; exact hp), Function.update_self,
          withRes_of_ne _ (by decide), withRes_of_ne _ (by decide)]
        rfl
      · show ((if _ then Function.update _ 2 _ else _ : Fin 6 → ℚ) 4, (⟨_, (if _ then Function.update _ 2 _ else _ : Fin 6 → ℚ) 4⟩ : Sd)) = _
        rw [pn _ _ _ _ (by decide), k4 4 (by decide) (by decide)]
        have := sd (fun e => weighted c.NFCST fun t => e.P.LOLTP t + e.P.LOLGP t) _ q3
        simp only [← vD] at this ⊢
        rw [← lk]
        exact Prod.ext rfl this
      · show (Sd.pct ⟨_, (if _ then Function.update _ 2 _ else _ : Fin 6 → ℚ) 4⟩).isSome
        rw [pn _ _ _ _ (by decide), k4 4 (by decide) (by decide)]
        have := sd (fun e => weighted c.NFCST fun t => e.P.LOLTP t + e.P.LOLGP t) _ q3
        have hn := num (fun e => weighted c.NFCST fun t => e.P.LOLTP t + e.P.LOLGP t)
        rw [← this] at hn
        simp only [← vD] at hn
        exact hn
      · intro hx
        show (if _ then some (((if _ then Function.update _ 2 _ else _ : Fin 6 → ℚ) 3,
          (⟨_, (if _ then Function.update _ 2 _ else _ : Fin 6 → ℚ) 3⟩ : Sd)),
          ((if _ then Function.update _ 2 _ else _ : Fin 6 → ℚ) 5,
          (⟨_, (if _ then Function.update _ 2 _ else _ : Fin 6 → ℚ) 5⟩ : Sd))) else none) = _
        rw [if_pos hx, pn _ _ _ _ (by decide), pn _ _ _ _ (by decide), k4 3 (by decide) (by decide),
          k4 5 (by decide) (by decide)]
        have t1 := sd (fun e => weighted c.NFCST fun t => e.H.LOLTP t + e.H.LOLGP t) _ q1
        have t2 := sd (fun e => weighted c.NFCST fun t => e.H.MGNTP t + e.H.MGNGP t) _ q2
        simp only [← vH, ← vE] at t1 t2 ⊢
        rw [← lk]
        exact congrArg some (Prod.ext (Prod.ext rfl t1) (Prod.ext rfl t2))

/-! ## The distributions and the table numbers -/

/-- C63 (distributions). Each area's table has the classes 0 to 21 in order; the number of observations of a
class is the number of years in it; its probability is that number over the number of years, for loss-of-load
days, loss-of-load hours and unserved energy, and the probabilities of each kind sum to one; the limits are
multiples of the step. -/
theorem C63_distributions (c : YearIn) (hN : c.NORR.val < c.NFCST) (hL : 0 < c.LSTEP) (I T : ℤ)
    (evs : List (YearEnd n α)) (e : YearEnd n α) (hw : ∀ e' ∈ evs ++ [e], WholeCnt e'.H ∧ WholeCnt e'.P)
    (hclk : ClocksOK (evs ++ [e])) (r : RepIn n) (h : RunEnds c I T evs e r) (ITAB : ℤ) (NAMA : Fin n → String)
    (S : Sus n) (R : Report n) (hR : report c.NFCST c.INDX c.LSTEP ITAB NAMA r S = .ok R) (j : Fin n) :
    (R.dist j).length = 22 ∧
    (∀ k : Fin 22, ∃ d, (R.dist j)[k.val]? = some d ∧ d.cls = k.val ∧ d.limit = k.val * c.LSTEP ∧
      d.dp = yearsInClass (evs ++ [e]) 1 (fun e => totLole e.P j c.NORR) k ∧
      d.hl = yearsInClass (evs ++ [e]) 1 (fun e => totLole e.H j c.NORR) k ∧
      d.eue = yearsInClass (evs ++ [e]) c.LSTEP (fun e => totEue e.H j c.NORR) k ∧
      d.pdp = d.dp / (evs ++ [e]).length ∧ d.phl = d.hl / (evs ++ [e]).length ∧
      d.peue = d.eue / (evs ++ [e]).length) ∧
    ((R.dist j).map DistRow.pdp).sum = 1 ∧ ((R.dist j).map DistRow.phl).sum = 1 ∧
    ((R.dist j).map DistRow.peue).sum = 1 := by
  obtain ⟨_, _, _, y, hy, _, _, h3, _⟩ := h.facts hclk
  have hc := C29_histograms_count_years c hN hL (evs ++ [e]) hw I T y hy j
  obtain ⟨s1, s2, s3⟩ := C29_one_entry_per_year c hN hL (evs ++ [e]) hw I T y hy j
  rw [← h3] at hc s1 s2 s3
  have hd : R.dist = repDist c.LSTEP r.hist := by
    unfold report at hR
    split at hR
    · cases hR
    · simp only [Except.ok.injEq] at hR; subst hR; rfl
  have hne : ((evs ++ [e]).length : ℚ) ≠ 0 := by
    rw [List.length_append, List.length_singleton]; positivity
  rw [hd]
  unfold repDist
  simp only [s1, s3]
  have hsum : ∀ f : Fin 22 → ℚ, ((List.finRange 22).map f).sum = ∑ j, f j := fun f => by
    rw [← List.ofFn_eq_map, List.sum_ofFn]
  refine ⟨by simp, ?_, ?_, ?_, ?_⟩
  · intro k
    refine ⟨_, by rw [List.getElem?_map, List.getElem?_eq_getElem (by simp)]; rfl, ?_⟩
    obtain ⟨q1, q2, q3⟩ := hc k
    simp only [List.getElem_finRange, Fin.cast_mk, Fin.eta]
    exact ⟨trivial, trivial, q2, q1, q3, trivial, trivial, trivial⟩
  · rw [List.map_map, hsum]
    simp only [Function.comp_def]
    rw [← Finset.sum_div, s2, div_self hne]
  · rw [List.map_map, hsum]
    simp only [Function.comp_def]
    rw [← Finset.sum_div, s1, div_self hne]
  · rw [List.map_map, hsum]
    simp only [Function.comp_def]
    rw [← Finset.sum_div, s3, div_self hne]

/-- C63 (table numbers). The tables of the report are numbered consecutively after the last one, and the number
of the last is returned. -/
theorem C63_table_numbers (N : ℕ) (INDX LSTEP ITAB : ℤ) (NAMA : Fin n → String) (r : RepIn n) (S : Sus n)
    (R : Report n) (hR : report N INDX LSTEP ITAB NAMA r S = .ok R) :
    R.tables = (List.range (n + 2)).map (fun k : ℕ => ITAB + 1 + k) ∧ R.ITAB = ITAB + R.tables.length := by
  unfold report at hR
  split at hR
  · cases hR
  · simp only [Except.ok.injEq] at hR
    subst hR
    simp only
    constructor
    · apply List.ext_getElem
      · simp
      · intro i h1 h2
        rcases i with _ | _ | i
        · simp
        · simp; ring
        · simp; ring
    · simp; ring

/-- The report itself cannot fail when there is an area. -/
theorem C63_no_error (N : ℕ) (INDX LSTEP ITAB : ℤ) (NAMA : Fin n → String) (r : RepIn n) (S : Sus n) (hn : 0 < n) :
    ∃ R, report N INDX LSTEP ITAB NAMA r S = .ok R := by
  have : ∃ s, repSummary INDX NAMA r S = .ok s := by
    unfold repSummary
    cases hl : (List.finRange n).getLast? with
    | none =>
      rw [List.getLast?_eq_none_iff] at hl
      have := congrArg List.length hl
      simp at this; omega
    | some i => exact ⟨_, rfl⟩
  obtain ⟨⟨S', rows⟩, hs⟩ := this
  unfold report
  rw [hs]
  exact ⟨_, rfl⟩

/-! ## Refutations and examples -/

/-- A history whose last year reaches the horizon ends in a report. -/
theorem RunEnds.of_ok {c : YearIn} {I T : ℤ} {evs : List (YearEnd n α)} {e : YearEnd n α}
    (h : (yearRun c (evs ++ [e]) (YearSt.init n α I T)).isOk = true) (hc : e.CLOCK ≥ c.FINISH) :
    ∃ r, RunEnds c I T evs e r := by
  cases hy : yearRun c (evs ++ [e]) (YearSt.init n α I T) with
  | error x => rw [hy] at h; cases h
  | ok y =>
    obtain ⟨y1, ⟨⟨H', P'⟩, y', rf⟩, h1, h2, _⟩ := yearRun_append hy
    obtain ⟨_, _, _, _, _, _, _, _, h9, _⟩ := yearBody_ok h2
    obtain ⟨r, hr, _⟩ := h9 (Or.inr hc)
    exact ⟨r, y1, _, h1, h2, Or.inr hc, hr⟩

theorem demoEvs_whole (x y : ℕ) : ∀ e ∈ [demoEnd 0 x] ++ [demoEnd 1 y], WholeCnt e.H ∧ WholeCnt e.P := by
  intro e he
  rcases List.mem_append.1 he with he | he
  · rw [List.mem_singleton] at he; subst he; exact ⟨demoCnt_whole _, demoCnt_whole 2⟩
  · rw [List.mem_singleton] at he; subst he; exact ⟨demoCnt_whole _, demoCnt_whole 2⟩

theorem demoEvs_clocks (x y : ℚ) : ClocksOK ([demoEnd 0 x] ++ [demoEnd 1 y]) := by
  intro i e he
  rcases i with _ | _ | i
  · simp at he; subst he; simp [demoEnd]
  · simp at he; subst he; simp [demoEnd]
  · simp at he

/-- Two years with 10 and 4 loss-of-load hours meet the hypotheses of the theorems above. -/
theorem demoEnds : ∃ r, RunEnds demoYear 100 0 [demoEnd 0 ((10 : ℕ) : ℚ)] (demoEnd 1 ((4 : ℕ) : ℚ)) r :=
  RunEnds.of_ok (by decide +kernel) (by decide +kernel)

/-- C63 (refuted for the weighted averages of the pool). After two years with 10 and 4 loss-of-load hours the
report shows 2 hours a year for the pool; the mean is 7, and it shows 7 for the only area. -/
theorem C63_pool_average_refuted : ∃ r R, RunEnds demoYear 100 0 [demoEnd 0 ((10 : ℕ) : ℚ)] (demoEnd 1 ((4 : ℕ) : ℚ)) r ∧
    report demoYear.NFCST demoYear.INDX demoYear.LSTEP 0 (fun _ => "A1") r ⟨fun _ _ => 0, fun _ => 0⟩ = .ok R ∧
    R.rows.map (fun q => (q.area, q.tag, q.hourly.map Prod.fst)) =
      [(some 0, .GC, some 7), (some 0, .TC, some 0), (some 0, .GT, some 7),
       (none, .GC, some 2), (none, .TC, some 0), (none, .GT, some 2)] := by
  obtain ⟨r, hr⟩ := demoEnds
  obtain ⟨R, hR⟩ := C63_no_error demoYear.NFCST demoYear.INDX demoYear.LSTEP 0 (fun _ => "A1") r
    ⟨fun _ _ => 0, fun _ => 0⟩ (by decide)
  refine ⟨r, R, hr, hR, ?_⟩
  rw [(C63_rows demoYear (by decide) 100 0 _ _ (demoEvs_whole 10 4) (demoEvs_clocks _ _) r hr 0 _ _ R hR).2]
  decide +kernel

/-- zero counters of two areas -/
def quiet2 : Cnt 2 := ⟨fun _ _ => 0, fun _ _ => 0, fun _ => 0, fun _ => 0, fun _ _ => 0, fun _ _ => 0, fun _ => 0, fun _ => 0⟩

/-- one year without loss of load -/
def quietEnd : YearEnd 2 Unit := ⟨8760, initfl, (), fun _ => 0, quiet2, quiet2⟩

/-- peaks 100 and 100 MW, capacities 150 and 100 MW -/
def quietSus : Sus 2 := ⟨![![100, 150, 0, 0, 0, 0], ![100, 100, 0, 0, 0, 0]], fun _ => 0⟩

/-- C63 (refuted for the reserve of the pool). Two areas with peaks of 100 MW each and capacities of 150 and
100 MW: the summary shows peak 200, capacity 250 and a reserve of 0 percent for the pool (25 percent is right). -/
theorem C63_pool_reserve_refuted : ∃ r R, RunEnds { demoYear with FINISH := 8760 } 100 0 [] quietEnd r ∧
    report 1 0 100 0 ![ "A1", "A2" ] r quietSus = .ok R ∧
    ∃ s, R.summary[2]? = some s ∧ s.peak = 200 ∧ s.cap = 250 ∧ s.res = 0 ∧ reservePct s.cap s.peak = 25 := by
  obtain ⟨r, hr⟩ : ∃ r, RunEnds { demoYear with FINISH := 8760 } 100 0 [] quietEnd r :=
    RunEnds.of_ok (by decide +kernel) (by decide +kernel)
  obtain ⟨R, hR⟩ := C63_no_error 1 0 100 0 ![ "A1", "A2" ] r quietSus (by decide)
  have hwq : WholeCnt quiet2 := by constructor <;> intros <;> exact ⟨0, by simp [quiet2]⟩
  have hw : ∀ e' ∈ [] ++ [quietEnd], WholeCnt e'.H ∧ WholeCnt e'.P := by
    intro e' he; simp at he; subst he; exact ⟨hwq, hwq⟩
  have hclk : ClocksOK ([] ++ [quietEnd]) := by
    intro i e he
    rcases i with _ | i
    · simp at he; subst he; simp [quietEnd]
    · simp at he
  obtain ⟨s, h1, _, h2, h3, h4, _⟩ := C63_summary_pool_partial _ (by decide) 100 0 [] quietEnd hw hclk r hr 0
    ![ "A1", "A2" ] quietSus (by decide +kernel) R hR
  have p : s.peak = 200 := by rw [h2]; decide +kernel
  have q : s.cap = 250 := by rw [h3]; decide +kernel
  refine ⟨r, R, hr, hR, s, h1, p, q, ?_, ?_⟩
  · rw [h4 1 rfl (by decide +kernel)]; decide +kernel
  · rw [p, q]; decide +kernel

/-- C63 (refuted for the deviations of the pool). For the two years with 10 and 4 hours the code puts
`(116/2 - (4/2)²)/2 = 27` under the root for the pool instead of `9/2`. -/
theorem C63_pool_sd_refuted : ∃ r R, RunEnds demoYear 100 0 [demoEnd 0 ((10 : ℕ) : ℚ)] (demoEnd 1 ((4 : ℕ) : ℚ)) r ∧
    report demoYear.NFCST demoYear.INDX demoYear.LSTEP 0 (fun _ => "A1") r ⟨fun _ _ => 0, fun _ => 0⟩ = .ok R ∧
    (∃ s a b, R.summary[1]? = some s ∧ s.hourly = some (a, b) ∧ a.2.V = 27) ∧
    variance (annHoursP 1 [demoEnd 0 10, demoEnd 1 4]) / 2 = 9 / 2 := by
  obtain ⟨r, hr⟩ := demoEnds
  obtain ⟨R, hR⟩ := C63_no_error demoYear.NFCST demoYear.INDX demoYear.LSTEP 0 (fun _ => "A1") r
    ⟨fun _ _ => 0, fun _ => 0⟩ (by decide)
  refine ⟨r, R, hr, hR, ?_, by decide +kernel⟩
  obtain ⟨s, h1, _, _, _, _, _, _, h2⟩ := C63_summary_pool_partial demoYear (by decide) 100 0 _ _
    (demoEvs_whole 10 4) (demoEvs_clocks _ _) r hr 0 (fun _ => "A1") ⟨fun _ _ => 0, fun _ => 0⟩
    (by decide +kernel) R hR
  refine ⟨s, _, _, h1, h2 (by decide), ?_⟩
  decide +kernel

/-- the summary and the distributions of the two years -/
example : ∃ r R, RunEnds demoYear 100 0 [demoEnd 0 ((10 : ℕ) : ℚ)] (demoEnd 1 ((4 : ℕ) : ℚ)) r ∧
    report demoYear.NFCST demoYear.INDX demoYear.LSTEP 0 (fun _ => "A1") r
      ⟨fun _ => ![80, 100, 0, 0, 0, 0], fun _ => 0⟩ = .ok R ∧
    (∃ s, R.summary[0]? = some s ∧ s.res = 25 ∧ s.lole.1 = 2) ∧
    (∃ d, (R.dist 0)[10]? = some d ∧ d.hl = 1 ∧ d.phl = 1 / 2) := by
  obtain ⟨r, hr⟩ := demoEnds
  obtain ⟨R, hR⟩ := C63_no_error demoYear.NFCST demoYear.INDX demoYear.LSTEP 0 (fun _ => "A1") r
    ⟨fun _ => ![80, 100, 0, 0, 0, 0], fun _ => 0⟩ (by decide)
  refine ⟨r, R, hr, hR, ?_, ?_⟩
  · obtain ⟨s, h1, _, _, _, h2, h3, _⟩ := (C63_summary_areas demoYear (by decide) 100 0 _ _ (demoEvs_whole 10 4)
      (demoEvs_clocks _ _) r hr 0 _ _ R hR).2 0
    refine ⟨s, h1, ?_, ?_⟩
    · rw [h2 (by decide +kernel)]; decide +kernel
    · rw [h3]; decide +kernel
  · obtain ⟨d, h1, _, _, _, h2, _, _, h3, _⟩ := (C63_distributions demoYear (by decide) (by decide) 100 0 _ _
      (demoEvs_whole 10 4) (demoEvs_clocks _ _) r hr 0 _ _ R hR 0).2.1 10
    refine ⟨d, h1, ?_, ?_⟩
    · rw [h2]; decide +kernel
    · rw [h3, h2]; decide +kernel

end Narp.Props
