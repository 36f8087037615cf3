import Verif.Props.Converge

/-!
# C50: the annual result table
-/

namespace Narp.Props
open Narp.Spec BigOperators

variable {n : ℕ} {α : Type}

/-! ## Specification of the table -/

/-- Annual value of an area (`some j`) or the pool (`none`), by cause: generation, transmission, or both. -/
def wantLole (c : Cnt n) (a : Option (Fin n)) (tag : Tag) : Fin 5 → ℚ :=
  match a, tag with
  | some j, .GC => c.LOLGA j
  | some j, .TC => c.LOLTA j
  | some j, .GT => fun t => c.LOLTA j t + c.LOLGA j t
  | none, .GC => c.LOLGP
  | none, .TC => c.LOLTP
  | none, .GT => fun t => c.LOLTP t + c.LOLGP t

/-- The same for the unserved energy. -/
def wantEue (c : Cnt n) (a : Option (Fin n)) (tag : Tag) : Fin 5 → ℚ :=
  match a, tag with
  | some j, .GC => c.MGNGA j
  | some j, .TC => c.MGNTA j
  | some j, .GT => fun t => c.MGNTA j t + c.MGNGA j t
  | none, .GC => c.MGNGP
  | none, .TC => c.MGNTP
  | none, .GT => fun t => c.MGNTP t + c.MGNGP t

/-- Of a tier, or weighted over the tiers. -/
def pickTier (N : ℕ) (tier : Option (Fin 5)) (x : Fin 5 → ℚ) : ℚ :=
  match tier with
  | some t => x t
  | none => weighted N x

/-- Mean shortage: unserved energy over loss of load, 0 if there was none. -/
def meanShort (eue lole : ℚ) : ℚ := if lole > 0 then eue / lole else 0

/-- The row the table should show (hourly mode). -/
def wantRow (N : ℕ) (H P : Cnt n) (a : Option (Fin n)) (tier : Option (Fin 5)) (tag : Tag) : Row :=
  let l := pickTier N tier (wantLole H a tag)
  let e := pickTier N tier (wantEue H a tag)
  let lp := pickTier N tier (wantLole P a tag)
  let ep := pickTier N tier (wantEue P a tag)
  ⟨a.map Fin.val, tier.map Fin.val, some (l, meanShort e l, e), (lp, meanShort ep lp), tag⟩

/-- The rows of one area, or of the pool: each tier by cause, then the weighted averages. -/
def wantBlock (N : ℕ) (H P : Cnt n) (a : Option (Fin n)) : List Row :=
  (((List.finRange 5).take N).flatMap fun t => [Tag.GC, .TC, .GT].map (wantRow N H P a (some t))) ++
    [Tag.GC, .TC, .GT].map (wantRow N H P a none)

/-! ## What holds -/

theorem mem_take_finRange {N : ℕ} {t : Fin 5} (h : t ∈ (List.finRange 5).take N) : t.val < N := by
  rw [List.mem_take_iff_getElem] at h
  obtain ⟨i, hi, rfl⟩ := h
  simp only [List.getElem_finRange]
  simp at hi ⊢
  omega

theorem areaRows_eq (N : ℕ) (hN : N ≤ 5) (INDX : ℤ) (hI : INDX ≠ 1) (H P : Cnt n) (hH : WholeCnt H)
    (hP : WholeCnt P) (j : Fin n) : areaRows N INDX H P j = wantBlock N H P (some j) := by
  unfold areaRows wantBlock
  simp only
  congr 1
  · rw [List.flatMap_def, List.flatMap_def]
    congr 1
    refine List.map_congr_left fun t ht => ?_
    have ht' := mem_take_finRange ht
    simp only [sumTG_whole (hH.LOLTA j) (hH.LOLGA j), sumTG_whole (hH.MGNTA j) (hH.MGNGA j),
      sumTG_whole (hP.LOLTA j) (hP.LOLGA j), sumTG_whole (hP.MGNTA j) (hP.MGNGA j), if_pos ht']
    simp only [mkRow, if_pos hI, List.map_cons, List.map_nil]
    rfl
  · simp only [weighted_sumTG (hH.LOLTA j) (hH.LOLGA j) hN, weighted_sumTG (hH.MGNTA j) (hH.MGNGA j) hN,
      weighted_sumTG (hP.LOLTA j) (hP.LOLGA j) hN, weighted_sumTG (hP.MGNTA j) (hP.MGNGA j) hN, wavg_eq N hN]
    simp only [mkRow, if_pos hI, List.map_cons, List.map_nil]
    rfl

theorem poolTier_eq {N : ℕ} {INDX : ℤ} (hI : INDX ≠ 1) {H P : Cnt n} (hH : WholeCnt H) (hP : WholeCnt P)
    (s : (Option ℚ × Option ℚ) × List Row) (t : Fin 5) (ht : t.val < N) (h1 : 0 < H.LOLGP t) (h2 : 0 < P.LOLGP t) :
    ∃ x, poolTier N INDX H P s t = .ok (x, s.2 ++ [Tag.GC, .TC, .GT].map (wantRow N H P none (some t))) := by
  unfold poolTier
  simp only [gt_iff_lt, h1, h2, if_true, if_pos hI]
  simp only [sumTG_whole hH.LOLTP hH.LOLGP, sumTG_whole hH.MGNTP hH.MGNGP, sumTG_whole hP.LOLTP hP.LOLGP,
    sumTG_whole hP.MGNTP hP.MGNGP, if_pos ht]
  simp only [bind, Except.bind, pure, Except.pure, mkRow, if_pos hI, List.map_cons, List.map_nil]
  simp only [wantRow, pickTier, wantLole, wantEue, Option.map, meanShort, gt_iff_lt, h1, h2, if_true, xlol]
  exact ⟨_, rfl⟩

/-- C50 (what holds). In hourly mode, in a year in which the pool lost load by lack of generation in every tier
(hourly and at peaks), the annual table is exactly the intended one: for every area and for the pool, for every
tier and for the weighted average, and for each cause, the loss of load, the mean shortage and the unserved
energy. -/
theorem C50_table_partial (N : ℕ) (hN : N ≤ 5) (INDX : ℤ) (hI : INDX ≠ 1) (H P : Cnt n) (hH : WholeCnt H)
    (hP : WholeCnt P) (hg : ∀ t : Fin 5, t.val < N → 0 < H.LOLGP t ∧ 0 < P.LOLGP t) :
    annualTable N INDX H P =
      .ok (((List.finRange n).flatMap fun j => wantBlock N H P (some j)) ++ wantBlock N H P none) := by
  have hrows : (List.finRange n).flatMap (areaRows N INDX H P) =
      (List.finRange n).flatMap fun j => wantBlock N H P (some j) := by
    rw [List.flatMap_def, List.flatMap_def]
    congr 1
    exact List.map_congr_left fun j _ => areaRows_eq N hN INDX hI H P hH hP j
  have hloop : ∀ (l : List (Fin 5)) (s : (Option ℚ × Option ℚ) × List Row), (∀ t ∈ l, t.val < N) →
      ∃ x, l.foldlM (poolTier N INDX H P) s =
        .ok (x, s.2 ++ l.flatMap fun t => [Tag.GC, .TC, .GT].map (wantRow N H P none (some t))) := by
    intro l
    induction l with
    | nil => intro s _; exact ⟨s.1, by simp [pure, Except.pure]⟩
    | cons t l ih =>
      intro s hl
      have ht := hl t (by simp)
      obtain ⟨x, hx⟩ := poolTier_eq hI hH hP s t ht (hg t ht).1 (hg t ht).2
      obtain ⟨x', hx'⟩ := ih (x, s.2 ++ [Tag.GC, .TC, .GT].map (wantRow N H P none (some t)))
        (fun t' h' => hl t' (by simp [h']))
      refine ⟨x', ?_⟩
      rw [List.foldlM_cons, hx]
      simp only [bind, Except.bind]
      rw [hx', List.flatMap_cons, List.append_assoc]
  unfold annualTable
  simp only
  rw [hrows]
  generalize (List.finRange n).flatMap (fun j => wantBlock N H P (some j)) = rows
  obtain ⟨x, hx⟩ := hloop ((List.finRange 5).take N)
    ((none, rows.getLast?.map fun r => r.peak.2), rows) (fun t ht => mem_take_finRange ht)
  rw [hx]
  simp only [bind, Except.bind, pure, Except.pure]
  unfold wantBlock
  rw [List.append_assoc]
  congr 3
  simp only [poolW, zero_add, weighted_sumTG hH.LOLTP hH.LOLGP hN, weighted_sumTG hH.MGNTP hH.MGNGP hN,
      weighted_sumTG hP.LOLTP hP.LOLGP hN, weighted_sumTG hP.MGNTP hP.MGNGP hN, wavg_eq N hN]
  simp only [mkRow, if_pos hI, List.map_cons, List.map_nil]
  rfl

/-! ## Exactly what is shown -/

/-- The mean shortage an area-or-pool total shows in tier `t`. -/
def totalMean (c : Cnt n) (t : Fin 5) : ℚ := meanShort (wantEue c none .GT t) (wantLole c none .GT t)

/-- The mean shortage the pool's generation row of tier `t` shows: the right one if there was a loss by generation; if not,
what was left from the tier before (its total over both causes), and `first` in the first tier. -/
def shownMean (c : Cnt n) (first : ℚ) (t : Fin 5) : ℚ :=
  if 0 < c.LOLGP t then meanShort (c.MGNGP t) (c.LOLGP t)
  else if t.val = 0 then first else totalMean c ⟨t.val - 1, by omega⟩

/-- The pool's row as shown: the intended one, but for the two mean shortages of a generation row. -/
def shownRow (N : ℕ) (H P : Cnt n) (fh fp : ℚ) (t : Fin 5) (tag : Tag) : Row :=
  match tag with
  | .GC => ⟨none, some t.val, some (H.LOLGP t, shownMean H fh t, H.MGNGP t), (P.LOLGP t, shownMean P fp t), .GC⟩
  | _ => wantRow N H P none (some t) tag

/-- The pool's block as shown. -/
def shownBlock (N : ℕ) (H P : Cnt n) (fp : ℚ) : List Row :=
  (((List.finRange 5).take N).flatMap fun t => [Tag.GC, .TC, .GT].map (shownRow N H P 0 fp t)) ++
    [Tag.GC, .TC, .GT].map (wantRow N H P none none)

theorem finRange_take_succ {k : ℕ} (hk : k < 5) : (List.finRange 5).take (k + 1) = (List.finRange 5).take k ++ [⟨k, hk⟩] := by
  rw [List.take_add_one]
  congr 1
  rw [List.getElem?_eq_getElem (by simpa using hk)]
  simp

/-- What the loop over the tiers of the pool leaves after `k` tiers. -/
theorem poolTier_loop {N : ℕ} (hN : N ≤ 5) {INDX : ℤ} (hI : INDX ≠ 1) {H P : Cnt n} (hH : WholeCnt H) (hP : WholeCnt P)
    (h0 : 0 < H.LOLGP 0) (fp : ℚ) (rows : List Row) (k : ℕ) (hk : k ≤ N) :
    ((List.finRange 5).take k).foldlM (poolTier N INDX H P) ((none, some fp), rows) =
      .ok (if h : k = 0 then (none, some fp)
        else (some (totalMean H ⟨k - 1, by omega⟩), some (totalMean P ⟨k - 1, by omega⟩)),
        rows ++ ((List.finRange 5).take k).flatMap fun t => [Tag.GC, .TC, .GT].map (shownRow N H P 0 fp t)) := by
  induction k with
  | zero => simp [pure, Except.pure]
  | succ k ih =>
    have hk5 : k < 5 := by omega
    rw [finRange_take_succ hk5, List.foldlM_append, ih (by omega)]
    simp only [bind, Except.bind, List.foldlM_cons, List.foldlM_nil]
    set t : Fin 5 := ⟨k, hk5⟩ with ht
    have htN : t.val < N := by simp [ht]; omega
    have hh : (if H.LOLGP t > 0 then some (H.MGNGP t / H.LOLGP t)
        else (if h : k = 0 then ((none : Option ℚ), some fp)
          else (some (totalMean H ⟨k - 1, by omega⟩), some (totalMean P ⟨k - 1, by omega⟩))).1) = some (shownMean H 0 t) := by
      by_cases h1 : 0 < H.LOLGP t
      · simp [shownMean, h1, meanShort]
      · by_cases hz : k = 0
        · subst hz; exact absurd h0 h1
        · rw [if_neg h1]; unfold shownMean; rw [if_neg h1, if_neg (by simpa [ht] using hz), dif_neg hz]
    have hp : (if P.LOLGP t > 0 then some (P.MGNGP t / P.LOLGP t)
        else (if h : k = 0 then ((none : Option ℚ), some fp)
          else (some (totalMean H ⟨k - 1, by omega⟩), some (totalMean P ⟨k - 1, by omega⟩))).2) = some (shownMean P fp t) := by
      by_cases h1 : 0 < P.LOLGP t
      · simp [shownMean, h1, meanShort]
      · by_cases hz : k = 0
        · rw [if_neg h1]; unfold shownMean; rw [if_neg h1, if_pos (by simpa [ht] using hz), dif_pos hz]
        · rw [if_neg h1]; unfold shownMean; rw [if_neg h1, if_neg (by simpa [ht] using hz), dif_neg hz]
    unfold poolTier
    simp only [hh, hp, if_pos hI]
    simp only [sumTG_whole hH.LOLTP hH.LOLGP, sumTG_whole hH.MGNTP hH.MGNGP, sumTG_whole hP.LOLTP hP.LOLGP,
      sumTG_whole hP.MGNTP hP.MGNGP, if_pos htN]
    simp only [bind, Except.bind, pure, Except.pure, mkRow, if_pos hI, List.map_cons, List.map_nil, Nat.succ_ne_zero,
      dite_false, Nat.add_sub_cancel, List.flatMap_append, List.flatMap_cons, List.flatMap_nil, List.append_nil]
    rw [List.append_assoc]
    rfl

/-- C50 (exactly). In hourly mode, with at least one area and one tier, the annual table is made exactly if the pool lost
load by lack of generation in the first tier; and then every row is the intended one, except that the pool's generation row
of a tier without such a loss shows as mean shortage the number left from the row before it: the total of the tier
before, or, at the peaks of the first tier, the average over the tiers of the last area. -/
theorem C50_exact_partial (N : ℕ) (hN : N ≤ 5) (hN1 : 1 ≤ N) (INDX : ℤ) (hI : INDX ≠ 1) (H P : Cnt (n + 1)) (hH : WholeCnt H)
    (hP : WholeCnt P) :
    annualTable N INDX H P =
      if 0 < H.LOLGP 0 then
        .ok (((List.finRange (n + 1)).flatMap fun j => wantBlock N H P (some j)) ++
          shownBlock N H P (meanShort (weighted N (wantEue P (some (Fin.last n)) .GT)) (weighted N (wantLole P (some (Fin.last n)) .GT))))
      else .error .unboundLocal := by
  have hrows : (List.finRange (n + 1)).flatMap (areaRows N INDX H P) =
      (List.finRange (n + 1)).flatMap fun j => wantBlock N H P (some j) := by
    rw [List.flatMap_def, List.flatMap_def]
    congr 1
    exact List.map_congr_left fun j _ => areaRows_eq N hN INDX hI H P hH hP j
  have hlast : (((List.finRange (n + 1)).flatMap fun j => wantBlock N H P (some j)).getLast?.map fun r => r.peak.2) =
      some (meanShort (weighted N (wantEue P (some (Fin.last n)) .GT)) (weighted N (wantLole P (some (Fin.last n)) .GT))) := by
    rw [List.finRange_succ_last, List.flatMap_append, List.flatMap_cons, List.flatMap_nil, List.append_nil]
    rw [List.getLast?_append]
    unfold wantBlock
    rw [List.getLast?_append]
    simp [wantRow, pickTier]
  unfold annualTable
  simp only
  rw [hrows, hlast]
  by_cases h0 : 0 < H.LOLGP 0
  · rw [if_pos h0]
    rw [poolTier_loop hN hI hH hP h0 _ _ N le_rfl]
    simp only [bind, Except.bind, pure, Except.pure]
    unfold shownBlock
    rw [List.append_assoc]
    congr 3
    simp only [poolW, zero_add, weighted_sumTG hH.LOLTP hH.LOLGP hN, weighted_sumTG hH.MGNTP hH.MGNGP hN,
      weighted_sumTG hP.LOLTP hP.LOLGP hN, weighted_sumTG hP.MGNTP hP.MGNGP hN, wavg_eq N hN]
    simp only [mkRow, if_pos hI, List.map_cons, List.map_nil]
    rfl
  · rw [if_neg h0]
    have ht : (List.finRange 5).take N = 0 :: ((List.finRange 5).take N).tail := by
      obtain ⟨k, rfl⟩ : ∃ k, N = k + 1 := ⟨N - 1, by omega⟩
      simp [List.finRange_succ]
    rw [ht, List.foldlM_cons]
    have : ∀ lp rows, poolTier N INDX H P ((none, lp), rows) 0 = .error .unboundLocal := by
      intro lp rows
      unfold poolTier
      simp only [h0, gt_iff_lt, if_false, if_pos hI]
      rfl
    rw [this]; rfl

/-! ## What does not hold -/

/-- C50 (refuted: no table). In hourly mode, when the annual table is asked for, a year in which the pool did not
lose load by lack of generation in the first tier makes the yearly event fail with UnboundLocalError. -/
theorem C50_no_generation_loss_refuted (c : YearIn) (hN : 1 ≤ c.NFCST) (hR : c.NORR.val < c.NFCST)
    (hL : 0 < c.LSTEP) (hI : c.INDX ≠ 1) (hJ : c.IOJ ≠ 0) (C : ℚ) (cal : Cal) (net : α) (LS : Fin n → ℚ)
    (H P : Cnt n) (hH : WholeCnt H) (hP : WholeCnt P) (h0 : H.LOLGP 0 = 0) (y : YearSt n α) :
    yearBody c C cal net LS H P y = .error .unboundLocal := by
  obtain ⟨h', e', _⟩ := histLoop_aux hR hL hH hP (List.finRange n) y.hist (List.nodup_finRange n)
  have ht : ∀ N, 1 ≤ N → (List.finRange 5).take N = 0 :: ((List.finRange 5).take N).tail := by
    intro N hN
    obtain ⟨k, rfl⟩ : ∃ k, N = k + 1 := ⟨N - 1, by omega⟩
    simp [List.finRange_succ]
  have htab : annualTable c.NFCST c.INDX H P = .error .unboundLocal := by
    unfold annualTable
    simp only
    rw [ht c.NFCST hN, List.foldlM_cons]
    have : ∀ lp rows, poolTier c.NFCST c.INDX H P ((none, lp), rows) 0 = .error .unboundLocal := by
      intro lp rows
      unfold poolTier
      simp only [h0, gt_iff_lt, lt_irrefl, if_false, if_pos hI]
      rfl
    rw [this]; rfl
  unfold yearBody
  simp only
  unfold histLoop
  rw [e']
  simp only [bind, Except.bind]
  unfold yearRows
  rw [if_pos hJ, htab]

/-- one area; tier 0: one hour of 30 MW by generation; tier 1: one hour of 50 MW by transmission -/
def mixedCnt : Cnt 1 where
  LOLTA := fun _ t => if t = 1 then 1 else 0
  LOLGA := fun _ t => if t = 0 then 1 else 0
  LOLTP := fun t => if t = 1 then 1 else 0
  LOLGP := fun t => if t = 0 then 1 else 0
  MGNTA := fun _ t => if t = 1 then 50 else 0
  MGNGA := fun _ t => if t = 0 then 30 else 0
  MGNTP := fun t => if t = 1 then 50 else 0
  MGNGP := fun t => if t = 0 then 30 else 0

/-- C50 (refuted: stale number). In a year in which the pool lost load by generation in tier 0 only, the
generation row of tier 1 shows no loss, no unserved energy, but a mean shortage of 30 MW: that of tier 0. -/
theorem C50_stale_refuted :
    ∃ rows, annualTable 5 0 mixedCnt mixedCnt = .ok rows ∧
      (⟨none, some 1, some (0, 30, 0), (0, 30), .GC⟩ : Row) ∈ rows ∧
      wantRow 5 mixedCnt mixedCnt none (some 1) .GC = ⟨none, some 1, some (0, 0, 0), (0, 0), .GC⟩ := by
  have h : ((annualTable 5 0 mixedCnt mixedCnt).map fun rows =>
      decide ((⟨none, some 1, some (0, 30, 0), (0, 30), .GC⟩ : Row) ∈ rows)) = .ok true := by decide +kernel
  cases hr : annualTable 5 0 mixedCnt mixedCnt with
  | error e => rw [hr] at h; cases h
  | ok rows =>
    rw [hr] at h
    simp only [Except.map, Except.ok.injEq, decide_eq_true_eq] at h
    exact ⟨rows, rfl, h, by decide +kernel⟩

/-- C50 (refuted: wrong label). In daily mode the total of an area and tier is labelled as transmission, so that
the table has two contradicting transmission rows: here one says 0 days and the other 1 day. -/
theorem C50_daily_label_refuted :
    (⟨some 0, some 0, none, (0, 0), .TC⟩ : Row) ∈ areaRows 1 1 mixedCnt mixedCnt 0 ∧
    (⟨some 0, some 0, none, (1, 30), .TC⟩ : Row) ∈ areaRows 1 1 mixedCnt mixedCnt 0 := by
  decide +kernel

/-- a year with generation losses in the only tier: the hypotheses of `C50_table_partial` -/
example : (∀ t : Fin 5, t.val < 1 → 0 < mixedCnt.LOLGP t ∧ 0 < mixedCnt.LOLGP t) ∧
    (annualTable 1 0 mixedCnt mixedCnt).map List.length = .ok 12 := by decide +kernel

/-- `C50_exact_partial` with a tier that shows a number left over: here tier 1 shows 30 MW -/
example : 0 < mixedCnt.LOLGP 0 ∧ shownMean mixedCnt 0 1 = 30 ∧ shownMean mixedCnt 0 2 = 50 ∧ shownMean mixedCnt 0 3 = 0 := by
  decide +kernel

example : (demoCnt 0).LOLGP 0 = 0 := by decide +kernel

end Narp.Props
