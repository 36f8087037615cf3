import Verif.Spec.Pages
import Verif.Props.OutputCards
import Verif.Props.AnnualTable

/-!
# C122: what the annual pages of `output.txt` say, from the cards
-/

namespace Narp.Props
open Narp Narp.Spec BigOperators

variable {sl : ℕ → ℚ → ℚ} {fuel n m l : ℕ} {c : Cards n m l} {s : Setup n m l}

/-! ## The books at the year ends -/

theorem year_peaks {k N per : ℕ} {share : Fin 5 → Fin k → ℕ → ℚ} {peak : ℕ → Prop} {ds : List (DrawLog k)} (hl : ds.length = per)
    (h : ∀ i d, ds[i]? = some d → DrawShows N (fun t j => share t j (i + 1)) (peak (i + 1)) d) (t : Fin 5) (ht : t.val < N) :
    (∀ j, peakEnergyIn j t ds = dayMWh (share t j) peak per) ∧ poolPeakEnergyIn t ds = ∑ j, dayMWh (share t j) peak per := by
  subst hl
  refine ⟨fun j => ?_, ?_⟩
  · refine sum_map_range _ _ _ fun i d hd => ?_
    have a := (h i d hd).peak
    rw [((h i d hd).areas t ht j).1]
    by_cases e : d.peak = true
    · simp only [e, a.1 e, if_true]
    · have : ¬ peak (i + 1) := fun x => e (a.2 x)
      simp [e, this]
  · refine (sum_map_range _ _ _ fun i d hd => ?_).trans Finset.sum_comm
    have a := (h i d hd).peak
    by_cases e : d.peak = true
    · simp only [e, a.1 e, if_true]
      exact Finset.sum_congr rfl fun j _ => ((h i d hd).areas t ht j).1
    · have : ¬ peak (i + 1) := fun x => e (a.2 x)
      simp [e, this]

/-- The figures of area `j` in tier `t` that the program has in its books at the end of year `y` (counted from 0); where the
counters are not cleared, the earlier years are in them. -/
noncomputable def areaFig (c : Cards n m l) (share : Fin 5 → Fin (n + 1) → ℕ → ℕ → ℚ) (peak : ℕ → Prop) (per : ℕ) (y : ℕ)
    (j : Fin (n + 1)) (t : Fin 5) : Fig where
  days := withCarry (Carried (n + 1) (tiersOf c) j t) (fun y => lossDays (share t j y) peak per) y
  dayMWh := withCarry (Carried (n + 1) (tiersOf c) j t) (fun y => dayMWh (share t j y) peak per) y
  hours := withCarry (Carried (n + 1) (tiersOf c) j t) (fun y => lossHours (share t j y) per) y
  mwh := withCarry (Carried (n + 1) (tiersOf c) j t) (fun y => wholeMWh (share t j y) per) y

/-- The figures of the pool. -/
noncomputable def poolFig (share : Fin 5 → Fin (n + 1) → ℕ → ℕ → ℚ) (peak : ℕ → Prop) (per : ℕ) (y : ℕ) (t : Fin 5) : Fig where
  days := poolLossDays (fun j => share t j y) peak per
  dayMWh := ∑ j, dayMWh (share t j y) peak per
  hours := poolLossHours (fun j => share t j y) per
  mwh := ∑ j, wholeMWh (share t j y) per

/-- The counters hold the figures. -/
structure CntFig {k : ℕ} (N : ℕ) (H P : Cnt k) (area : Fin k → Fin 5 → Fig) (pool : Fin 5 → Fig) : Prop where
  days : ∀ j t, t.val < N → P.LOLTA j t + P.LOLGA j t = (area j t).days
  dayMWh : ∀ j t, t.val < N → P.MGNTA j t + P.MGNGA j t = (area j t).dayMWh
  hours : ∀ j t, t.val < N → H.LOLTA j t + H.LOLGA j t = (area j t).hours
  mwh : ∀ j t, t.val < N → H.MGNTA j t + H.MGNGA j t = (area j t).mwh
  pdays : ∀ t, t.val < N → P.LOLTP t + P.LOLGP t = (pool t).days
  pdayMWh : ∀ t, t.val < N → P.MGNTP t + P.MGNGP t = (pool t).dayMWh
  phours : ∀ t, t.val < N → H.LOLTP t + H.LOLGP t = (pool t).hours
  pmwh : ∀ t, t.val < N → H.MGNTP t + H.MGNGP t = (pool t).mwh

theorem year_books {step : ℕ} {raw : ℕ → ℕ → ℚ} {JSEED : ℤ} (hc : Calm sl fuel c s step raw JSEED)
    (hder : c.misc.NLS = 0 → ∀ i, (c.units i).der ≤ 100) {H : ℕ → ℕ}
    (hH : ∀ d, 1 ≤ d → d ≤ 8760 / step → Evaluated step s.hour.HRLOAD (step * d) (H d)) {log : List Ev} {st : St _}
    {evs : List (YearEnd (n + 1) _)} (hE : Ends s.hour s.year s.JPLOUT s.RATES snapNet (s.start JSEED) log st evs)
    {y : ℕ} {e : YearEnd (n + 1) _} (he : evs[y]? = some e) :
    CntFig (tiersOf c) e.H e.P
      (areaFig c (yearShare c step s.hour.HRLOAD H) (fun d => PeakDraw step s.hour.HRLOAD (step * d)) (8760 / step) y)
      (poolFig (yearShare c step s.hour.HRLOAD H) (fun d => PeakDraw step s.hour.HRLOAD (step * d)) (8760 / step) y) := by
  have h := hc.accepted
  have hJs : s.hour.JSTEP = step := by rw [C64_step h, hc.steps]; norm_num
  have hJ : StepOK s.hour.JSTEP := calm_stepOK hc
  have hJF : s.hour.JFREQ = 1 := by
    obtain ⟨wr, raw, T, ITAB, ID', hw, _, _, _, _, rfl⟩ := setup_ok h
    exact hc.freq
  obtain ⟨_, _, _, _, _, _, hmx⟩ := C64_loads h
  obtain ⟨done, cur, hh, hlen, _, hold, _, _⟩ := ends_history hJ hJF (fun _ d hd => by have := (hmx d).2.1; omega) hE
  obtain ⟨_, _, _, hshow, _⟩ := history_shows hc hder hH hh
  have hper : ∀ ds ∈ done, ds.length = 8760 / step := by
    intro ds hds
    have := (history_full hJ hh).2 ds hds
    rw [hJs] at this
    rcases hc.mode with e | e
    · rw [e] at this ⊢
      have : (ds.length : ℚ) = (8760 : ℕ) := by push_cast at this ⊢; linarith
      exact_mod_cast this
    · rw [e] at this ⊢
      have : (ds.length : ℚ) = (365 : ℕ) := by push_cast at this ⊢; linarith
      exact_mod_cast this
  obtain ⟨hN1, hN2, _⟩ := setup_tiers h
  have sums : ∀ y ds, done[y]? = some ds → ∀ t : Fin 5, t.val < tiersOf c → _ := fun y ds hy t ht =>
    year_sums (share := fun t j => yearShare c step s.hour.HRLOAD H t j y)
      (peak := fun d => PeakDraw step s.hour.HRLOAD (step * d)) (hper ds (List.mem_of_getElem? hy)) (hshow y ds hy) t
      (by rw [hN1]; exact ht)
  have sums' : ∀ y ds, done[y]? = some ds → ∀ t : Fin 5, t.val < tiersOf c → _ := fun y ds hy t ht =>
    year_peaks (share := fun t j => yearShare c step s.hour.HRLOAD H t j y)
      (peak := fun d => PeakDraw step s.hour.HRLOAD (step * d)) (hper ds (List.mem_of_getElem? hy)) (hshow y ds hy) t
      (by rw [hN1]; exact ht)
  have hylt : y < evs.length := by
    by_contra hn
    rw [List.getElem?_eq_none (by omega)] at he
    cases he
  have hy : y < done.length := by omega
  have hget : done.getD y [] = done[y] := by
    rw [List.getD_eq_getElem?_getD, List.getElem?_eq_getElem hy]; rfl
  obtain ⟨hh1, hp1⟩ := hold y e he
  rw [hN2] at hh1 hp1
  have g := List.getElem?_eq_getElem hy
  constructor
  · intro j t ht; rw [hp1.lole j t]; exact yearValue_carry _ (fun y ds hd => (sums y ds hd t ht).2.2.1 j) hy
  · intro j t ht; rw [hp1.eue j t]; exact yearValue_carry _ (fun y ds hd => (sums' y ds hd t ht).1 j) hy
  · intro j t ht; rw [hh1.lole j t]; exact yearValue_carry _ (fun y ds hd => (sums y ds hd t ht).1 j) hy
  · intro j t ht; rw [hh1.eue j t]; exact yearValue_carry _ (fun y ds hd => (sums y ds hd t ht).2.1 j) hy
  · intro t ht; rw [hp1.lp t ht, hget]; exact (sums y _ g t ht).2.2.2.2.2
  · intro t ht; rw [hp1.ep t ht, hget]; exact (sums' y _ g t ht).2
  · intro t ht; rw [hh1.lp t ht, hget]; exact (sums y _ g t ht).2.2.2.1
  · intro t ht; rw [hh1.ep t ht, hget]; exact (sums y _ g t ht).2.2.2.2.1

/-! ## The rows of the table -/

/-- The row of the totals of area or pool `a` in tier or average `b`. -/
def totalRow (INDX : ℤ) (a b : Option ℕ) (f : Fig) (g : Tag) : Row :=
  mkRow INDX a b f.hours (xlol f.mwh f.hours) f.mwh f.days (xlol f.dayMWh f.days) g

theorem poolTier_rows {k N : ℕ} {INDX : ℤ} {H P : Cnt k} {s s' : (Option ℚ × Option ℚ) × List Row} {t : Fin 5}
    (h : poolTier N INDX H P s t = .ok s') : (∀ r ∈ s.2, r ∈ s'.2) ∧ mkRow INDX none (some t.val) (sumTG N H.LOLTP H.LOLGP t)
      (xlol (sumTG N H.MGNTP H.MGNGP t) (sumTG N H.LOLTP H.LOLGP t)) (sumTG N H.MGNTP H.MGNGP t) (sumTG N P.LOLTP P.LOLGP t)
      (xlol (sumTG N P.MGNTP P.MGNGP t) (sumTG N P.LOLTP P.LOLGP t)) .GT ∈ s'.2 := by
  unfold poolTier at h
  dsimp only at h
  split at h <;>
  · obtain ⟨x, _, h⟩ := Except.bind_ok h
    split at h <;>
    · obtain ⟨y, _, h⟩ := Except.bind_ok h
      injection h with h
      rw [← h]
      exact ⟨fun r hr => by simp [hr], by simp⟩

theorem poolFold_rows {k N : ℕ} {INDX : ℤ} {H P : Cnt k} (l : List (Fin 5)) : ∀ {s s' : (Option ℚ × Option ℚ) × List Row},
    l.foldlM (poolTier N INDX H P) s = .ok s' → (∀ r ∈ s.2, r ∈ s'.2) ∧ ∀ t ∈ l, mkRow INDX none (some t.val) (sumTG N H.LOLTP H.LOLGP t)
      (xlol (sumTG N H.MGNTP H.MGNGP t) (sumTG N H.LOLTP H.LOLGP t)) (sumTG N H.MGNTP H.MGNGP t) (sumTG N P.LOLTP P.LOLGP t)
      (xlol (sumTG N P.MGNTP P.MGNGP t) (sumTG N P.LOLTP P.LOLGP t)) .GT ∈ s'.2 := by
  induction l with
  | nil =>
    intro s s' h
    injection h with h
    subst h
    exact ⟨fun r hr => hr, by simp⟩
  | cons t l ih =>
    intro s s' h
    rw [List.foldlM_cons] at h
    obtain ⟨s1, h1, h⟩ := Except.bind_ok h
    obtain ⟨a, b⟩ := poolTier_rows h1
    obtain ⟨a', b'⟩ := ih h
    refine ⟨fun r hr => a' r (a r hr), fun t' ht' => ?_⟩
    rcases List.mem_cons.1 ht' with rfl | ht'
    · exact a' _ b
    · exact b' t' ht'

theorem mem_tiers {N : ℕ} {t : Fin 5} (ht : t.val < N) : t ∈ (List.finRange 5).take N := by
  rw [List.mem_iff_getElem]
  refine ⟨t.val, ?_, ?_⟩
  · simp; omega
  · simp

/-- The rows of the totals are in the table. -/
theorem table_totals {k N : ℕ} (hN : N ≤ 5) {INDX : ℤ} {H P : Cnt k} (hH : WholeCnt H) (hP : WholeCnt P) {area : Fin k → Fin 5 → Fig}
    {pool : Fin 5 → Fig} (F : CntFig N H P area pool) {rows : List Row} (h : annualTable N INDX H P = .ok rows) :
    (∀ j t, t.val < N → totalRow INDX (some j.val) (some t.val) (area j t) (if INDX ≠ 1 then .GT else .TC) ∈ rows) ∧
    (∀ j, totalRow INDX (some j.val) none (meanFig N (area j)) .GT ∈ rows) ∧
    (∀ t, t.val < N → totalRow INDX none (some t.val) (pool t) .GT ∈ rows) ∧
    totalRow INDX none none (meanFig N pool) .GT ∈ rows := by
  unfold annualTable at h
  dsimp only at h
  obtain ⟨s, hs, h⟩ := Except.bind_ok h
  injection h with h
  obtain ⟨a, b⟩ := poolFold_rows _ hs
  have wc : ∀ f g : Fin 5 → ℚ, (∀ t, t.val < N → f t = g t) → weighted N f = weighted N g := fun f g h => weighted_congr h
  have hin : ∀ j r, r ∈ areaRows N INDX H P j → r ∈ rows := by
    intro j r hr
    rw [← h]
    refine List.mem_append_left _ (a r ?_)
    exact List.mem_flatMap.2 ⟨j, by simp, hr⟩
  refine ⟨fun j t ht => hin j _ ?_, fun j => hin j _ ?_, fun t ht => ?_, ?_⟩
  · unfold areaRows
    dsimp only
    refine List.mem_append_left _ (List.mem_flatMap.2 ⟨t, mem_tiers ht, ?_⟩)
    simp only [sumTG_whole (hH.LOLTA j) (hH.LOLGA j), sumTG_whole (hH.MGNTA j) (hH.MGNGA j),
      sumTG_whole (hP.LOLTA j) (hP.LOLGA j), sumTG_whole (hP.MGNTA j) (hP.MGNGA j), if_pos ht, F.days j t ht, F.dayMWh j t ht,
      F.hours j t ht, F.mwh j t ht]
    exact List.mem_cons_of_mem _ (List.mem_cons_of_mem _ (List.mem_cons_self ..))
  · unfold areaRows
    dsimp only
    refine List.mem_append_right _ (List.mem_cons_of_mem _ (List.mem_cons_of_mem _ ?_))
    rw [weighted_sumTG (hH.LOLTA j) (hH.LOLGA j) hN, weighted_sumTG (hH.MGNTA j) (hH.MGNGA j) hN,
      weighted_sumTG (hP.LOLTA j) (hP.LOLGA j) hN, weighted_sumTG (hP.MGNTA j) (hP.MGNGA j) hN,
      wc _ _ (F.days j), wc _ _ (F.dayMWh j), wc _ _ (F.hours j), wc _ _ (F.mwh j)]
    exact List.mem_cons_self ..
  · rw [← h]
    refine List.mem_append_left _ ?_
    have := b t (mem_tiers ht)
    simp only [sumTG_whole hH.LOLTP hH.LOLGP, sumTG_whole hH.MGNTP hH.MGNGP, sumTG_whole hP.LOLTP hP.LOLGP,
      sumTG_whole hP.MGNTP hP.MGNGP, if_pos ht, F.pdays t ht, F.pdayMWh t ht, F.phours t ht, F.pmwh t ht] at this
    exact this
  · rw [← h]
    refine List.mem_append_right _ (List.mem_cons_of_mem _ (List.mem_cons_of_mem _ ?_))
    simp only [poolW, zero_add, weighted_sumTG hH.LOLTP hH.LOLGP hN, weighted_sumTG hH.MGNTP hH.MGNGP hN,
      weighted_sumTG hP.LOLTP hP.LOLGP hN, weighted_sumTG hP.MGNTP hP.MGNGP hN, wc _ _ F.pdays, wc _ _ F.pdayMWh, wc _ _ F.phours, wc _ _ F.pmwh]
    exact List.mem_cons_self ..

/-! ## The words of the rows -/

theorem wholeWord {x : ℚ} (hx : Whole x) {w : List Char} (h : WholeShown x w) : WholeWord x w := by
  obtain ⟨K, rfl⟩ := hx
  obtain ⟨k, hk, h1, h2, h3⟩ := h
  refine ⟨k, ?_, hk⟩
  rw [Nat.abs_cast] at h1 h2
  have a : |k| ≤ (K : ℤ) := by exact_mod_cast h1
  have b : (K : ℤ) < |k| + 1 := by exact_mod_cast h2
  have e : |k| = K := by omega
  have h3 : 0 ≤ k * (K : ℤ) := by exact_mod_cast h3
  have : k = K := by
    rcases le_total 0 k with h | h
    · rw [abs_of_nonneg h] at e; exact e
    · rw [abs_of_nonpos h] at e
      have : k = -(K : ℤ) := by omega
      rw [this] at h3
      have : (K : ℤ) = 0 := by nlinarith
      omega
  rw [this]; norm_num

theorem tier_figs {INDX : ℤ} {a : Option ℕ} {t : ℕ} {f : Fig} {g : Tag} (hg : INDX ≠ 1 → g = .GT) (hw : Whole f.hours ∧ Whole f.mwh ∧ Whole f.days)
    {figs : List (List Char)} (h : List.Forall₂ (fun P w => P w) (annFigureList (totalRow INDX a (some t) f g)) figs) :
    TierFigs (INDX ≠ 1) f g.text (figs ++ [g.text]) := by
  unfold annFigureList totalRow mkRow at h
  refine ⟨fun hI => ?_, fun hI => ?_⟩
  · rw [if_pos hI] at h
    match figs, h with
    | [_, _, _, _, _], .cons h1 (.cons h2 (.cons h3 (.cons h4 (.cons h5 .nil)))) =>
      rw [hg hI]
      exact ⟨_, _, _, _, _, rfl, wholeWord hw.1 h1, h2, wholeWord hw.2.1 h3, wholeWord hw.2.2 h4, h5⟩
  · rw [if_neg hI] at h
    match figs, h with
    | [_, _], .cons h1 (.cons h2 .nil) => exact ⟨_, _, rfl, h1, h2⟩

theorem mean_figs {INDX : ℤ} {a : Option ℕ} {f : Fig} {figs : List (List Char)}
    (h : List.Forall₂ (fun P w => P w) (annFigureList (totalRow INDX a none f .GT)) figs) :
    MeanFigs (INDX ≠ 1) f (figs ++ [['G', 'T']]) := by
  unfold annFigureList totalRow mkRow at h
  refine ⟨fun hI => ?_, fun hI => ?_⟩
  · rw [if_pos hI] at h
    match figs, h with
    | [_, _, _, _, _], .cons h1 (.cons h2 (.cons h3 (.cons h4 (.cons h5 .nil)))) =>
      exact ⟨_, _, _, _, _, rfl, h1, h2, h3, h4, h5⟩
  · rw [if_neg hI] at h
    match figs, h with
    | [_, _], .cons h1 (.cons h2 .nil) => exact ⟨_, _, rfl, h1, h2⟩

theorem infix_flatten {α : Type} {x : List α} {xs : List (List α)} (h : x ∈ xs) : x <:+: xs.flatten := by
  obtain ⟨a, b, rfl⟩ := List.append_of_mem h
  exact ⟨a.flatten, b.flatten, by simp⟩

/-- The page that shows a table with these totals. -/
theorem page_of_table {k N Y : ℕ} (hN : N ≤ 5) {INDX : ℤ} {H P : Cnt k} (hH : WholeCnt H) (hP : WholeCnt P) {area : Fin k → Fin 5 → Fig}
    {pool : Fin 5 → Fig} (F : CntFig N H P area pool) {rows : List Row} (h : annualTable N INDX H P = .ok rows)
    {p : List (List (List Char))} (hp : AnnualAsIs INDX Y rows p) : YearPage (INDX ≠ 1) N Y area pool p := by
  obtain ⟨a1, a2, a3, a4⟩ := table_totals hN hH hP F h
  obtain ⟨y, top, units, areas, pl, rfl, hy, hA, hB⟩ := hp
  have inA : ∀ j b f g, totalRow INDX (some j) b f g ∈ rows → ∃ ws ∈ areas, AnnShown 0 (totalRow INDX (some j) b f g) ws := by
    intro j b f g hr
    have : totalRow INDX (some j) b f g ∈ rows.filter (·.area.isSome) := List.mem_filter.2 ⟨hr, rfl⟩
    obtain ⟨i, hi⟩ := List.getElem?_of_mem this
    exact forall₂_getElem hA hi
  have inB : ∀ b f g, totalRow INDX none b f g ∈ rows → ∃ ws, ws <:+: pl.flatten ∧ AnnShown 0 (totalRow INDX none b f g) ws := by
    intro b f g hr
    have : totalRow INDX none b f g ∈ rows.filter (·.area.isNone) := List.mem_filter.2 ⟨hr, rfl⟩
    obtain ⟨i, hi⟩ := List.getElem?_of_mem this
    obtain ⟨ws, hm, hs⟩ := forall₂_getElem hB hi
    exact ⟨ws, infix_flatten hm, hs⟩
  have wA : ∀ j t, t.val < N → Whole (area j t).hours ∧ Whole (area j t).mwh ∧ Whole (area j t).days := fun j t ht =>
    ⟨by rw [← F.hours j t ht]; exact (hH.LOLTA j t).add (hH.LOLGA j t), by rw [← F.mwh j t ht]; exact (hH.MGNTA j t).add (hH.MGNGA j t),
      by rw [← F.days j t ht]; exact (hP.LOLTA j t).add (hP.LOLGA j t)⟩
  have wP : ∀ t, t.val < N → Whole (pool t).hours ∧ Whole (pool t).mwh ∧ Whole (pool t).days := fun t ht =>
    ⟨by rw [← F.phours t ht]; exact (hH.LOLTP t).add (hH.LOLGP t), by rw [← F.pmwh t ht]; exact (hH.MGNTP t).add (hH.MGNGP t),
      by rw [← F.pdays t ht]; exact (hP.LOLTP t).add (hP.LOLGP t)⟩
  refine ⟨⟨y, _, rfl, hy⟩, fun j t ht => ?_, fun j => ?_, pl.flatten, by simp, fun t ht => ?_, ?_⟩
  · obtain ⟨ws, hm, key, figs, rfl, ⟨x, x', hk, hx, hx'⟩, hf⟩ := inA _ _ _ _ (a1 j t ht)
    subst hk
    refine ⟨x, x', figs ++ [(if INDX ≠ 1 then Tag.GT else .TC).text], ?_, hx, hx', ?_⟩
    · change x :: x' :: (figs ++ [_]) ∈ areas at hm
      simp only [List.mem_append, List.mem_cons]
      exact .inl (.inl (.inr hm))
    · have := tier_figs (g := if INDX ≠ 1 then .GT else .TC) (fun hI => if_pos hI) (wA j t ht) hf
      refine ⟨this.1, fun hI => ?_⟩
      have e := this.2 hI
      rw [if_neg hI] at e
      show ∃ d e, figs ++ [(if INDX ≠ 1 then Tag.GT else .TC).text] = _ ∧ _
      rw [if_neg hI]
      exact e
  · obtain ⟨ws, hm, key, figs, rfl, ⟨x, x', hk, hx, hx'⟩, hf⟩ := inA _ _ _ _ (a2 j)
    subst hk
    have hx' : x' = ['A', 'V'] := hx'
    subst hx'
    refine ⟨x, figs ++ [['G', 'T']], ?_, hx, mean_figs hf⟩
    change x :: ['A', 'V'] :: (figs ++ [_]) ∈ areas at hm
    simp only [List.mem_append, List.mem_cons]
    exact .inl (.inl (.inr hm))
  · obtain ⟨ws, hm, key, figs, rfl, ⟨x', hk, hx'⟩, hf⟩ := inB _ _ _ (a3 t ht)
    subst hk
    exact ⟨x', _, hm, hx', tier_figs (fun _ => rfl) (wP t ht) hf⟩
  · obtain ⟨ws, hm, key, figs, rfl, ⟨x', hk, hx'⟩, hf⟩ := inB _ _ _ a4
    subst hk
    have hx' : x' = ['A', 'V'] := hx'
    subst hx'
    exact ⟨_, hm, mean_figs hf⟩

/-! ## The file -/

theorem year_settings (h : setup sl fuel c = .ok s) : s.year = setupYear c ∧ ∀ j, s.NAMA j = areaLabel (c.areas j).name := by
  obtain ⟨wr, raw, T, ITAB, ID', hw, _, _, _, _, rfl⟩ := setup_ok h
  exact ⟨rfl, fun _ => rfl⟩

/-- The horizon of the cards is a whole number of years. -/
theorem finish_years (h : setup sl fuel c = .ok s) (hF : 1 ≤ c.misc.FINISH) : s.year.FINISH = 8760 * ((c.misc.FINISH.toNat : ℕ) : ℚ) := by
  rw [(year_settings h).1]
  show ((c.misc.FINISH : ℤ) : ℚ) * 8760 = _
  have e : ((c.misc.FINISH.toNat : ℕ) : ℚ) = ((c.misc.FINISH : ℤ) : ℚ) := by
    have : ((c.misc.FINISH.toNat : ℕ) : ℤ) = c.misc.FINISH := Int.toNat_of_nonneg (by omega)
    exact_mod_cast congrArg (Int.cast : ℤ → ℚ) this
  rw [e]; ring

/-- The pages of the file after a run with annual tables. -/
theorem pages_of_run {step : ℕ} {raw : ℕ → ℕ → ℚ} {JSEED : ℤ} (hc : Calm sl fuel c s step raw JSEED)
    (hder : c.misc.NLS = 0 → ∀ i, (c.units i).der ≤ 100) {H : ℕ → ℕ}
    (hH : ∀ d, 1 ≤ d → d ≤ 8760 / step → Evaluated step s.hour.HRLOAD (step * d) (H d))
    (hF : 1 ≤ c.misc.FINISH) (hI : c.misc.IOJ ≠ 0) {nm : Fin (n + 1) → List Char} (hnm : ∀ j, NameCard (nm j) (c.areas j).name)
    {old : List Char} {log : List Ev} {t : St _} {e : Exit}
    (hr : Reach (fileCfg s.hour s.year s.JPLOUT s.RATES snapNet s.NAMA s.SUSTAT) (narpInit s.hour.JSTEP m (worldInit
      (fun i => (programSeeds JSEED m l).1 i) (fun k => (programSeeds JSEED m l).2 k) s.net s.INTVT s.ITAB, old)) log t)
    (hx : Narp.step (fileCfg s.hour s.year s.JPLOUT s.RATES snapNet s.NAMA s.SUSTAT) t = .ok (.exit e)) :
    ∃ (pages : List (List (List (List Char)))) (last : List (List (List Char))),
      lineWords t.world.2 = lineWords old ++ pages.flatten ++ last ∧ pages.length = log.countP (fun e => e.kind = 4) ∧
      ∀ (y : ℕ) (p : List (List (List Char))), pages[y]? = some p → YearPage (step ≠ 24) (tiersOf c) (y + 1)
        (areaFig c (yearShare c step s.hour.HRLOAD H) (fun d => PeakDraw step s.hour.HRLOAD (step * d)) (8760 / step) y)
        (poolFig (yearShare c step s.hour.HRLOAD H) (fun d => PeakDraw step s.hour.HRLOAD (step * d)) (8760 / step) y) p := by
  have h := hc.accepted
  obtain ⟨hyr, hna⟩ := year_settings h
  have hJ := calm_stepOK hc
  have hIO : s.year.IOJ ≠ 0 := by rw [hyr]; exact hI
  obtain ⟨evs, tables, r, Rep, last, hE, hlen, g1, _, _, _, _, _, ⟨pages, q1, q2, q3⟩, _⟩ := C121_output (Y := c.misc.FINISH.toNat) hJ (by omega)
    (finish_years h hF) (by
      intro j
      rw [hna, strip_quotes (hnm j)]
      simp only [List.mem_append, not_or]
      exact ⟨shown_nl (hnm j).1, by decide⟩) hr hx
  have g1 := g1 hIO
  refine ⟨pages, last, q1, by rw [q2, ← g1.length_eq, hlen], fun y p hp => ?_⟩
  have hy : y < pages.length := by
    by_contra hn
    rw [List.getElem?_eq_none (by omega)] at hp
    cases hp
  have hy1 : y < tables.length := by omega
  have hy2 : y < evs.length := by rw [g1.length_eq]; exact hy1
  have ht := (List.forall₂_iff_get.1 g1).2 y hy2 hy1
  have hw := (ends_inv hJ hE).2.2.2.1 _ (List.getElem_mem hy2)
  have F := year_books hc hder hH hE (List.getElem?_eq_getElem hy2)
  have hN : s.year.NFCST = tiersOf c := (setup_tiers h).2.1
  have hN5 : tiersOf c ≤ 5 := by unfold tiersOf; split_ifs <;> norm_num
  simp only [List.get_eq_getElem] at ht
  rw [hN] at ht
  have P := page_of_table hN5 hw.1 hw.2 F ht (q3 y p _ hp (List.getElem?_eq_getElem hy1))
  have e1 : (s.year.INDX ≠ 1) = (step ≠ 24) := by
    rw [hyr]
    show ((if c.misc.JSTEP = 24 then (1 : ℤ) else 0) ≠ 1) = _
    rw [hc.steps]
    rcases hc.mode with e | e <;> rw [e] <;> norm_num
  rw [e1] at P
  exact P

/-- **C122 (what happens).** In every study in which no limit binds and in which annual tables are wanted: when the run ends,
`output.txt` has for every simulated year a page, and on it, for every area and forecast tier and for the averages over the
tiers, a line with the days, hours and energy that the cards, the random streams and the sharing rule give for the draws of that
year, and likewise for the pool. Where the counters of an area are not cleared at the year end (`Carried`, C30), the earlier
years are in the figures. -/
theorem C122_pages_partial {step : ℕ} {raw : ℕ → ℕ → ℚ} {JSEED : ℤ} (hc : Calm sl fuel c s step raw JSEED)
    (hder : c.misc.NLS = 0 → ∀ i, (c.units i).der ≤ 100) (hF : 1 ≤ c.misc.FINISH) (hI : c.misc.IOJ ≠ 0)
    {nm : Fin (n + 1) → List Char} (hnm : ∀ j, NameCard (nm j) (c.areas j).name) :
    ∃ (load : Fin (n + 1) → ℕ → ℚ) (H : ℕ → ℕ), (∀ j : Fin (n + 1), Scaled (raw j) (c.areas j).peak (load j)) ∧
    (∀ d, 1 ≤ d → d ≤ 8760 / step → Evaluated step load (step * d) (H d)) ∧
    ∀ (old : List Char) (log : List Ev) (t : St _) (e : Exit),
      Reach (fileCfg s.hour s.year s.JPLOUT s.RATES snapNet s.NAMA s.SUSTAT) (narpInit s.hour.JSTEP m (worldInit
        (fun i => (programSeeds JSEED m l).1 i) (fun k => (programSeeds JSEED m l).2 k) s.net s.INTVT s.ITAB, old)) log t →
      Narp.step (fileCfg s.hour s.year s.JPLOUT s.RATES snapNet s.NAMA s.SUSTAT) t = .ok (.exit e) →
      ∃ (pages : List (List (List (List Char)))) (last : List (List (List Char))),
        lineWords t.world.2 = lineWords old ++ pages.flatten ++ last ∧ pages.length = log.countP (fun e => e.kind = 4) ∧
        ∀ (y : ℕ) (p : List (List (List Char))), pages[y]? = some p → YearPage (step ≠ 24) (tiersOf c) (y + 1)
          (areaFig c (yearShare c step load H) (fun d => PeakDraw step load (step * d)) (8760 / step) y)
          (poolFig (yearShare c step load H) (fun d => PeakDraw step load (step * d)) (8760 / step) y) p := by
  obtain ⟨H, hH⟩ := hours_exist hc
  exact ⟨s.hour.HRLOAD, H, fun j => loads_scaled hc.accepted hc.load j (hc.peak j) (fun x hx => (hc.pos j x hx).le) (hc.some_load j),
    hH, fun old log t e hr hx => pages_of_run hc hder hH hF hI hnm hr hx⟩

/-- Where nothing is carried over, the figures of a page are those of its year alone. -/
theorem areaFig_plain {share : Fin 5 → Fin (n + 1) → ℕ → ℕ → ℚ} {peak : ℕ → Prop} {per y : ℕ} {j : Fin (n + 1)} {t : Fin 5}
    (h : j.val < tiersOf c ∧ t.val < n + 1) : areaFig c share peak per y j t =
      ⟨lossDays (share t j y) peak per, dayMWh (share t j y) peak per, lossHours (share t j y) per, wholeMWh (share t j y) per⟩ := by
  have hc : ¬ Carried (n + 1) (tiersOf c) j t := fun x => x h
  have e : ∀ v : ℕ → ℚ, withCarry (Carried (n + 1) (tiersOf c) j t) v y = v y := fun v => by
    unfold withCarry; rw [if_neg hc]; simp
  unfold areaFig
  rw [e, e, e, e]

/-- **C122, end to end in daily mode.** The cards of every study in daily mode that shares freely, with annual tables, make a run
that ends, and the file has the pages of all years with these figures. -/
theorem C122_cards_partial {raw : ℕ → ℕ → ℚ} (hc : AmpleStudy sl fuel c s 24 raw) (hI : c.misc.IOJ ≠ 0)
    (hF : 1 ≤ c.misc.FINISH) (hE : 20 ≤ c.misc.MAXEUE) (hK : c.misc.KWHERE = 1 → 1 ≤ c.misc.KVLOC ∧ c.misc.KVLOC ≤ n + 1)
    {nm : Fin (n + 1) → List Char} (hnm : ∀ j, NameCard (nm j) (c.areas j).name) (JSEED : ℤ) (old : List Char) :
    ∃ (load : Fin (n + 1) → ℕ → ℚ) (H : ℕ → ℕ), (∀ j : Fin (n + 1), Scaled (raw j) (c.areas j).peak (load j)) ∧
    (∀ d, 1 ≤ d → d ≤ 365 → Evaluated 24 load (24 * d) (H d)) ∧
    ∃ (log : List Ev) (t : St _) (e : Exit) (pages : List (List (List (List Char)))) (last : List (List (List Char))),
      Reach (fileCfg s.hour s.year s.JPLOUT s.RATES snapNet s.NAMA s.SUSTAT) (narpInit s.hour.JSTEP m (worldInit
        (fun i => (programSeeds JSEED m l).1 i) (fun k => (programSeeds JSEED m l).2 k) s.net s.INTVT s.ITAB, old)) log t ∧
      Narp.step (fileCfg s.hour s.year s.JPLOUT s.RATES snapNet s.NAMA s.SUSTAT) t = .ok (.exit e) ∧
      lineWords t.world.2 = lineWords old ++ pages.flatten ++ last ∧ 1 ≤ pages.length ∧
      ∀ (y : ℕ) (p : List (List (List Char))), pages[y]? = some p → YearPage False (tiersOf c) (y + 1)
        (areaFig c (yearShare c 24 load H) (fun _ => True) 365 y) (poolFig (yearShare c 24 load H) (fun _ => True) 365 y) p := by
  have hd : c.misc.JSTEP = 24 := by rw [hc.steps]; norm_num
  obtain ⟨load, H, h1, h2, log, t, e, _, _, _, a, b, _⟩ := C121_cards hc (.inr hd) hF hE hK hnm JSEED old
  have hl : load = s.hour.HRLOAD := funext fun j => scaled_unique (h1 j)
    (loads_scaled hc.accepted hc.load j (hc.peak j) (fun x hx => (hc.pos j x hx).le) (hc.some_load j))
  subst hl
  obtain ⟨pages, last', q1, q2, q3⟩ := pages_of_run (C110_calm hc JSEED) (fun _ i => (hc.derating i).2) h2 hF hI hnm a b
  have hpk : (fun d => PeakDraw 24 s.hour.HRLOAD (24 * d)) = fun _ => True := by
    funext d; exact propext ⟨fun _ => trivial, fun _ => .inl rfl⟩
  rw [hpk] at q3
  refine ⟨s.hour.HRLOAD, H, h1, h2, log, t, e, pages, last', a, b, q1, ?_, fun y p hp => ?_⟩
  · obtain ⟨evs, _, _, _, _, hEn, _⟩ := C121_output (Y := c.misc.FINISH.toNat) (calm_stepOK (C110_calm hc JSEED)) (by omega)
      (finish_years hc.accepted hF) (by
        intro j
        rw [(year_settings hc.accepted).2, strip_quotes (hnm j)]
        simp only [List.mem_append, not_or]
        exact ⟨shown_nl (hnm j).1, by decide⟩) a b
    obtain ⟨_, _, _, _, main⟩ := C114_report_partial (C110_calm hc JSEED) (fun _ i => (hc.derating i).2) hF hE
    obtain ⟨Y', _, y1, y2, _⟩ := main log _ e hEn.reach (via_step file_via b)
    rw [q2, ← y2]
    exact y1
  · have := q3 y p hp
    simpa using this

/-- C122 applies: two areas joined by an ample line, in daily mode with annual tables. -/
example (sl : ℕ → ℚ → ℚ) (fuel : ℕ) : ∃ (s : Setup 1 4 1) (raw : ℕ → ℕ → ℚ), AmpleStudy sl fuel ampleDaily s 24 raw ∧
    ∃ (load : Fin 2 → ℕ → ℚ) (H : ℕ → ℕ) (log : List Ev) (t : St _) (e : Exit) (p : List (List (List Char))),
      Reach (fileCfg s.hour s.year s.JPLOUT s.RATES snapNet s.NAMA s.SUSTAT) (narpInit s.hour.JSTEP 4 (worldInit
        (fun i => (programSeeds 1 4 1).1 i) (fun k => (programSeeds 1 4 1).2 k) s.net s.INTVT s.ITAB, [])) log t ∧
      Narp.step (fileCfg s.hour s.year s.JPLOUT s.RATES snapNet s.NAMA s.SUSTAT) t = .ok (.exit e) ∧ p <:+: lineWords t.world.2 ∧
      YearPage False (tiersOf ampleDaily) 1 (areaFig ampleDaily (yearShare ampleDaily 24 load H) (fun _ => True) 365 0)
        (poolFig (yearShare ampleDaily 24 load H) (fun _ => True) 365 0) p := by
  obtain ⟨s, raw, _, hs⟩ := ample_daily sl fuel
  obtain ⟨load, H, _, _, log, t, e, pages, last, a, b, c1, d, f⟩ := C122_cards_partial hs (by simp [ampleDaily]) (by simp [ampleDaily, ampleCards, demoCards])
    (by simp [ampleDaily, ampleCards, demoCards]; norm_num) (by simp [ampleDaily, ampleCards, demoCards]) (nm := ![['A'], ['B']])
    (by
      intro j
      fin_cases j
      · exact ⟨⟨by simp, by decide⟩, by decide, .inl rfl⟩
      · exact ⟨⟨by simp, by decide⟩, by decide, .inl rfl⟩) 1 []
  have h0 := List.getElem?_eq_getElem (show 0 < pages.length from d)
  refine ⟨s, raw, hs, load, H, log, t, e, _, a, b, ?_, f 0 _ h0⟩
  rw [c1]
  obtain ⟨u, v, hh⟩ := infix_flatten (List.getElem_mem (show 0 < pages.length from d))
  exact ⟨lineWords [] ++ u, v ++ last, by rw [← hh]; simp only [List.append_assoc]⟩

end Narp.Props
