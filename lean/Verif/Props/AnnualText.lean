import Verif.Props.ReportText
import Verif.Props.ReadB

/-!
# C117: the text of the annual tables
-/

namespace Narp.Props
open Narp Narp.Spec

/-! ## Specification -/

/-- The word shows the whole part of `x`. -/
def WholeShown (x : ℚ) (w : List Char) : Prop :=
  ∃ k : ℤ, ShownInt k w ∧ |(k : ℚ)| ≤ |x| ∧ |x| < |(k : ℚ)| + 1 ∧ 0 ≤ k * x

/-- The figures of a row of an annual table: whole numbers for a single tier (but for the two loads per occurrence), two
decimals for the averages. -/
def annFigureList (r : Row) : List (List Char → Prop) :=
  match r.hourly, r.tier with
  | some (lole, xlol, eue), some _ => [WholeShown lole, ShownTo 2 xlol, WholeShown eue, WholeShown r.peak.1, ShownTo 2 r.peak.2]
  | some (lole, xlol, eue), none => [ShownTo 2 lole, ShownTo 2 xlol, ShownTo 0 eue, ShownTo 2 r.peak.1, ShownTo 2 r.peak.2]
  | none, _ => [ShownTo 2 r.peak.1, ShownTo 2 r.peak.2]

/-- The words of a row of an annual table, areas and tiers counted from `start`. -/
def AnnShown (start : ℕ) (r : Row) (ws : List (List Char)) : Prop :=
  ∃ key figs, ws = key ++ figs ++ [r.tag.text] ∧ KeyShown start r key ∧ List.Forall₂ (fun P w => P w) (annFigureList r) figs

/-- The lines of an annual table with these rows: what an orderly page has, a line for every row. -/
def AnnualShown (start : ℕ) (INDX Y : ℤ) (rows : List Row) (ls : List (List (List Char))) : Prop :=
  ∃ y top units areas pool, ls = line ["TABLE"] :: (line ["RESULTS", "AFTER"] ++ [y] ++ line ["REPLICATIONS"]) ::
      [top, rowTitles INDX, units] ++ areas ++ [line ["POOL", "STATISTICS"]] ++ pool ∧ ShownInt Y y ∧
    List.Forall₂ (AnnShown start) (rows.filter (·.area.isSome)) areas ∧
    List.Forall₂ (AnnShown start) (rows.filter (·.area.isNone)) pool

/-- The same with areas and tiers counted from 0 and all rows of the pool on a single line. -/
def AnnualAsIs (INDX Y : ℤ) (rows : List Row) (ls : List (List (List Char))) : Prop :=
  ∃ y top units areas pool, ls = line ["TABLE"] :: (line ["RESULTS", "AFTER"] ++ [y] ++ line ["REPLICATIONS"]) ::
      [top, rowTitles INDX, units] ++ areas ++ [line ["POOL", "STATISTICS"]] ++ [pool.flatten] ∧ ShownInt Y y ∧
    List.Forall₂ (AnnShown 0) (rows.filter (·.area.isSome)) areas ∧
    List.Forall₂ (AnnShown 0) (rows.filter (·.area.isNone)) pool

/-! ## Rows -/

theorem trunc_shown (x : ℚ) : WholeShown x (truncText x) := by
  refine ⟨_, intText_shown _, ?_⟩
  split_ifs with h
  · have h0 : 0 ≤ ⌊-x⌋ := Int.floor_nonneg.mpr (by linarith)
    have h1 := Int.floor_le (-x)
    have h2 := Int.lt_floor_add_one (-x)
    have h0' : (0 : ℚ) ≤ (⌊-x⌋ : ℤ) := by exact_mod_cast h0
    rw [abs_of_neg h]
    push_cast
    rw [abs_neg, abs_of_nonneg h0']
    exact ⟨h1, h2, by nlinarith⟩
  · have hx : 0 ≤ x := not_lt.mp h
    have h0' : (0 : ℚ) ≤ (⌊x⌋ : ℤ) := by exact_mod_cast Int.floor_nonneg.mpr hx
    rw [abs_of_nonneg hx, abs_of_nonneg h0']
    exact ⟨Int.floor_le x, Int.lt_floor_add_one x, mul_nonneg h0' hx⟩

theorem trunc_word (x : ℚ) : IsWord (truncText x) := (intText_shown _).word

theorem trunc_cons {k w : ℕ} (hk : 0 < k) (x : ℚ) {cs Ps} (h : Cells cs Ps) :
    Cells (cell (sp k) w (truncText x) :: cs) (WholeShown x :: Ps) :=
  h.cons hk (trunc_shown x) (trunc_word x)

theorem ann_key_cells (r : Row) : ∃ ts, List.Forall₂ CellOK (annKey r) ts ∧ KeyShown 0 r ts := by
  have hA := tier_shown 0 r.tier
  unfold annKey KeyShown
  cases r.area with
  | none => exact ⟨_, .cons (cellOK_sp (by norm_num) hA.2) .nil, _, rfl, hA.1⟩
  | some j =>
    exact ⟨_, .cons (cellOK_sp (by norm_num) (natText_shown (j + 0)).word) (.cons (cellOK_sp (by norm_num) hA.2) .nil), _, _, rfl,
      natText_shown (j + 0), hA.1⟩

theorem ann_figures_cells (r : Row) : ∃ ts, List.Forall₂ CellOK (annFigures r) (ts ++ [r.tag.text]) ∧
    List.Forall₂ (fun P w => P w) (annFigureList r) ts := by
  have tag : List.Forall₂ CellOK [cell (sp 12) 0 r.tag.text] [r.tag.text] :=
    .cons (cellOK_sp (by norm_num) (tag_word _)) .nil
  unfold annFigures annFigureList
  cases r.hourly with
  | none =>
    obtain ⟨ts, h1, h2⟩ := fixed_cons (k := 9) (w := 8) (by norm_num) 2 r.peak.1 (fixed_cons (k := 2) (w := 8) (by norm_num) 2 r.peak.2 .nil)
    exact ⟨ts, List.rel_append h1 tag, h2⟩
  | some x =>
    obtain ⟨a, b, c⟩ := x
    cases r.tier with
    | none =>
      obtain ⟨ts, h1, h2⟩ := fixed_cons (k := 5) (w := 7) (by norm_num) 2 a
        (fixed_cons (k := 2) (w := 8) (by norm_num) 2 b (fixed_cons (k := 3) (w := 7) (by norm_num) 0 c
        (fixed_cons (k := 5) (w := 7) (by norm_num) 2 r.peak.1
        (fixed_cons (k := 2) (w := 8) (by norm_num) 2 r.peak.2 .nil))))
      exact ⟨ts, List.rel_append h1 tag, h2⟩
    | some N =>
      cases r.area with
      | none =>
        obtain ⟨ts, h1, h2⟩ := trunc_cons (k := 5) (w := 4) (by norm_num) a
          (fixed_cons (k := 5) (w := 8) (by norm_num) 2 b (trunc_cons (k := 2) (w := 8) (by norm_num) c
          (trunc_cons (k := 5) (w := 4) (by norm_num) r.peak.1
          (fixed_cons (k := 5) (w := 8) (by norm_num) 2 r.peak.2 .nil))))
        exact ⟨ts, List.rel_append h1 tag, h2⟩
      | some j =>
        obtain ⟨ts, h1, h2⟩ := trunc_cons (k := 4) (w := 4) (by norm_num) a
          (fixed_cons (k := 4) (w := 8) (by norm_num) 2 b (trunc_cons (k := 2) (w := 8) (by norm_num) c
          (trunc_cons (k := 5) (w := 4) (by norm_num) r.peak.1
          (fixed_cons (k := 5) (w := 8) (by norm_num) 2 r.peak.2 .nil))))
        exact ⟨ts, List.rel_append h1 tag, h2⟩

theorem ann_cells (r : Row) : ∃ ws, List.Forall₂ CellOK (annKey r ++ annFigures r) ws ∧ AnnShown 0 r ws ∧ ws ≠ [] := by
  obtain ⟨ks, h1, h2⟩ := ann_key_cells r
  obtain ⟨fs, g1, g2⟩ := ann_figures_cells r
  exact ⟨ks ++ (fs ++ [r.tag.text]), List.rel_append h1 g1, ⟨ks, fs, (List.append_assoc _ _ _).symm, h2, g2⟩, by simp⟩

theorem starts_ann {r : Row} (hr : r.area.isSome) : Starts (annRowText r) := by
  unfold annRowText
  cases h : r.area with
  | none => rw [h] at hr; cases hr
  | some j => exact .inr ⟨_, rfl⟩

theorem ann_line {r : Row} (hr : r.area.isSome) : ∃ ws, lineWords (annRowText r) = [ws] ∧ AnnShown 0 r ws := by
  obtain ⟨ws, h1, h2, h3⟩ := ann_cells r
  obtain ⟨e1, e2⟩ := cells_words h1 []
  rw [List.nil_append] at e1 e2
  have hw : words (annKey r ++ annFigures r).flatten = ws := by rw [e1]; simp [words, cutAt]
  refine ⟨ws, ?_, h2⟩
  unfold annRowText
  cases h : r.area with
  | none => rw [h] at hr; cases hr
  | some j =>
    dsimp only
    rw [lw_start, lw_end, lw_line (e2 (by simp)) (by rw [hw]; exact h3), hw]

theorem ann_area_lines (l : List Row) (hl : ∀ r ∈ l, r.area.isSome) : Starts (l.flatMap annRowText) ∧
    List.Forall₂ (AnnShown 0) l (lineWords (l.flatMap annRowText)) := by
  induction l with
  | nil => exact ⟨.inl rfl, .nil⟩
  | cons r l ih =>
    obtain ⟨ws, h1, h2⟩ := ann_line (hl r (by simp))
    obtain ⟨s, g⟩ := ih fun x hx => hl x (by simp [hx])
    rw [List.flatMap_cons]
    refine ⟨(starts_ann (hl r (by simp))).append s, ?_⟩
    rw [lw_append _ s, h1]
    exact .cons h2 g

theorem ann_pool_line (l : List Row) (hl : ∀ r ∈ l, r.area = none) : ∃ wss, List.Forall₂ (AnnShown 0) l wss ∧
    ∃ cs, l.flatMap annRowText = cs.flatten ∧ List.Forall₂ CellOK cs wss.flatten := by
  induction l with
  | nil => exact ⟨[], .nil, [], rfl, .nil⟩
  | cons r l ih =>
    obtain ⟨ws, h1, h2, _⟩ := ann_cells r
    obtain ⟨wss, g1, cs, g2, g3⟩ := ih fun x hx => hl x (by simp [hx])
    refine ⟨ws :: wss, .cons h2 g1, (annKey r ++ annFigures r) ++ cs, ?_, ?_⟩
    · rw [List.flatMap_cons, g2, List.flatten_append]
      unfold annRowText
      rw [hl r (by simp)]
    · rw [List.flatten_cons]; exact List.rel_append h1 g3

theorem ann_head (INDX Y : ℤ) : ∃ top units, lineWords (annHead INDX Y) =
    line ["TABLE"] :: (line ["RESULTS", "AFTER"] ++ [intText Y] ++ line ["REPLICATIONS"]) :: [top, rowTitles INDX, units] := by
  obtain ⟨ti, hti, top, units, hlen⟩ : ∃ ti : List Char, ti = (if INDX ≠ 1 then
      " \n  AREA FORECAST    HOURLY STATISTICS     PEAK STATISTICS    REMARKS\n".toList ++
      " \n NO   NO         HLOLE    XLOL     EUE       LOLE       XLOL\n".toList ++
      "\n                (HRS/YR)   (MW)      (MWH)     (DAYS/YR)  (MW)\n".toList
    else
      "\n  AREA FORECAST    PEAK STATISTICS            REMARKS\n".toList ++ "\n  NO   NO          LOLE       XLOL\n".toList ++
      "\n                   (DAYS/YR)   MW\n".toList) ∧ ∃ top units, lineWords ti = [top, rowTitles INDX, units] := by
    refine ⟨_, rfl, ?_⟩
    unfold rowTitles
    split_ifs
    · exact ⟨line ["AREA", "FORECAST", "HOURLY", "STATISTICS", "PEAK", "STATISTICS", "REMARKS"],
        line ["(HRS/YR)", "(MW)", "(MWH)", "(DAYS/YR)", "(MW)"], by decide +kernel⟩
    · exact ⟨line ["AREA", "FORECAST", "PEAK", "STATISTICS", "REMARKS"], line ["(DAYS/YR)", "MW"], by decide +kernel⟩
  have e : annHead INDX Y = (" \n  \n TABLE \n  ".toList) ++ '\n' :: ((" RESULTS AFTER".toList ++ ' ' :: (cell [] 0 (intText Y) ++ ' ' ::
      "REPLICATIONS ".toList)) ++ '\n' :: ti) := by
    have l1 : " \n ".toList ++ (" \n TABLE \n ".toList ++ " \n RESULTS AFTER ".toList) =
        " \n  \n TABLE \n  ".toList ++ '\n' :: (" RESULTS AFTER".toList ++ [' ']) := by decide +kernel
    have l2 : " REPLICATIONS \n".toList = ' ' :: ("REPLICATIONS ".toList ++ ['\n']) := by decide +kernel
    unfold annHead
    rw [← hti, cell_zero, l2, List.append_assoc (" \n ".toList), l1]
    simp only [List.append_assoc, List.cons_append, List.nil_append]
  refine ⟨top, units, ?_⟩
  rw [e, lw_sep, lw_sep, lw_number _ _ (intText_shown Y).word 0 (by decide +kernel) (by decide +kernel), hlen]
  have w1 : lineWords " \n  \n TABLE \n  ".toList = [line ["TABLE"]] := by decide +kernel
  have w2 : words " RESULTS AFTER".toList = line ["RESULTS", "AFTER"] := by decide +kernel
  have w3 : words "REPLICATIONS ".toList = line ["REPLICATIONS"] := by decide +kernel
  rw [w1, w2, w3]
  rfl

/-! ## The table -/

theorem mkRow_area (INDX : ℤ) (a t : Option ℕ) (x1 x2 x3 x4 x5 : ℚ) (g : Tag) : (mkRow INDX a t x1 x2 x3 x4 x5 g).area = a := rfl

theorem annual_pool {n : ℕ} {NFCST : ℕ} {INDX : ℤ} {H P : Cnt n} {rows : List Row} (h : annualTable NFCST INDX H P = .ok rows) :
    3 ≤ (rows.filter (·.area.isNone)).length := by
  unfold annualTable at h
  obtain ⟨s, _, h⟩ := Except.bind_ok h
  injection h with h
  rw [← h, List.filter_append, List.length_append]
  have : ∀ a b c d e a' b' c' d' e' a'' b'' c'' d'' e'' : ℚ, (([mkRow INDX none none a b c d e .GC, mkRow INDX none none a' b' c' d' e' .TC,
    mkRow INDX none none a'' b'' c'' d'' e'' .GT] : List Row).filter (·.area.isNone)).length = 3 := by
    intros; rfl
  rw [this]
  omega

/-- **C117**, what the page shows: every row of an area on a line of its own, but areas and tiers are counted from 0, and all
rows of the pool are on one line. -/
theorem C117_annual_partial {n : ℕ} {NFCST : ℕ} {INDX : ℤ} {H P : Cnt n} {rows : List Row} (h : annualTable NFCST INDX H P = .ok rows)
    (Y : ℤ) : AnnualAsIs INDX Y rows (lineWords (annualText INDX Y rows)) := by
  have hp := annual_pool h
  obtain ⟨top, units, H1⟩ := ann_head INDX Y
  obtain ⟨sA, hA⟩ := ann_area_lines (rows.filter (·.area.isSome)) (fun r hr => by simpa using (List.mem_filter.mp hr).2)
  obtain ⟨wss, hB, cs, hc, hcs⟩ := ann_pool_line (rows.filter (·.area.isNone))
    (fun r hr => by simpa using (List.mem_filter.mp hr).2)
  have hne : wss.flatten ≠ [] := by
    generalize rows.filter (·.area.isNone) = l at hp hB
    rcases hB with _ | ⟨⟨key, figs, rfl, _⟩, _⟩
    · simp at hp
    · simp
  obtain ⟨e1, e2⟩ := cells_words hcs []
  rw [List.nil_append] at e1 e2
  have hw : words cs.flatten = wss.flatten := by rw [e1]; simp [words, cutAt]
  have wp : lineWords "\n  POOL STATISTICS ".toList = [line ["POOL", "STATISTICS"]] := by decide +kernel
  have lp : "\n  POOL STATISTICS \n".toList = "\n  POOL STATISTICS ".toList ++ ['\n'] := by decide +kernel
  have lq : "\n  POOL STATISTICS ".toList = '\n' :: "  POOL STATISTICS ".toList := by decide +kernel
  refine ⟨_, top, units, _, wss, ?_, intText_shown Y, hA, hB⟩
  unfold annualText
  have e : annHead INDX Y ++ List.flatMap annRowText (rows.filter (·.area.isSome)) ++ "\n  POOL STATISTICS \n".toList ++
      List.flatMap annRowText (rows.filter (·.area.isNone)) =
      (annHead INDX Y ++ List.flatMap annRowText (rows.filter (·.area.isSome)) ++ "\n  POOL STATISTICS ".toList) ++ '\n' :: cs.flatten := by
    rw [lp, hc]
    simp only [List.append_assoc, List.cons_append, List.nil_append]
  rw [e, lw_sep, lw_append _ (.inr ⟨_, lq⟩), wp, lw_append _ sA, H1, lw_line (e2 (by simp)) (by rw [hw]; exact hne), hw]

/-- A word that shows a whole number is read back as that number. -/
theorem shownInt_read {k : ℤ} {w : List Char} (h : ShownInt k w) : pyFloat w = .ok (k : ℚ) := by
  obtain ⟨d, hw, rfl, _, _, _, hv⟩ := h
  have := pyFloat_text d hw (s := []) (t := []) (by simp) (by simp)
  rw [List.nil_append, List.append_nil] at this
  rw [this, hv]

/-- **C116**, read back: a reader that takes a figure of the report from the page gets it up to half a unit of the last digit. -/
theorem C116_read_back {p : ℕ} {x : ℚ} {w : List Char} (h : ShownTo p x w) : ∃ v, pyFloat w = .ok v ∧ |v - x| ≤ 1 / 2 / 10 ^ p := by
  obtain ⟨d, hw, rfl, _, _, _, _, _, hv⟩ := h
  have := pyFloat_text d hw (s := []) (t := []) (by simp) (by simp)
  rw [List.nil_append, List.append_nil] at this
  exact ⟨d.value, this, by simpa using hv⟩

/-- The word of a whole number determines it. -/
theorem shownInt_inj {a b : ℤ} {w : List Char} (ha : ShownInt a w) (hb : ShownInt b w) : a = b := by
  have := (shownInt_read ha).symm.trans (shownInt_read hb)
  injection this with this
  exact_mod_cast this

/-- C117 fails: no annual table is an orderly page with a line for every row, wherever the counting of areas and tiers starts. -/
theorem C117_lines_refuted {n : ℕ} {NFCST : ℕ} {INDX : ℤ} {H P : Cnt n} {rows : List Row} (h : annualTable NFCST INDX H P = .ok rows)
    (start : ℕ) (Y : ℤ) : ¬ AnnualShown start INDX Y rows (lineWords (annualText INDX Y rows)) := by
  rintro ⟨y, top, units, A, B, e, _, hA, hB⟩
  obtain ⟨y', top', units', A', B', e', _, hA', _⟩ := C117_annual_partial h Y
  have hl := congrArg List.length (e.symm.trans e')
  have hp := annual_pool h
  have h1 := hA.length_eq
  have h2 := hA'.length_eq
  have h3 := hB.length_eq
  simp only [List.length_append, List.length_cons, List.length_nil] at hl
  omega

/-- C117 fails: the line of an area in an annual table and the line of the same area in the final report begin with different
numbers. -/
theorem C117_number_refuted {r r' : Row} {j : ℕ} (hr : r.area = some j) (hr' : r'.area = some j) {ws ws' : List (List Char)}
    (h : lineWords (annRowText r) = [ws]) (h' : lineWords (repRowText r') = [ws']) : ws.head? ≠ ws'.head? := by
  obtain ⟨vs, e, key, figs, rfl, hk, _⟩ := ann_line (r := r) (by rw [hr]; rfl)
  obtain ⟨vs', e', key', figs', rfl, hk', _⟩ := row_line r'
  rw [e] at h
  rw [e'] at h'
  injection h with h
  injection h' with h'
  unfold KeyShown at hk hk'
  rw [hr] at hk
  rw [hr'] at hk'
  obtain ⟨a, t, rfl, ha, _⟩ := hk
  obtain ⟨a', t', rfl, ha', _⟩ := hk'
  rw [← h, ← h']
  intro hh
  simp only [List.cons_append, List.head?_cons, Option.some.injEq] at hh
  subst hh
  have := shownInt_inj ha ha'
  push_cast at this
  omega

/-- Two short hours in the first area, one of them at its peak. -/
def shortCnt (k : ℚ) : Cnt 2 :=
  { LOLTA := fun _ _ => 0, LOLGA := fun j _ => if j = 0 then k else 0, LOLTP := fun _ => 0, LOLGP := fun _ => k, MGNTA := fun _ _ => 0,
    MGNGA := fun j _ => if j = 0 then 75 / 2 * k else 0, MGNTP := fun _ => 0, MGNGP := fun _ => 75 / 2 * k }

/-- C117 applies: a table of two areas, the first with two short hours. -/
example : ∃ rows, annualTable 1 0 (shortCnt 2) (shortCnt 1) = .ok rows ∧ rows.length = 18 ∧
    AnnualAsIs 0 3 rows (lineWords (annualText 0 3 rows)) ∧
    lineWords ((rows.take 1).flatMap annRowText) = [line ["0", "0", "2", "37.50", "75", "1", "37.50", "GC"]] := by
  obtain ⟨rows, h, hl, hx⟩ : ∃ rows, annualTable 1 0 (shortCnt 2) (shortCnt 1) = .ok rows ∧ rows.length = 18 ∧
      lineWords ((rows.take 1).flatMap annRowText) = [line ["0", "0", "2", "37.50", "75", "1", "37.50", "GC"]] := by
    refine ⟨_, rfl, by decide +kernel, by decide +kernel⟩
  exact ⟨rows, h, hl, C117_annual_partial h 3, hx⟩

end Narp.Props
