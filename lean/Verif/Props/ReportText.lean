import Verif.Props.Printed

/-!
# C116: the text of the final report
-/

namespace Narp.Props
open Narp Narp.Spec

/-! ## Specification: what the words of a line say -/

/-- The word is the number of a tier, counted from `start`, or AV for the average over the tiers. -/
def TierShown (start : ℕ) (t : Option ℕ) (w : List Char) : Prop :=
  match t with
  | some N => ShownInt (N + start : ℕ) w
  | none => w = ['A', 'V']

/-- The words are the number of an area (none for the pool) and of a tier, counted from `start`. -/
def KeyShown (start : ℕ) (r : Row) (ws : List (List Char)) : Prop :=
  match r.area with
  | some j => ∃ a t, ws = [a, t] ∧ ShownInt (j + start : ℕ) a ∧ TierShown start r.tier t
  | none => ∃ t, ws = [t] ∧ TierShown start r.tier t

/-- The figures of a row of the first table, in the order of the titles, each to two decimals, the energy in whole MWh, the
averages of the pool to three decimals. -/
def rowFigures (r : Row) : List (List Char → Prop) :=
  match r.hourly with
  | some (lole, xlol, eue) =>
    let p := if r.area = none ∧ r.tier = none then 3 else 2
    [ShownTo p lole, ShownTo 2 xlol, ShownTo 0 eue, ShownTo p r.peak.1, ShownTo 2 r.peak.2]
  | none => [ShownTo 2 r.peak.1, ShownTo 2 r.peak.2]

/-- The words of a line of the first table. -/
def RowShown (r : Row) (ws : List (List Char)) : Prop :=
  ∃ key figs, ws = key ++ figs ++ [r.tag.text] ∧ KeyShown 1 r key ∧ List.Forall₂ (fun P w => P w) (rowFigures r) figs

/-- The word shows a standard deviation, or is `nan` where there is none. -/
def SdShown (p : ℕ) (s : Sd) (w : List Char) : Prop :=
  match s.pct with
  | some x => ShownTo p x w
  | none => w = ['n', 'a', 'n']

/-- The figures of a line of the summary: peak, capacity, reserve in percent; hours, energy and days, each with its deviation. -/
def sumFigures (q : SumRow) : List (List Char → Prop) :=
  [ShownTo 0 q.peak, ShownTo 0 q.cap, ShownTo 1 q.res] ++
  match q.hourly with
  | some (a, b) => [ShownTo 3 a.1, SdShown 3 a.2, ShownTo 0 b.1, SdShown 0 b.2, ShownTo 3 q.lole.1, SdShown 3 q.lole.2]
  | none => [ShownTo 3 q.lole.1, SdShown 3 q.lole.2]

/-- The words of a line of the summary: the name of the area, or ERCOT for the pool, and the figures. -/
def SumShown (q : SumRow) (ws : List (List Char)) : Prop :=
  ∃ figs, ws = (match q.name with | some s => words s.toList | none => [['E', 'R', 'C', 'O', 'T']]) ++ figs ∧
    List.Forall₂ (fun P w => P w) (sumFigures q) figs

/-- The words of a line of a distribution table. -/
def DistShown (d : DistRow) (ws : List (List Char)) : Prop :=
  List.Forall₂ (fun P w => P w) [ShownInt d.cls, ShownTo 0 d.dp, ShownTo 3 d.pdp, ShownTo 0 d.hl, ShownTo 3 d.phl, ShownInt d.limit,
    ShownTo 0 d.eue, ShownTo 4 d.peue] ws

/-- A line, given by its words. -/
def line (l : List String) : List (List Char) := l.map String.toList

/-- The titles of the columns of the first table. -/
def rowTitles (INDX : ℤ) : List (List Char) :=
  if INDX ≠ 1 then line ["NO", "NO", "HLOLE", "XLOL", "EUE", "LOLE", "XLOL"] else line ["NO", "NO", "LOLE", "XLOL"]

/-- The lines of the distribution table of area `i` (counted from 0): heading, titles, one line for each class. -/
def DistTable {n : ℕ} (ITAB : ℤ) (R : Report n) (i : Fin n) (ls : List (List (List Char))) : Prop :=
  ∃ t a titles rows, ls = (line ["TABLE"] ++ [t]) :: (line ["PROBABILITY", "DISTRIBUTIONS", "FOR", "AREA"] ++ [a]) :: titles ++ rows ∧
    titles.length = 2 ∧ ShownInt (ITAB + 2 + (i.val + 1)) t ∧ ShownInt (i.val + 1 : ℕ) a ∧ List.Forall₂ DistShown (R.dist i) rows

/-- The lines (those that are not blank) of the final report `R`: the first table with the rows of the areas and, under a heading
of their own, of the pool; the summary; the distributions. The tables are numbered from `ITAB + 1`. -/
def ReportShown {n : ℕ} (INDX ITAB : ℤ) (R : Report n) (ls : List (List (List Char))) : Prop :=
  ∃ t y top units areas pool t' titles summary dist,
    ls = (line ["TABLE"] ++ [t]) :: (line ["FINAL", "RESULTS", "AFTER"] ++ [y] ++ line ["REPLICATIONS"]) :: [top, rowTitles INDX, units] ++
      areas ++ [line ["POOL", "STATISTICS"]] ++ pool ++
      ((line ["TABLE"] ++ [t']) :: line ["SUMMARY", "OF", "RESULTS"] :: titles) ++ summary ++ (List.finRange n).flatMap dist ∧
    ShownInt (ITAB + 1) t ∧ ShownInt R.years y ∧ List.Forall₂ RowShown (R.rows.filter (·.area.isSome)) areas ∧
    List.Forall₂ RowShown (R.rows.filter (·.area.isNone)) pool ∧ ShownInt (ITAB + 2) t' ∧
    List.Forall₂ SumShown R.summary summary ∧ ∀ i, DistTable ITAB R i (dist i)

/-! ## Rows -/

theorem tag_word (t : Tag) : IsWord t.text := by
  cases t <;> exact ⟨by simp [Tag.text], by decide⟩

theorem av_word : IsWord ['A', 'V'] := ⟨by simp, by decide⟩

/-- Cells that show what they should. -/
def Cells (cs : List (List Char)) (Ps : List (List Char → Prop)) : Prop :=
  ∃ ts, List.Forall₂ CellOK cs ts ∧ List.Forall₂ (fun P w => P w) Ps ts

theorem Cells.nil : Cells [] [] := ⟨[], .nil, .nil⟩

theorem Cells.cons {k w : ℕ} (hk : 0 < k) {t : List Char} {P : List Char → Prop} {cs Ps} (hP : P t) (ht : IsWord t) (h : Cells cs Ps) :
    Cells (cell (sp k) w t :: cs) (P :: Ps) := by
  obtain ⟨ts, h1, h2⟩ := h
  exact ⟨t :: ts, .cons (cellOK_sp hk ht) h1, .cons hP h2⟩

theorem Cells.tab {k w : ℕ} (hk : 0 < k) {t : List Char} {P : List Char → Prop} {cs Ps} (hP : P t) (ht : IsWord t) (h : Cells cs Ps) :
    Cells (cell (tb k) w t :: cs) (P :: Ps) := by
  obtain ⟨ts, h1, h2⟩ := h
  exact ⟨t :: ts, .cons (cellOK_tb hk ht) h1, .cons hP h2⟩

theorem tier_shown (start : ℕ) (t : Option ℕ) : TierShown start t (match t with | some N => natText (N + start) | none => ['A', 'V']) ∧
    IsWord (match t with | some N => natText (N + start) | none => ['A', 'V']) := by
  cases t with
  | none => exact ⟨rfl, av_word⟩
  | some N => exact ⟨natText_shown _, (natText_shown _).word⟩

theorem fixed_cons {K : Type} [Field K] [LinearOrder K] [IsStrictOrderedRing K] [FloorRing K] {k w : ℕ} (hk : 0 < k) (p : ℕ) (x : K)
    {cs Ps} (h : Cells cs Ps) : Cells (cell (sp k) w (fixedText p x) :: cs) (ShownTo p x :: Ps) :=
  h.cons hk (fixedText_shown p x) (fixedText_shown p x).word

theorem fixed_tab {K : Type} [Field K] [LinearOrder K] [IsStrictOrderedRing K] [FloorRing K] {k w : ℕ} (hk : 0 < k) (p : ℕ) (x : K)
    {cs Ps} (h : Cells cs Ps) : Cells (cell (tb k) w (fixedText p x) :: cs) (ShownTo p x :: Ps) :=
  h.tab hk (fixedText_shown p x) (fixedText_shown p x).word

theorem sd_shown (p : ℕ) (s : Sd) : SdShown p s (sdText p s) ∧ IsWord (sdText p s) := by
  unfold SdShown sdText
  cases s.pct with
  | none => exact ⟨rfl, (⟨by simp, by decide⟩ : IsWord ['n', 'a', 'n'])⟩
  | some x => exact ⟨fixedText_shown p x, (fixedText_shown p x).word⟩

theorem sd_cons {k w : ℕ} (hk : 0 < k) (p : ℕ) (s : Sd) {cs Ps} (h : Cells cs Ps) :
    Cells (cell (sp k) w (sdText p s) :: cs) (SdShown p s :: Ps) :=
  h.cons hk (sd_shown p s).1 (sd_shown p s).2

theorem key_cells (r : Row) : ∃ ts, List.Forall₂ CellOK (repKey r) ts ∧ KeyShown 1 r ts := by
  have hA := tier_shown 1 r.tier
  unfold repKey KeyShown
  cases r.area with
  | none => exact ⟨_, .cons (cellOK_sp (by norm_num) hA.2) .nil, _, rfl, hA.1⟩
  | some j =>
    exact ⟨_, .cons (cellOK_sp (by norm_num) (natText_shown (j + 1)).word) (.cons (cellOK_sp (by norm_num) hA.2) .nil), _, _, rfl,
      natText_shown (j + 1), hA.1⟩

theorem figures_cells (r : Row) : ∃ ts, List.Forall₂ CellOK (repFigures r) (ts ++ [r.tag.text]) ∧
    List.Forall₂ (fun P w => P w) (rowFigures r) ts := by
  have tag : List.Forall₂ CellOK [cell (sp 12) 0 r.tag.text] [r.tag.text] :=
    .cons (cellOK_sp (by norm_num) (tag_word _)) .nil
  have hp : (if r.area.isNone && r.tier.isNone then 3 else 2) = (if r.area = none ∧ r.tier = none then 3 else 2) := by
    cases r.area <;> cases r.tier <;> simp
  unfold repFigures rowFigures
  rw [hp]
  cases r.hourly with
  | none =>
    obtain ⟨ts, h1, h2⟩ := fixed_cons (k := 9) (w := 8) (by norm_num) 2 r.peak.1 (fixed_cons (k := 2) (w := 8) (by norm_num) 2 r.peak.2 .nil)
    exact ⟨ts, List.rel_append h1 tag, h2⟩
  | some x =>
    obtain ⟨a, b, c⟩ := x
    obtain ⟨ts, h1, h2⟩ := fixed_cons (k := 5) (w := 7) (by norm_num) (if r.area = none ∧ r.tier = none then 3 else 2) a
      (fixed_cons (k := 2) (w := 8) (by norm_num) 2 b (fixed_cons (k := 3) (w := 7) (by norm_num) 0 c
      (fixed_cons (k := 5) (w := 7) (by norm_num) (if r.area = none ∧ r.tier = none then 3 else 2) r.peak.1
      (fixed_cons (k := 2) (w := 8) (by norm_num) 2 r.peak.2 .nil))))
    exact ⟨ts, List.rel_append h1 tag, h2⟩

theorem row_line (r : Row) : ∃ ws, lineWords (repRowText r) = [ws] ∧ RowShown r ws := by
  obtain ⟨ks, h1, h2⟩ := key_cells r
  obtain ⟨fs, g1, g2⟩ := figures_cells r
  obtain ⟨e1, e2⟩ := cells_words (List.rel_append h1 g1) []
  rw [List.nil_append] at e1 e2
  refine ⟨ks ++ fs ++ [r.tag.text], ?_, ks, fs, rfl, h2, g2⟩
  unfold repRowText
  have hw : words (repKey r ++ repFigures r).flatten = ks ++ fs ++ [r.tag.text] := by
    rw [e1]; simp [words, cutAt]
  rw [lw_start, lw_line (e2 (by simp)) (by rw [hw]; simp), hw]

theorem sum_line (q : SumRow) (hn : ∀ s, q.name = some s → '\n' ∉ s.toList) : ∃ ws, lineWords (sumRowText q) = [ws] ∧ SumShown q ws := by
  have cells : Cells (sumCells q) (sumFigures q) := by
    have hk : 0 < (if q.name.isSome then 3 else 4) := by split_ifs <;> norm_num
    unfold sumCells sumFigures
    generalize (if q.name.isSome then 3 else 4) = k at hk ⊢
    cases q.hourly with
    | none => exact fixed_cons (by norm_num) 0 _ (fixed_cons (by norm_num) 0 _ (fixed_cons (by norm_num) 1 _
        (fixed_cons (by norm_num) 3 _ (sd_cons hk 3 _ .nil))))
    | some x =>
      obtain ⟨a, b⟩ := x
      exact fixed_cons (by norm_num) 0 _ (fixed_cons (by norm_num) 0 _ (fixed_cons (by norm_num) 1 _
        (fixed_cons (by norm_num) 3 _ (sd_cons (by norm_num) 3 _ (fixed_cons (by norm_num) 0 _ (sd_cons (by norm_num) 0 _
        (fixed_cons (by norm_num) 3 _ (sd_cons (by norm_num) 3 _ .nil))))))))
  obtain ⟨figs, h1, h2⟩ := cells
  have hf : figs ≠ [] := by
    rintro rfl
    cases h2
  unfold sumRowText SumShown
  cases hq : q.name with
  | none =>
    obtain ⟨e1, e2⟩ := cells_words h1 (sp 10 ++ ['E', 'R', 'C', 'O', 'T'])
    have hp : words (sp 10 ++ ['E', 'R', 'C', 'O', 'T']) = [['E', 'R', 'C', 'O', 'T']] := by decide
    rw [hp] at e1
    refine ⟨_, ?_, figs, rfl, h2⟩
    show lineWords ('\n' :: '\n' :: ((sp 10 ++ ['E', 'R', 'C', 'O', 'T']) ++ _)) = _
    rw [lw_start, lw_start]
    refine (lw_line (e2 (by decide)) (by rw [e1]; simp)).trans ?_
    rw [e1]
  | some s =>
    obtain ⟨e1, e2⟩ := cells_words h1 (sp 10 ++ s.toList ++ sp 1)
    have hp : words (sp 10 ++ s.toList ++ sp 1) = words s.toList := by
      rw [words_end (by decide), words_blank (by decide)]
    rw [hp] at e1
    refine ⟨_, ?_, figs, rfl, h2⟩
    show lineWords ('\n' :: ((sp 10 ++ s.toList ++ sp 1) ++ _)) = _
    rw [lw_start]
    refine (lw_line (e2 ?_) (by rw [e1]; simp [hf])).trans ?_
    · have := hn s hq
      simp only [List.mem_append, not_or]
      exact ⟨⟨by decide, this⟩, by decide⟩
    · rw [e1]

theorem dist_line (d : DistRow) : ∃ ws, lineWords (distRowText d) = [ws] ∧ DistShown d ws := by
  have c : Cells [cell (tb 2) 6 (fixedText 0 d.dp), cell (tb 3) 5 (fixedText 3 d.pdp), cell (tb 3) 6 (fixedText 0 d.hl),
      cell (tb 3) 5 (fixedText 3 d.phl), cell (tb 3) 6 (intText d.limit), cell (tb 2) 6 (fixedText 0 d.eue)]
      [ShownTo 0 d.dp, ShownTo 3 d.pdp, ShownTo 0 d.hl, ShownTo 3 d.phl, ShownInt d.limit, ShownTo 0 d.eue] :=
    fixed_tab (by norm_num) 0 _ (fixed_tab (by norm_num) 3 _ (fixed_tab (by norm_num) 0 _ (fixed_tab (by norm_num) 3 _
      (Cells.tab (by norm_num) (intText_shown _) (intText_shown _).word (fixed_tab (by norm_num) 0 _ .nil)))))
  obtain ⟨ts, h1, h2⟩ := c
  have hl : CellOK (cell (tb 3 ++ [' ']) 6 (fixedText 4 d.peue)) (fixedText 4 d.peue) :=
    ⟨_, _, rfl, by simp, by decide, (fixedText_shown 4 d.peue).word⟩
  obtain ⟨e1, e2⟩ := cells_words (List.rel_append h1 (.cons hl .nil)) (cell [] 4 (natText d.cls))
  have hw := (natText_shown d.cls).word
  have hp : words (cell [] 4 (natText d.cls)) = [natText d.cls] := by
    unfold cell
    rw [List.nil_append, words_blank (fun x hx => by rw [List.eq_of_mem_replicate hx]; decide), words_one hw]
  have hnl : '\n' ∉ cell [] 4 (natText d.cls) := by
    unfold cell
    simp only [List.nil_append, List.mem_append, not_or]
    exact ⟨fun h => absurd (List.eq_of_mem_replicate h) (by decide), fun h => absurd (hw.2 _ h) (by decide)⟩
  rw [hp] at e1
  refine ⟨[natText d.cls] ++ (ts ++ [fixedText 4 d.peue]), ?_, ?_⟩
  · unfold distRowText
    rw [lw_end]
    refine (lw_line (e2 hnl) (by rw [e1]; simp)).trans ?_
    rw [e1]
  · refine .cons (natText_shown d.cls) ?_
    exact List.rel_append h2 (.cons (fixedText_shown 4 d.peue) .nil)

/-! ## Headings -/

theorem shown_nl {w : List Char} (h : IsWord w) : '\n' ∉ w := fun hm => absurd (h.2 _ hm) (by decide)

/-- A line of a heading: some text, a number, some text. -/
theorem lw_number (a b : List Char) {t : List Char} (ht : IsWord t) (w : ℕ) (ha : '\n' ∉ a) (hb : '\n' ∉ b) :
    lineWords (a ++ ' ' :: (cell [] w t ++ ' ' :: b)) = [words a ++ [t] ++ words b] := by
  have hc : words (cell [] w t) = [t] := by
    unfold cell
    rw [List.nil_append, words_blank (fun x hx => by rw [List.eq_of_mem_replicate hx]; decide), words_one ht]
  have hw : words (a ++ ' ' :: (cell [] w t ++ ' ' :: b)) = words a ++ [t] ++ words b := by
    rw [words_sep (by decide), words_sep (by decide), hc, List.append_assoc]
  rw [lw_line _ (by rw [hw]; simp), hw]
  simp only [List.mem_append, List.mem_cons, not_or, cell, List.nil_append]
  exact ⟨ha, by decide, ⟨fun h => absurd (List.eq_of_mem_replicate h) (by decide), shown_nl ht⟩, by decide, hb⟩

theorem lw_number' (a : List Char) {t : List Char} (ht : IsWord t) (w : ℕ) (ha : '\n' ∉ a) :
    lineWords (a ++ ' ' :: cell [] w t) = [words a ++ [t]] := by
  have hc : words (cell [] w t) = [t] := by
    unfold cell
    rw [List.nil_append, words_blank (fun x hx => by rw [List.eq_of_mem_replicate hx]; decide), words_one ht]
  have hw : words (a ++ ' ' :: cell [] w t) = words a ++ [t] := by
    rw [words_sep (by decide), hc]
  rw [lw_line _ (by rw [hw]; simp), hw]
  simp only [List.mem_append, List.mem_cons, not_or, cell, List.nil_append]
  exact ⟨ha, by decide, fun h => absurd (List.eq_of_mem_replicate h) (by decide), shown_nl ht⟩

theorem cell_zero (t : List Char) : cell [] 0 t = t := by simp [cell]

theorem rep_head (INDX T Y : ℤ) : ∃ top units, lineWords (repHead INDX T Y) =
    ["TABLE".toList, intText T] :: ["FINAL".toList, "RESULTS".toList, "AFTER".toList, intText Y, "REPLICATIONS".toList] ::
      [top, rowTitles INDX, units] := by
  obtain ⟨ti, hti, hst, top, units, hlen⟩ : ∃ ti : List Char, ti = (if INDX ≠ 1 then
      "\n  AREA FORECAST    HOURLY STATISTICS            PEAK STATISTICS           REMARKS".toList ++
      "\n  NO   NO        HLOLE    XLOL       EUE       LOLE      XLOL".toList ++
      "\n                (HRS/YR)  (MW)      (MWH)     (DAYS/YR)  (MW)".toList
    else
      "\n  AREA FORECAST    PEAK STATISTICS           REMARKS".toList ++ "\n  NO   NO        LOLE       XLOL".toList ++
      "\n                   (DAYS/YR)   MW".toList) ∧ Starts ti ∧ ∃ top units, lineWords ti = [top, rowTitles INDX, units] := by
    refine ⟨_, rfl, ?_, ?_⟩
    · split_ifs <;> exact .inr ⟨_, rfl⟩
    · unfold rowTitles
      split_ifs
      · exact ⟨line ["AREA", "FORECAST", "HOURLY", "STATISTICS", "PEAK", "STATISTICS", "REMARKS"],
          line ["(HRS/YR)", "(MW)", "(MWH)", "(DAYS/YR)", "(MW)"], by decide +kernel⟩
      · exact ⟨line ["AREA", "FORECAST", "PEAK", "STATISTICS", "REMARKS"], line ["(DAYS/YR)", "MW"], by decide +kernel⟩
  have e : repHead INDX T Y = '\n' :: (("                        TABLE".toList ++ ' ' :: cell [] 0 (intText T)) ++ '\n' ::
      ('\n' :: (("\t\t\t FINAL RESULTS AFTER".toList ++ ' ' :: (cell [] 0 (intText Y) ++ ' ' :: "REPLICATIONS ".toList)) ++
      '\n' :: ti))) := by
    unfold repHead
    have l1 : "\n                        TABLE ".toList = '\n' :: ("                        TABLE".toList ++ [' ']) := by decide +kernel
    have l2 : "\n\t\t\t FINAL RESULTS AFTER ".toList = '\n' :: ("\t\t\t FINAL RESULTS AFTER".toList ++ [' ']) := by decide +kernel
    have l3 : " REPLICATIONS \n".toList = ' ' :: ("REPLICATIONS ".toList ++ ['\n']) := by decide +kernel
    have l4 : "\n".toList = ['\n'] := by decide +kernel
    rw [← hti, cell_zero, cell_zero, l1, l2, l3, l4]
    simp only [List.append_assoc, List.cons_append, List.nil_append]
  refine ⟨top, units, ?_⟩
  rw [e, lw_start, lw_sep, lw_start, lw_sep, lw_number' _ (intText_shown T).word 0 (by decide +kernel),
    lw_number _ _ (intText_shown Y).word 0 (by decide +kernel) (by decide +kernel)]
  have w1 : words "                        TABLE".toList = ["TABLE".toList] := by decide +kernel
  have w2 : words "\t\t\t FINAL RESULTS AFTER".toList = ["FINAL".toList, "RESULTS".toList, "AFTER".toList] := by decide +kernel
  have w3 : words "REPLICATIONS ".toList = ["REPLICATIONS".toList] := by decide +kernel
  rw [w1, w2, w3, hlen]
  rfl

theorem sum_head (INDX T : ℤ) : ∃ titles, lineWords (sumHead INDX T) =
    ["TABLE".toList, intText T] :: ["SUMMARY".toList, "OF".toList, "RESULTS".toList] :: titles := by
  obtain ⟨ti, hti⟩ : ∃ ti : List Char, ti = (if INDX ≠ 1 then
    "          AREA       PEAK        INSTALLED   AREA           HLOLE                   EUE                LOLE\n".toList ++
    "                                                       ----------------        ----------------     ----------------\n".toList ++
    "                                 CAPACITY    PCT RES   MAGN      PCT SD        MAGN      PCT SD     MAGN      PCT SD".toList
  else
    "          AREA       PEAK        INSTALLED   AREA   ".toList ++
    "                                                       ----------------\n".toList ++
    "                                 CAPACITY    PCT RES     MAGN       PCT SD".toList) := ⟨_, rfl⟩
  have e : sumHead INDX T = '\n' :: '\n' :: (("\t\t\t\t                            TABLE".toList ++ ' ' :: (cell [] 4 (intText T) ++
      ' ' :: [])) ++ '\n' :: ('\n' :: (" \t\t\t\t\t\t\t\t\t\t SUMMARY OF RESULTS ".toList ++ '\n' :: '\n' :: ti))) := by
    unfold sumHead
    have l1 : "\n\n\t\t\t\t                            TABLE ".toList =
        '\n' :: '\n' :: ("\t\t\t\t                            TABLE".toList ++ [' ']) := by decide +kernel
    have l2 : "\n \t\t\t\t\t\t\t\t\t\t SUMMARY OF RESULTS \n\n".toList =
        '\n' :: (" \t\t\t\t\t\t\t\t\t\t SUMMARY OF RESULTS ".toList ++ ['\n', '\n']) := by decide +kernel
    have l3 : " \n".toList = [' ', '\n'] := by decide +kernel
    rw [← hti, l1, l2, l3]
    simp only [List.append_assoc, List.cons_append, List.nil_append]
  refine ⟨lineWords ti, ?_⟩
  rw [e, lw_start, lw_start, lw_sep, lw_start, lw_sep, lw_start, lw_number _ _ (intText_shown T).word 4 (by decide +kernel) (by simp)]
  have w1 : words "\t\t\t\t                            TABLE".toList = ["TABLE".toList] := by decide +kernel
  have w2 : lineWords " \t\t\t\t\t\t\t\t\t\t SUMMARY OF RESULTS ".toList = [["SUMMARY".toList, "OF".toList, "RESULTS".toList]] := by
    decide +kernel
  have w3 : words [] = [] := rfl
  rw [w1, w2, w3]
  rfl

theorem dist_head (T : ℤ) (a : ℕ) (r : List Char) : ∃ titles, titles.length = 2 ∧ lineWords (distHead T a ++ r) =
    (["TABLE".toList, intText T] :: ["PROBABILITY".toList, "DISTRIBUTIONS".toList, "FOR".toList, "AREA".toList, natText a] :: titles) ++
      lineWords r := by
  have e : distHead T a ++ r = '\n' :: '\n' :: (("\t\t\t\t\t\t\t\t\t\t\t TABLE".toList ++ ' ' :: cell [] 5 (intText T)) ++ '\n' ::
      '\n' :: (("\t\t\t\t\t\t\t\t PROBABILITY DISTRIBUTIONS FOR AREA".toList ++ ' ' :: cell [] 3 (natText a)) ++ '\n' :: '\n' :: '\n' ::
      (("\t\t DAILY PEAK LOLES PER YEAR \t\t\t HOURLY LOLES PER YEAR \t\t\t\t ANNUAL UNSERVED ENERGY (MWH)".toList) ++ '\n' :: '\n' ::
      (("NUMBER\t OBSERVATIONS\t PROBABILITY".toList ++ "\t OBSERVATIONS\t PROBABILITY\t".toList ++
      "LIMIT (MWH)\t OBSERVATIONS\t PROBABILITY ".toList) ++ '\n' :: r)))) := by
    unfold distHead
    have l1 : "\n\n\t\t\t\t\t\t\t\t\t\t\t TABLE ".toList = '\n' :: '\n' :: ("\t\t\t\t\t\t\t\t\t\t\t TABLE".toList ++ [' ']) := by decide +kernel
    have l2 : "\t\t\t\t\t\t\t\t PROBABILITY DISTRIBUTIONS FOR AREA ".toList =
        "\t\t\t\t\t\t\t\t PROBABILITY DISTRIBUTIONS FOR AREA".toList ++ [' '] := by decide +kernel
    have l3 : "\n\n".toList = ['\n', '\n'] := by decide +kernel
    have l4 : "\n\n\n".toList = ['\n', '\n', '\n'] := by decide +kernel
    have l5 : "\t\t DAILY PEAK LOLES PER YEAR \t\t\t HOURLY LOLES PER YEAR \t\t\t\t ANNUAL UNSERVED ENERGY (MWH)\n\n".toList =
        "\t\t DAILY PEAK LOLES PER YEAR \t\t\t HOURLY LOLES PER YEAR \t\t\t\t ANNUAL UNSERVED ENERGY (MWH)".toList ++ ['\n', '\n'] := by
      decide +kernel
    have l6 : "LIMIT (MWH)\t OBSERVATIONS\t PROBABILITY \n".toList = "LIMIT (MWH)\t OBSERVATIONS\t PROBABILITY ".toList ++ ['\n'] := by
      decide +kernel
    rw [l1, l2, l3, l4, l5, l6]
    simp only [List.append_assoc, List.cons_append, List.nil_append]
  rw [e, lw_start, lw_start, lw_sep, lw_start, lw_sep, lw_start, lw_start, lw_sep, lw_start, lw_sep,
    lw_number' _ (intText_shown T).word 5 (by decide +kernel), lw_number' _ (natText_shown a).word 3 (by decide +kernel)]
  have w1 : words "\t\t\t\t\t\t\t\t\t\t\t TABLE".toList = ["TABLE".toList] := by decide +kernel
  have w2 : words "\t\t\t\t\t\t\t\t PROBABILITY DISTRIBUTIONS FOR AREA".toList =
      ["PROBABILITY".toList, "DISTRIBUTIONS".toList, "FOR".toList, "AREA".toList] := by decide +kernel
  rw [w1, w2]
  refine ⟨lineWords "\t\t DAILY PEAK LOLES PER YEAR \t\t\t HOURLY LOLES PER YEAR \t\t\t\t ANNUAL UNSERVED ENERGY (MWH)".toList ++
    lineWords ("NUMBER\t OBSERVATIONS\t PROBABILITY".toList ++ "\t OBSERVATIONS\t PROBABILITY\t".toList ++
      "LIMIT (MWH)\t OBSERVATIONS\t PROBABILITY ".toList), by decide +kernel, ?_⟩
  simp only [List.cons_append, List.nil_append, List.append_assoc]

/-! ## The file -/

theorem starts_row (r : Row) : Starts (repRowText r) := .inr ⟨_, rfl⟩

theorem starts_sum (q : SumRow) : Starts (sumRowText q) := by
  unfold sumRowText
  cases q.name <;> exact .inr ⟨_, rfl⟩

theorem starts_sumHead (INDX T : ℤ) : Starts (sumHead INDX T) := by
  have l1 : "\n\n\t\t\t\t                            TABLE ".toList =
      '\n' :: '\n' :: ("\t\t\t\t                            TABLE".toList ++ [' ']) := by decide +kernel
  unfold sumHead
  rw [l1]
  exact .inr ⟨_, rfl⟩

theorem starts_distHead (T : ℤ) (a : ℕ) (x : List Char) : Starts (distHead T a ++ x) := by
  have l1 : "\n\n\t\t\t\t\t\t\t\t\t\t\t TABLE ".toList = '\n' :: '\n' :: ("\t\t\t\t\t\t\t\t\t\t\t TABLE".toList ++ [' ']) := by decide +kernel
  unfold distHead
  rw [l1]
  exact .inr ⟨_, rfl⟩

theorem rows_lines (l : List Row) : ∃ ls, lineWords (l.flatMap repRowText) = ls ∧ List.Forall₂ RowShown l ls := by
  induction l with
  | nil => exact ⟨[], rfl, .nil⟩
  | cons r l ih =>
    obtain ⟨ws, h1, h2⟩ := row_line r
    obtain ⟨ls, g1, g2⟩ := ih
    refine ⟨ws :: ls, ?_, .cons h2 g2⟩
    rw [List.flatMap_cons, lw_append _ (Starts.flatMap starts_row l), h1, g1]
    rfl

theorem sums_lines (l : List SumRow) (hn : ∀ q ∈ l, ∀ s, q.name = some s → '\n' ∉ s.toList) :
    ∃ ls, lineWords (l.flatMap sumRowText) = ls ∧ List.Forall₂ SumShown l ls := by
  induction l with
  | nil => exact ⟨[], rfl, .nil⟩
  | cons r l ih =>
    obtain ⟨ws, h1, h2⟩ := sum_line r (hn r (by simp))
    obtain ⟨ls, g1, g2⟩ := ih fun q hq => hn q (by simp [hq])
    refine ⟨ws :: ls, ?_, .cons h2 g2⟩
    rw [List.flatMap_cons, lw_append _ (Starts.flatMap starts_sum l), h1, g1]
    rfl

theorem dist_lines (l : List DistRow) : ∃ ls, lineWords (l.flatMap distRowText) = ls ∧ List.Forall₂ DistShown l ls := by
  induction l with
  | nil => exact ⟨[], rfl, .nil⟩
  | cons r l ih =>
    obtain ⟨ws, h1, h2⟩ := dist_line r
    obtain ⟨ls, g1, g2⟩ := ih
    refine ⟨ws :: ls, ?_, .cons h2 g2⟩
    have e : distRowText r ++ l.flatMap distRowText = (cell [] 4 (natText r.cls) ++ [cell (tb 2) 6 (fixedText 0 r.dp), cell (tb 3) 5 (fixedText 3 r.pdp), cell (tb 3) 6 (fixedText 0 r.hl),
      cell (tb 3) 5 (fixedText 3 r.phl), cell (tb 3) 6 (intText r.limit), cell (tb 2) 6 (fixedText 0 r.eue),
      cell (tb 3 ++ [' ']) 6 (fixedText 4 r.peue)].flatten) ++ '\n' :: l.flatMap distRowText := by
      unfold distRowText
      rw [List.flatten_cons, List.append_assoc, List.append_assoc, List.append_assoc]
      rfl
    rw [List.flatMap_cons, e, lw_sep, g1]
    unfold distRowText at h1
    rw [lw_end, List.flatten_cons] at h1
    rw [h1]
    rfl

theorem area_some {n : ℕ} (NFCST : ℕ) (INDX : ℤ) (r : RepIn n) (j : Fin n) : ∀ q ∈ repArea NFCST INDX r j, q.area = some j.val := by
  intro q hq
  unfold repArea at hq
  simp only [List.mem_append, List.mem_cons, List.not_mem_nil, or_false] at hq
  rcases hq with hq | rfl | rfl | rfl
  · split_ifs at hq
    · simp only [List.mem_flatMap, List.mem_cons, List.not_mem_nil, or_false] at hq
      obtain ⟨N, _, rfl | rfl | rfl⟩ := hq <;> rfl
    · simp at hq
  all_goals rfl

theorem pool_none {n : ℕ} (NFCST : ℕ) (INDX : ℤ) (r : RepIn n) : ∀ q ∈ repPool NFCST INDX r, q.area = none := by
  intro q hq
  unfold repPool at hq
  simp only [List.mem_append, List.mem_cons, List.not_mem_nil, or_false] at hq
  rcases hq with hq | rfl | rfl | rfl
  · split_ifs at hq
    · simp only [List.mem_flatMap, List.mem_cons, List.not_mem_nil, or_false] at hq
      obtain ⟨N, _, rfl | rfl | rfl⟩ := hq <;> rfl
    · simp at hq
  all_goals rfl

/-- **C116.** -/
theorem C116_report_text {n : ℕ} {NFCST : ℕ} {INDX LSTEP ITAB : ℤ} {NAMA : Fin n → String} {r : RepIn n} {S : Sus n} {R : Report n}
    (h : report NFCST INDX LSTEP ITAB NAMA r S = .ok R) (hn : ∀ q ∈ R.summary, ∀ s, q.name = some s → '\n' ∉ s.toList) :
    ReportShown INDX ITAB R (lineWords (reportText NFCST INDX ITAB r R)) := by
  have hrows : R.rows = (List.finRange n).flatMap (repArea NFCST INDX r) ++ repPool NFCST INDX r := by
    unfold report at h
    split at h
    · cases h
    · injection h with h; rw [← h]
  obtain ⟨top, units, H1⟩ := rep_head INDX (ITAB + 1) R.years
  obtain ⟨titles, H2⟩ := sum_head INDX (ITAB + 2)
  obtain ⟨A, hA, hA'⟩ := rows_lines ((List.finRange n).flatMap (repArea NFCST INDX r))
  obtain ⟨B, hB, hB'⟩ := rows_lines (repPool NFCST INDX r)
  obtain ⟨Su, hSu, hSu'⟩ := sums_lines R.summary hn
  have hD : ∀ i : Fin n, ∃ ls, lineWords (distHead (ITAB + 2 + (i.val + 1)) (i.val + 1) ++ (R.dist i).flatMap distRowText) = ls ∧
      DistTable ITAB R i ls := by
    intro i
    obtain ⟨ls, g1, g2⟩ := dist_lines (R.dist i)
    obtain ⟨ti, t1, t2⟩ := dist_head (ITAB + 2 + (i.val + 1)) (i.val + 1) ((R.dist i).flatMap distRowText)
    refine ⟨_, rfl, _, _, ti, ls, ?_, t1, intText_shown _, natText_shown _, g2⟩
    rw [t2, g1]
    rfl
  choose dist hd hd' using hD
  have fs : R.rows.filter (·.area.isSome) = (List.finRange n).flatMap (repArea NFCST INDX r) := by
    rw [hrows, List.filter_append, List.filter_eq_self.mpr, List.filter_eq_nil_iff.mpr, List.append_nil]
    · intro q hq; rw [pool_none _ _ _ q hq]; simp
    · intro q hq
      obtain ⟨j, _, hj⟩ := List.mem_flatMap.mp hq
      rw [area_some _ _ _ j q hj]; rfl
  have fn : R.rows.filter (·.area.isNone) = repPool NFCST INDX r := by
    rw [hrows, List.filter_append, List.filter_eq_nil_iff.mpr, List.filter_eq_self.mpr, List.nil_append]
    · intro q hq; rw [pool_none _ _ _ q hq]; rfl
    · intro q hq
      obtain ⟨j, _, hj⟩ := List.mem_flatMap.mp hq
      rw [area_some _ _ _ j q hj]; simp
  refine ⟨_, _, top, units, A, B, _, titles, Su, dist, ?_, intText_shown _, intText_shown _, fs ▸ hA', fn ▸ hB', intText_shown _, hSu', hd'⟩
  have st1 : Starts ((List.finRange n).flatMap fun i => distHead (ITAB + 2 + (i.val + 1)) (i.val + 1) ++ (R.dist i).flatMap distRowText) :=
    Starts.flatMap (fun i => starts_distHead _ _ _) _
  have st2 : Starts (R.summary.flatMap sumRowText) := Starts.flatMap starts_sum _
  have st3 : Starts ((repPool NFCST INDX r).flatMap repRowText) := Starts.flatMap starts_row _
  have lp : "\n\n           POOL STATISTICS \n".toList = '\n' :: ("\n           POOL STATISTICS \n".toList) := by decide +kernel
  have wp : lineWords "\n           POOL STATISTICS \n".toList = [line ["POOL", "STATISTICS"]] := by decide +kernel
  have sa : ∀ j : Fin n, Starts ((repArea NFCST INDX r j).flatMap repRowText ++ ['\n']) := fun j =>
    (Starts.flatMap starts_row _).append (.inr ⟨[], rfl⟩)
  have hA2 : lineWords ((List.finRange n).flatMap fun j => (repArea NFCST INDX r j).flatMap repRowText ++ ['\n']) = A := by
    rw [lw_flatMap sa, ← hA, List.flatMap_assoc, lw_flatMap (fun j => Starts.flatMap starts_row _)]
    simp only [lw_end]
  unfold reportText
  rw [lw_append _ st1, lw_append _ st2, lw_append _ (starts_sumHead _ _), lw_append _ st3, lp, lw_sep, lw_append _ (Starts.flatMap sa _), hA2,
    wp, hB, hSu, H1, H2, lw_flatMap (fun i => starts_distHead _ _ _)]
  simp only [hd]
  rfl

end Narp.Props
