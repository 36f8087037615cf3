import Verif.Model.PmscText
import Verif.Spec.MaintPage
import Verif.Props.ReportText
import Verif.Props.Pmsc

/-!
# C123: the printed maintenance schedule
-/

namespace Narp.Props
open Narp.Spec

/-! ## Lines of the text -/

theorem quarter_cells (k : ℕ) (hk : 0 < k) (x : Fin 52 → ℚ) (q : Fin 4) : ∃ ws : List (List Char), ws.length = 13 ∧
    words (quarter k x q).flatten = ws ∧ '\n' ∉ (quarter k x q).flatten ∧
    ∀ (j : Fin 13) (w : List Char), ws[j.val]? = some w → ShownTo 4 (x ⟨13 * q.val + j.val, by omega⟩) w := by
  set ws := (List.finRange 13).map fun j : Fin 13 => fixedText 4 (x ⟨13 * q.val + j.val, by omega⟩) with hws
  have hc : List.Forall₂ CellOK (quarter k x q) ws := by
    rw [hws]
    unfold quarter
    rw [List.forall₂_map_left_iff, List.forall₂_map_right_iff, List.forall₂_same]
    exact fun j _ => cellOK_sp hk (fixedText_shown _ _).word
  obtain ⟨h1, h2⟩ := cells_words hc []
  refine ⟨ws, by simp [hws], ?_, by simpa using h2 (by simp), ?_⟩
  · simpa [words, cutAt] using h1
  · intro j w h
    rw [hws, List.getElem?_map] at h
    rw [List.getElem?_eq_getElem (by simp)] at h
    simp only [List.getElem_finRange, Option.map_some, Option.some.injEq] at h
    subst h
    exact fixedText_shown _ _

/-- The four lines of a list of weekly numbers. -/
def weekLines (k : ℕ) (x : Fin 52 → ℚ) : List (List (List Char)) := (List.finRange 4).map fun q => words (quarter k x q).flatten

theorem weekLines_shown (k : ℕ) (hk : 0 < k) (x : Fin 52 → ℚ) : WeeksShown x (weekLines k x) := by
  refine ⟨by simp [weekLines], ?_⟩
  intro q l h
  unfold weekLines at h
  rw [List.getElem?_map, List.getElem?_eq_getElem (by simp)] at h
  simp only [List.getElem_finRange, Option.map_some, Option.some.injEq] at h
  obtain ⟨ws, h1, h2, _, h4⟩ := quarter_cells k hk x q
  have : l = ws := by rw [← h, ← h2]; rfl
  subst this
  exact ⟨h1, h4⟩

theorem lw_quarter (k : ℕ) (hk : 0 < k) (x : Fin 52 → ℚ) (q : Fin 4) :
    lineWords (quarter k x q).flatten = [words (quarter k x q).flatten] := by
  obtain ⟨ws, h1, h2, h3, _⟩ := quarter_cells k hk x q
  refine lw_line h3 ?_
  rw [h2]
  intro h
  rw [h] at h1
  cases h1

theorem lw_head (x : Fin 52 → ℚ) : lineWords (maintHead x) =
    [ln ["WEEKLY", "PEAK", "LOAD", "BEFORE", "MAINTENANCE", "SCHEDULING"]] ++ weekLines 1 x := by
  unfold maintHead
  rw [lw_append _ (Starts.flatMap (fun q => .inr ⟨_, rfl⟩) _), lw_flatMap (fun q => .inr ⟨_, rfl⟩)]
  have e : lineWords "\n WEEKLY PEAK LOAD BEFORE MAINTENANCE SCHEDULING \n".toList =
    [ln ["WEEKLY", "PEAK", "LOAD", "BEFORE", "MAINTENANCE", "SCHEDULING"]] := by decide +kernel
  rw [e]
  congr 1
  unfold weekLines
  rw [List.map_eq_flatMap]
  congr 1
  funext q
  rw [lw_start, lw_quarter 1 (by norm_num)]

theorem lw_close (a : List Char) {s : List Char} (hs : ∀ c ∈ s, c = '\n') : lineWords (a ++ s) = lineWords a := by
  induction s generalizing a with
  | nil => rw [List.append_nil]
  | cons c s ih =>
    have := hs c (by simp)
    subst this
    rw [lw_sep, lw_all_nl (s := s), List.append_nil]
    exact fun c hc => hs c (by simp [hc])
where
  lw_all_nl {s : List Char} (hs : ∀ c ∈ s, c = '\n') : lineWords s = [] := by
    induction s with
    | nil => rfl
    | cons c s ih =>
      have := hs c (by simp)
      subst this
      rw [lw_start]
      exact ih fun c hc => hs c (by simp [hc])

theorem lw_title (IA ITC : ℤ) : lineWords (maintTitle IA ITC) =
    [ln ["PLANNED", "MAINTENANCE", "SCHEDULE", "FOR", "AREA"] ++ [intText (IA + 1)], [dashes 32], ln ["TABLE"] ++ [intText ITC]] := by
  unfold maintTitle
  rw [lw_close _ (s := "\n\n".toList) (by decide +kernel)]
  rw [lw_append _ (.inr ⟨_, rfl⟩), lw_start]
  rw [lw_append _ (t := "\n ".toList ++ sp 51 ++ ds 32 ++ "\n".toList) (.inr ⟨" ".toList ++ sp 51 ++ ds 32 ++ "\n".toList, by decide +kernel⟩)]
  rw [lw_close _ (s := "\n\n".toList) (by decide +kernel)]
  rw [lw_append _ (.inr ⟨_, rfl⟩), lw_start]
  rw [lw_number _ _ (intText_shown _).word 3 (by decide +kernel) (by simp), lw_number _ _ (intText_shown _).word 4 (by decide +kernel) (by simp)]
  have e1 : lineWords ("\n ".toList ++ sp 50 ++ " ".toList) = [] := by decide +kernel
  have e2 : words (tb 12 ++ " PLANNED MAINTENANCE SCHEDULE FOR AREA".toList) = ln ["PLANNED", "MAINTENANCE", "SCHEDULE", "FOR", "AREA"] := by
    decide +kernel
  have e3 : lineWords ("\n ".toList ++ sp 51 ++ ds 32 ++ "\n".toList) = [[dashes 32]] := by decide +kernel
  have e4 : words (' ' :: (sp 63 ++ "TABLE".toList)) = ln ["TABLE"] := by decide +kernel
  have e5 : words [] = [] := rfl
  rw [e1, e2, e3, e4, e5]
  simp

theorem lw_frame : lineWords maintFrame = unitTableHead := by decide +kernel

theorem lw_290 (x : Fin 52 → ℚ) (b : List Char) : lineWords (fmt290 x ++ b) = [ln ["0"]] ++ weekLines 2 x ++ lineWords b := by
  have key : ∀ (l : List (Fin 4)), lineWords ((l.flatMap fun q => (quarter 2 x q).flatten ++ ['\n']) ++ b) =
      (l.map fun q => words (quarter 2 x q).flatten) ++ lineWords b := by
    intro l
    induction l with
    | nil => rfl
    | cons q l ih =>
      rw [List.flatMap_cons, List.append_assoc, List.append_assoc, List.singleton_append, lw_sep, lw_quarter 2 (by norm_num), ih]
      rfl
  unfold fmt290
  have e : "0\n".toList = "0".toList ++ ['\n'] := by decide +kernel
  rw [e, List.append_assoc, List.append_assoc, List.singleton_append, lw_sep, key]
  have e' : lineWords "0".toList = [ln ["0"]] := by decide +kernel
  rw [e', List.append_assoc]
  rfl

theorem lw_tail (E L : Fin 52 → ℚ) : lineWords (maintTail E L) = [bars 7, [dashes 123], bars 3] ++
      [ln ["1"], ln ["WEEKLY", "PEAK", "LOAD", "+", "EFFECTIVE", "CAPACITY", "(MW)", "ON", "MAINTENANCE"], ln ["0"]] ++ weekLines 2 E ++
      [ln ["0"], ln ["WEEKLY", "PEAK", "LOAD", "+", "CAPACITY", "ON", "MAINTENANCE"], ln ["0"]] ++ weekLines 2 L := by
  unfold maintTail
  set h := fmt804 ++ fmt801 ++ ("\n 1".toList ++ List.replicate 10 '\n' ++
    "\t\t\t\t     WEEKLY PEAK LOAD + EFFECTIVE CAPACITY (MW) ON MAINTENANCE \n".toList) with hh
  have e1 : h = fmt804 ++ fmt801 ++ ("\n 1".toList ++ List.replicate 10 '\n' ++
    "\t\t\t\t     WEEKLY PEAK LOAD + EFFECTIVE CAPACITY (MW) ON MAINTENANCE ".toList) ++ ['\n'] := by rw [hh]; decide +kernel
  have e2 : lineWords (fmt804 ++ fmt801 ++ ("\n 1".toList ++ List.replicate 10 '\n' ++
    "\t\t\t\t     WEEKLY PEAK LOAD + EFFECTIVE CAPACITY (MW) ON MAINTENANCE ".toList)) = [bars 7, [dashes 123], bars 3, ln ["1"],
      ln ["WEEKLY", "PEAK", "LOAD", "+", "EFFECTIVE", "CAPACITY", "(MW)", "ON", "MAINTENANCE"]] := by decide +kernel
  have e3 : "0\n\n\n\n\n\t\t\t\t     WEEKLY PEAK LOAD + CAPACITY ON MAINTENANCE \n".toList =
    "0\n\n\n\n\n\t\t\t\t     WEEKLY PEAK LOAD + CAPACITY ON MAINTENANCE ".toList ++ ['\n'] := by decide +kernel
  have e4 : lineWords "0\n\n\n\n\n\t\t\t\t     WEEKLY PEAK LOAD + CAPACITY ON MAINTENANCE ".toList =
    [ln ["0"], ln ["WEEKLY", "PEAK", "LOAD", "+", "CAPACITY", "ON", "MAINTENANCE"]] := by decide +kernel
  rw [List.append_assoc, e1, List.append_assoc, List.singleton_append, lw_sep, e2, lw_290, e3, List.append_assoc _ ['\n'] (fmt290 L),
    show ['\n'] ++ fmt290 L = '\n' :: fmt290 L from rfl, lw_sep, e4]
  have := lw_290 L []
  rw [List.append_nil, lw_nil, List.append_nil] at this
  rw [this]
  simp

theorem starts_lit {s : List Char} (h : s.head? = some '\n') (b : List Char) : Starts (s ++ b) := by
  cases s with
  | nil => cases h
  | cons c s => simp only [List.head?_cons, Option.some.injEq] at h; subst h; exact .inr ⟨s ++ b, rfl⟩

theorem starts_title (IA ITC : ℤ) (b : List Char) : Starts (maintTitle IA ITC ++ b) := by
  unfold maintTitle
  simp only [List.append_assoc]
  exact starts_lit (by decide +kernel) _

theorem starts_maint (IREPM IA ITC : ℤ) (x : Fin 52 → ℚ) : Starts (maintText IREPM IA ITC x) := by
  unfold maintText
  split_ifs
  · unfold maintHead
    rw [List.append_assoc]
    exact starts_lit (by decide +kernel) _
  · exact .inl rfl

/-- What the page of an area shows. -/
theorem maint_page (IREPM IA ITC : ℤ) (h : IREPM ≠ 0) (x : Fin 52 → ℚ) :
    MaintPage (IA + 1) ITC x x x [] (lineWords (maintText IREPM IA ITC x)) := by
  refine ⟨weekLines 1 x, weekLines 2 x, weekLines 2 x, intText (IA + 1), intText ITC, weekLines_shown 1 (by norm_num) x,
    weekLines_shown 2 (by norm_num) x, weekLines_shown 2 (by norm_num) x, intText_shown _, intText_shown _, ?_⟩
  unfold maintText
  rw [if_pos h, lw_append _ (starts_title _ _ _), lw_append _ (t := maintFrame ++ _) (starts_lit (by decide +kernel) _),
    lw_append _ (t := maintTail x x) (by
      unfold maintTail
      simp only [List.append_assoc]
      exact starts_lit (by decide +kernel) _), lw_head, lw_title, lw_frame, lw_tail]
  simp only [List.append_assoc, List.cons_append, List.nil_append, List.append_nil]

/-! ## C123 -/

/-- Pages of the areas `areas` (counted from 0), numbered consecutively after `start`. -/
def PagesShown (WPEAK : ℕ → Fin 52 → ℚ) : ℤ → List ℕ → List (List (List Char)) → Prop
  | _, [], lines => lines = []
  | start, a :: as, lines => ∃ page rest, lines = page ++ rest ∧
      MaintPage (a + 1) (start + 1) (WPEAK a) (WPEAK a) (WPEAK a) [] page ∧ PagesShown WPEAK (start + 1) as rest

theorem gather_len (IA : ℤ) (ID : List IdRow) (cap : ℕ → ℚ) : (pmscGather IA ID cap).length = 0 ↔ ∀ r ∈ ID, r.area ≠ IA := by
  unfold pmscGather pmscArea
  rw [List.length_map, List.length_zipIdx, List.length_eq_zero_iff, List.filter_eq_nil_iff]
  constructor
  · intro h r hr
    obtain ⟨k, hk⟩ := List.getElem?_of_mem hr
    have := h (r, k) (List.mem_zipIdx_iff_getElem?.2 hk)
    simpa using this
  · rintro h ⟨r, k⟩ hm
    have := h r (List.mem_of_getElem? (List.mem_zipIdx_iff_getElem?.1 hm))
    simpa using this

/-- The text of the areas in turn. -/
def pagesOf (IREPM : ℤ) (WPEAK : ℕ → Fin 52 → ℚ) : ℤ → List ℕ → List Char
  | _, [] => []
  | start, a :: as => maintText IREPM a (start + 1) (WPEAK a) ++ pagesOf IREPM WPEAK (start + 1) as

theorem starts_pages (IREPM : ℤ) (WPEAK : ℕ → Fin 52 → ℚ) : ∀ (as : List ℕ) (start : ℤ), Starts (pagesOf IREPM WPEAK start as)
  | [], _ => .inl rfl
  | _ :: as, _ => (starts_maint _ _ _ _).append (starts_pages IREPM WPEAK as _)

theorem pages_shown {IREPM : ℤ} (h : IREPM ≠ 0) (WPEAK : ℕ → Fin 52 → ℚ) : ∀ (as : List ℕ) (start : ℤ),
    PagesShown WPEAK start as (lineWords (pagesOf IREPM WPEAK start as))
  | [], _ => rfl
  | a :: as, start => ⟨_, _, lw_append _ (starts_pages IREPM WPEAK as (start + 1)), maint_page IREPM a (start + 1) h (WPEAK a),
      pages_shown h WPEAK as (start + 1)⟩

theorem pages_zero (WPEAK : ℕ → Fin 52 → ℚ) : ∀ (as : List ℕ) (start : ℤ), pagesOf 0 WPEAK start as = []
  | [], _ => rfl
  | _ :: as, start => by
    show maintText 0 _ _ _ ++ _ = _
    rw [pages_zero WPEAK as (start + 1)]
    simp [maintText]

/-- Scheduling changes neither the area nor the number of a unit. -/
theorem frame_units {IA : ℤ} {ID ID' : List IdRow} {ITAB ITAB' : ℤ} {cap : ℕ → ℚ} {sl : ℚ → ℚ} (hn : Numbered ID)
    (h : pmsc IA ID ITAB cap sl = .ok (ID', ITAB')) : ID'.map (·.area) = ID.map (·.area) ∧ Numbered ID' := by
  obtain ⟨h1, h2, _⟩ := C62_frame IA ID ID' ITAB ITAB' cap sl hn h
  constructor
  · refine List.ext_getElem? fun k => ?_
    rw [List.getElem?_map, List.getElem?_map]
    rcases h2 k with e | ⟨_, e⟩
    · rw [e]
    · rw [e]; cases ID[k]? <;> rfl
  · intro k r e
    rcases h2 k with e' | ⟨_, e'⟩
    · exact hn k r (e' ▸ e)
    · rw [e'] at e
      cases hq : ID[k]? with
      | none => rw [hq] at e; cases e
      | some q => rw [hq] at e; cases e; exact hn k q hq

theorem has_area (ID : List IdRow) (b : ℤ) : (∃ r ∈ ID, r.area = b) ↔ b ∈ ID.map (·.area) := by simp

/-- The scheduling of the areas `as`, with the file and without. -/
theorem pmscFile_loop (IREPM : ℤ) (cap : ℕ → ℚ) (sl : ℕ → ℚ → ℚ) (WPEAK : ℕ → Fin 52 → ℚ) : ∀ (as : List ℕ) (ID : List IdRow) (ITAB : ℤ)
    (file : List Char) (ID' : List IdRow) (ITAB' : ℤ), Numbered ID →
    as.foldlM (fun (s : List IdRow × ℤ) (a : ℕ) => pmsc a s.1 s.2 cap (sl a)) (ID, ITAB) = .ok (ID', ITAB') →
    as.foldlM (fun (s : List IdRow × ℤ × List Char) (a : ℕ) => pmscFile IREPM a s.1 s.2.1 cap (sl a) (WPEAK a) s.2.2) (ID, ITAB, file) =
      .ok (ID', ITAB', file ++ pagesOf IREPM WPEAK ITAB (as.filter fun (a : ℕ) => decide (∃ r ∈ ID, r.area = (a : ℤ))))
  | [], ID, ITAB, file, ID', ITAB', _, h => by
    simp only [List.foldlM_nil, pure, Except.pure, Except.ok.injEq, Prod.mk.injEq] at h ⊢
    obtain ⟨rfl, rfl⟩ := h
    simp [pagesOf]
  | a :: as, ID, ITAB, file, ID', ITAB', hn, h => by
    rw [List.foldlM_cons] at h ⊢
    obtain ⟨⟨ID1, ITAB1⟩, h1, h2⟩ := Except.bind_ok h
    obtain ⟨ha, hn1⟩ := frame_units hn h1
    have hI := (C62_frame a ID ID1 ITAB ITAB1 cap (sl a) hn h1).2.2
    have hfil : (as.filter fun (b : ℕ) => decide (∃ r ∈ ID1, r.area = (b : ℤ))) = as.filter fun (b : ℕ) => decide (∃ r ∈ ID, r.area = (b : ℤ)) := by
      refine List.filter_congr fun b _ => ?_
      simp only [has_area, ha]
    have hstep : pmscFile IREPM a ID ITAB cap (sl a) (WPEAK a) file =
        .ok (ID1, ITAB1, if (pmscGather a ID cap).length = 0 then file else file ++ maintText IREPM a ITAB1 (WPEAK a)) := by
      unfold pmscFile
      rw [h1]; rfl
    show (pmscFile IREPM a ID ITAB cap (sl a) (WPEAK a) file >>= _) = _
    rw [hstep]
    simp only [bind, Except.bind]
    have ih := pmscFile_loop IREPM cap sl WPEAK as ID1 ITAB1
      (if (pmscGather a ID cap).length = 0 then file else file ++ maintText IREPM a ITAB1 (WPEAK a)) ID' ITAB' hn1 h2
    rw [ih, hfil]
    by_cases he : ∃ r ∈ ID, r.area = (a : ℤ)
    · have hg : ¬ (pmscGather a ID cap).length = 0 := by
        rw [gather_len]; push Not; simpa using he
      rw [if_neg hg, List.filter_cons_of_pos (by simpa using he), hI, if_pos he]
      show Except.ok (ID', ITAB', _) = Except.ok (ID', ITAB', file ++ (_ ++ _))
      rw [List.append_assoc]
    · have hg : (pmscGather a ID cap).length = 0 := by
        rw [gather_len]; push Not at he; simpa using he
      rw [if_pos hg, List.filter_cons_of_neg (by simpa using he), hI, if_neg he]

section
variable (IREPM : ℤ) (NOAREA : ℕ) (ID : List IdRow) (ITAB : ℤ) (cap : ℕ → ℚ) (sl : ℕ → ℚ → ℚ) (WPEAK : ℕ → Fin 52 → ℚ) (old : List Char)

/-- The areas that have units, in order. -/
def areasWithUnits (NOAREA : ℕ) (ID : List IdRow) : List ℕ := (List.range NOAREA).filter fun (a : ℕ) => decide (∃ r ∈ ID, r.area = (a : ℤ))

/-- **C123 (what is printed).** Whenever the planned maintenance of a system is set up (`r` is the result), then with the
file the result is the same and nothing that was in `output.txt` is lost. If the maintenance report is not wanted,
nothing is added. If it is, one page is added for each area that has units, in the order of the areas, numbered
consecutively after the tables so far; each page shows the weekly peaks of its area three times, and in its table no unit. -/
theorem C123_pages_partial (hn : Numbered ID) {r : (ℕ → ℕ → ℤ) × ℤ × List IdRow} (h : smaint NOAREA ID ITAB cap sl = .ok r) :
    ∃ t, smaintFile IREPM NOAREA ID ITAB cap sl WPEAK old = .ok (r.1, r.2.1, r.2.2, old ++ t) ∧
      r.2.1 = ITAB + (areasWithUnits NOAREA ID).length ∧
      lineWords (old ++ t) = lineWords old ++ lineWords t ∧ (IREPM = 0 → t = []) ∧
      (IREPM ≠ 0 → PagesShown WPEAK ITAB (areasWithUnits NOAREA ID) (lineWords t)) := by
  unfold smaint at h
  obtain ⟨⟨ID', ITAB'⟩, h1, h2⟩ := Except.bind_ok h
  dsimp only at h2
  obtain ⟨T, h3, h4⟩ := Except.bind_ok h2
  cases h4
  have hf := pmscFile_loop IREPM cap sl WPEAK (List.range NOAREA) ID ITAB old ID' ITAB' hn h1
  refine ⟨pagesOf IREPM WPEAK ITAB (areasWithUnits NOAREA ID), ?_, ?_, lw_append _ (starts_pages _ _ _ _), ?_, ?_⟩
  · unfold smaintFile pmscAllFile
    rw [hf]
    show (smaintTable (ID'.map IdRow.maint) >>= _) = _
    rw [h3]
    rfl
  · exact loop_count cap sl (List.range NOAREA) ID ITAB ID' ITAB' hn h1
  · rintro rfl
    exact pages_zero _ _ _
  · intro hne
    exact pages_shown hne _ _ _
where
  loop_count (cap : ℕ → ℚ) (sl : ℕ → ℚ → ℚ) : ∀ (as : List ℕ) (ID : List IdRow) (ITAB : ℤ) (ID' : List IdRow) (ITAB' : ℤ), Numbered ID →
      as.foldlM (fun (s : List IdRow × ℤ) (a : ℕ) => pmsc a s.1 s.2 cap (sl a)) (ID, ITAB) = .ok (ID', ITAB') →
      ITAB' = ITAB + (as.filter fun (a : ℕ) => decide (∃ r ∈ ID, r.area = (a : ℤ))).length
    | [], ID, ITAB, ID', ITAB', _, h => by
      simp only [List.foldlM_nil, pure, Except.pure, Except.ok.injEq, Prod.mk.injEq] at h
      simp [h.2]
    | a :: as, ID, ITAB, ID', ITAB', hn, h => by
      rw [List.foldlM_cons] at h
      obtain ⟨⟨ID1, ITAB1⟩, h1, h2⟩ := Except.bind_ok h
      obtain ⟨ha, hn1⟩ := frame_units hn h1
      have hI := (C62_frame a ID ID1 ITAB ITAB1 cap (sl a) hn h1).2.2
      have ih := loop_count cap sl as ID1 ITAB1 ID' ITAB' hn1 h2
      simp only [has_area, ha] at ih hI ⊢
      rw [ih, hI]
      by_cases he : (a : ℤ) ∈ ID.map (·.area)
      · rw [List.filter_cons_of_pos (by simpa using he), if_pos he, List.length_cons]
        push_cast
        ring
      · rw [List.filter_cons_of_neg (by simpa using he), if_neg he]

end

/-- What the page should show as the load with the capacity on maintenance: the weekly peak and the capacity of every unit of
the area that has a planned outage in that week. -/
def withMaintenance (ID : List IdRow) (cap : ℕ → ℚ) (a : ℕ) (peaks : Fin 52 → ℚ) (w : Fin 52) : ℚ :=
  peaks w + (((ID.zipIdx.filter fun p => decide (p.1.area = (a : ℤ) ∧ (InWindow p.1.s1 p.1.d1 w.val ∨ InWindow p.1.s2 p.1.d2 w.val))).map
    fun p => cap p.2).sum)

theorem shown_close {p : ℕ} {x y : ℚ} {w : List Char} (hx : ShownTo p x w) (hy : ShownTo p y w) : |x - y| ≤ 1 / 10 ^ p := by
  obtain ⟨d, h1, h2, _, _, _, _, _, h3⟩ := hx
  obtain ⟨e, g1, g2, _, _, _, _, _, g3⟩ := hy
  have he : d.value = e.value := by
    have a := pyFloat_text d h1 (s := []) (t := []) (by simp) (by simp)
    have b := pyFloat_text e g1 (s := []) (t := []) (by simp) (by simp)
    rw [h2] at a
    rw [g2, a] at b
    exact Except.ok.inj b
  rw [← he] at g3
  simp only [Rat.cast_id] at h3 g3
  have : x - y = (d.value - y) - (d.value - x) := by ring
  rw [this]
  have h := abs_sub (d.value - y) (d.value - x)
  have e2 : (1 : ℚ) / 10 ^ p = 1 / 2 / 10 ^ p + 1 / 2 / 10 ^ p := by ring
  linarith

theorem weeks_close {x y : Fin 52 → ℚ} {l : List (List (List Char))} (hx : WeeksShown x l) (hy : WeeksShown y l) (w : Fin 52) :
    |x w - y w| ≤ 1 / 10 ^ 4 := by
  have hq : w.val / 13 < 4 := by omega
  have hj : w.val % 13 < 13 := by omega
  have e : l[(⟨w.val / 13, hq⟩ : Fin 4).val]? = some (l[w.val / 13]'(by rw [hx.1]; exact hq)) := List.getElem?_eq_getElem _
  obtain ⟨a1, a2⟩ := hx.2 _ _ e
  obtain ⟨_, b2⟩ := hy.2 _ _ e
  have e' : (l[w.val / 13]'(by rw [hx.1]; exact hq))[(⟨w.val % 13, hj⟩ : Fin 13).val]? = some _ :=
    List.getElem?_eq_getElem (by rw [a1]; exact hj)
  have := shown_close (a2 _ _ e') (b2 _ _ e')
  have hw : (⟨13 * (w.val / 13) + w.val % 13, by omega⟩ : Fin 52) = w := Fin.ext (by simp; omega)
  simpa only [hw] using this

/-- A page determines how many lines the table of units has, and the last list of weekly numbers to four decimals. -/
theorem page_unique {a t a' t' : ℤ} {b e f b' e' f' : Fin 52 → ℚ} {u u' lines : List (List (List Char))}
    (h : MaintPage a t b e f u lines) (h' : MaintPage a' t' b' e' f' u' lines) :
    u.length = u'.length ∧ ∀ w, |f w - f' w| ≤ 1 / 10 ^ 4 := by
  obtain ⟨B, E, F, x, y, h1, h2, h3, _, _, rfl⟩ := h
  obtain ⟨B', E', F', x', y', g1, g2, g3, _, _, g⟩ := h'
  have hl := congrArg List.length g
  simp only [List.length_append, List.length_cons, List.length_nil, h1.1, h2.1, h3.1, g1.1, g2.1, g3.1] at hl
  have hF := (List.append_inj' g (by rw [h3.1, g3.1])).2
  exact ⟨by omega, fun w => weeks_close h3 (hF ▸ g3) w⟩

theorem pages_infix {WPEAK : ℕ → Fin 52 → ℚ} : ∀ {as : List ℕ} {start : ℤ} {lines : List (List (List Char))},
    PagesShown WPEAK start as lines → ∀ a ∈ as, ∃ page t, page <:+: lines ∧ MaintPage (a + 1) t (WPEAK a) (WPEAK a) (WPEAK a) [] page
  | [], _, _, _, a, ha => absurd ha (by simp)
  | b :: as, start, lines, h, a, ha => by
    obtain ⟨page, rest, rfl, h1, h2⟩ := h
    rcases List.mem_cons.1 ha with rfl | ha
    · exact ⟨page, _, (List.prefix_append _ _).isInfix, h1⟩
    · obtain ⟨p, t, h3, h4⟩ := pages_infix h2 a ha
      exact ⟨p, t, h3.trans (List.suffix_append _ _).isInfix, h4⟩

/-- **C123 (refuted).** Take any system with one unit per plant, as the program builds them, no area with exactly one unit and
no unit with overlapping outages, in which a unit of area `a` with more than 0.0001 MW has a planned outage in week `w`
by the cards. Then the planned outage table that the simulation uses lists that unit in that week; but the page printed for
that area shows no line for any unit, and as load with capacity on maintenance not the load with the capacity on
maintenance. -/
theorem C123_refuted (IREPM : ℤ) (hR : IREPM ≠ 0) (NOAREA : ℕ) (ID : List IdRow) (ITAB : ℤ) (cap : ℕ → ℚ) (sl : ℕ → ℚ → ℚ)
    (WPEAK : ℕ → Fin 52 → ℚ) (old : List Char) (hw : Wired ID) (hcap : ∀ k, 0 ≤ cap k) (hdur : ∀ r ∈ ID, 0 ≤ r.d1)
    (hmany : ∀ a : ℤ, (ID.countP fun q => q.area = a) ≠ 1)
    (hov : ∀ r ∈ ID, ∀ w, ¬ (InWindow r.s1 r.d1 w ∧ InWindow r.s2 r.d2 w))
    {a k : ℕ} (ha : a < NOAREA) {r : IdRow} (hk : ID[k]? = some r) (hra : r.area = a) (hc : 1 / 10 ^ 4 < cap k) {w : Fin 52} (hw51 : w.val < 51)
    (hout : InWindow r.s1 r.d1 w.val ∨ InWindow r.s2 r.d2 w.val) :
    ∃ T ITAB' file, smaintFile IREPM NOAREA ID ITAB cap sl WPEAK old = .ok (T, ITAB', ID, file) ∧
      (∃ j, T w.val (j + 1) = k) ∧
      ∃ page t, page <:+: lineWords file ∧ MaintPage (a + 1) t (WPEAK a) (WPEAK a) (WPEAK a) [] page ∧
        (∀ t' b e f u, MaintPage (a + 1) t' b e f u page → u = []) ∧
        ∀ t' b e u, ¬ MaintPage (a + 1) t' b e (withMaintenance ID cap a (WPEAK a)) u page := by
  obtain ⟨T, ITAB', h1, h2, _⟩ := C62_table NOAREA ID ITAB cap sl hw hcap hdur hmany hov
  obtain ⟨t, g1, _, g3, _, g5⟩ := C123_pages_partial IREPM NOAREA ID ITAB cap sl WPEAK old hw.numbered h1
  have hmem : r ∈ ID := List.mem_of_getElem? hk
  have hin : a ∈ areasWithUnits NOAREA ID := by
    unfold areasWithUnits
    rw [List.mem_filter]
    exact ⟨List.mem_range.2 ha, by simpa using ⟨r, hmem, hra⟩⟩
  obtain ⟨page, tt, p1, p2⟩ := pages_infix (g5 hR) a hin
  refine ⟨T, ITAB', old ++ t, g1, ?_, page, tt, ?_, p2, ?_, ?_⟩
  · have hx := (h2 w.val).2
    rw [if_pos hw51] at hx
    have hr : r.unit ∈ (ID.filter fun r => decide (InWindow r.s1 r.d1 w.val ∨ InWindow r.s2 r.d2 w.val)).map (·.unit) :=
      List.mem_map_of_mem (List.mem_filter.2 ⟨hmem, by simpa using hout⟩)
    obtain ⟨j, hj⟩ := List.getElem?_of_mem hr
    refine ⟨j, ?_⟩
    rw [hx j, List.getD_eq_getElem?_getD, hj]
    exact (hw k r hk).1
  · rw [g3]
    exact p1.trans (List.suffix_append _ _).isInfix
  · intro t' b e f u h
    exact List.eq_nil_of_length_eq_zero (page_unique h p2).1
  · intro t' b e u h
    have hd := (page_unique h p2).2 w
    unfold withMaintenance at hd
    rw [add_sub_cancel_left] at hd
    set l := (ID.zipIdx.filter fun p => decide (p.1.area = (a : ℤ) ∧ (InWindow p.1.s1 p.1.d1 w.val ∨ InWindow p.1.s2 p.1.d2 w.val))).map
      fun p => cap p.2 with hl
    have hle : cap k ≤ l.sum := by
      refine List.single_le_sum (fun x hx => ?_) _ ?_
      · rw [hl] at hx
        obtain ⟨q, _, rfl⟩ := List.mem_map.1 hx
        exact hcap _
      · rw [hl]
        refine List.mem_map.2 ⟨(r, k), List.mem_filter.2 ⟨List.mem_zipIdx_iff_getElem?.2 hk, ?_⟩, rfl⟩
        simpa using ⟨hra, hout⟩
    have := le_abs_self l.sum
    linarith

/-- A system that meets the hypotheses of C123: the first three units of `pmDemo`; unit 1 is out in week 9 -/
example : ∃ T ITAB' file, smaintFile 1 1 (pmDemo.take 3) 6 (fun _ => 100) (fun _ c => c) (fun _ w => 1000 + w.val) [] =
      .ok (T, ITAB', pmDemo.take 3, file) ∧ (∃ j, T 9 (j + 1) = 1) ∧
      ∃ page t, page <:+: lineWords file ∧ MaintPage 1 t (fun w => 1000 + w.val) (fun w => 1000 + w.val) (fun w => 1000 + w.val) [] page := by
  have hm : ∀ a : ℤ, ((pmDemo.take 3).countP fun q => q.area = a) ≠ 1 := by
    intro a h
    by_cases ha : a = 0
    · subst ha; revert h; decide
    · have : ¬ (0 : ℤ) = a := fun e => ha e.symm
      simp [pmDemo, this] at h
  obtain ⟨T, I, file, h1, h2, page, t, h3, h4, _⟩ := C123_refuted 1 (by norm_num) 1 (pmDemo.take 3) 6 (fun _ => 100) (fun _ c => c)
    (fun _ w => 1000 + w.val) [] (fun k r h => pmDemo_wired k r (by
      rw [List.getElem?_take] at h
      split at h
      · exact h
      · cases h)) (fun _ => by norm_num) (by decide) hm (by
      intro r hr w h
      have key : ∀ r ∈ pmDemo.take 3, r.s2 = -1 := by decide
      exact h.2.1 (key r hr)) (a := 0) (k := 1) (by norm_num) (r := ⟨1, 1, 0, 9, 3, -1, 0, 1⟩) rfl rfl (by norm_num) (w := 9) (by decide)
      (.inl (by decide))
  exact ⟨T, I, file, h1, h2, page, t, h3, h4⟩

end Narp.Props
