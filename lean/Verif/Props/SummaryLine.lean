import Verif.Props.ReportText
import Verif.Props.FinalReport

/-!
# C116, end to end: from the cards to the lines of output.txt
-/

namespace Narp.Props
open Narp Narp.Spec

variable {sl : ℕ → ℚ → ℚ} {fuel n m l : ℕ} {c : Cards n m l} {s : Setup n m l}

/-- The name of an area on its card: a word without quotation marks, in quotation marks or not. -/
def NameCard (nm card : List Char) : Prop :=
  IsWord nm ∧ '\'' ∉ nm ∧ (card = nm ∨ card = '\'' :: (nm ++ ['\'']))

/-- A standard deviation in percent on the page. -/
def PctShown (p : ℕ) (x : Option ℝ) (w : List Char) : Prop :=
  match x with
  | some x => ShownTo p x w
  | none => w = ['n', 'a', 'n']

/-- A line of the summary for the area named `nm` with the annual values `days`, `hours`, `energy`: name, peak, capacity,
reserve, and the mean of each with its standard error in percent. -/
def AreaLine (hourly : Prop) (nm : List Char) (peak : ℚ) (days hours energy : List ℚ) (ws : List (List Char)) : Prop :=
  ∃ p cap res fs, ws = [nm, p, cap, res] ++ fs ∧ ShownTo 0 peak p ∧
    (hourly → ∃ h hs e es d ds, fs = [h, hs, e, es, d, ds] ∧ ShownTo 3 (mean hours) h ∧ PctShown 3 (wantSd hours) hs ∧
      ShownTo 0 (mean energy) e ∧ PctShown 0 (wantSd energy) es ∧ ShownTo 3 (mean days) d ∧ PctShown 3 (wantSd days) ds) ∧
    (¬ hourly → ∃ d ds, fs = [d, ds] ∧ ShownTo 3 (mean days) d ∧ PctShown 3 (wantSd days) ds)

theorem strip_quotes {nm card : List Char} (h : NameCard nm card) : (areaLabel card).toList = nm ++ [' ', ' '] := by
  obtain ⟨⟨hne, _⟩, hq, h⟩ := h
  have d1 : ∀ x : List Char, (∀ c ∈ x, c ≠ '\'') → ∀ r, x ≠ [] → (x ++ r).dropWhile (· = '\'') = x ++ r := by
    intro x hx r hne
    cases x with
    | nil => exact absurd rfl hne
    | cons a x =>
      rw [List.cons_append, List.dropWhile_cons_of_neg]
      simpa using hx a (by simp)
  have hn : ∀ c ∈ nm, c ≠ '\'' := fun c hc e => hq (e ▸ hc)
  have hr : ∀ c ∈ nm.reverse, c ≠ '\'' := fun c hc => hn c (List.mem_reverse.mp hc)
  have hne' : nm.reverse ≠ [] := by simpa using hne
  unfold areaLabel
  simp only [String.toList_ofList]
  congr 1
  rcases h with rfl | rfl
  · have a := d1 _ hn [] hne
    have b := d1 _ hr [] hne'
    rw [List.append_nil] at a b
    rw [a, b, List.reverse_reverse]
  · rw [List.dropWhile_cons_of_pos (by simp), d1 _ hn _ hne, List.reverse_append]
    have b := d1 _ hr [] hne'
    rw [List.append_nil] at b
    show ((('\'' :: nm.reverse)).dropWhile _).reverse = nm
    rw [List.dropWhile_cons_of_pos (by simp), b, List.reverse_reverse]

theorem sd_pct {p : ℕ} {q : Sd} {x : Option ℝ} (h : q.pct = x) {w : List Char} (hw : SdShown p q w) : PctShown p x w := by
  subst h; exact hw

theorem line_shown {hourly : Prop} {days hours energy : List ℚ} {q : SumRow} (hl : Line hourly days hours energy q) {nm card : List Char}
    (hn : NameCard nm card) (hq : q.name = some (areaLabel card)) {ws : List (List Char)} (h : SumShown q ws) :
    AreaLine hourly nm q.peak days hours energy ws := by
  obtain ⟨figs, rfl, hf⟩ := h
  rw [hq]
  have hw : words (areaLabel card).toList = [nm] := by
    rw [strip_quotes hn, words_end (by decide), words_one hn.1]
  dsimp only
  rw [hw]
  unfold sumFigures at hf
  by_cases hh : hourly
  · obtain ⟨a, b, e, ha, ha', hb, hb'⟩ := hl.some hh
    rw [e] at hf
    match figs, hf with
    | [_, _, _, _, _, _, _, _, _], .cons h1 (.cons _ (.cons _ (.cons h4 (.cons h5 (.cons h6 (.cons h7 (.cons h8 (.cons h9 .nil)))))))) =>
      refine ⟨_, _, _, _, rfl, h1, fun _ => ⟨_, _, _, _, _, _, rfl, ?_, ?_, ?_, ?_, ?_, ?_⟩, fun h => absurd hh h⟩
      · rw [← ha]; exact h4
      · exact sd_pct ha' h5
      · rw [← hb]; exact h6
      · exact sd_pct hb' h7
      · rw [← hl.days.1]; exact h8
      · exact sd_pct hl.days.2 h9
  · rw [hl.none hh] at hf
    match figs, hf with
    | [_, _, _, _, _], .cons h1 (.cons _ (.cons _ (.cons h4 (.cons h5 .nil)))) =>
      refine ⟨_, _, _, _, rfl, h1, fun h => absurd h hh, fun _ => ⟨_, _, rfl, ?_, ?_⟩⟩
      · rw [← hl.days.1]; exact h4
      · exact sd_pct hl.days.2 h5

theorem forall₂_getElem {α β : Type} {P : α → β → Prop} {xs : List α} {ys : List β} (h : List.Forall₂ P xs ys) :
    ∀ {i : ℕ} {x : α}, xs[i]? = some x → ∃ y ∈ ys, P x y := by
  induction h with
  | nil => intro i x hx; simp at hx
  | cons hp _ ih =>
    intro i x hx
    cases i with
    | zero =>
      simp only [List.getElem?_cons_zero, Option.some.injEq] at hx
      subst hx
      exact ⟨_, by simp, hp⟩
    | succ i =>
      simp only [List.getElem?_cons_succ] at hx
      obtain ⟨y, hy, hp⟩ := ih hx
      exact ⟨y, by simp [hy], hp⟩

/-- The lines of the areas on a page that shows a report with these figures. -/
theorem area_lines {hourly : Prop} {Y : ℕ} {share : Fin 5 → Fin (n + 1) → ℕ → ℕ → ℚ} {peak : ℕ → Prop} {per : ℕ} {R : Report (n + 1)}
    (F : ReportFigures c hourly Y share peak per R) {INDX ITAB : ℤ} {ls : List (List (List Char))} (T : ReportShown INDX ITAB R ls)
    {nm : Fin (n + 1) → List Char} (hnm : ∀ j, NameCard (nm j) (c.areas j).name) (j : Fin (n + 1)) :
    ∃ ws ∈ ls, AreaLine hourly (nm j) (c.areas j).peak
      (figures (tiersOf c) Y (Carried (n + 1) (tiersOf c) j) fun t y => lossDays (share t j y) peak per)
      (figures (tiersOf c) Y (Carried (n + 1) (tiersOf c) j) fun t y => lossHours (share t j y) per)
      (figures (tiersOf c) Y (Carried (n + 1) (tiersOf c) j) fun t y => wholeMWh (share t j y) per) ws := by
  obtain ⟨q, e1, e2, e3, hl⟩ := F.areas j
  obtain ⟨t, y, top, units, A, B, t', ti, Su, D, hls, _, _, _, _, _, hSu, _⟩ := T
  obtain ⟨ws, hm, hs⟩ := forall₂_getElem hSu e1
  refine ⟨ws, ?_, ?_⟩
  · rw [hls]; simp [hm]
  · rw [← e3]; exact line_shown hl (hnm j) e2 hs

/-- **C116, end to end.** The cards of every study that shares freely make a run that ends, and the text appended to
`output.txt` has, for every area, a line with the name on its card, its peak, and the means and standard errors of what the
random streams and the sharing rule give. -/
theorem C116_area_lines {step : ℕ} {raw : ℕ → ℕ → ℚ} (hc : AmpleStudy sl fuel c s step raw) (hIOJ : c.misc.IOJ = 0 ∨ c.misc.JSTEP = 24)
    (hF : 1 ≤ c.misc.FINISH) (hE : 20 ≤ c.misc.MAXEUE) (hK : c.misc.KWHERE = 1 → 1 ≤ c.misc.KVLOC ∧ c.misc.KVLOC ≤ n + 1)
    {nm : Fin (n + 1) → List Char} (hnm : ∀ j, NameCard (nm j) (c.areas j).name) (JSEED ITAB : ℤ) :
    ∃ (load : Fin (n + 1) → ℕ → ℚ) (H : ℕ → ℕ), (∀ j : Fin (n + 1), Scaled (raw j) (c.areas j).peak (load j)) ∧
    (∀ d, 1 ≤ d → d ≤ 8760 / step → Evaluated step load (step * d) (H d)) ∧
    ∃ (log : List Ev) (st : St _) (e : Exit) (Y : ℕ) (r : RepIn (n + 1)) (R : Report (n + 1)), Reach s.cfg (s.start JSEED) log st ∧
      Narp.step s.cfg st = .ok (.exit e) ∧ 1 ≤ Y ∧ st.world.y.rep = some r ∧ s.report ITAB r = .ok R ∧ R.years = Y ∧
      ReportShown s.year.INDX ITAB R (lineWords (reportText s.year.NFCST s.year.INDX ITAB r R)) ∧
      ∀ j, ∃ ws ∈ lineWords (reportText s.year.NFCST s.year.INDX ITAB r R),
        AreaLine (step ≠ 24) (nm j) (c.areas j).peak
          (figures (tiersOf c) Y (Carried (n + 1) (tiersOf c) j) fun t y =>
            lossDays (yearShare c step load H t j y) (fun d => PeakDraw step load (step * d)) (8760 / step))
          (figures (tiersOf c) Y (Carried (n + 1) (tiersOf c) j) fun t y => lossHours (yearShare c step load H t j y) (8760 / step))
          (figures (tiersOf c) Y (Carried (n + 1) (tiersOf c) j) fun t y => wholeMWh (yearShare c step load H t j y) (8760 / step)) ws := by
  obtain ⟨load, H, h1, h2, log, st, e, Y, r, hr, hx, _, hY, hrep, hR⟩ := C114_ample_partial hc hIOJ hF hE hK JSEED
  obtain ⟨R, hR, F⟩ := hR ITAB
  have hnames : ∀ q ∈ R.summary, ∀ x, q.name = some x → '\n' ∉ x.toList := by
    intro q hq x hx
    obtain ⟨i, hi, he⟩ := List.getElem_of_mem hq
    rw [F.lines] at hi
    rcases Nat.lt_or_ge i (n + 1) with hlt | hge
    · obtain ⟨q', e1, e2, _⟩ := F.areas ⟨i, hlt⟩
      have : q = q' := by
        have e1' : R.summary[i]? = some q' := e1
        rw [List.getElem?_eq_getElem (by rw [F.lines]; exact hi), he] at e1'
        exact Option.some.inj e1'
      subst this
      rw [hx] at e2
      injection e2 with e2
      rw [e2, strip_quotes (hnm _)]
      simp only [List.mem_append, not_or]
      exact ⟨shown_nl (hnm _).1, by decide⟩
    · obtain ⟨q', e1, e2, _⟩ := F.pool
      have hi' : i = n + 1 := by omega
      subst hi'
      have : q = q' := by
        rw [List.getElem?_eq_getElem (by rw [F.lines]; exact hi), he] at e1
        exact Option.some.inj e1
      subst this
      rw [hx] at e2
      cases e2
  have T := C116_report_text hR hnames
  exact ⟨load, H, h1, h2, log, st, e, Y, r, R, hr, hx, hY, hrep, hR, F.years, T, area_lines F T hnm⟩

/-- C116 applies: two areas joined by an ample line, named A and B. -/
example (sl : ℕ → ℚ → ℚ) (fuel : ℕ) : ∃ (s : Setup 1 4 1) (raw : ℕ → ℕ → ℚ), AmpleStudy sl fuel (ampleCards (-100) 260 1000) s 1 raw ∧
    ∃ (load : Fin 2 → ℕ → ℚ) (H : ℕ → ℕ) (log : List Ev) (st : St _) (e : Exit) (Y : ℕ) (r : RepIn 2) (R : Report 2),
      Reach s.cfg (s.start 1) log st ∧ Narp.step s.cfg st = .ok (.exit e) ∧ 1 ≤ Y ∧ st.world.y.rep = some r ∧ s.report 7 r = .ok R ∧
      ∃ ws ∈ lineWords (reportText s.year.NFCST s.year.INDX 7 r R), AreaLine (1 ≠ 24) ['A'] 250
        (figures 1 Y (Carried 2 1 0) fun t y =>
          lossDays (yearShare (ampleCards (-100) 260 1000) 1 load H t 0 y) (fun d => PeakDraw 1 load (1 * d)) (8760 / 1))
        (figures 1 Y (Carried 2 1 0) fun t y => lossHours (yearShare (ampleCards (-100) 260 1000) 1 load H t 0 y) (8760 / 1))
        (figures 1 Y (Carried 2 1 0) fun t y => wholeMWh (yearShare (ampleCards (-100) 260 1000) 1 load H t 0 y) (8760 / 1)) ws := by
  obtain ⟨s, raw, h, hs⟩ := ample_study sl fuel (adm := -100) (cap := 260) (lim := 1000) (by norm_num) (by norm_num) (by norm_num)
  obtain ⟨load, H, _, _, log, st, e, Y, r, R, a, b, c1, d, f, _, _, g⟩ := C116_area_lines hs (.inl rfl) (by simp [ampleCards, demoCards])
    (by simp [ampleCards, demoCards]; norm_num) (by simp [ampleCards, demoCards]) (nm := ![['A'], ['B']])
    (by
      intro j
      fin_cases j
      · exact ⟨⟨by simp, by decide⟩, by decide, .inl rfl⟩
      · exact ⟨⟨by simp, by decide⟩, by decide, .inl rfl⟩) 1 7
  exact ⟨s, raw, hs, load, H, log, st, e, Y, r, R, a, b, c1, d, f, g 0⟩

end Narp.Props
