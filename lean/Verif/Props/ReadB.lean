import Verif.Model.ReadB
import Verif.Spec.Text
import Verif.Props.LoadFile

/-!
# Reading the text of the input (C74 - C77)
-/

namespace Narp.Props
open Narp Narp.Spec

/-! ## Characters -/

theorem digitChar_cases (d : Fin 10) : isDig (Nat.digitChar d.val) = true ∧ isSpace (Nat.digitChar d.val) = false ∧
    (Nat.digitChar d.val).toNat - 48 = d.val ∧ Nat.digitChar d.val ≠ '-' ∧ Nat.digitChar d.val ≠ '+' ∧
    Nat.digitChar d.val ≠ ',' ∧ Nat.digitChar d.val ≠ 'A' ∧ digit (Nat.digitChar d.val) = .ok (d.val : ℤ) ∧
    Nat.digitChar d.val ≠ '\n' ∧ Nat.digitChar d.val ≠ '\r' := by
  revert d; decide

theorem blanks_space : ∀ c ∈ blanks, isSpace c = true ∧ c ≠ ',' ∧ c ≠ 'A' := by decide

theorem blank_space {cs : List Char} (h : Blank cs) : ∀ c ∈ cs, isSpace c = true := by
  intro c hc
  exact (blanks_space c (h c hc)).1

/-! ## Numbers -/

theorem natOf_go (ds : List (Fin 10)) (n : ℕ) :
    (digitsText ds).foldl (fun n c => 10 * n + (c.toNat - 48)) n = 10 ^ ds.length * n + digitsValue ds := by
  induction ds generalizing n with
  | nil => simp [digitsText, digitsValue]
  | cons d ds ih =>
    have e : digitsText (d :: ds) = Nat.digitChar d.val :: digitsText ds := rfl
    rw [e, List.foldl_cons, ih, (digitChar_cases d).2.2.1]
    simp only [digitsValue, List.reverse_cons, List.map_append, Nat.ofDigits_append, List.length_cons,
      List.map_cons, List.map_nil, Nat.ofDigits_singleton, List.length_map, List.length_reverse]
    ring

theorem natOf_digits (ds : List (Fin 10)) : natOf (digitsText ds) = digitsValue ds := by
  unfold natOf; rw [natOf_go]; simp

theorem natOf_append (a b : List (Fin 10)) :
    natOf (digitsText a ++ digitsText b) = digitsValue a * 10 ^ b.length + digitsValue b := by
  have : digitsText a ++ digitsText b = digitsText (a ++ b) := by simp [digitsText]
  rw [this, natOf_digits]
  simp only [digitsValue, List.reverse_append, List.map_append, Nat.ofDigits_append, List.length_map,
    List.length_reverse]
  ring

theorem digitsText_nil {ds : List (Fin 10)} : digitsText ds = [] ↔ ds = [] := by simp [digitsText]

theorem digitsText_dig (ds : List (Fin 10)) : ∀ c ∈ digitsText ds, isDig c = true := by
  intro c hc
  obtain ⟨d, _, rfl⟩ := List.mem_map.1 hc
  exact (digitChar_cases d).1

theorem digitsText_all (ds : List (Fin 10)) : (digitsText ds).all isDig = true :=
  List.all_eq_true.2 (digitsText_dig ds)

theorem takeWhile_digits (ds : List (Fin 10)) (r : List Char) (hr : ∀ c ∈ r.head?, isDig c = false) :
    (digitsText ds ++ r).takeWhile isDig = digitsText ds ∧ (digitsText ds ++ r).dropWhile isDig = r := by
  constructor
  · rw [List.takeWhile_append_of_pos (digitsText_dig ds)]
    cases r with
    | nil => simp
    | cons c r => simp [hr c (by simp)]
  · rw [List.dropWhile_append_of_pos (digitsText_dig ds)]
    cases r with
    | nil => simp
    | cons c r => simp [hr c (by simp)]

theorem signOf_text (s : Option Bool) (r : List Char) (hr : ∀ c ∈ r.head?, c ≠ '-' ∧ c ≠ '+') :
    signOf (signText s ++ r) = (decide (s = some true), r) := by
  rcases s with _ | _ | _
  · simp only [signText, List.nil_append]
    cases r with
    | nil => rfl
    | cons c r =>
      obtain ⟨h1, h2⟩ := hr c (by simp)
      unfold signOf
      split
      · rename_i h; injection h with h _; exact absurd h h1
      · rename_i h; injection h with h _; exact absurd h h2
      · simp
  · rfl
  · rfl

theorem expOf_text (x : Option (Bool × Option Bool × List (Fin 10))) (hx : ∀ y, x = some y → y.2.2 ≠ []) :
    expOf (expText x) = .ok (expValue x) := by
  rcases x with _ | ⟨cap, s, e⟩
  · rfl
  · have he : e ≠ [] := hx _ rfl
    have hhead : ∀ c ∈ (digitsText e).head?, c ≠ '-' ∧ c ≠ '+' := by
      intro c hc
      have := List.mem_of_mem_head? hc
      obtain ⟨d, _, rfl⟩ := List.mem_map.1 this
      exact ⟨(digitChar_cases d).2.2.2.1, (digitChar_cases d).2.2.2.2.1⟩
    have hE : (if cap then 'E' else 'e') = 'e' ∨ (if cap then 'E' else 'e') = 'E' := by cases cap <;> simp
    have hne : ¬ (digitsText e = [] ∨ (digitsText e).all isDig = false) := by
      rw [digitsText_all]; simp [digitsText_nil, he]
    simp only [expText, expOf, if_pos hE, signOf_text s _ hhead, if_neg hne, natOf_digits]
    congr 1
    rcases s with _ | _ | _ <;> simp [expValue, signValue, zpow_neg]

theorem head_exp (x : Option (Bool × Option Bool × List (Fin 10))) :
    ∀ c ∈ (expText x).head?, isDig c = false ∧ c ≠ '.' := by
  rcases x with _ | ⟨cap, s, e⟩
  · simp [expText]
  · cases cap <;> simp [expText] <;> decide

theorem Dec.text_chars {d : Dec} : ∀ c ∈ d.text, isSpace c = false ∧ c ≠ ',' ∧ c ≠ 'A' ∧ c ≠ '\n' ∧ c ≠ '\r' := by
  have hd : ∀ (ds : List (Fin 10)), ∀ c ∈ digitsText ds, isSpace c = false ∧ c ≠ ',' ∧ c ≠ 'A' ∧ c ≠ '\n' ∧ c ≠ '\r' := by
    intro ds c hc
    obtain ⟨d, _, rfl⟩ := List.mem_map.1 hc
    have := digitChar_cases d
    exact ⟨this.2.1, this.2.2.2.2.2.1, this.2.2.2.2.2.2.1, this.2.2.2.2.2.2.2.2.1, this.2.2.2.2.2.2.2.2.2⟩
  have hs : ∀ (s : Option Bool), ∀ c ∈ signText s, isSpace c = false ∧ c ≠ ',' ∧ c ≠ 'A' ∧ c ≠ '\n' ∧ c ≠ '\r' := by
    intro s c hc
    rcases s with _ | _ | _
    · simp [signText] at hc
    · simp only [signText, List.mem_singleton] at hc; subst hc; decide
    · simp only [signText, List.mem_singleton] at hc; subst hc; decide
  intro c hc
  unfold Dec.text at hc
  simp only [List.mem_append] at hc
  rcases hc with hc | hc | hc | hc
  · exact hs _ c hc
  · exact hd _ c hc
  · split at hc
    · rcases List.mem_cons.1 hc with rfl | hc
      · decide
      · exact hd _ c hc
    · simp at hc
  · rcases hx : d.exp with _ | ⟨cap, s, e⟩
    · simp [hx, expText] at hc
    · rw [hx] at hc
      simp only [expText, List.mem_cons, List.mem_append] at hc
      rcases hc with rfl | hc | hc
      · cases cap <;> decide
      · exact hs _ c hc
      · exact hd _ c hc

theorem dropWhile_space {cs : List Char} (h : ∀ c ∈ cs, isSpace c = true) (x : List Char)
    (hx : ∀ c ∈ x.head?, isSpace c = false) : (cs ++ x).dropWhile isSpace = x := by
  rw [List.dropWhile_append_of_pos h]
  cases x with
  | nil => rfl
  | cons c r => simp [hx c (by simp)]

/-- blanks around a text without white space are stripped -/
theorem strip_text {s x t : List Char} (hs : ∀ c ∈ s, isSpace c = true) (ht : ∀ c ∈ t, isSpace c = true)
    (hx : ∀ c ∈ x, isSpace c = false) (hne : x ≠ []) : strip (s ++ x ++ t) = x := by
  unfold strip
  have h1 : (s ++ x ++ t).dropWhile isSpace = x ++ t := by
    rw [List.append_assoc]
    refine dropWhile_space hs _ ?_
    intro c hc
    cases x with
    | nil => exact absurd rfl hne
    | cons a r => simp at hc; subst hc; exact hx a (by simp)
  rw [h1, List.reverse_append, dropWhile_space (by simpa using ht) _ (by
    intro c hc
    exact hx c (by simpa using List.mem_of_mem_head? hc)), List.reverse_reverse]

theorem Dec.text_ne {d : Dec} (h : d.WF) : d.text ≠ [] := by
  unfold Dec.text
  rcases h.digit with h1 | h1
  · simp [digitsText_nil, h1]
  · simp [h.frac h1]

/-- `float` on a written decimal number, with any blanks around it, is the number that is meant. -/
theorem pyFloat_text (d : Dec) (h : d.WF) {s t : List Char} (hs : ∀ c ∈ s, isSpace c = true)
    (ht : ∀ c ∈ t, isSpace c = true) : pyFloat (s ++ d.text ++ t) = .ok d.value := by
  unfold pyFloat
  rw [strip_text hs ht (fun c hc => (Dec.text_chars c hc).1) (Dec.text_ne h)]
  have hmid : ∀ c ∈ (digitsText d.whole ++ ((if d.point then '.' :: digitsText d.frac else []) ++
      expText d.exp)).head?, c ≠ '-' ∧ c ≠ '+' := by
    intro c hc
    rcases hw : d.whole with _ | ⟨a, w⟩
    · have hp : d.point = true := by
        rcases h.digit with h1 | h1
        · exact absurd hw h1
        · exact h.frac h1
      simp [hw, hp, digitsText] at hc
      subst hc; decide
    · simp [hw, digitsText] at hc
      subst hc
      exact ⟨(digitChar_cases a).2.2.2.1, (digitChar_cases a).2.2.2.2.1⟩
  unfold Dec.text
  rw [signOf_text _ _ hmid]
  have hp : ∀ c ∈ ((if d.point then '.' :: digitsText d.frac else []) ++ expText d.exp).head?, isDig c = false := by
    intro c hc
    rcases hb : d.point with _ | _
    · simp only [hb, Bool.false_eq_true, if_false, List.nil_append] at hc
      exact (head_exp _ c hc).1
    · simp [hb] at hc; subst hc; decide
  obtain ⟨ht1, ht2⟩ := takeWhile_digits d.whole _ hp
  have hq := expOf_text d.exp h.exp
  have hf := takeWhile_digits d.frac (expText d.exp) (fun c hc => (head_exp _ c hc).1)
  have hmatch : fracOf ((if d.point then '.' :: digitsText d.frac else []) ++ expText d.exp) =
      (digitsText d.frac, expText d.exp) := by
    rcases hb : d.point with _ | _
    · have h0 : d.frac = [] := by
        by_contra hne
        have := h.frac hne
        rw [hb] at this; cases this
      simp only [h0, Bool.false_eq_true, if_false, List.nil_append]
      have := head_exp d.exp
      rcases hx : expText d.exp with _ | ⟨c, r⟩
      · rfl
      · rw [hx] at this
        have hc := (this c (by simp)).2
        unfold fracOf
        split
        · rename_i h; injection h with h _; exact absurd h hc
        · rfl
    · simp [fracOf, hf.1, hf.2]
  have hne : ¬ (digitsText d.whole = [] ∧ digitsText d.frac = []) := by
    rw [digitsText_nil, digitsText_nil]
    rintro ⟨a, b⟩
    rcases h.digit with h1 | h1
    · exact h1 a
    · exact h1 b
  dsimp only
  rw [ht1, ht2, hmatch]
  dsimp only
  rw [if_neg hne, hq]
  show Except.ok _ = _
  congr 1
  have hlen : (digitsText d.frac).length = d.frac.length := by simp [digitsText]
  rw [natOf_append, hlen]
  unfold Dec.value
  have h10 : ((10 : ℚ) ^ d.frac.length) ≠ 0 := by positivity
  have hv : ((digitsValue d.whole * 10 ^ d.frac.length + digitsValue d.frac : ℕ) : ℚ) / 10 ^ d.frac.length =
      digitsValue d.whole + (digitsValue d.frac : ℚ) / 10 ^ d.frac.length := by
    push_cast
    field_simp
  rw [hv]
  by_cases hsg : d.sign = some true
  · simp only [hsg, decide_true, if_true, signValue]
    push_cast
    ring
  · simp only [hsg, decide_false, if_false, signValue]
    push_cast
    simp

/-! ## Words -/

theorem cutAt_all {p : Char → Bool} : ∀ {w : List Char}, (∀ c ∈ w, p c = false) → cutAt p w = [w]
  | [], _ => rfl
  | c :: w, h => by
    have := cutAt_all (w := w) (p := p) (fun x hx => h x (by simp [hx]))
    simp [cutAt, h c (by simp), this]

theorem cutAt_sep {p : Char → Bool} {c : Char} (hc : p c = true) (r : List Char) :
    ∀ {w : List Char}, (∀ x ∈ w, p x = false) → cutAt p (w ++ c :: r) = w :: cutAt p r
  | [], _ => by simp [cutAt, hc]
  | a :: w, h => by
    have := cutAt_sep hc r (w := w) (fun x hx => h x (by simp [hx]))
    simp [cutAt, h a (by simp), this]

theorem cutAt_ne {p : Char → Bool} (r : List Char) : cutAt p r ≠ [] := by
  cases r with
  | nil => simp [cutAt]
  | cons a r =>
    unfold cutAt
    split
    · simp
    · split <;> simp

theorem cutAt_end {p : Char → Bool} {c : Char} (hc : p c = true) : ∀ r : List Char,
    cutAt p (r ++ [c]) = cutAt p r ++ [[]]
  | [] => by simp [cutAt, hc]
  | a :: r => by
    have := cutAt_end hc r
    simp only [List.cons_append, cutAt, this]
    split
    · simp
    · have hne := cutAt_ne (p := p) r
      generalize cutAt p r = q at hne ⊢
      rcases q with _ | ⟨w, ws⟩
      · exact absurd rfl hne
      · simp

theorem words_cons {c : Char} (hc : isSpace c = true) (r : List Char) : words (c :: r) = words r := by
  simp [words, cutAt, hc]

theorem words_blank {s : List Char} (hs : ∀ c ∈ s, isSpace c = true) (r : List Char) : words (s ++ r) = words r := by
  induction s with
  | nil => rfl
  | cons a s ih =>
    rw [List.cons_append, words_cons (hs a (by simp)), ih fun c hc => hs c (by simp [hc])]

theorem words_end {t : List Char} (ht : ∀ c ∈ t, isSpace c = true) (r : List Char) : words (r ++ t) = words r := by
  induction t generalizing r with
  | nil => simp
  | cons a t ih =>
    rw [show r ++ a :: t = (r ++ [a]) ++ t by simp, ih (fun c hc => ht c (by simp [hc]))]
    simp [words, cutAt_end (ht a (by simp))]

theorem words_word {w : List Char} (hw : ∀ c ∈ w, isSpace c = false) (hne : w ≠ []) {r : List Char}
    (hr : ∀ c ∈ r.head?, isSpace c = true) : words (w ++ r) = w :: words r := by
  cases r with
  | nil => simp [words, cutAt_all hw, hne, cutAt]
  | cons c r =>
    have hc := hr c (by simp)
    rw [words_cons hc]
    simp [words, cutAt_sep hc r hw, hne]

theorem words_strip (cs : List Char) : words (strip cs) = words cs := by
  have h1 : cs = cs.takeWhile isSpace ++ cs.dropWhile isSpace := (List.takeWhile_append_dropWhile).symm
  have hs : ∀ x : List Char, ∀ c ∈ x.takeWhile isSpace, isSpace c = true := by
    intro x c hc
    induction x with
    | nil => simp at hc
    | cons a x ih =>
      rw [List.takeWhile_cons] at hc
      split at hc
      · rename_i ha
        rcases List.mem_cons.1 hc with rfl | hc
        · exact ha
        · exact ih hc
      · simp at hc
  conv_rhs => rw [h1, words_blank (hs cs)]
  unfold strip
  generalize cs.dropWhile isSpace = x
  have h2 : x = (x.reverse.dropWhile isSpace).reverse ++ (x.reverse.takeWhile isSpace).reverse := by
    rw [← List.reverse_append, List.takeWhile_append_dropWhile, List.reverse_reverse]
  conv_rhs => rw [h2, words_end (by simpa using hs x.reverse)]

/-- the words of a row are the numbers as they are written -/
theorem words_row {ds : List Dec} {line : List Char} (h : RowText ds line) :
    words line = ds.map Dec.text ∧ ∀ d ∈ ds, d.WF := by
  induction h with
  | blank hs =>
    refine ⟨?_, by simp⟩
    have := words_blank (blank_space hs) []
    simpa [words, cutAt] using this
  | number hs hd _ ht ih =>
    refine ⟨?_, ?_⟩
    · rw [List.append_assoc, words_blank (blank_space hs),
        words_word (fun c hc => (Dec.text_chars c hc).1) (Dec.text_ne hd)
          (fun c hc => (blanks_space c (ht c hc)).1), ih.1]
      rfl
    · intro x hx
      rcases List.mem_cons.1 hx with rfl | hx
      · exact hd
      · exact ih.2 x hx

theorem floats {ds : List Dec} (h : ∀ d ∈ ds, d.WF) : (ds.map Dec.text).mapM pyFloat = .ok (ds.map Dec.value) := by
  induction ds with
  | nil => rfl
  | cons d ds ih =>
    have h1 := pyFloat_text d (h d (by simp)) (s := []) (t := []) (by simp) (by simp)
    simp only [List.nil_append, List.append_nil] at h1
    rw [List.map_cons, List.mapM_cons, h1, ih fun x hx => h x (by simp [hx])]
    rfl

theorem row_head {ds : List Dec} {line : List Char} (h : RowText ds line) : line.head? ≠ some 'A' := by
  cases h with
  | blank hs =>
    intro hh
    exact (blanks_space _ (hs _ (List.mem_of_mem_head? hh))).2.2 rfl
  | @number s d ds t hs hd _ ht =>
    intro hh
    cases s with
    | nil =>
      rcases hx : d.text with _ | ⟨c, r⟩
      · exact Dec.text_ne hd hx
      · rw [hx] at hh
        simp at hh
        have : c ∈ d.text := by rw [hx]; simp
        exact (Dec.text_chars c this).2.2.1 hh
    | cons c s =>
      simp at hh
      exact (blanks_space _ (hs c (by simp))).2.2 hh

/-- a line as it is written and as it is read: possibly with its line end -/
def Read (l l' : List Char) : Prop := l' = l ∨ l' = l ++ ['\n']

theorem parse_row {ds : List Dec} {line l' : List Char} (h : RowText ds line) (hl : Read line l') :
    leeiParse l' = .ok (.data (ds.map Dec.value)) := by
  have hh : l'.head? ≠ some 'A' := by
    rcases hl with rfl | rfl
    · exact row_head h
    · have := row_head h
      cases line with
      | nil => decide
      | cons c r => simpa using this
  have hw : words (strip l') = ds.map Dec.text := by
    rw [words_strip]
    rcases hl with rfl | rfl
    · exact (words_row h).1
    · rw [words_end (by decide)]; exact (words_row h).1
  unfold leeiParse
  rw [if_neg, hw, floats (words_row h).2]
  · rfl
  · intro ht
    apply hh
    cases l' with
    | nil => simp at ht
    | cons c r => simp at ht; simp [ht.1]

/-! ## Lines -/

theorem newlines_cons {c : Char} (hc : c ≠ '\r') (cs : List Char) : newlines (c :: cs) = c :: newlines cs := by
  conv_lhs => unfold newlines
  split
  · rename_i h; cases h
  · rename_i h; injection h with h _; exact absurd h hc
  · rename_i h; injection h with h _; exact absurd h hc
  · rename_i h; injection h with h1 h2; rw [h1, h2]

theorem newlines_append {l : List Char} (hl : '\r' ∉ l) (t : List Char) : newlines (l ++ t) = l ++ newlines t := by
  induction l with
  | nil => rfl
  | cons c l ih =>
    rw [List.mem_cons, not_or] at hl
    rw [List.cons_append, newlines_cons (fun h => hl.1 h.symm), ih hl.2]
    rfl

theorem pyLines_line {l : List Char} (hl : '\n' ∉ l) (t : List Char) :
    pyLines (l ++ '\n' :: t) = (l ++ ['\n']) :: pyLines t := by
  induction l with
  | nil => simp [pyLines]
  | cons c l ih =>
    rw [List.mem_cons, not_or] at hl
    have hc : c ≠ '\n' := fun h => hl.1 h.symm
    simp [pyLines, hc, ih hl.2]

theorem pyLines_last {l : List Char} (hl : '\n' ∉ l) (hne : l ≠ []) : pyLines l = [l] := by
  induction l with
  | nil => exact absurd rfl hne
  | cons c l ih =>
    rw [List.mem_cons, not_or] at hl
    have hc : c ≠ '\n' := fun h => hl.1 h.symm
    cases l with
    | nil => simp [pyLines, hc]
    | cons d l =>
      have := ih hl.2 (by simp)
      rw [pyLines, if_neg hc, this]

/-- the lines of a file are read as they are written -/
theorem read_lines {ls : List (List Char)} {txt : List Char} (h : FileText ls txt) :
    List.Forall₂ Read ls (pyLines (newlines txt)) := by
  induction h with
  | empty => exact .nil
  | last hne hn hr =>
    rename_i l
    have := newlines_append hr []
    rw [List.append_nil] at this
    rw [this, newlines, List.append_nil, pyLines_last hn hne]
    exact .cons (.inl rfl) .nil
  | @line l e ls t hn hr he _ ih =>
    rw [List.append_assoc, newlines_append hr]
    have : newlines (e ++ t) = '\n' :: newlines t := by
      rcases he with rfl | rfl
      · exact newlines_cons (by decide) t
      · simp [newlines]
    rw [this, pyLines_line hn]
    exact .cons (.inr rfl) ih

/-! ## The load file -/

/-- the section with its numbers -/
def blockOf (s : LoadSection) : Block := ⟨Nat.digitChar s.area.val, s.tail, s.rows.map fun r => r.2.map Dec.value⟩

/-- the loop body of `xldnew.py:28-36` on a line of text -/
def textStep (N : ℕ) (s : LeeiSt) (line : List Char) : Except PyErr LeeiSt := do
  let l ← leeiParse line
  leeiLine N s l

theorem step_header {N : ℕ} (s : LeeiSt) (c : Char) (tail : List Char) {l' : List Char}
    (hl : Read ("AREA:A".toList ++ c :: tail) l') :
    textStep N s l' = leeiLine N s (.header (['A', 'R', 'E', 'A', ':', 'A'] ++ c :: tail)) := by
  have e : "AREA:A".toList = ['A', 'R', 'E', 'A', ':', 'A'] := by decide
  rw [e] at hl
  have h4 : l'.take 4 = ['A', 'R', 'E', 'A'] := by rcases hl with rfl | rfl <;> rfl
  have h6 : l'[6]? = some c := by rcases hl with rfl | rfl <;> rfl
  unfold textStep leeiParse
  rw [if_pos h4]
  show leeiLine N s (.header l') = _
  simp only [leeiLine, h6]
  rfl

theorem step_row {N : ℕ} (s : LeeiSt) {pre v : List Dec} {line l' : List Char} (h : RowText (pre ++ v) line)
    (hv : v.length = 12) (hl : Read line l') : textStep N s l' = leeiLine N s (.data (v.map Dec.value)) := by
  unfold textStep
  rw [parse_row h hl]
  show leeiLine N s (.data ((pre ++ v).map Dec.value)) = _
  have e : ((pre ++ v).map Dec.value).drop (((pre ++ v).map Dec.value).length - 12) =
      (v.map Dec.value).drop ((v.map Dec.value).length - 12) := by
    simp [hv]
  simp only [leeiLine, e]

theorem steps_section {N : ℕ} (s : LoadSection) (hy : s.Year) {ls : List (List Char)} (h : s.Text ls) :
    List.Forall₂ (fun l x => ∀ l', Read l l' → ∀ st, textStep N st l' = leeiLine N st x) ls (blockOf s).lines := by
  obtain ⟨ds, rfl, hrows⟩ := h
  unfold Block.lines
  refine .cons ?_ ?_
  · intro l' hl st
    exact step_header st _ _ hl
  · have hy2 := hy.2
    show List.Forall₂ _ ds ((s.rows.map fun r => r.2.map Dec.value).map LeeiLine.data)
    clear hy
    generalize s.rows = rows at hrows hy2
    induction hrows with
    | nil => exact .nil
    | cons hr _ ih =>
      refine .cons ?_ (ih fun r hr => hy2 r (by simp [hr]))
      intro l' hl st
      exact step_row st hr (hy2 _ (by simp)) hl

theorem steps_file {N : ℕ} {secs : List LoadSection} {lss : List (List (List Char))} (hy : ∀ s ∈ secs, s.Year)
    (h : List.Forall₂ LoadSection.Text secs lss) :
    List.Forall₂ (fun l x => ∀ l', Read l l' → ∀ st, textStep N st l' = leeiLine N st x) lss.flatten
      ((secs.map blockOf).flatMap Block.lines) := by
  induction h with
  | nil => exact .nil
  | cons hs _ ih =>
    rw [List.map_cons, List.flatMap_cons, List.flatten_cons]
    exact List.rel_append (steps_section _ (hy _ (by simp)) hs) (ih fun s hs => hy s (by simp [hs]))

theorem fold_steps {N : ℕ} {ls ls' : List (List Char)} {xs : List LeeiLine}
    (h1 : List.Forall₂ (fun l x => ∀ l', Read l l' → ∀ st, textStep N st l' = leeiLine N st x) ls xs)
    (h2 : List.Forall₂ Read ls ls') (st : LeeiSt) :
    ls'.foldlM (textStep N) st = xs.foldlM (leeiLine N) st := by
  induction h1 generalizing ls' st with
  | nil => cases h2; rfl
  | cons hx _ ih =>
    cases h2 with
    | cons hr h2 =>
      rw [List.foldlM_cons, List.foldlM_cons, hx _ hr]
      congr 1
      funext s
      exact ih h2 s

/-- C74. Every load file whose sections belong to different areas with one-digit numbers of the study and hold a
year of half days (rows that end with twelve decimal numbers, in any layout: any blanks between the numbers, signs,
points, exponents, a date in front; lines ended in the way of Unix or Windows, the last one possibly not ended) is
read without error, and the load of each of these areas in each hour of the year is the number written for it. -/
theorem C74_load_file (N : ℕ) (secs : List LoadSection) (txt : List Char) (htxt : LoadText secs txt)
    (harea : ∀ s ∈ secs, 1 ≤ s.area.val ∧ s.area.val ≤ N) (hdist : (secs.map fun s => s.area.val).Nodup)
    (hyear : ∀ s ∈ secs, s.Year) :
    ∃ H, leeiText N txt = .ok H ∧ ∀ s ∈ secs, ∀ h < 8760, H (s.area.val - 1) h = s.load h := by
  obtain ⟨lss, hl, hf⟩ := htxt
  have hnum : ∀ s : LoadSection, (blockOf s).c.toNat - 48 = s.area.val := fun s => (digitChar_cases s.area).2.2.1
  obtain ⟨H, hH, hval⟩ := C20_read_partial N (secs.map blockOf) (fun b => b.c.toNat - 48)
    (by
      intro b hb
      obtain ⟨s, hs, rfl⟩ := List.mem_map.1 hb
      rw [hnum]
      exact ⟨(harea s hs).1, (harea s hs).2, (digitChar_cases s.area).2.2.2.2.2.2.2.1⟩)
    (by
      rw [List.map_map]
      have : ((fun b : Block => b.c.toNat - 48) ∘ blockOf) = fun s => s.area.val := funext hnum
      rw [this]; exact hdist)
    (by
      intro b hb
      obtain ⟨s, hs, rfl⟩ := List.mem_map.1 hb
      refine ⟨by simp [blockOf, (hyear s hs).1], ?_⟩
      intro r hr
      obtain ⟨x, hx, rfl⟩ := List.mem_map.1 hr
      rw [List.length_map]
      exact (hyear s hs).2 x hx)
  refine ⟨H, ?_, ?_⟩
  · have := fold_steps (N := N) (steps_file hyear hl) (read_lines hf) ⟨none, 0, fun _ _ => 0⟩
    unfold leeiRead at hH
    rw [← this] at hH
    exact hH
  · intro s hs h hh
    have := hval (blockOf s) (List.mem_map.2 ⟨s, hs, rfl⟩) h hh
    rw [hnum] at this
    exact this

/-! ## The line cards -/

theorem strip_blank {s : List Char} (hs : ∀ c ∈ s, isSpace c = true) (r : List Char) : strip (s ++ r) = strip r := by
  unfold strip
  rw [List.dropWhile_append_of_pos hs]

theorem dropWhile_end {c : Char} (hc : isSpace c = true) : ∀ r : List Char,
    (r ++ [c]).dropWhile isSpace = [] ∧ r.dropWhile isSpace = [] ∨
    (r ++ [c]).dropWhile isSpace = r.dropWhile isSpace ++ [c]
  | [] => by simp [hc]
  | a :: r => by
    rcases ha : isSpace a with _ | _
    · right; simp [ha]
    · simpa [ha] using dropWhile_end hc r

theorem strip_end1 {c : Char} (hc : isSpace c = true) (r : List Char) : strip (r ++ [c]) = strip r := by
  unfold strip
  rcases dropWhile_end hc r with ⟨h1, h2⟩ | h
  · rw [h1, h2]
  · rw [h]; simp [hc]

theorem strip_end {t : List Char} (ht : ∀ c ∈ t, isSpace c = true) (r : List Char) : strip (r ++ t) = strip r := by
  induction t generalizing r with
  | nil => simp
  | cons a t ih =>
    rw [show r ++ a :: t = (r ++ [a]) ++ t by simp, ih (fun c hc => ht c (by simp [hc])),
      strip_end1 (ht a (by simp))]

theorem takeWhile_space (x : List Char) : ∀ c ∈ x.takeWhile isSpace, isSpace c = true := by
  intro c hc
  induction x with
  | nil => simp at hc
  | cons a x ih =>
    rw [List.takeWhile_cons] at hc
    split at hc
    · rename_i ha
      rcases List.mem_cons.1 hc with rfl | hc
      · exact ha
      · exact ih hc
    · simp at hc

theorem strip_split (cs : List Char) : ∃ s t, (∀ c ∈ s, isSpace c = true) ∧ (∀ c ∈ t, isSpace c = true) ∧
    cs = s ++ strip cs ++ t := by
  refine ⟨cs.takeWhile isSpace, ((cs.dropWhile isSpace).reverse.takeWhile isSpace).reverse, takeWhile_space cs,
    by simpa using takeWhile_space (cs.dropWhile isSpace).reverse, ?_⟩
  unfold strip
  rw [List.append_assoc, ← List.reverse_append, List.takeWhile_append_dropWhile, List.reverse_reverse,
    List.takeWhile_append_dropWhile]

theorem strip_strip (cs : List Char) : strip (strip cs) = strip cs := by
  obtain ⟨s, t, hs, ht, h⟩ := strip_split cs
  conv_rhs => rw [h, strip_end ht, strip_blank hs]

theorem pyFloat_strip (cs : List Char) : pyFloat (strip cs) = pyFloat cs := by
  unfold pyFloat
  rw [strip_strip]

theorem cutAt_last {p : Char → Bool} {a : Char} (ha : p a = false) : ∀ r : List Char,
    ∃ ws w, cutAt p r = ws ++ [w] ∧ cutAt p (r ++ [a]) = ws ++ [w ++ [a]]
  | [] => ⟨[], [], rfl, by simp [cutAt, ha]⟩
  | b :: r => by
    obtain ⟨ws, w, h1, h2⟩ := cutAt_last ha r
    rcases hb : p b with _ | _
    · rcases ws with _ | ⟨v, ws⟩
      · exact ⟨[], b :: w, by simp [cutAt, hb, h1], by simp [cutAt, hb, h2]⟩
      · exact ⟨(b :: v) :: ws, w, by simp [cutAt, hb, h1], by simp [cutAt, hb, h2]⟩
    · exact ⟨[] :: ws, w, by simp [cutAt, hb, h1], by simp [cutAt, hb, h2]⟩

/-- blanks at the ends of a text are blanks at the ends of its pieces -/
theorem cut_strip (cs : List Char) :
    (cutAt (· = ',') (strip cs)).map strip = (cutAt (· = ',') cs).map strip := by
  obtain ⟨s, t, hs, ht, h⟩ := strip_split cs
  have hcomma : ∀ c, isSpace c = true → (decide (c = ',')) = false := by
    intro c hc
    rw [decide_eq_false_iff_not]
    rintro rfl
    exact absurd hc (by decide)
  have h1 : ∀ (s r : List Char), (∀ c ∈ s, isSpace c = true) →
      (cutAt (· = ',') (s ++ r)).map strip = (cutAt (· = ',') r).map strip := by
    intro s r hs
    induction s with
    | nil => rfl
    | cons a s ih =>
      have ha := hs a (by simp)
      have ih := ih fun c hc => hs c (by simp [hc])
      rw [List.cons_append, cutAt]
      simp only [hcomma a ha, Bool.false_eq_true, if_false]
      rw [← ih]
      have hne := cutAt_ne (p := (· = ',')) (s ++ r)
      generalize cutAt (· = ',') (s ++ r) = q at hne ⊢
      rcases q with _ | ⟨w, ws⟩
      · exact absurd rfl hne
      · have := strip_blank (s := [a]) (by simpa using ha) w
        simpa using this
  have h2 : ∀ (t r : List Char), (∀ c ∈ t, isSpace c = true) →
      (cutAt (· = ',') (r ++ t)).map strip = (cutAt (· = ',') r).map strip := by
    intro t
    induction t with
    | nil => intro r _; simp
    | cons a t ih =>
      intro r ht
      have ha := ht a (by simp)
      rw [show r ++ a :: t = (r ++ [a]) ++ t by simp, ih _ fun c hc => ht c (by simp [hc])]
      obtain ⟨ws, w, h1, h2⟩ := cutAt_last (p := (· = ',')) (hcomma a ha) r
      rw [h1, h2]
      simp [strip_end1 ha]
  conv_rhs => rw [h, h2 _ _ ht, h1 _ _ hs]

/-- the pieces of a text of numbers with commas -/
theorem comma_pieces {ds : List Dec} {txt : List Char} (h : CommaText ds txt) :
    List.Forall₂ (fun d x => pyFloat x = .ok d.value) ds (cutAt (· = ',') txt) := by
  have hb : ∀ {s : List Char}, Blank s → ∀ c ∈ s, (decide (c = ',')) = false := by
    intro s hs c hc
    rw [decide_eq_false_iff_not]
    exact (blanks_space _ (hs c hc)).2.1
  have hd : ∀ {d : Dec}, ∀ c ∈ d.text, (decide (c = ',')) = false := by
    intro d c hc
    rw [decide_eq_false_iff_not]
    exact (Dec.text_chars c hc).2.1
  have hall : ∀ {s t : List Char} {d : Dec}, Blank s → Blank t → ∀ c ∈ s ++ d.text ++ t, (decide (c = ',')) = false := by
    intro s t d hs ht c hc
    simp only [List.mem_append] at hc
    rcases hc with (hc | hc) | hc
    · exact hb hs c hc
    · exact hd c hc
    · exact hb ht c hc
  induction h with
  | last hs ht hwf =>
    rw [cutAt_all (p := (· = ',')) (hall hs ht)]
    exact .cons (pyFloat_text _ hwf (blank_space hs) (blank_space ht)) .nil
  | more hs ht hwf _ ih =>
    rw [cutAt_sep (p := (· = ',')) (by decide) _ (hall hs ht)]
    exact .cons (pyFloat_text _ hwf (blank_space hs) (blank_space ht)) ih

theorem mapM_strip : ∀ ws : List (List Char), (ws.map strip).mapM pyFloat = ws.mapM pyFloat
  | [] => rfl
  | w :: ws => by rw [List.map_cons, List.mapM_cons, List.mapM_cons, pyFloat_strip, mapM_strip ws]

theorem mapM_pieces {ds : List Dec} {ws : List (List Char)}
    (h : List.Forall₂ (fun d x => pyFloat x = .ok d.value) ds ws) : ws.mapM pyFloat = .ok (ds.map Dec.value) := by
  induction h with
  | nil => rfl
  | cons h1 _ ih => rw [List.mapM_cons, h1, ih]; rfl

theorem read_meta {ds : List Dec} {txt : List Char} (h : CommaText ds txt) :
    (cutAt (· = ',') (strip txt)).mapM pyFloat = .ok (ds.map Dec.value) := by
  rw [← mapM_strip, cut_strip, mapM_strip]
  exact mapM_pieces (comma_pieces h)

/-- C75. A line card whose data are 24 decimal numbers with commas between them, in any layout, is read: for state
`s = 0, ..., 5` of the line the numbers `4s, 4s+1, 4s+2, 4s+3` (counted from 0) are its admittance, its capacity
forward and backward and its probability; the serial number, the line number and the names are kept. -/
theorem C75_line_card (r : LineRow) (ds : List Dec) (h : CommaText ds r.metaData) (h24 : ds.length = 24) :
    ∃ c, readLine r = .ok c ∧ c.sn = r.sn ∧ c.number = r.number ∧ c.src = r.src ∧ c.dst = r.dst ∧
      ∀ s : Fin 6, c.adm s = (ds[4 * s.val]'(by omega)).value ∧ c.cap s = (ds[4 * s.val + 1]'(by omega)).value ∧
        c.capr s = (ds[4 * s.val + 2]'(by omega)).value ∧ c.prob s = (ds[4 * s.val + 3]'(by omega)).value := by
  have hlen : (ds.map Dec.value).length = 24 := by simp [h24]
  refine ⟨_, by unfold readLine; rw [read_meta h]; exact if_pos hlen, rfl, rfl, rfl, rfl, fun s => ?_⟩
  have hs := s.isLt
  have key : ∀ i (hi : i < ds.length), (ds.map Dec.value).getD i 0 = (ds[i]'hi).value := by
    intro i hi
    simp [List.getD_eq_getElem?_getD, hi]
  exact ⟨key _ (by omega), key _ (by omega), key _ (by omega), key _ (by omega)⟩

/-- C75 (faults). With any other number of decimal numbers the card is rejected with a ValueError. -/
theorem C75_rejected (r : LineRow) (ds : List Dec) (h : CommaText ds r.metaData) (h24 : ds.length ≠ 24) :
    readLine r = .error .valueError := by
  have hlen : ¬ (ds.map Dec.value).length = 24 := by simpa using h24
  unfold readLine
  rw [read_meta h]
  exact if_neg hlen

/-! ## What is not a number is rejected -/

theorem dig_char {c : Char} (h : isDig c = true) : ∃ d : Fin 10, Nat.digitChar d.val = c := by
  have h1 : '0' ≤ c ∧ c ≤ '9' := by simpa [isDig] using h
  have e1 : 48 ≤ c.toNat := h1.1
  have e2 : c.toNat ≤ 57 := h1.2
  have key : ∀ k, 48 ≤ k → k ≤ 57 → Nat.digitChar (k - 48) = Char.ofNat k := by
    intro k h1 h2
    have hk : k = 48 ∨ k = 49 ∨ k = 50 ∨ k = 51 ∨ k = 52 ∨ k = 53 ∨ k = 54 ∨ k = 55 ∨ k = 56 ∨ k = 57 := by omega
    rcases hk with rfl | rfl | rfl | rfl | rfl | rfl | rfl | rfl | rfl | rfl <;> decide
  exact ⟨⟨c.toNat - 48, by omega⟩, (key _ e1 e2).trans (Char.ofNat_toNat c)⟩

theorem dig_text : ∀ {cs : List Char}, (∀ c ∈ cs, isDig c = true) → ∃ ds, digitsText ds = cs
  | [], _ => ⟨[], rfl⟩
  | c :: cs, h => by
    obtain ⟨d, hd⟩ := dig_char (h c (by simp))
    obtain ⟨ds, hds⟩ := dig_text (cs := cs) fun x hx => h x (by simp [hx])
    exact ⟨d :: ds, by simp [digitsText] at hds ⊢; exact ⟨hd, hds⟩⟩

theorem takeWhile_dig (x : List Char) : ∀ c ∈ x.takeWhile isDig, isDig c = true := by
  intro c hc
  induction x with
  | nil => simp at hc
  | cons a x ih =>
    rw [List.takeWhile_cons] at hc
    split at hc
    · rename_i ha
      rcases List.mem_cons.1 hc with rfl | hc
      · exact ha
      · exact ih hc
    · simp at hc

theorem signOf_inv (x : List Char) : ∃ s, x = signText s ++ (signOf x).2 := by
  unfold signOf
  split
  · exact ⟨some true, rfl⟩
  · exact ⟨some false, rfl⟩
  · exact ⟨none, rfl⟩

theorem fracOf_inv (x : List Char) : ∃ point frac, (frac ≠ [] → point = true) ∧ (fracOf x).1 = digitsText frac ∧
    x = (if point = true then '.' :: digitsText frac else []) ++ (fracOf x).2 := by
  unfold fracOf
  split
  · rename_i r
    obtain ⟨ds, hds⟩ := dig_text (takeWhile_dig r)
    refine ⟨true, ds, fun _ => rfl, hds.symm, ?_⟩
    simp [hds]
  · exact ⟨false, [], by simp, rfl, by simp⟩

theorem expOf_inv {x : List Char} {q : ℚ} (h : expOf x = .ok q) :
    ∃ e, (∀ y, e = some y → y.2.2 ≠ []) ∧ x = expText e := by
  unfold expOf at h
  split at h
  · exact ⟨none, by simp, rfl⟩
  · rename_i e r
    split at h
    · rename_i he
      obtain ⟨s, hs⟩ := signOf_inv r
      dsimp only at h
      split at h
      · cases h
      · rename_i hd
        rw [not_or] at hd
        have hd2 : ∀ c ∈ (signOf r).2, isDig c = true := by
          have := hd.2
          rw [Bool.not_eq_false] at this
          exact List.all_eq_true.1 this
        obtain ⟨ds, hds⟩ := dig_text hd2
        refine ⟨some (decide (e = 'E'), s, ds), ?_, ?_⟩
        · intro y hy
          cases hy
          intro h0
          have h0 : ds = [] := h0
          rw [h0] at hds
          exact hd.1 hds.symm
        · rw [hs, ← hds]
          simp only [expText]
          congr 1
          rcases he with rfl | rfl <;> decide
    · cases h

/-- `float` accepts a text exactly if it is a decimal number with white space around it. -/
theorem pyFloat_iff (cs : List Char) (q : ℚ) : pyFloat cs = .ok q ↔ ∃ d : Dec, d.WF ∧ q = d.value ∧
    ∃ s t, (∀ c ∈ s, isSpace c = true) ∧ (∀ c ∈ t, isSpace c = true) ∧ cs = s ++ d.text ++ t := by
  constructor
  · intro h
    have hfull := h
    unfold pyFloat at h
    obtain ⟨s, t, hs, ht, hcs⟩ := strip_split cs
    generalize strip cs = x at h hcs
    obtain ⟨sg, hsg⟩ := signOf_inv x
    dsimp only at h
    generalize (signOf x).2 = r at h hsg
    obtain ⟨whole, hw⟩ := dig_text (takeWhile_dig r)
    have hr : r = digitsText whole ++ r.dropWhile isDig := by
      rw [hw, List.takeWhile_append_dropWhile]
    rw [← hw] at h
    generalize r.dropWhile isDig = y at h hr
    obtain ⟨point, frac, hpf, hf1, hf2⟩ := fracOf_inv y
    rw [hf1] at h
    generalize (fracOf y).2 = z at h hf2
    split at h
    · cases h
    · rename_i hne
      rcases he : expOf z with e | e
      · rw [he] at h; cases h
      · obtain ⟨ex, hex, hz⟩ := expOf_inv he
        have hwf : Dec.WF ⟨sg, whole, point, frac, ex⟩ := by
          refine ⟨?_, hpf, hex⟩
          by_contra hcon
          rw [not_or, not_not, not_not] at hcon
          exact hne ⟨digitsText_nil.2 hcon.1, digitsText_nil.2 hcon.2⟩
        have htext : x = Dec.text ⟨sg, whole, point, frac, ex⟩ := by
          rw [hsg, hr, hf2, hz]; rfl
        refine ⟨⟨sg, whole, point, frac, ex⟩, hwf, ?_, s, t, hs, ht, by rw [← htext]; exact hcs⟩
        have := pyFloat_text _ hwf hs ht
        rw [← htext, ← hcs, hfull] at this
        exact Except.ok.inj this
  · rintro ⟨d, hd, rfl, s, t, hs, ht, rfl⟩
    exact pyFloat_text d hd hs ht

/-! ## Faulty load files -/

theorem words_nil {l : List Char} (h : words l = []) : ∀ c ∈ l, isSpace c = true := by
  have h1 : l = l.takeWhile isSpace ++ l.dropWhile isSpace := (List.takeWhile_append_dropWhile).symm
  have h2 : l.dropWhile isSpace = [] := by
    rw [h1, words_blank (takeWhile_space l)] at h
    by_contra hne
    have hx : l.dropWhile isSpace = (l.dropWhile isSpace).takeWhile (fun c => !isSpace c) ++
        (l.dropWhile isSpace).dropWhile (fun c => !isSpace c) := (List.takeWhile_append_dropWhile).symm
    have hh : ∀ c ∈ (l.dropWhile isSpace).head?, isSpace c = false := by
      intro c hc
      have := List.head?_dropWhile_not isSpace l
      rw [Option.mem_def.1 hc] at this
      simpa using this
    generalize l.dropWhile isSpace = x at *
    cases x with
    | nil => exact hne rfl
    | cons c r =>
      have hc := hh c (by simp)
      have hlen : cutAt isSpace (c :: r) ≠ [] := cutAt_ne _
      simp only [words, cutAt, hc, Bool.false_eq_true, if_false] at h
      rcases hq : cutAt isSpace r with _ | ⟨w, ws⟩
      · rw [hq] at h; simp at h
      · rw [hq] at h; simp at h
  rw [h2, List.append_nil] at h1
  rw [h1]
  exact takeWhile_space l

theorem words_inv {l w : List Char} {ws : List (List Char)} (h : words l = w :: ws) :
    ∃ s t, l = s ++ w ++ t ∧ (∀ c ∈ s, isSpace c = true) ∧ (∀ c ∈ w, isSpace c = false) ∧ words t = ws ∧
      ∀ c ∈ t.head?, isSpace c = true := by
  have h1 : l = l.takeWhile isSpace ++ l.dropWhile isSpace := (List.takeWhile_append_dropWhile).symm
  have hs := takeWhile_space l
  have hh : ∀ c ∈ (l.dropWhile isSpace).head?, isSpace c = false := by
    intro c hc
    have := List.head?_dropWhile_not isSpace l
    rw [Option.mem_def.1 hc] at this
    simpa using this
  generalize l.takeWhile isSpace = s at *
  generalize l.dropWhile isSpace = x at *
  subst h1
  rw [words_blank hs] at h
  have h2 : x = x.takeWhile (fun c => !isSpace c) ++ x.dropWhile (fun c => !isSpace c) :=
    (List.takeWhile_append_dropWhile).symm
  have hw : ∀ c ∈ x.takeWhile (fun c => !isSpace c), isSpace c = false := by
    intro c hc
    have := List.all_takeWhile (p := fun c => !isSpace c) (l := x)
    rw [List.all_eq_true] at this
    simpa using this c hc
  have ht : ∀ c ∈ (x.dropWhile (fun c => !isSpace c)).head?, isSpace c = true := by
    intro c hc
    have := List.head?_dropWhile_not (fun c => !isSpace c) x
    rw [Option.mem_def.1 hc] at this
    simpa using this
  have hne : x.takeWhile (fun c => !isSpace c) ≠ [] := by
    cases x with
    | nil => simp [words, cutAt] at h
    | cons c r => simp [hh c (by simp)]
  generalize x.takeWhile (fun c => !isSpace c) = a at *
  generalize x.dropWhile (fun c => !isSpace c) = t at *
  subst h2
  rw [words_word hw hne ht] at h
  injection h with e1 e2
  subst e1
  exact ⟨s, t, by simp, hs, hw, e2, ht⟩

theorem space_blank {c : Char} (h : isSpace c = true) (h1 : c ≠ '\n') (h2 : c ≠ '\r') : c ∈ blanks := by
  simp only [isSpace, Bool.or_eq_true, decide_eq_true_eq, Bool.and_eq_true] at h
  rcases h with (((((h | h) | h) | h) | h) | h) | h
  · rw [h]; decide
  · rw [h]; decide
  · exact absurd h h1
  · exact absurd h h2
  · rw [h]; decide
  · rw [h]; decide
  · have hk : c.toNat = 28 ∨ c.toNat = 29 ∨ c.toNat = 30 ∨ c.toNat = 31 := by omega
    rw [← Char.ofNat_toNat c]
    rcases hk with hk | hk | hk | hk <;> rw [hk] <;> decide

/-- what is read as numbers is a row of decimal numbers -/
theorem row_inv : ∀ (ws : List (List Char)) (l : List Char) (v : List ℚ), '\n' ∉ l → '\r' ∉ l → words l = ws →
    ws.mapM pyFloat = .ok v → ∃ ds, RowText ds l ∧ v = ds.map Dec.value
  | [], l, v, hn, hr, hw, hv => by
    have : v = [] := by
      have e : (.ok [] : Except PyErr (List ℚ)) = .ok v := hv
      exact (Except.ok.inj e).symm
    subst this
    refine ⟨[], .blank fun c hc => ?_, rfl⟩
    exact space_blank (words_nil hw c hc) (fun h => hn (h ▸ hc)) (fun h => hr (h ▸ hc))
  | w :: ws, l, v, hn, hr, hw, hv => by
    obtain ⟨s, t, rfl, hs, hwc, ht, hth⟩ := words_inv hw
    rw [List.mapM_cons] at hv
    rcases h1 : pyFloat w with e | q
    · rw [h1] at hv; cases hv
    · rcases h2 : ws.mapM pyFloat with e | v'
      · rw [h1, h2] at hv; cases hv
      · rw [h1, h2] at hv
        have hv : q :: v' = v := Except.ok.inj hv
        subst hv
        simp only [List.mem_append, not_or] at hn hr
        obtain ⟨ds, hds, rfl⟩ := row_inv ws t v' hn.2 hr.2 ht h2
        obtain ⟨d, hd, rfl, a, b, ha, hb, hab⟩ := (pyFloat_iff w q).1 h1
        have ha0 : a = [] := by
          cases a with
          | nil => rfl
          | cons c a =>
            have h1 := ha c (by simp)
            have h2 := hwc c (by rw [hab]; simp)
            rw [h1] at h2; cases h2
        have hb0 : b = [] := by
          cases b with
          | nil => rfl
          | cons c b =>
            have h1 := hb c (by simp)
            have h2 := hwc c (by rw [hab]; simp)
            rw [h1] at h2; cases h2
        have hwd : w = d.text := by rw [hab, ha0, hb0]; simp
        subst hwd
        refine ⟨d :: ds, .number (fun c hc => ?_) hd hds fun c hc => ?_, rfl⟩
        · exact space_blank (hs c hc) (fun h => hn.1.1 (h ▸ hc)) (fun h => hr.1.1 (h ▸ hc))
        · have hm := List.mem_of_mem_head? hc
          exact space_blank (hth c hc) (fun h => hn.2 (h ▸ hm)) (fun h => hr.2 (h ▸ hm))

theorem foldlM_all {σ α : Type} (f : σ → α → Except PyErr σ) : ∀ (xs : List α) (s s' : σ),
    xs.foldlM f s = .ok s' → ∀ x ∈ xs, ∃ a b, f a x = .ok b
  | [], _, _, _, x, hx => by simp at hx
  | y :: xs, s, s', h, x, hx => by
    rw [List.foldlM_cons] at h
    rcases h1 : f s y with e | b
    · rw [h1] at h; cases h
    · rw [h1] at h
      rcases List.mem_cons.1 hx with rfl | hx
      · exact ⟨s, b, h1⟩
      · exact foldlM_all f xs b s' h x hx

theorem fileText_noend {ls : List (List Char)} {txt : List Char} (h : FileText ls txt) :
    ∀ l ∈ ls, '\n' ∉ l ∧ '\r' ∉ l := by
  induction h with
  | empty => simp
  | last _ hn hr => intro l hl; rw [List.mem_singleton] at hl; subst hl; exact ⟨hn, hr⟩
  | line hn hr _ _ ih =>
    intro x hx
    rcases List.mem_cons.1 hx with rfl | hx
    · exact ⟨hn, hr⟩
    · exact ih x hx

/-- C77 (what is rejected). If a load file is accepted, each of its lines is a heading (it begins with `AREA`) with a
digit at position 7, or a row of decimal numbers, at least twelve or exactly one; and the first line is a
heading. -/
theorem C77_rejected (N : ℕ) (ls : List (List Char)) (txt : List Char) (hf : FileText ls txt)
    (H : ℕ → ℕ → ℚ) (h : leeiText N txt = .ok H) :
    (∀ l ∈ ls, ("AREA".toList <+: l ∧ ∃ c ∈ (l ++ ['\n'])[6]?, ∃ d : Fin 10, c = Nat.digitChar d.val) ∨
      ∃ ds, RowText ds l ∧ (ds.length = 1 ∨ 12 ≤ ds.length)) ∧
    ∀ l ∈ ls.head?, "AREA".toList <+: l := by
  have harea : "AREA".toList = ['A', 'R', 'E', 'A'] := by decide
  rw [harea]
  have hrd := read_lines hf
  have hfold : ∃ st, (pyLines (newlines txt)).foldlM (textStep N) ⟨none, 0, fun _ _ => 0⟩ = .ok st := by
    unfold leeiText at h
    rcases hx : (pyLines (newlines txt)).foldlM (textStep N) ⟨none, 0, fun _ _ => 0⟩ with e | st
    · unfold textStep at hx
      rw [hx] at h; cases h
    · exact ⟨st, rfl⟩
  obtain ⟨st, hst⟩ := hfold
  have hpre : ∀ {l l' : List Char}, Read l l' → l'.take 4 = ['A', 'R', 'E', 'A'] → ['A', 'R', 'E', 'A'] <+: l := by
    intro l l' hl h4
    rcases hl with rfl | rfl
    · exact ⟨l'.drop 4, by rw [← h4, List.take_append_drop]⟩
    · have hlen : 4 ≤ l.length := by
        by_contra hcon
        have hl3 : l.length ≤ 3 := by omega
        rcases l with _ | ⟨a, _ | ⟨b, _ | ⟨c, _ | ⟨d, l⟩⟩⟩⟩
        · simp at h4
        · simp at h4
        · simp at h4
        · simp at h4
        · simp at hl3; omega
      rw [List.take_append_of_le_length hlen] at h4
      exact ⟨l.drop 4, by rw [← h4, List.take_append_drop]⟩
  constructor
  · intro l hl
    obtain ⟨hn, hr⟩ := fileText_noend hf l hl
    obtain ⟨l', hl', hm⟩ : ∃ l', Read l l' ∧ l' ∈ pyLines (newlines txt) := by
      generalize pyLines (newlines txt) = ls' at hrd
      clear hst h hf
      induction hrd with
      | nil => simp at hl
      | cons h1 _ ih =>
        rcases List.mem_cons.1 hl with rfl | hl
        · exact ⟨_, h1, by simp⟩
        · obtain ⟨l', a, b⟩ := ih hl
          exact ⟨l', a, by simp [b]⟩
    obtain ⟨a, b, hab⟩ := foldlM_all _ _ _ _ hst l' hm
    unfold textStep leeiParse at hab
    split at hab
    · rename_i h4
      refine .inl ⟨hpre hl' h4, ?_⟩
      have hab : leeiLine N a (.header l') = .ok b := hab
      unfold leeiLine at hab
      dsimp only at hab
      rcases h6 : l'[6]? with _ | c
      · rw [h6] at hab; cases hab
      · rw [h6] at hab
        refine ⟨c, ?_, ?_⟩
        · rcases hl' with rfl | rfl
          · rw [Option.mem_def, List.getElem?_append_left (by
              obtain ⟨hlt, _⟩ := List.getElem?_eq_some_iff.1 h6
              exact hlt)]
            exact h6
          · exact h6
        · rcases hd : digit c with e | k
          · dsimp only at hab; rw [hd] at hab; cases hab
          · unfold digit at hd
            split at hd
            · rename_i hc
              obtain ⟨d, hd⟩ := dig_char (c := c) (by simpa [isDig] using hc)
              exact ⟨d, hd.symm⟩
            · cases hd
    · right
      rcases hx : (words (strip l')).mapM pyFloat with e | v
      · rw [hx] at hab; cases hab
      · rw [hx] at hab
        have hab : leeiLine N a (.data v) = .ok b := hab
        have hw : words (strip l') = words l := by
          rw [words_strip]
          rcases hl' with rfl | rfl
          · rfl
          · exact words_end (by decide) l
        rw [hw] at hx
        obtain ⟨ds, hds, rfl⟩ := row_inv _ l v hn hr rfl hx
        refine ⟨ds, hds, ?_⟩
        unfold leeiLine at hab
        dsimp only at hab
        rcases ha : a.areaIdx with _ | k
        · rw [ha] at hab; cases hab
        · rw [ha] at hab
          dsimp only at hab
          rcases hp : pyIdx N k with e | k'
          · rw [hp] at hab; cases hab
          · rw [hp] at hab
            simp only [List.length_drop, List.length_map] at hab
            split at hab
            · right; omega
            · split at hab
              · left; omega
              · cases hab
  · intro l hl
    rcases ls with _ | ⟨x, ls⟩
    · simp at hl
    · simp at hl
      subst hl
      generalize pyLines (newlines txt) = ls' at hrd hst
      cases hrd with
      | cons h1 h2 =>
        rename_i l' ls''
        rw [List.foldlM_cons] at hst
        by_cases h4 : l'.take 4 = ['A', 'R', 'E', 'A']
        · exact hpre h1 h4
        · exfalso
          have : ∀ st, textStep N ⟨none, 0, fun _ _ => 0⟩ l' ≠ .ok st := by
            intro st hcon
            unfold textStep leeiParse at hcon
            rw [if_neg h4] at hcon
            rcases hx : (words (strip l')).mapM pyFloat with e | v
            · rw [hx] at hcon; cases hcon
            · rw [hx] at hcon; cases hcon
          rcases hx : textStep N ⟨none, 0, fun _ _ => 0⟩ l' with e | st'
          · rw [hx] at hst; cases hst
          · exact this st' hx

/-- C77 (what is not rejected), refuted. A row with a single number is accepted: it is taken for twelve equal
loads. And an empty load file is accepted: all loads are zero. -/
theorem C77_accepted_refuted (N : ℕ) (hN : 1 ≤ N) (d : Dec) (row txt : List Char) (hrow : RowText [d] row)
    (htxt : FileText ["AREA:A1".toList, row] txt) :
    (∃ H, leeiText N txt = .ok H ∧ ∀ h < 12, H 0 h = d.value) ∧ leeiText N [] = .ok fun _ _ => 0 := by
  refine ⟨?_, rfl⟩
  have hrd := read_lines htxt
  unfold leeiText
  show ∃ H, ((pyLines (newlines txt)).foldlM (textStep N) ⟨none, 0, fun _ _ => 0⟩).map LeeiSt.H = .ok H ∧ _
  generalize pyLines (newlines txt) = ls at hrd
  cases hrd with
  | cons h1 h2 =>
    cases h2 with
    | cons h2 h3 =>
      cases h3
      rename_i l1 l2
      have e : "AREA:A1".toList = "AREA:A".toList ++ '1' :: [] := by decide
      rw [e] at h1
      have hp : pyIdx N 0 = .ok 0 := by
        unfold pyIdx; rw [if_pos (by omega), if_pos (by omega)]; rfl
      have s1 : textStep N ⟨none, 0, fun _ _ => 0⟩ l1 = .ok ⟨some 0, 0, fun _ _ => 0⟩ := by
        rw [step_header _ '1' [] h1]; rfl
      have s2 : textStep N ⟨some 0, 0, fun _ _ => 0⟩ l2 = .ok ⟨some 0, 12, fun j h =>
          if j = 0 ∧ 0 ≤ h ∧ h < 0 + 12 ∧ h < 8760 then d.value else 0⟩ := by
        unfold textStep
        rw [parse_row hrow h2]
        show leeiLine N ⟨some 0, 0, fun _ _ => 0⟩ (.data [d.value]) = _
        unfold leeiLine
        dsimp only
        rw [hp]
        rfl
      rw [List.foldlM_cons, s1]
      show ∃ H, (((do let s ← textStep N ⟨some 0, 0, fun _ _ => 0⟩ l2; List.foldlM (textStep N) s []) :
        Except PyErr LeeiSt).map LeeiSt.H) = .ok H ∧ _
      rw [s2]
      refine ⟨_, rfl, fun h hh => ?_⟩
      exact if_pos ⟨rfl, by omega, by omega, by omega⟩

/-! ## The whole input -/

theorem tableM_ok {α β : Type} {k : ℕ} {f : α → Except PyErr β} {t : Fin k → α} {g : Fin k → β}
    (h : ∀ i, f (t i) = .ok (g i)) : tableM f t = .ok g := by
  have h1 : (List.ofFn t).mapM f = .ok (List.ofFn g) := by
    induction k with
    | zero => simp [List.ofFn_zero]; rfl
    | succ k ih =>
      rw [List.ofFn_succ, List.ofFn_succ, List.mapM_cons, h 0, ih (t := fun i => t i.succ) (fun i => h i.succ)]
      rfl
  unfold tableM
  rw [h1]
  simp

theorem mapM_parse {N : ℕ} : ∀ (ls : List (List Char)) (st st' : LeeiSt), ls.foldlM (textStep N) st = .ok st' →
    ∃ xs, ls.mapM leeiParse = .ok xs ∧ xs.foldlM (leeiLine N) st = .ok st'
  | [], st, st', h => ⟨[], rfl, h⟩
  | l :: ls, st, st', h => by
    rw [List.foldlM_cons] at h
    rcases h1 : leeiParse l with e | x
    · have e1 : textStep N st l = .error e := by unfold textStep; rw [h1]; rfl
      rw [e1] at h; cases h
    · have e1 : textStep N st l = leeiLine N st x := by unfold textStep; rw [h1]; rfl
      rw [e1] at h
      rcases h2 : leeiLine N st x with e | st1
      · rw [h2] at h; cases h
      · rw [h2] at h
        obtain ⟨xs, h3, h4⟩ := mapM_parse ls st1 st' h
        exact ⟨x :: xs, by rw [List.mapM_cons, h1, h3]; rfl, by rw [List.foldlM_cons, h2]; exact h4⟩

/-- C76. Input files in good form are read: the study has exactly the areas, units, contracts and ownership shares
of the tables and the settings of the only row of settings; the lines have the data written on their cards, and the
areas the loads written in the load file. The line derating cards are not looked at. -/
theorem C76_files {n m l : ℕ} (f : Files n m l) (mc : MiscCard) (hmc : f.misc = [mc])
    (ds : Fin l → List Dec) (hds : ∀ k, CommaText (ds k) (f.lines k).metaData) (h24 : ∀ k, (ds k).length = 24)
    (secs : List LoadSection) (htxt : LoadText secs f.load)
    (harea : ∀ s ∈ secs, 1 ≤ s.area.val ∧ s.area.val ≤ n + 1) (hdist : (secs.map fun s => s.area.val).Nodup)
    (hyear : ∀ s ∈ secs, s.Year) :
    ∃ c, readFiles f = .ok c ∧ c.areas = f.areas ∧ c.units = f.units ∧ c.contracts = f.contracts ∧ c.owns = f.owns ∧
      c.misc = mc ∧
      (∀ k, (c.lines k).sn = (f.lines k).sn ∧ (c.lines k).number = (f.lines k).number ∧
        (c.lines k).src = (f.lines k).src ∧ (c.lines k).dst = (f.lines k).dst ∧
        ∀ s : Fin 6, (c.lines k).adm s = ((ds k)[4 * s.val]'(by have := h24 k; omega)).value ∧
          (c.lines k).cap s = ((ds k)[4 * s.val + 1]'(by have := h24 k; omega)).value ∧
          (c.lines k).capr s = ((ds k)[4 * s.val + 2]'(by have := h24 k; omega)).value ∧
          (c.lines k).prob s = ((ds k)[4 * s.val + 3]'(by have := h24 k; omega)).value) ∧
      ∃ raw, leeiRead (n + 1) c.leei = .ok raw ∧
        ∀ s ∈ secs, ∀ h < 8760, raw (s.area.val - 1) h = s.load h := by
  have hl := fun k => C75_line_card (f.lines k) (ds k) (hds k) (h24 k)
  choose g hg using hl
  obtain ⟨H, hH, hval⟩ := C74_load_file (n + 1) secs f.load htxt harea hdist hyear
  unfold leeiText at hH
  rcases hst : (pyLines (newlines f.load)).foldlM (textStep (n + 1)) ⟨none, 0, fun _ _ => 0⟩ with e | st
  · unfold textStep at hst
    rw [hst] at hH; cases hH
  obtain ⟨xs, hxs, hfold⟩ := mapM_parse _ _ _ hst
  have hHst : st.H = H := by
    unfold textStep at hst
    rw [hst] at hH
    exact Except.ok.inj hH
  refine ⟨⟨f.areas, f.units, g, f.contracts, f.owns, mc, xs⟩, ?_, rfl, rfl, rfl, rfl, rfl, fun k => (hg k).2, H, ?_, hval⟩
  · unfold readFiles
    rw [hmc, tableM_ok (fun k => (hg k).1), hxs]
    rfl
  · unfold leeiRead
    rw [hfold, ← hHst]
    rfl

/-- C76 (settings). Without a row of settings, or with several, nothing is read. -/
theorem C76_settings {n m l : ℕ} (f : Files n m l) (h : f.misc.length ≠ 1) : readFiles f = .error .valueError := by
  unfold readFiles
  rcases hm : f.misc with _ | ⟨x, _ | ⟨y, r⟩⟩
  · rfl
  · rw [hm] at h; simp at h
  · rfl

/-- C78, refuted: whatever the line derating cards say, the simulation that is set up is the one without them. -/
theorem C78_derating_refuted {n m l : ℕ} (sl : ℕ → ℚ → ℚ) (fuel : ℕ) (f : Files n m l) (dd : List DerateRow) :
    setupFiles sl fuel { f with derates := dd } = setupFiles sl fuel { f with derates := [] } := rfl

/-! ## Every number, row and file can be written -/

theorem row_exists : ∀ ds : List Dec, (∀ d ∈ ds, d.WF) → ∃ line, RowText ds line ∧ (∀ c ∈ line.head?, c ∈ blanks) ∧
    '\n' ∉ line ∧ '\r' ∉ line
  | [], _ => ⟨[], .blank (by simp [Blank]), by simp, by simp, by simp⟩
  | d :: ds, h => by
    obtain ⟨t, ht, hh, hn, hr⟩ := row_exists ds fun x hx => h x (by simp [hx])
    have hd : ∀ c ∈ d.text, c ≠ '\n' ∧ c ≠ '\r' := fun c hc =>
      ⟨(Dec.text_chars c hc).2.2.2.1, (Dec.text_chars c hc).2.2.2.2⟩
    refine ⟨[' '] ++ d.text ++ t, .number (by simp [Blank, blanks]) (h d (by simp)) ht hh, ?_, ?_, ?_⟩
    · simp [blanks]
    · simp only [List.mem_append, List.mem_singleton, not_or]
      exact ⟨⟨by decide, fun hc => (hd _ hc).1 rfl⟩, hn⟩
    · simp only [List.mem_append, List.mem_singleton, not_or]
      exact ⟨⟨by decide, fun hc => (hd _ hc).2 rfl⟩, hr⟩

theorem file_exists : ∀ ls : List (List Char), (∀ l ∈ ls, '\n' ∉ l ∧ '\r' ∉ l) → ∃ txt, FileText ls txt
  | [], _ => ⟨[], .empty⟩
  | l :: ls, h => by
    obtain ⟨t, ht⟩ := file_exists ls fun x hx => h x (by simp [hx])
    exact ⟨l ++ ['\n'] ++ t, .line (h l (by simp)).1 (h l (by simp)).2 (.inl rfl) ht⟩

/-- every load file has a text -/
theorem load_exists (secs : List LoadSection) (hwf : ∀ s ∈ secs, ∀ r ∈ s.rows, ∀ d ∈ r.1 ++ r.2, d.WF)
    (htail : ∀ s ∈ secs, '\n' ∉ s.tail ∧ '\r' ∉ s.tail) : ∃ txt, LoadText secs txt := by
  have hrows : ∀ rows : List (List Dec × List Dec), (∀ r ∈ rows, ∀ d ∈ r.1 ++ r.2, d.WF) →
      ∃ ds, List.Forall₂ (fun r line => RowText (r.1 ++ r.2) line) rows ds ∧ ∀ l ∈ ds, '\n' ∉ l ∧ '\r' ∉ l := by
    intro rows
    induction rows with
    | nil => exact fun _ => ⟨[], .nil, by simp⟩
    | cons r rows ih =>
      intro h
      obtain ⟨ds, h1, h2⟩ := ih fun x hx => h x (by simp [hx])
      obtain ⟨line, hl, _, hn, hr⟩ := row_exists (r.1 ++ r.2) (h r (by simp))
      refine ⟨line :: ds, .cons hl h1, ?_⟩
      intro l hl
      rcases List.mem_cons.1 hl with rfl | hl
      · exact ⟨hn, hr⟩
      · exact h2 l hl
  have hsecs : ∃ lss, List.Forall₂ LoadSection.Text secs lss ∧ ∀ l ∈ lss.flatten, '\n' ∉ l ∧ '\r' ∉ l := by
    induction secs with
    | nil => exact ⟨[], .nil, by simp⟩
    | cons s secs ih =>
      obtain ⟨lss, h1, h2⟩ := ih (fun x hx => hwf x (by simp [hx])) (fun x hx => htail x (by simp [hx]))
      obtain ⟨ds, h3, h4⟩ := hrows s.rows (hwf s (by simp))
      obtain ⟨t1, t2⟩ := htail s (by simp)
      refine ⟨_ :: lss, .cons ⟨ds, rfl, h3⟩ h1, ?_⟩
      intro l hl
      rw [List.flatten_cons, List.mem_append, List.mem_cons] at hl
      have hc := digitChar_cases s.area
      rcases hl with (rfl | hl) | hl
      · have e : "AREA:A".toList = ['A', 'R', 'E', 'A', ':', 'A'] := by decide
        rw [e]
        simp only [List.mem_append, List.mem_cons, not_or]
        exact ⟨⟨by decide, fun h => hc.2.2.2.2.2.2.2.2.1 h.symm, t1⟩,
          by decide, fun h => hc.2.2.2.2.2.2.2.2.2 h.symm, t2⟩
      · exact h4 l hl
      · exact h2 l hl
  obtain ⟨lss, h1, h2⟩ := hsecs
  obtain ⟨txt, ht⟩ := file_exists lss.flatten h2
  exact ⟨txt, lss, h1, ht⟩

/-- `-12.50e+1` -/
def decDemo : Dec := ⟨some true, [1, 2], true, [5, 0], some (false, some false, [1])⟩

theorem decDemo_wf : decDemo.WF := ⟨.inl (by simp [decDemo]), fun _ => rfl, by
  intro x hx
  have : x = (false, some false, [1]) := (Option.some.inj hx).symm
  subst this
  simp⟩

/-- it is read as -125 -/
example : decDemo.text = "-12.50e+1".toList ∧ decDemo.value = -125 ∧ pyFloat "  -12.50e+1\n".toList = .ok (-125) := by
  have h1 : decDemo.text = "-12.50e+1".toList := by decide
  have h2 : decDemo.value = -125 := by decide +kernel
  refine ⟨h1, h2, ?_⟩
  have := pyFloat_text decDemo decDemo_wf (s := [' ', ' ']) (t := ['\n']) (by decide) (by decide)
  rw [h2, h1] at this
  have e : "  -12.50e+1\n".toList = [' ', ' '] ++ "-12.50e+1".toList ++ ['\n'] := by decide
  rw [e]
  exact this

/-- a whole number -/
def decNat (d : Fin 10) : Dec := ⟨none, [d], false, [], none⟩

theorem decNat_wf (d : Fin 10) : (decNat d).WF := ⟨.inl (by simp [decNat]), by simp [decNat], by simp [decNat]⟩

/-- two sections, areas 2 and 1: a year with a load of 5 and one with a load of 7, with a date on every row; there is
such a file, and it satisfies the hypotheses of `C74_load_file` -/
def loadDemo : List LoadSection :=
  [⟨2, [' ', 'x'], List.replicate 730 ([decNat 1], List.replicate 12 (decNat 5))⟩,
    ⟨1, [], List.replicate 730 ([decDemo], List.replicate 12 (decNat 7))⟩]

theorem loadDemo_ok : (∃ txt, LoadText loadDemo txt) ∧ (∀ s ∈ loadDemo, 1 ≤ s.area.val ∧ s.area.val ≤ 2) ∧
    (loadDemo.map fun s => s.area.val).Nodup ∧ ∀ s ∈ loadDemo, s.Year := by
  refine ⟨load_exists _ ?_ ?_, ?_, by decide, ?_⟩
  · intro s hs r hr d hd
    simp only [loadDemo, List.mem_cons, List.not_mem_nil, or_false] at hs
    rcases hs with rfl | rfl
    · rw [List.eq_of_mem_replicate hr] at hd
      rcases List.mem_append.1 hd with hd | hd
      · rw [List.mem_singleton] at hd; subst hd; exact decNat_wf 1
      · rw [List.eq_of_mem_replicate hd]; exact decNat_wf 5
    · rw [List.eq_of_mem_replicate hr] at hd
      rcases List.mem_append.1 hd with hd | hd
      · rw [List.mem_singleton] at hd; subst hd; exact decDemo_wf
      · rw [List.eq_of_mem_replicate hd]; exact decNat_wf 7
  · intro s hs
    simp only [loadDemo, List.mem_cons, List.not_mem_nil, or_false] at hs
    rcases hs with rfl | rfl <;> exact ⟨by decide, by decide⟩
  · intro s hs
    simp only [loadDemo, List.mem_cons, List.not_mem_nil, or_false] at hs
    rcases hs with rfl | rfl <;> exact ⟨by decide, by decide⟩
  · intro s hs
    simp only [loadDemo, List.mem_cons, List.not_mem_nil, or_false] at hs
    rcases hs with rfl | rfl <;>
      exact ⟨List.length_replicate, fun r hr => by rw [List.eq_of_mem_replicate hr]; exact List.length_replicate⟩

/-- and the load that is read for area 2 is 5 throughout -/
example : ∃ txt H, LoadText loadDemo txt ∧ leeiText 2 txt = .ok H ∧ ∀ h < 8760, H 1 h = 5 := by
  obtain ⟨⟨txt, h1⟩, h2, h3, h4⟩ := loadDemo_ok
  obtain ⟨H, hH, hv⟩ := C74_load_file 2 _ txt h1 h2 h3 h4
  refine ⟨txt, H, h1, hH, fun h hh => ?_⟩
  have := hv _ (List.mem_cons_self ..) h hh
  have h5 : (decNat 5).value = 5 := by decide +kernel
  have e : ∀ h < 8760, (LoadSection.load ⟨2, [' ', 'x'],
      List.replicate 730 ([decNat 1], List.replicate 12 (decNat 5))⟩ h) = 5 := by
    intro h hh
    have h1 : h / 12 < 730 := by omega
    have h2 : h % 12 < 12 := by omega
    have key : ∀ {α : Type} (k i : ℕ) (x y : α), i < k → (List.replicate k x).getD i y = x := by
      intro α k i x y hi
      simp [List.getD_eq_getElem?_getD, hi]
    unfold LoadSection.load
    rw [List.map_replicate, key _ _ _ _ h1, List.map_replicate, key _ _ _ _ h2, h5]
  rw [e h hh] at this
  exact this

/-- C74 (scaled). For a load file as in `C74_load_file` and peaks that are not negative: the loads of the simulation
are proportional to the numbers written, and the highest of an area that has a number of at least 0.001 is the peak of
the area. -/
theorem C74_scaled (N : ℕ) (secs : List LoadSection) (txt : List Char) (htxt : LoadText secs txt)
    (harea : ∀ s ∈ secs, 1 ≤ s.area.val ∧ s.area.val ≤ N) (hdist : (secs.map fun s => s.area.val).Nodup)
    (hyear : ∀ s ∈ secs, s.Year) (PK : ℕ → ℚ) (hpk : ∀ a, 0 ≤ PK a) :
    ∃ L, xldnewText N txt PK = .ok L ∧ ∀ s ∈ secs, (∃ h < 8760, 1 / 1000 ≤ s.load h) →
      (∃ h < 8760, L (s.area.val - 1) h = PK (s.area.val - 1)) ∧
      (∀ h < 8760, L (s.area.val - 1) h ≤ PK (s.area.val - 1)) ∧
      ∀ h < 8760, ∀ h' < 8760, L (s.area.val - 1) h * s.load h' = L (s.area.val - 1) h' * s.load h := by
  obtain ⟨H, hH, hv⟩ := C74_load_file N secs txt htxt harea hdist hyear
  refine ⟨leeiScale PK H, by unfold xldnewText; rw [hH]; rfl, fun s hs ⟨h0, hh0, hr⟩ => ?_⟩
  obtain ⟨h1, h2, h3⟩ := C20_scaled_peak PK H (s.area.val - 1) (hpk _) ⟨h0, hh0, by rw [hv s hs h0 hh0]; exact hr⟩
  refine ⟨h1, h2, fun h hh h' hh' => ?_⟩
  have := h3 h h'
  rwa [hv s hs h hh, hv s hs h' hh'] at this

/-- and in the example a peak of 70 is reached in area 2 -/
example : ∃ txt L, LoadText loadDemo txt ∧ xldnewText 2 txt (fun _ => 70) = .ok L ∧ ∃ h < 8760, L 1 h = 70 := by
  obtain ⟨⟨txt, h1⟩, h2, h3, h4⟩ := loadDemo_ok
  obtain ⟨L, hL, hv⟩ := C74_scaled 2 _ txt h1 h2 h3 h4 (fun _ => 70) (fun _ => by norm_num)
  exact ⟨txt, L, h1, hL, (hv _ (List.mem_cons_self ..) ⟨0, by norm_num, by decide +kernel⟩).1⟩

/-- the text of a line card: 24 numbers with commas -/
theorem comma_exists : ∀ ds : List Dec, ds ≠ [] → (∀ d ∈ ds, d.WF) → ∃ txt, CommaText ds txt
  | [], h, _ => absurd rfl h
  | [d], _, h => ⟨[' '] ++ d.text ++ [], .last (by simp [Blank, blanks]) (by simp [Blank]) (h d (by simp))⟩
  | d :: e :: ds, _, h => by
    obtain ⟨u, hu⟩ := comma_exists (e :: ds) (by simp) fun x hx => h x (by simp [hx])
    exact ⟨[] ++ d.text ++ [' '] ++ ',' :: u, .more (by simp [Blank]) (by simp [Blank, blanks]) (h d (by simp)) hu⟩

example : ∃ txt, CommaText (List.replicate 24 decDemo) txt ∧ (List.replicate 24 decDemo).length = 24 := by
  obtain ⟨txt, h⟩ := comma_exists (List.replicate 24 decDemo) (by decide) fun d hd => by
    rw [List.eq_of_mem_replicate hd]; exact decDemo_wf
  exact ⟨txt, h, List.length_replicate⟩

/-- the hypotheses of `C77_accepted_refuted` can be met; those of `C77_rejected` are met by `loadDemo` -/
example : ∃ row txt, RowText [decDemo] row ∧ FileText ["AREA:A1".toList, row] txt := by
  obtain ⟨row, h, _, hn, hr⟩ := row_exists [decDemo] (by simp [decDemo_wf])
  obtain ⟨txt, ht⟩ := file_exists ["AREA:A1".toList, row] (by
    intro l hl
    simp only [List.mem_cons, List.not_mem_nil, or_false] at hl
    rcases hl with rfl | rfl
    · decide
    · exact ⟨hn, hr⟩)
  exact ⟨row, txt, h, ht⟩

/-- a faulty row is rejected: two numbers -/
example : leeiText 2 "AREA:A1\n 5 5\n".toList = .error .valueError := by rfl

end Narp.Props
