import Verif.Spec.Printed
import Verif.Model.Text
import Verif.Props.ReadB

/-!
# C116: the printed figures are the computed ones
-/

namespace Narp.Props
open Narp Narp.Spec

/-! ## Numbers -/

theorem digit_char (k : ℕ) : Nat.digitChar (k % 10) = Nat.digitChar (⟨k % 10, Nat.mod_lt _ (by norm_num)⟩ : Fin 10).val := rfl

theorem natTextAux_digits : ∀ (fuel n : ℕ) (acc : List (Fin 10)), n < fuel → ∃ ds : List (Fin 10), ds ≠ [] ∧
    natTextAux fuel n (digitsText acc) = digitsText (ds ++ acc) ∧ digitsValue ds = n
  | 0, n, acc, h => absurd h (by omega)
  | fuel + 1, n, acc, h => by
    have hv : ∀ d : Fin 10, digitsValue [d] = d.val := fun d => by simp [digitsValue]
    have hc : Nat.digitChar (n % 10) :: digitsText acc =
        digitsText ((⟨n % 10, Nat.mod_lt _ (by norm_num)⟩ : Fin 10) :: acc) := rfl
    unfold natTextAux
    rw [hc]
    split_ifs with h0
    · refine ⟨[⟨n % 10, Nat.mod_lt _ (by norm_num)⟩], by simp, rfl, ?_⟩
      rw [hv]
      show n % 10 = n
      omega
    · obtain ⟨ds, h1, h2, h3⟩ := natTextAux_digits fuel (n / 10) ((⟨n % 10, Nat.mod_lt _ (by norm_num)⟩ : Fin 10) :: acc) (by omega)
      refine ⟨ds ++ [⟨n % 10, Nat.mod_lt _ (by norm_num)⟩], by simp, by rw [h2]; simp, ?_⟩
      have := natOf_append ds [⟨n % 10, Nat.mod_lt _ (by norm_num)⟩]
      unfold digitsValue at h3 ⊢
      rw [List.reverse_append, List.map_append, Nat.ofDigits_append]
      simp only [List.reverse_singleton, List.map_singleton, List.length_singleton, h3]
      simp
      omega

theorem natText_digits (n : ℕ) : ∃ ds : List (Fin 10), ds ≠ [] ∧ natText n = digitsText ds ∧ digitsValue ds = n := by
  obtain ⟨ds, h1, h2, h3⟩ := natTextAux_digits (n + 1) n [] (by omega)
  exact ⟨ds, h1, by unfold natText; simpa [digitsText] using h2, h3⟩

theorem intText_shown (k : ℤ) : ShownInt k (intText k) := by
  obtain ⟨ds, h1, h2, h3⟩ := natText_digits k.natAbs
  refine ⟨⟨if k < 0 then some true else none, ds, false, [], none⟩, ⟨.inl h1, by simp, by simp⟩, ?_, rfl, rfl, rfl, ?_⟩
  · unfold Dec.text intText
    by_cases h : k < 0
    · simp [h, signText, expText, h2]
    · simp [h, signText, expText, h2]
  · unfold Dec.value
    simp only [h3, signValue, expValue, List.length_nil, pow_zero, div_one, mul_one]
    have : digitsValue [] = 0 := rfl
    rw [this]
    by_cases h : k < 0
    · have e : (k.natAbs : ℤ) = -k := by omega
      have e' : (k.natAbs : ℚ) = -(k : ℚ) := by
        have := congrArg (Int.cast : ℤ → ℚ) e
        rw [Int.cast_natCast] at this
        rw [this]; push_cast; rfl
      rw [e']
      simp [h]
    · have e : (k.natAbs : ℤ) = k := by omega
      have e' : (k.natAbs : ℚ) = (k : ℚ) := by
        have := congrArg (Int.cast : ℤ → ℚ) e
        rw [Int.cast_natCast] at this
        exact this
      rw [e']
      simp [h]

theorem natText_shown (n : ℕ) : ShownInt n (natText n) := by
  have := intText_shown n
  unfold intText at this
  rw [if_neg (by omega)] at this
  simpa using this

/-- The last `p` digits, as digits. -/
theorem lastDigits_digits (p r : ℕ) : ∃ ds : List (Fin 10), ds.length = p ∧ lastDigits p r = digitsText ds ∧
    digitsValue ds = r % 10 ^ p := by
  refine ⟨(List.range p).reverse.map fun i => ⟨r / 10 ^ i % 10, Nat.mod_lt _ (by norm_num)⟩, by simp, ?_, ?_⟩
  · unfold lastDigits digitsText
    simp
  · unfold digitsValue
    rw [← List.map_reverse, List.reverse_reverse, List.map_map]
    induction p with
    | zero => simp [Nat.mod_one]
    | succ p ih =>
      rw [List.range_succ, List.map_append, Nat.ofDigits_append, ih]
      simp only [List.map_singleton, Function.comp, List.length_map, List.length_range, Nat.ofDigits_singleton]
      rw [Nat.mod_pow_succ]

section Fixed
variable {K : Type} [Field K] [LinearOrder K] [IsStrictOrderedRing K] [FloorRing K]

theorem nearest_close (x : K) : |((nearest x : ℤ) : K) - x| ≤ 1 / 2 := by
  have h1 := Int.floor_le x
  have h2 := Int.lt_floor_add_one x
  unfold nearest
  rw [abs_le]
  split_ifs with a b c <;> push_cast <;> constructor <;> linarith

theorem nearest_nonneg {x : K} (hx : 0 ≤ x) : 0 ≤ nearest x := by
  have := Int.floor_nonneg.2 hx
  unfold nearest
  split_ifs <;> omega

theorem fixedText_shown (p : ℕ) (x : K) : ShownTo p x (fixedText p x) := by
  set k := (nearest (|x| * 10 ^ p)).toNat with hk
  obtain ⟨ds, h1, h2, h3⟩ := natText_digits (k / 10 ^ p)
  obtain ⟨fs, g1, g2, g3⟩ := lastDigits_digits p (k % 10 ^ p)
  have hpow : (0 : K) < 10 ^ p := by positivity
  refine ⟨⟨if x < 0 then some true else none, ds, decide (p ≠ 0), fs, none⟩, ⟨.inl h1, ?_, by simp⟩, ?_, rfl, g1, h1, by simp, rfl, ?_⟩
  · intro hf
    have : p ≠ 0 := by rintro rfl; exact hf (List.length_eq_zero_iff.1 g1)
    simpa using this
  · show _ = fixedText p x
    unfold fixedText Dec.text
    simp only [← hk, h2, g2, decide_eq_true_eq, expText, List.append_nil]
    by_cases hp : p = 0
    · subst hp
      split_ifs <;> simp_all [signText]
    · split_ifs <;> simp_all [signText]
  · have hval : ((⟨if x < 0 then some true else none, ds, decide (p ≠ 0), fs, none⟩ : Dec).value : ℚ) =
        (if x < 0 then -1 else 1) * ((k : ℚ) / 10 ^ p) := by
      unfold Dec.value
      simp only [signValue, expValue, h3, g1, mul_one]
      have g3' : digitsValue fs = k % 10 ^ p := by rw [g3, Nat.mod_mod]
      rw [g3']
      have e : ((k / 10 ^ p : ℕ) : ℚ) + ((k % 10 ^ p : ℕ) : ℚ) / 10 ^ p = (k : ℚ) / 10 ^ p := by
        have := Nat.div_add_mod k (10 ^ p)
        have h : ((10 ^ p * (k / 10 ^ p) + k % 10 ^ p : ℕ) : ℚ) = (k : ℚ) := by rw [this]
        push_cast at h
        rw [← h]
        field_simp
      rw [e]
      split_ifs <;> simp_all
    rw [hval]
    have hn : ((k : ℕ) : K) = ((nearest (|x| * 10 ^ p) : ℤ) : K) := by
      have := Int.toNat_of_nonneg (nearest_nonneg (x := |x| * 10 ^ p) (by positivity))
      rw [← this, ← hk]
      norm_cast
    have hc := nearest_close (|x| * 10 ^ p)
    rw [← hn] at hc
    have hq : |(k : K) / 10 ^ p - (|x|)| ≤ 1 / 2 / 10 ^ p := by
      have : (k : K) / 10 ^ p - (|x|) = ((k : K) - |x| * 10 ^ p) / 10 ^ p := by field_simp
      rw [this, abs_div, abs_of_pos hpow]
      exact div_le_div_of_nonneg_right hc hpow.le
    push_cast
    split_ifs with hx
    · push_cast
      rw [abs_of_neg hx] at hq
      have : (-1 : K) * ((k : K) / 10 ^ p) - x = -((k : K) / 10 ^ p - -x) := by ring
      rw [this, abs_neg]
      exact hq
    · push_cast
      rw [abs_of_nonneg (not_lt.1 hx)] at hq
      rw [one_mul]
      exact hq

end Fixed

/-! ## Words and lines -/

/-- A text without white space. -/
def IsWord (w : List Char) : Prop := w ≠ [] ∧ ∀ c ∈ w, isSpace c = false

theorem _root_.Narp.Spec.ShownTo.word {K : Type} [Field K] [LinearOrder K] {p : ℕ} {x : K} {w : List Char} (h : ShownTo p x w) : IsWord w := by
  obtain ⟨d, hw, rfl, _⟩ := h
  exact ⟨Dec.text_ne hw, fun c hc => (Dec.text_chars c hc).1⟩

theorem _root_.Narp.Spec.ShownInt.word {k : ℤ} {w : List Char} (h : ShownInt k w) : IsWord w := by
  obtain ⟨d, hw, rfl, _⟩ := h
  exact ⟨Dec.text_ne hw, fun c hc => (Dec.text_chars c hc).1⟩

theorem cutAt_append {p : Char → Bool} {c : Char} (hc : p c = true) (r : List Char) : ∀ w : List Char,
    cutAt p (w ++ c :: r) = cutAt p w ++ cutAt p r
  | [] => by simp [cutAt, hc]
  | a :: w => by
    have ih := cutAt_append hc r w
    simp only [List.cons_append, cutAt, ih]
    split
    · simp
    · have hne := cutAt_ne (p := p) w
      generalize cutAt p w = q at hne ⊢
      rcases q with _ | ⟨x, xs⟩
      · exact absurd rfl hne
      · simp

theorem words_sep {c : Char} (hc : isSpace c = true) (a b : List Char) : words (a ++ c :: b) = words a ++ words b := by
  unfold words
  rw [cutAt_append hc, List.filter_append]

theorem words_one {w : List Char} (hw : IsWord w) : words w = [w] := by
  have := words_word hw.2 hw.1 (r := []) (by simp)
  simpa [words, cutAt] using this

/-- The lines of a text that are not blank, each as the list of its words. -/
def lineWords (txt : List Char) : List (List (List Char)) := ((cutAt (· = '\n') txt).map words).filter (· ≠ [])

theorem lw_sep (a b : List Char) : lineWords (a ++ '\n' :: b) = lineWords a ++ lineWords b := by
  unfold lineWords
  rw [cutAt_append (by simp), List.map_append, List.filter_append]

theorem lw_nil : lineWords [] = [] := rfl

theorem lw_start (b : List Char) : lineWords ('\n' :: b) = lineWords b := by
  have := lw_sep [] b
  rwa [lw_nil, List.nil_append, List.nil_append] at this

theorem lw_end (a : List Char) : lineWords (a ++ ['\n']) = lineWords a := by
  rw [lw_sep, lw_nil, List.append_nil]

/-- The text is empty or begins with a line end. -/
def Starts (t : List Char) : Prop := t = [] ∨ ∃ b, t = '\n' :: b

theorem Starts.append {a b : List Char} (ha : Starts a) (hb : Starts b) : Starts (a ++ b) := by
  rcases ha with rfl | ⟨x, rfl⟩
  · exact hb
  · exact .inr ⟨x ++ b, rfl⟩

theorem Starts.flatMap {ι : Type} {f : ι → List Char} (h : ∀ i, Starts (f i)) : ∀ l : List ι, Starts (l.flatMap f)
  | [] => .inl rfl
  | i :: l => by rw [List.flatMap_cons]; exact (h i).append (Starts.flatMap h l)

theorem lw_append (a : List Char) {t : List Char} (ht : Starts t) : lineWords (a ++ t) = lineWords a ++ lineWords t := by
  rcases ht with rfl | ⟨b, rfl⟩
  · rw [List.append_nil, lw_nil, List.append_nil]
  · rw [lw_sep, lw_start]

theorem lw_flatMap {ι : Type} {f : ι → List Char} (h : ∀ i, Starts (f i)) : ∀ l : List ι,
    lineWords (l.flatMap f) = l.flatMap fun i => lineWords (f i)
  | [] => rfl
  | i :: l => by
    rw [List.flatMap_cons, lw_append _ (Starts.flatMap h l), lw_flatMap h l, List.flatMap_cons]

theorem lw_line {a : List Char} (h : '\n' ∉ a) (hw : words a ≠ []) : lineWords a = [words a] := by
  unfold lineWords
  rw [cutAt_all (fun c hc => by simp; rintro rfl; exact h hc)]
  simp [hw]

/-! ## Cells -/

/-- The text of a cell that shows the word `t`. -/
def CellOK (c t : List Char) : Prop := ∃ sep w, c = cell sep w t ∧ sep ≠ [] ∧ (∀ x ∈ sep, x = ' ' ∨ x = '\t') ∧ IsWord t

theorem blank_of {x : Char} (h : x = ' ' ∨ x = '\t') : isSpace x = true ∧ x ≠ '\n' := by
  rcases h with rfl | rfl <;> exact ⟨by decide, by decide⟩

theorem cellOK_sp {k w : ℕ} {t : List Char} (hk : 0 < k) (ht : IsWord t) : CellOK (cell (sp k) w t) t :=
  ⟨_, _, rfl, by unfold sp; simp; omega, fun x hx => .inl (List.eq_of_mem_replicate hx), ht⟩

theorem cellOK_tb {k w : ℕ} {t : List Char} (hk : 0 < k) (ht : IsWord t) : CellOK (cell (tb k) w t) t :=
  ⟨_, _, rfl, by unfold tb; simp; omega, fun x hx => .inr (List.eq_of_mem_replicate hx), ht⟩

theorem cell_words {c t : List Char} (h : CellOK c t) (a : List Char) : words (a ++ c) = words a ++ [t] ∧ ('\n' ∉ a → '\n' ∉ a ++ c) := by
  obtain ⟨sep, w, rfl, hne, hs, ht⟩ := h
  have hrep : ∀ x ∈ List.replicate (w - t.length) ' ', isSpace x = true := fun x hx => by
    rw [List.eq_of_mem_replicate hx]; decide
  constructor
  · rcases sep with _ | ⟨x, sep⟩
    · exact absurd rfl hne
    · unfold cell
      rw [List.cons_append, words_sep (blank_of (hs x (by simp))).1, words_blank (fun y hy => (blank_of (hs y (by simp [hy]))).1),
        words_blank hrep, words_one ht]
  · intro ha hm
    unfold cell at hm
    simp only [List.mem_append] at hm
    rcases hm with hm | hm | hm | hm
    · exact ha hm
    · exact (blank_of (hs _ hm)).2 rfl
    · exact absurd (List.eq_of_mem_replicate hm) (by decide)
    · exact absurd (ht.2 _ hm) (by decide)

theorem cells_words {cs ts : List (List Char)} (h : List.Forall₂ CellOK cs ts) (a : List Char) :
    words (a ++ cs.flatten) = words a ++ ts ∧ ('\n' ∉ a → '\n' ∉ a ++ cs.flatten) := by
  induction h generalizing a with
  | nil => simp
  | @cons c t cs ts hc _ ih =>
    obtain ⟨e1, e2⟩ := cell_words hc a
    obtain ⟨i1, i2⟩ := ih (a ++ c)
    rw [List.flatten_cons, ← List.append_assoc, i1, e1]
    exact ⟨by simp, fun ha => i2 (e2 ha)⟩

end Narp.Props
