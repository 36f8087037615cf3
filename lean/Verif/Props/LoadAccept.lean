import Verif.Spec.LoadAccept
import Verif.Props.ReadB

/-!
# C91: exactly which load files are accepted
-/

namespace Narp.Props
open Narp.Spec

theorem area_chars : "AREA".toList = ['A', 'R', 'E', 'A'] := by decide

/-- A heading is recognised with and without its line end. -/
theorem read_heading {l l' : List Char} (h : Read l l') (hn : '\n' ∉ l) : l'.take 4 = ['A', 'R', 'E', 'A'] ↔ "AREA".toList <+: l := by
  rw [area_chars]
  have key : ∀ x : List Char, x.take 4 = ['A', 'R', 'E', 'A'] ↔ ['A', 'R', 'E', 'A'] <+: x := by
    intro x
    rw [List.prefix_iff_eq_take]
    exact eq_comm
  rcases h with rfl | rfl
  · exact key _
  · rw [key]
    rcases l with _ | ⟨a, _ | ⟨b, _ | ⟨c, _ | ⟨d, l⟩⟩⟩⟩ <;> simp [List.prefix_cons_iff]

theorem read_seventh {l l' : List Char} (h : Read l l') (d : Fin 10) :
    l'[6]? = some (Nat.digitChar d.val) ↔ l[6]? = some (Nat.digitChar d.val) := by
  have hd : Nat.digitChar d.val ≠ '\n' := by revert d; decide
  rcases h with rfl | rfl
  · rfl
  · by_cases hl : 6 < l.length
    · rw [List.getElem?_append_left hl]
    · rw [List.getElem?_append_right (by omega), List.getElem?_eq_none (l := l) (by omega)]
      constructor
      · intro e
        by_cases h0 : 6 - l.length = 0
        · rw [h0] at e
          simp only [List.getElem?_cons_zero, Option.some.injEq] at e
          exact absurd e.symm hd
        · rw [List.getElem?_eq_none (by simp; omega)] at e
          cases e
      · intro e; cases e

theorem digit_iff (c : Char) (k : ℤ) : digit c = .ok k ↔ ∃ d : Fin 10, c = Nat.digitChar d.val ∧ k = d.val := by
  constructor
  · intro h
    unfold digit at h
    split at h
    · rename_i hc
      obtain ⟨d, hd⟩ := dig_char (c := c) (by simpa [isDig] using hc)
      refine ⟨d, hd.symm, ?_⟩
      cases h
      subst hd
      clear hc
      revert d
      decide
    · cases h
  · rintro ⟨d, rfl, rfl⟩
    revert d
    decide

theorem idx_iff (N : ℕ) (d : Fin 10) : (∃ k, pyIdx N ((d.val : ℤ) - 1) = .ok k) ↔ 1 ≤ N ∧ d.val ≤ N := by
  unfold pyIdx
  constructor
  · rintro ⟨k, h⟩
    split_ifs at h <;> omega
  · rintro ⟨h1, h2⟩
    by_cases h : (0 : ℤ) ≤ (d.val : ℤ) - 1
    · rw [if_pos h, if_pos (by omega)]; exact ⟨_, rfl⟩
    · rw [if_neg h, if_pos (by omega)]; exact ⟨_, rfl⟩

/-- The state of the reader stands at `cur`. -/
def At (s : LeeiSt) (cur : Option (Fin 10 × ℕ)) : Prop :=
  match cur with
  | none => s.areaIdx = none
  | some (d, k) => s.areaIdx = some ((d.val : ℤ) - 1) ∧ s.hourIdx = 12 * k

theorem step_heading {N : ℕ} {s : LeeiSt} {l l' : List Char} (h : Read l l') (hn : '\n' ∉ l) (ha : "AREA".toList <+: l) :
    (∀ s', textStep N s l' = .ok s' → ∃ d : Fin 10, l[6]? = some (Nat.digitChar d.val) ∧ At s' (some (d, 0))) ∧
    ∀ d : Fin 10, l[6]? = some (Nat.digitChar d.val) → ∃ s', textStep N s l' = .ok s' ∧ At s' (some (d, 0)) := by
  have e : textStep N s l' = leeiLine N s (.header l') := by
    unfold textStep leeiParse
    rw [if_pos ((read_heading h hn).2 ha)]
    rfl
  rw [e]
  constructor
  · intro s' hs
    unfold leeiLine at hs
    dsimp only at hs
    rcases h6 : l'[6]? with _ | c
    · rw [h6] at hs; cases hs
    · rw [h6] at hs
      dsimp only at hs
      obtain ⟨k, hk, hs⟩ := Except.bind_ok hs
      obtain ⟨d, rfl, rfl⟩ := (digit_iff c k).1 hk
      cases hs
      exact ⟨d, (read_seventh h d).1 h6, rfl, rfl⟩
  · intro d hd
    have hk := (digit_iff _ (d.val : ℤ)).2 ⟨d, rfl, rfl⟩
    refine ⟨{ s with areaIdx := some ((d.val : ℤ) - 1), hourIdx := 0 }, ?_, rfl, rfl⟩
    unfold leeiLine
    dsimp only
    rw [(read_seventh h d).2 hd]
    dsimp only
    rw [hk]
    rfl

theorem step_data {N : ℕ} {s : LeeiSt} {cur : Option (Fin 10 × ℕ)} (hs : At s cur) {l l' : List Char} (h : Read l l') (hn : '\n' ∉ l)
    (hr : '\r' ∉ l) (ha : ¬ "AREA".toList <+: l) :
    (∀ s', textStep N s l' = .ok s' → ∃ (ds : List Dec) (d : Fin 10) (k : ℕ), RowText ds l ∧ cur = some (d, k) ∧ 1 ≤ N ∧ d.val ≤ N ∧
      (ds.length = 1 ∨ (12 ≤ ds.length ∧ k < 730)) ∧ At s' (some (d, k + 1))) ∧
    ∀ (ds : List Dec) (d : Fin 10) (k : ℕ), RowText ds l → cur = some (d, k) → 1 ≤ N → d.val ≤ N →
      (ds.length = 1 ∨ (12 ≤ ds.length ∧ k < 730)) → ∃ s', textStep N s l' = .ok s' ∧ At s' (some (d, k + 1)) := by
  have row : ∀ (ds : List Dec) (s' : LeeiSt), leeiLine N s (.data (ds.map Dec.value)) = .ok s' ↔
      ∃ (d : Fin 10) (k j : ℕ), cur = some (d, k) ∧ pyIdx N ((d.val : ℤ) - 1) = .ok j ∧
        (if (12 ≤ ds.length ∧ k < 730) then s' = { s with hourIdx := s.hourIdx + 12, H := fun i h => if i = j ∧ s.hourIdx ≤ h ∧ h < s.hourIdx + 12
            then ((ds.map Dec.value).drop (ds.length - 12)).getD (h - s.hourIdx) 0 else s.H i h }
          else ds.length = 1 ∧ s' = { s with hourIdx := s.hourIdx + 12, H := fun i h => if i = j ∧ s.hourIdx ≤ h ∧ h < s.hourIdx + 12 ∧ h < 8760
            then ((ds.map Dec.value).drop (ds.length - 12)).getD 0 0 else s.H i h }) := by
    intro ds s'
    unfold leeiLine
    dsimp only
    rcases cur with _ | ⟨d, k⟩
    · have hs : s.areaIdx = none := hs
      rw [hs]
      simp
    · obtain ⟨h1, h2⟩ : s.areaIdx = some ((d.val : ℤ) - 1) ∧ s.hourIdx = 12 * k := hs
      rw [h1]
      dsimp only
      rcases hp : pyIdx N ((d.val : ℤ) - 1) with e | j
      · constructor
        · intro h; cases h
        · rintro ⟨d', k', j, he, hj, _⟩
          cases he
          rw [hp] at hj; cases hj
      · simp only [bind, Except.bind, List.length_drop, List.length_map]
        have c1 : (ds.length - (ds.length - 12) = 12 ∧ s.hourIdx + 12 ≤ 8760) ↔ (12 ≤ ds.length ∧ k < 730) := by omega
        have c2 : ds.length - (ds.length - 12) = 1 ↔ ds.length = 1 := by omega
        constructor
        · intro h
          refine ⟨d, k, j, rfl, hp, ?_⟩
          by_cases hc : 12 ≤ ds.length ∧ k < 730
          · rw [if_pos (c1.2 hc)] at h
            rw [if_pos hc]
            exact (Except.ok.inj h).symm
          · rw [if_neg (fun x => hc (c1.1 x))] at h
            rw [if_neg hc]
            by_cases hd : ds.length = 1
            · rw [if_pos (c2.2 hd)] at h
              exact ⟨hd, (Except.ok.inj h).symm⟩
            · rw [if_neg (fun x => hd (c2.1 x))] at h
              cases h
        · rintro ⟨d', k', j', he, hj, h⟩
          cases he
          rw [hp] at hj
          cases hj
          by_cases hc : 12 ≤ ds.length ∧ k < 730
          · rw [if_pos (c1.2 hc)]
            rw [if_pos hc] at h
            rw [h]; rfl
          · rw [if_neg (fun x => hc (c1.1 x))]
            rw [if_neg hc] at h
            rw [if_pos (c2.2 h.1), h.2]; rfl
  constructor
  · intro s' h'
    unfold textStep leeiParse at h'
    rw [if_neg (fun x => ha ((read_heading h hn).1 x))] at h'
    rcases hx : (words (strip l')).mapM pyFloat with e | v
    · rw [hx] at h'; cases h'
    · rw [hx] at h'
      have h' : leeiLine N s (.data v) = .ok s' := h'
      have hw : words (strip l') = words l := by
        rw [words_strip]
        rcases h with rfl | rfl
        · rfl
        · exact words_end (by decide) l
      rw [hw] at hx
      obtain ⟨ds, hds, rfl⟩ := row_inv _ l v hn hr rfl hx
      obtain ⟨d, k, j, hc, hj, hi⟩ := (row ds s').1 h'
      obtain ⟨n1, n2⟩ := (idx_iff N d).1 ⟨j, hj⟩
      refine ⟨ds, d, k, hds, hc, n1, n2, ?_⟩
      subst hc
      obtain ⟨a1, a2⟩ : s.areaIdx = some ((d.val : ℤ) - 1) ∧ s.hourIdx = 12 * k := hs
      split_ifs at hi with hcnd
      · subst hi
        exact ⟨.inr hcnd, a1, by show s.hourIdx + 12 = _; omega⟩
      · obtain ⟨h1, rfl⟩ := hi
        exact ⟨.inl h1, a1, by show s.hourIdx + 12 = _; omega⟩
  · intro ds d k hds hc n1 n2 hcount
    obtain ⟨j, hj⟩ := (idx_iff N d).2 ⟨n1, n2⟩
    have e : textStep N s l' = leeiLine N s (.data (ds.map Dec.value)) := by
      unfold textStep
      rw [parse_row hds h]
      rfl
    rw [e]
    subst hc
    obtain ⟨a1, a2⟩ : s.areaIdx = some ((d.val : ℤ) - 1) ∧ s.hourIdx = 12 * k := hs
    by_cases hcnd : 12 ≤ ds.length ∧ k < 730
    · set t : LeeiSt := { s with hourIdx := s.hourIdx + 12, H := fun i h => if i = j ∧ s.hourIdx ≤ h ∧ h < s.hourIdx + 12
            then ((ds.map Dec.value).drop (ds.length - 12)).getD (h - s.hourIdx) 0 else s.H i h } with ht
      exact ⟨t, (row ds t).2 ⟨d, k, j, rfl, hj, by rw [if_pos hcnd]⟩, a1, by show s.hourIdx + 12 = _; omega⟩
    · set t : LeeiSt := { s with hourIdx := s.hourIdx + 12, H := fun i h => if i = j ∧ s.hourIdx ≤ h ∧ h < s.hourIdx + 12 ∧ h < 8760
            then ((ds.map Dec.value).drop (ds.length - 12)).getD 0 0 else s.H i h } with ht
      exact ⟨t, (row ds t).2 ⟨d, k, j, rfl, hj, by rw [if_neg hcnd]; exact ⟨by tauto, rfl⟩⟩, a1, by show s.hourIdx + 12 = _; omega⟩

theorem fold_accepts {N : ℕ} {ls ls' : List (List Char)} (hrd : List.Forall₂ Read ls ls') (hne : ∀ l ∈ ls, '\n' ∉ l ∧ '\r' ∉ l) :
    ∀ (s : LeeiSt) (cur : Option (Fin 10 × ℕ)), At s cur → ((∃ s', ls'.foldlM (textStep N) s = .ok s') ↔ Accepts N cur ls) := by
  induction hrd with
  | nil => intro s cur _; exact ⟨fun _ => by simp [Accepts], fun _ => ⟨s, rfl⟩⟩
  | @cons l l' ls ls' h _ ih =>
    intro s cur hs
    obtain ⟨hn, hr⟩ := hne l (by simp)
    have ih := ih fun x hx => hne x (by simp [hx])
    rw [List.foldlM_cons]
    unfold Accepts
    by_cases ha : "AREA".toList <+: l
    · obtain ⟨f, g⟩ := step_heading (N := N) (s := s) h hn ha
      constructor
      · rintro ⟨s', hs'⟩
        obtain ⟨s1, e1, e2⟩ := Except.bind_ok hs'
        obtain ⟨d, h6, hat⟩ := f s1 e1
        exact .inl ⟨ha, d, h6, (ih s1 _ hat).1 ⟨s', e2⟩⟩
      · rintro (⟨_, d, h6, hacc⟩ | ⟨hna, _⟩)
        · obtain ⟨s1, e1, hat⟩ := g d h6
          rw [e1]
          exact (ih s1 _ hat).2 hacc
        · exact absurd ha hna
    · obtain ⟨f, g⟩ := step_data (N := N) hs h hn hr ha
      constructor
      · rintro ⟨s', hs'⟩
        obtain ⟨s1, e1, e2⟩ := Except.bind_ok hs'
        obtain ⟨ds, d, k, h1, h2, h3, h4, h5, hat⟩ := f s1 e1
        exact .inr ⟨ha, ds, d, k, h1, h2, h3, h4, h5, (ih s1 _ hat).1 ⟨s', e2⟩⟩
      · rintro (⟨hna, _⟩ | ⟨_, ds, d, k, h1, h2, h3, h4, h5, hacc⟩)
        · exact absurd hna ha
        · obtain ⟨s1, e1, hat⟩ := g ds d k h1 h2 h3 h4 h5
          rw [e1]
          exact (ih s1 _ hat).2 hacc

/-- **C91 (exactly).** A load file is read without error exactly if every line is a heading or a row as `Accepts` says. -/
theorem C91_accepted_iff_partial (N : ℕ) (ls : List (List Char)) (txt : List Char) (hf : FileText ls txt) :
    (∃ H, leeiText N txt = .ok H) ↔ Accepts N none ls := by
  rw [← fold_accepts (read_lines hf) (fileText_noend hf) ⟨none, 0, fun _ _ => 0⟩ none rfl]
  show (∃ H, ((pyLines (newlines txt)).foldlM (textStep N) ⟨none, 0, fun _ _ => 0⟩).map LeeiSt.H = .ok H) ↔ _
  cases (pyLines (newlines txt)).foldlM (textStep N) ⟨none, 0, fun _ _ => 0⟩ with
  | error e => constructor <;> rintro ⟨_, h⟩ <;> cases h
  | ok s => exact ⟨fun _ => ⟨s, rfl⟩, fun _ => ⟨_, rfl⟩⟩

/-- C91, a consequence: a file in which some row has between two and eleven numbers is rejected. -/
theorem C91_short_row_partial (N : ℕ) (ls : List (List Char)) (txt : List Char) (hf : FileText ls txt) {l : List Char} (hl : l ∈ ls)
    {ds : List Dec} (hd : RowText ds l) (h2 : 2 ≤ ds.length) (h11 : ds.length ≤ 11) : ∃ e, leeiText N txt = .error e := by
  cases h : leeiText N txt with
  | error e => exact ⟨e, rfl⟩
  | ok H =>
    exfalso
    have hrow : ∀ (ls : List (List Char)) (cur : Option (Fin 10 × ℕ)), l ∈ ls → ¬ Accepts N cur ls := by
      intro ls
      induction ls with
      | nil => intro cur hm; cases hm
      | cons x ls ih =>
        intro cur hm hacc
        unfold Accepts at hacc
        rcases List.mem_cons.1 hm with rfl | hm
        · rcases hacc with ⟨ha, _⟩ | ⟨_, ds', d, k, h1, _, _, _, h5, _⟩
          · have := row_head hd
            rw [area_chars] at ha
            obtain ⟨t, rfl⟩ := ha
            exact this rfl
          · have e : ds'.length = ds.length := by
              have a := (words_row h1).1
              have b := (words_row hd).1
              rw [a] at b
              simpa using congrArg List.length b
            omega
        · rcases hacc with ⟨_, d, _, hacc⟩ | ⟨_, ds', d, k, _, _, _, _, _, hacc⟩
          · exact ih _ hm hacc
          · exact ih _ hm hacc
    exact hrow ls none hl ((C91_accepted_iff_partial N ls txt hf).1 ⟨H, h⟩)

/-- A file with one heading and one row of `ds.length` numbers: it is accepted with twelve numbers and with one, and rejected with
three. -/
example : ∀ ds : List Dec, (∀ d ∈ ds, d.WF) → ∃ row txt, RowText ds row ∧ FileText ["AREA:A1".toList, row] txt ∧
    ((ds.length = 12 ∨ ds.length = 1) → ∃ H, leeiText 1 txt = .ok H) ∧ (ds.length = 3 → ∃ e, leeiText 1 txt = .error e) := by
  intro ds hds
  obtain ⟨row, h1, h2, h3, h4⟩ := row_exists ds hds
  have hf : FileText ["AREA:A1".toList, row] ("AREA:A1".toList ++ ['\n'] ++ (row ++ ['\n'] ++ [])) :=
    .line (by decide) (by decide) (.inl rfl) (.line h3 h4 (.inl rfl) .empty)
  refine ⟨row, _, h1, hf, ?_, ?_⟩
  · intro h
    rw [C91_accepted_iff_partial 1 _ _ hf]
    refine .inl ⟨by decide, 1, by decide, .inr ⟨?_, ds, 1, 0, h1, rfl, le_rfl, le_rfl, by omega, trivial⟩⟩
    intro ha
    have := row_head h1
    rw [area_chars] at ha
    obtain ⟨t, rfl⟩ := ha
    exact this rfl
  · intro h
    exact C91_short_row_partial 1 _ _ hf (by simp) h1 (by omega) (by omega)

end Narp.Props
