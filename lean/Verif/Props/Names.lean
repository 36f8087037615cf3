import Verif.Model.Names
import Verif.Props.Seasons
import Mathlib.Data.List.Nodup

/-!
# Names (C21) and the planned outage table (C25)
-/

namespace Narp.Props
open Narp Narp.Spec

/-! ## C21 -/

section names
variable {α : Type} [DecidableEq α]

theorem uniq_aux (names : List α) : ∀ acc : List α, acc.Nodup →
    (names.foldl (fun acc x => if x ∈ acc then acc else acc ++ [x]) acc).Nodup ∧
    (∀ x, x ∈ names.foldl (fun acc x => if x ∈ acc then acc else acc ++ [x]) acc ↔ x ∈ acc ∨ x ∈ names) ∧
    (names.foldl (fun acc x => if x ∈ acc then acc else acc ++ [x]) acc).length ≤ acc.length + names.length := by
  induction names with
  | nil => intro acc h; exact ⟨h, by simp, by simp⟩
  | cons a l ih =>
    intro acc h
    rw [List.foldl_cons]
    by_cases ha : a ∈ acc
    · rw [if_pos ha]
      obtain ⟨h1, h2, h3⟩ := ih acc h
      refine ⟨h1, ?_, by rw [List.length_cons]; omega⟩
      intro x; rw [h2, List.mem_cons]
      constructor
      · rintro (h | h) <;> simp [h]
      · rintro (h | rfl | h)
        · exact .inl h
        · exact .inl ha
        · exact .inr h
    · rw [if_neg ha]
      obtain ⟨h1, h2, h3⟩ := ih (acc ++ [a]) (by
        rw [List.nodup_append]
        exact ⟨h, by simp, by intro x hx y hy hxy; simp at hy; subst hy; subst hxy; exact ha hx⟩)
      refine ⟨h1, ?_, by rw [List.length_append] at h3; simp at h3 ⊢; omega⟩
      intro x; rw [h2]; simp [or_assoc]

theorem uniq_nodup (names : List α) : (uniqNames names).Nodup := (uniq_aux names [] (by simp)).1
theorem mem_uniq (names : List α) (x : α) : x ∈ uniqNames names ↔ x ∈ names := by
  unfold uniqNames; rw [(uniq_aux names [] (by simp)).2.1]; simp
theorem uniq_length_le (names : List α) : (uniqNames names).length ≤ names.length := by
  have := (uniq_aux names [] (by simp)).2.2; simpa [uniqNames] using this

theorem uniq_of_nodup {names : List α} (h : names.Nodup) : uniqNames names = names := by
  have aux : ∀ (l acc : List α), (acc ++ l).Nodup →
      l.foldl (fun acc x => if x ∈ acc then acc else acc ++ [x]) acc = acc ++ l := by
    intro l
    induction l with
    | nil => intro acc _; simp
    | cons a l ih =>
      intro acc hn
      have ha : a ∉ acc := by
        intro hm
        rw [List.nodup_append] at hn
        exact hn.2.2 a hm a (by simp) rfl
      rw [List.foldl_cons, if_neg ha, ih _ (by simpa using hn)]
      simp
  have := aux names [] (by simpa using h)
  simpa [uniqNames] using this

theorem nameToInt_ok {names : List α} {key : α} {k : ℕ} :
    nameToInt names key = .ok k ↔ (uniqNames names)[k]? = some key := by
  unfold nameToInt
  cases h : (uniqNames names).findIdx? (fun x => decide (x = key)) with
  | none =>
    simp only [reduceCtorEq, false_iff]
    intro hk
    have hm := List.mem_of_getElem? hk
    rw [List.findIdx?_eq_none_iff] at h
    have := h key hm
    simp at this
  | some i =>
    rw [List.findIdx?_eq_some_iff_getElem] at h
    obtain ⟨hi, h1, h2⟩ := h
    simp only [decide_eq_true_eq] at h1
    simp only [Except.ok.injEq]
    constructor
    · rintro rfl
      rw [List.getElem?_eq_getElem hi, h1]
    · intro hk
      obtain ⟨hk', hk2⟩ := List.getElem?_eq_some_iff.1 hk
      exact (List.Nodup.getElem_inj_iff (uniq_nodup names)).1 (h1.trans hk2.symm)

theorem nameToInt_err {names : List α} {key : α} (h : key ∉ names) :
    nameToInt names key = .error .keyError := by
  unfold nameToInt
  have : (uniqNames names).findIdx? (fun x => decide (x = key)) = none := by
    rw [List.findIdx?_eq_none_iff]
    intro x hx
    simp only [decide_eq_false_iff_not]
    rintro rfl
    exact h ((mem_uniq names x).1 hx)
  rw [this]

theorem mem_nameToInt {names : List α} {key : α} (h : key ∈ names) : ∃ k, nameToInt names key = .ok k := by
  obtain ⟨k, hk⟩ := List.mem_iff_getElem?.1 ((mem_uniq names key).2 h)
  exact ⟨k, nameToInt_ok.2 hk⟩

omit [DecidableEq α] in
theorem mapM_ok_iff {β : Type} (f : α → Except PyErr β) : ∀ (l : List α) (r : List β),
    l.mapM f = .ok r ↔ List.Forall₂ (fun a b => f a = .ok b) l r
  | [], r => by
    constructor
    · intro h; cases h; exact .nil
    · intro h; cases h; rfl
  | a :: l, r => by
    rw [List.mapM_cons]
    constructor
    · intro h
      obtain ⟨y, hy, h⟩ := Except.bind_ok h
      obtain ⟨r', hr, h⟩ := Except.bind_ok h
      cases h
      exact .cons hy ((mapM_ok_iff f l r').1 hr)
    · intro h
      cases h with
      | cons h1 h2 =>
        rw [h1, show l.mapM f = _ from (mapM_ok_iff f l _).2 h2]; rfl

/-- C21 (resolution of one name). A known name is given a number smaller than the number of cards, the
name with that number (in order of first appearance) is exactly that name, different names get different
numbers, and an unknown name is rejected. -/
theorem C21_name (names : List α) :
    (∀ key, key ∈ names ↔ ∃ k, nameToInt names key = .ok k) ∧
    (∀ key k, nameToInt names key = .ok k → k < names.length ∧ (uniqNames names)[k]? = some key) ∧
    (∀ key key' k, nameToInt names key = .ok k → nameToInt names key' = .ok k → key = key') ∧
    (∀ key, key ∉ names → nameToInt names key = .error .keyError) ∧
    (names.Nodup → ∀ key k, nameToInt names key = .ok k ↔ names[k]? = some key) := by
  refine ⟨?_, ?_, ?_, fun key => nameToInt_err, ?_⟩
  · intro key
    refine ⟨mem_nameToInt, fun ⟨k, hk⟩ => ?_⟩
    exact (mem_uniq names key).1 (List.mem_of_getElem? (nameToInt_ok.1 hk))
  · intro key k hk
    have := nameToInt_ok.1 hk
    obtain ⟨hk', _⟩ := List.getElem?_eq_some_iff.1 this
    exact ⟨lt_of_lt_of_le hk' (uniq_length_le names), this⟩
  · intro key key' k h1 h2
    have h1 := nameToInt_ok.1 h1
    have h2 := nameToInt_ok.1 h2
    rw [h1] at h2
    exact Option.some.inj h2
  · intro hn key k
    rw [nameToInt_ok, uniq_of_nodup hn]

/-- The names a table refers to are those it may refer to. -/
def KnownNames (t : NameTables α) : Prop :=
  (∀ x ∈ t.udNAR ++ t.tdNAR ++ t.tdNAE ++ t.fcNAR ++ t.fcNAE, x ∈ t.ldNAR) ∧ ∀ x ∈ t.odNAT, x ∈ t.udNAT

/-- `refs` and `ints` have the same length and `ints` numbers the `refs` as cards of `cards`. -/
def Resolved (cards refs : List α) (ints : List ℕ) : Prop :=
  List.Forall₂ (fun x k => cards[k]? = some x) refs ints

/-- C21. With one card per area and per unit, name resolution succeeds exactly when all references are
known; then every reference is replaced by the number of the card of that name, areas and units are
numbered in card order, and line numbers become 0-based. -/
theorem C21_resolution (t : NameTables α) (hA : t.ldNAR.Nodup) (hU : t.udNAT.Nodup) :
    (KnownNames t ↔ ∃ r, pind t = .ok r) ∧
    ∀ r, pind t = .ok r →
      Resolved t.ldNAR t.ldNAR r.ldNAR ∧ Resolved t.udNAT t.udNAT r.udNAT ∧
      Resolved t.ldNAR t.udNAR r.udNAR ∧ Resolved t.ldNAR t.tdNAR r.tdNAR ∧
      Resolved t.ldNAR t.tdNAE r.tdNAE ∧ Resolved t.ldNAR t.fcNAR r.fcNAR ∧
      Resolved t.ldNAR t.fcNAE r.fcNAE ∧ Resolved t.udNAT t.odNAT r.odNAT ∧
      r.tdLineID = t.tdLineID.map (· - 1) := by
  have res : ∀ (cards refs : List α) (ints : List ℕ), cards.Nodup →
      (refs.mapM (nameToInt cards) = .ok ints ↔ Resolved cards refs ints) := by
    intro cards refs ints hn
    rw [mapM_ok_iff]
    unfold Resolved
    have : (fun a b => nameToInt cards a = .ok b) = fun (x : α) (k : ℕ) => cards[k]? = some x := by
      funext a b
      exact propext ((C21_name cards).2.2.2.2 hn a b)
    rw [this]
  have tot : ∀ (cards refs : List α), (∀ x ∈ refs, x ∈ cards) → ∃ ints, refs.mapM (nameToInt cards) = .ok ints := by
    intro cards refs
    induction refs with
    | nil => intro _; exact ⟨[], rfl⟩
    | cons a l ih =>
      intro h
      obtain ⟨k, hk⟩ := mem_nameToInt (h a (by simp))
      obtain ⟨r, hr⟩ := ih (fun x hx => h x (by simp [hx]))
      exact ⟨k :: r, by rw [List.mapM_cons, hk, hr]; rfl⟩
  have memof : ∀ (cards refs : List α) (ints : List ℕ), Resolved cards refs ints → ∀ x ∈ refs, x ∈ cards := by
    intro cards refs ints h
    induction h with
    | nil => simp
    | cons h1 _ ih =>
      intro x hx
      rcases List.mem_cons.1 hx with rfl | hx
      · exact List.mem_of_getElem? h1
      · exact ih x hx
  have key : ∀ r, pind t = .ok r →
      Resolved t.ldNAR t.ldNAR r.ldNAR ∧ Resolved t.udNAT t.udNAT r.udNAT ∧
      Resolved t.ldNAR t.udNAR r.udNAR ∧ Resolved t.ldNAR t.tdNAR r.tdNAR ∧
      Resolved t.ldNAR t.tdNAE r.tdNAE ∧ Resolved t.ldNAR t.fcNAR r.fcNAR ∧
      Resolved t.ldNAR t.fcNAE r.fcNAE ∧ Resolved t.udNAT t.odNAT r.odNAT ∧
      r.tdLineID = t.tdLineID.map (· - 1) := by
    intro r h
    unfold pind at h
    obtain ⟨a1, h1, h⟩ := Except.bind_ok h
    obtain ⟨a2, h2, h⟩ := Except.bind_ok h
    obtain ⟨a3, h3, h⟩ := Except.bind_ok h
    obtain ⟨a4, h4, h⟩ := Except.bind_ok h
    obtain ⟨a5, h5, h⟩ := Except.bind_ok h
    obtain ⟨a6, h6, h⟩ := Except.bind_ok h
    obtain ⟨a7, h7, h⟩ := Except.bind_ok h
    obtain ⟨a8, h8, h⟩ := Except.bind_ok h
    cases h
    exact ⟨(res _ _ _ hA).1 h1, (res _ _ _ hU).1 h2, (res _ _ _ hA).1 h3, (res _ _ _ hA).1 h4,
      (res _ _ _ hA).1 h5, (res _ _ _ hA).1 h6, (res _ _ _ hA).1 h7, (res _ _ _ hU).1 h8, rfl⟩
  refine ⟨⟨?_, ?_⟩, key⟩
  · rintro ⟨k1, k2⟩
    obtain ⟨a1, h1⟩ := tot t.ldNAR t.ldNAR (fun _ h => h)
    obtain ⟨a2, h2⟩ := tot t.udNAT t.udNAT (fun _ h => h)
    obtain ⟨a3, h3⟩ := tot t.ldNAR t.udNAR (fun x h => k1 x (by simp [h]))
    obtain ⟨a4, h4⟩ := tot t.ldNAR t.tdNAR (fun x h => k1 x (by simp [h]))
    obtain ⟨a5, h5⟩ := tot t.ldNAR t.tdNAE (fun x h => k1 x (by simp [h]))
    obtain ⟨a6, h6⟩ := tot t.ldNAR t.fcNAR (fun x h => k1 x (by simp [h]))
    obtain ⟨a7, h7⟩ := tot t.ldNAR t.fcNAE (fun x h => k1 x (by simp [h]))
    obtain ⟨a8, h8⟩ := tot t.udNAT t.odNAT (fun x h => k2 x h)
    refine ⟨⟨a1, a2, a3, t.tdLineID.map (· - 1), a4, a5, a6, a7, a8⟩, ?_⟩
    unfold pind
    rw [h1, h2, h3, h4, h5, h6, h7, h8]; rfl
  · rintro ⟨r, hr⟩
    obtain ⟨_, _, r3, r4, r5, r6, r7, r8, _⟩ := key r hr
    refine ⟨?_, memof _ _ _ r8⟩
    intro x hx
    simp only [List.mem_append] at hx
    rcases hx with (((hx | hx) | hx) | hx) | hx
    · exact memof _ _ _ r3 x hx
    · exact memof _ _ _ r4 x hx
    · exact memof _ _ _ r5 x hx
    · exact memof _ _ _ r6 x hx
    · exact memof _ _ _ r7 x hx

end names

example : ((pind (α := String) ⟨["A", "B"], ["U1", "U2", "U3"], ["B", "A", "B"], [1], ["B"], ["A"], [], [],
    ["U3"]⟩).map fun r => (r.udNAR, r.tdNAR, r.tdLineID, r.odNAT)) = .ok ([1, 0, 1], [1], [0], [2]) := by
  decide +kernel

/-! ## C25 -/

/-- Week `w` belongs to a window of the unit (start week, duration in weeks; start -1 = no window). -/
def InWindow (start dur : ℤ) (w : ℕ) : Prop := start ≠ -1 ∧ start ≤ w ∧ (w : ℤ) < start + dur

/-- Week `w` belongs to one of the planned outages of the unit. -/
def OutInWeek (r : MaintRow) (w : ℕ) : Prop := InWindow r.start1 r.dur1 w ∨ InWindow r.start2 r.dur2 w

instance (s d : ℤ) (w : ℕ) : Decidable (InWindow s d w) := by unfold InWindow; infer_instance
instance (r : MaintRow) (w : ℕ) : Decidable (OutInWeek r w) := by unfold OutInWeek; infer_instance

/-- the table `T` lists, for each week `w`, exactly `L w`, preceded by its length -/
def Rows (T : ℕ → ℕ → ℤ) (L : ℕ → List ℤ) : Prop :=
  ∀ w, T w 0 = (L w).length ∧ ∀ k, T w (k + 1) = (L w).getD k (-1)

theorem maintWindow_rows {N : ℕ} {T : ℕ → ℕ → ℤ} {L : ℕ → List ℤ} (h : Rows T L) (unit start dur : ℤ)
    (hcap : ∀ w, w < 51 → InWindow start dur w → (L w).length + 1 ≤ N) :
    ∃ T', maintWindow N T unit start dur = .ok T' ∧
      Rows T' fun w => if w < 51 ∧ InWindow start dur w then L w ++ [unit] else L w := by
  unfold maintWindow
  by_cases hs : start = -1
  · rw [if_pos hs]
    refine ⟨T, rfl, ?_⟩
    intro w
    have : ¬ InWindow start dur w := fun hi => hi.1 hs
    simp only [this, and_false, if_false]
    exact h w
  rw [if_neg hs]
  simp only
  have hin : ∀ w : ℕ, (start ≤ (w : ℤ) ∧ (w : ℤ) < min 51 (start + dur)) ↔ (w < 51 ∧ InWindow start dur w) := by
    intro w
    unfold InWindow
    constructor
    · rintro ⟨h1, h2⟩
      have := lt_min_iff.1 h2
      exact ⟨by omega, hs, h1, this.2⟩
    · rintro ⟨h1, _, h2, h3⟩
      exact ⟨h2, lt_min_iff.2 ⟨by omega, h3⟩⟩
  simp only [hin]
  rw [if_neg]
  · refine ⟨_, rfl, ?_⟩
    intro w
    obtain ⟨h0, hk⟩ := h w
    by_cases hw : w < 51 ∧ InWindow start dur w
    · simp only [hw, decide_true, true_and, if_true]
      refine ⟨?_, ?_⟩
      · simp [h0]
      · intro k
        rw [if_neg (by simp : ¬ (k + 1 = 0)), h0, hk k]
        by_cases hkl : k = (L w).length
        · subst hkl
          simp
        · have : ¬ (((k + 1 : ℕ) : ℤ) = ((L w).length : ℤ) + 1) := by push_cast; omega
          simp only [this, and_false, if_false]
          rcases Nat.lt_or_ge k (L w).length with hlt | hge
          · rw [List.getD_eq_getElem?_getD, List.getD_eq_getElem?_getD, List.getElem?_append_left hlt]
          · rw [List.getD_eq_getElem?_getD, List.getD_eq_getElem?_getD, List.getElem?_eq_none hge,
              List.getElem?_eq_none (by simp; omega)]
    · simp only [hw, decide_false, false_and, if_false, Bool.false_eq_true]
      exact ⟨h0, hk⟩
  · intro hany
    rw [List.any_eq_true] at hany
    obtain ⟨w, _, hw⟩ := hany
    simp only [Bool.and_eq_true, decide_eq_true_eq] at hw
    obtain ⟨hw1, hw2⟩ := hw
    rw [if_pos ⟨by simpa using hw1, trivial⟩, (h w).1] at hw2
    have := hcap w hw1.1 hw1.2
    omega

/-- C25 (what holds). If no unit has two overlapping planned outages, the table is made without error
and row `w` (for the weeks 0..50) holds the number of units out in week `w` followed by their unit
numbers in card order, each listed once (then -1); row 51 is empty. Missing: week 51 and overlapping
windows. -/
theorem C25_table_partial (ID : List MaintRow)
    (hov : ∀ r ∈ ID, ∀ w, ¬ (InWindow r.start1 r.dur1 w ∧ InWindow r.start2 r.dur2 w)) :
    ∃ T, smaintTable ID = .ok T ∧
      ∀ w, let L := if w < 51 then (ID.filter fun r => OutInWeek r w).map (·.unit) else []
        T w 0 = L.length ∧ ∀ k, T w (k + 1) = L.getD k (-1) := by
  have main : ∀ (rs done : List MaintRow) (T : ℕ → ℕ → ℤ), ID = done ++ rs →
      Rows T (fun w => if w < 51 then (done.filter fun r => OutInWeek r w).map (·.unit) else []) →
      ∃ T', rs.foldlM (fun T r => do
          let T ← maintWindow ID.length T r.unit r.start1 r.dur1
          maintWindow ID.length T r.unit r.start2 r.dur2) T = .ok T' ∧
        Rows T' (fun w => if w < 51 then (ID.filter fun r => OutInWeek r w).map (·.unit) else []) := by
    intro rs
    induction rs with
    | nil =>
      intro done T hd hT
      refine ⟨T, rfl, ?_⟩
      rw [hd, List.append_nil]; exact hT
    | cons r rs ih =>
      intro done T hd hT
      have hlen : ∀ w, (if w < 51 then (done.filter fun r => OutInWeek r w).map (·.unit) else []).length + 1 ≤
          ID.length := by
        intro w
        have h1 : ID.length = done.length + (rs.length + 1) := by rw [hd]; simp
        have h2 := List.length_filter_le (fun r => decide (OutInWeek r w)) done
        split
        · rw [List.length_map]; omega
        · simp; omega
      obtain ⟨T1, e1, hT1⟩ := maintWindow_rows (N := ID.length) hT r.unit r.start1 r.dur1
        (fun w _ _ => hlen w)
      have hr : r ∈ ID := by rw [hd]; simp
      obtain ⟨T2, e2, hT2⟩ := maintWindow_rows (N := ID.length) hT1 r.unit r.start2 r.dur2 (by
        intro w hw hin
        rw [if_neg (fun h => hov r hr w ⟨h.2, hin⟩)]
        exact hlen w)
      obtain ⟨T', e3, hT'⟩ := ih (done ++ [r]) T2 (by rw [hd]; simp) (by
        intro w
        have := hT2 w
        simp only at this
        have hL : (if w < 51 ∧ InWindow r.start2 r.dur2 w then
              (if w < 51 ∧ InWindow r.start1 r.dur1 w then
                (if w < 51 then (done.filter fun r => OutInWeek r w).map (·.unit) else []) ++ [r.unit]
              else if w < 51 then (done.filter fun r => OutInWeek r w).map (·.unit) else []) ++ [r.unit]
            else if w < 51 ∧ InWindow r.start1 r.dur1 w then
                (if w < 51 then (done.filter fun r => OutInWeek r w).map (·.unit) else []) ++ [r.unit]
              else if w < 51 then (done.filter fun r => OutInWeek r w).map (·.unit) else []) =
            if w < 51 then ((done ++ [r]).filter fun r => OutInWeek r w).map (·.unit) else [] := by
          by_cases hw : w < 51
          · have hno := hov r hr w
            by_cases h1 : InWindow r.start1 r.dur1 w
            · have h2 : ¬ InWindow r.start2 r.dur2 w := fun h => hno ⟨h1, h⟩
              have ho : OutInWeek r w := .inl h1
              simp [hw, h1, h2, ho, List.filter_append]
            · by_cases h2 : InWindow r.start2 r.dur2 w
              · have ho : OutInWeek r w := .inr h2
                simp [hw, h1, h2, ho, List.filter_append]
              · have ho : ¬ OutInWeek r w := by rintro (h | h); exact h1 h; exact h2 h
                simp [hw, h1, h2, ho, List.filter_append]
          · simp [hw]
        rw [hL] at this
        exact this)
      refine ⟨T', ?_, hT'⟩
      rw [List.foldlM_cons, e1]
      show ((maintWindow ID.length T1 r.unit r.start2 r.dur2) >>= _) = _
      rw [e2]
      exact e3
  obtain ⟨T', h1, h2⟩ := main ID [] (fun _ c => if c = 0 then 0 else -1) rfl (by
    intro w
    simp)
  exact ⟨T', h1, h2⟩

/-- the rows of the table as the simulation reads them -/
def tableRows (NUNITS : ℕ) (T : ℕ → ℕ → ℤ) : List (List ℤ) :=
  (List.range 52).map fun w => (List.range (NUNITS + 1)).map (T w)

/-- C25/C10 end to end. With unit numbers equal to the card positions and no overlapping windows, the
weekly event that uses row `w` switches off exactly the units with a planned outage in week `w`
(`w ≤ 50`), all others are on. -/
theorem C25_week_event (ID : List MaintRow) (hunit : ∀ u (hu : u < ID.length), (ID[u]).unit = u)
    (hov : ∀ r ∈ ID, ∀ w, ¬ (InWindow r.start1 r.dur1 w ∧ InWindow r.start2 r.dur2 w))
    {T : ℕ → ℕ → ℤ} (hT : smaintTable ID = .ok T) (JHOUR : ℤ) (w : ℕ) (hw : w < 51)
    (hJ : JHOUR / 168 = w) (p p' : List ℚ) (hp : p.length = ID.length)
    (h : weekPlan (tableRows ID.length T) JHOUR p = .ok p') (u : ℕ) (hu : u < ID.length) :
    p'.getD u 0 = if OutInWeek ID[u] w then 0 else 1 := by
  obtain ⟨T', hT', hrows⟩ := C25_table_partial ID hov
  rw [hT] at hT'
  cases hT'
  obtain ⟨h0, hk⟩ := hrows w
  simp only [hw, if_true] at h0 hk
  generalize hL : (ID.filter fun r => OutInWeek r w).map (·.unit) = L at h0 hk
  have hLlen : L.length ≤ ID.length := by
    rw [← hL, List.length_map]; exact List.length_filter_le _ _
  have hrow : (tableRows ID.length T)[(JHOUR / 168).toNat]? =
      some ((L.length : ℤ) :: (L ++ List.replicate (ID.length - L.length) (-1))) := by
    rw [hJ, Int.toNat_natCast]
    unfold tableRows
    rw [List.getElem?_map, List.getElem?_range (by omega)]
    simp only [Option.map_some, Option.some.injEq]
    apply List.ext_getElem
    · simp; omega
    · intro k h1 h2
      simp only [List.getElem_map, List.getElem_range]
      cases k with
      | zero => rw [h0]; rfl
      | succ k =>
        rw [hk, List.getElem_cons_succ]
        rcases Nat.lt_or_ge k L.length with hlt | hge
        · rw [List.getElem_append_left hlt, List.getD_eq_getElem?_getD, List.getElem?_eq_getElem hlt]; rfl
        · rw [List.getElem_append_right hge, List.getElem_replicate, List.getD_eq_getElem?_getD, List.getElem?_eq_none hge]; rfl
  have hmem : (u : ℤ) ∈ L ↔ OutInWeek ID[u] w := by
    rw [← hL, List.mem_map]
    constructor
    · rintro ⟨r, hr, hru⟩
      rw [List.mem_filter] at hr
      obtain ⟨i, hi, rfl⟩ := List.getElem_of_mem hr.1
      rw [hunit i hi] at hru
      have : i = u := by exact_mod_cast hru
      subst this
      simpa using hr.2
    · intro ho
      exact ⟨ID[u], List.mem_filter.2 ⟨List.getElem_mem hu, by simpa using ho⟩, hunit u hu⟩
  have hnn : ∀ x ∈ L, 0 ≤ x := by
    intro x hx
    rw [← hL, List.mem_map] at hx
    obtain ⟨r, hr, rfl⟩ := hx
    obtain ⟨i, hi, rfl⟩ := List.getElem_of_mem (List.mem_filter.1 hr).1
    rw [hunit i hi]; exact Int.natCast_nonneg _
  have := (C10_exactly_listed_units_off h (by omega) (by omega) hrow hnn u (by omega)).2
  rw [this]
  by_cases ho : OutInWeek ID[u] w
  · rw [if_pos ho, if_pos (hmem.2 ho)]
  · rw [if_neg ho, if_neg (fun h => ho (hmem.1 h))]

/-- three units; unit 0 out in weeks 5,6; unit 2 out in week 6 and in week 20 -/
def demoID : List MaintRow := [⟨0, 5, 2, -1, 0⟩, ⟨1, -1, 0, -1, 0⟩, ⟨2, 6, 1, 20, 1⟩]

example : ((smaintTable demoID).map fun T => (tableRows 3 T).getD 6 []) = .ok [2, 0, 2, -1] := by
  decide +kernel

example : ∀ r ∈ demoID, ∀ w, ¬ (InWindow r.start1 r.dur1 w ∧ InWindow r.start2 r.dur2 w) := by
  intro r hr w
  simp only [demoID, List.mem_cons, List.not_mem_nil, or_false] at hr
  rcases hr with rfl | rfl | rfl <;> simp only [InWindow] <;> omega

/-- C25 (what fails). (a) The last week of the year (51) is never listed, whatever the windows; a unit
with a planned outage in weeks 50 and 51 is missing from row 51. (b) A unit whose two windows overlap is
listed twice. -/
theorem C25_table_refuted :
    (∃ ID T, smaintTable ID = .ok T ∧ (∃ r ∈ ID, OutInWeek r 51) ∧ T 51 0 = 0) ∧
    (∃ ID T, smaintTable ID = .ok T ∧ T 10 0 = 2 ∧ T 10 1 = T 10 2) := by
  refine ⟨⟨[⟨0, 50, 2, -1, 0⟩], ?_⟩, ⟨[⟨0, 10, 2, 9, 2⟩, ⟨1, -1, 0, -1, 0⟩], ?_⟩⟩
  · obtain ⟨T, h, hr⟩ := C25_table_partial [⟨0, 50, 2, -1, 0⟩] (by
      intro r hr w
      simp only [List.mem_cons, List.not_mem_nil, or_false] at hr
      subst hr
      simp only [InWindow]; omega)
    refine ⟨T, h, ⟨⟨0, 50, 2, -1, 0⟩, by simp, .inl ⟨by norm_num, by norm_num, by norm_num⟩⟩, ?_⟩
    have := (hr 51).1
    simpa using this
  · exact ⟨_, rfl, by decide +kernel, by decide +kernel⟩

end Narp.Props
