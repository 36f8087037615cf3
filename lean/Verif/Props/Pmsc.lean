import Verif.Model.Pmsc
import Verif.Props.Names
import Verif.Spec.Maintenance

/-!
# Automatic planned maintenance (C62)
-/

namespace Narp.Props
open Narp Narp.Spec

/-! ## The sorted rows are rows of the area -/

theorem pmscPick_mem {rows : List LocRow} {r : LocRow} (h : pmscPick rows = some r) : r ∈ rows := by
  have key : ∀ (l : List LocRow) (b : ℚ × Option LocRow), (∀ x, b.2 = some x → x ∈ rows) → l ⊆ rows →
      ∀ x, (l.foldl (fun (b : ℚ × Option LocRow) r => if b.1 < cdur r then (cdur r, some r) else b) b).2
        = some x → x ∈ rows := by
    intro l
    induction l with
    | nil => intro b hb _ x hx; exact hb x hx
    | cons a l ih =>
      intro b hb hl x hx
      rw [List.foldl_cons] at hx
      refine ih _ ?_ (fun y hy => hl (List.mem_cons_of_mem _ hy)) x hx
      intro y hy
      split at hy
      · cases hy; exact hl (List.mem_cons_self ..)
      · exact hb y hy
  exact key rows _ (by intro x hx; cases hx) (fun _ h => h) r h

theorem pmscPlant_mem : ∀ (n : ℕ) {rows out : List LocRow}, pmscPlant n rows = .ok out →
    ∀ x ∈ out, x ∈ rows := by
  intro n
  induction n with
  | zero => intro rows out h x hx; cases h; cases hx
  | succ n ih =>
    intro rows out h x hx
    unfold pmscPlant at h
    split at h
    · cases h; cases hx
    · split at h
      · cases h
      · rename_i r hr
        cases hp : pmscPlant n (rows.filter fun x => x.ix ≠ r.ix) with
        | error e => rw [hp] at h; cases h
        | ok rest =>
          rw [hp] at h
          cases h
          rcases List.mem_cons.1 hx with rfl | hx
          · exact pmscPick_mem hr
          · exact List.mem_of_mem_filter (ih hp x hx)

theorem foldlM_inv {σ β : Type} {f : σ → β → Except PyErr σ} (P : σ → Prop) :
    ∀ (l : List β) {s s' : σ}, P s → (∀ s s' b, b ∈ l → P s → f s b = .ok s' → P s') →
      l.foldlM f s = .ok s' → P s' := by
  intro l
  induction l with
  | nil => intro s s' h _ e; cases e; exact h
  | cons b l ih =>
    intro s s' h hs e
    rw [List.foldlM_cons] at e
    cases hf : f s b with
    | error x => rw [hf] at e; cases e
    | ok t =>
      rw [hf] at e
      exact ih (hs s t b (List.mem_cons_self ..) h hf)
        (fun s s' b hb => hs s s' b (List.mem_cons_of_mem _ hb)) e

theorem pmscSort_mem {rows out : List LocRow} (h : pmscSort rows = .ok out) : ∀ x ∈ out, x ∈ rows := by
  refine foldlM_inv (fun acc : List LocRow => ∀ x ∈ acc, x ∈ rows) _ (by intro x hx; cases hx) ?_ h
  intro s s' i _ hs e x hx
  cases hp : pmscPlant rows.length (rows.filter fun r => r.plant = i) with
  | error y => rw [hp] at e; cases e
  | ok p =>
    rw [hp] at e
    cases e
    rcases List.mem_append.1 hx with hx | hx
    · exact hs x hx
    · exact List.mem_of_mem_filter (pmscPlant_mem _ hp x hx)

/-- A local row that belongs to a unit of the area. -/
theorem gather_mem {IA : ℤ} {ID : List IdRow} {cap : ℕ → ℚ} {r : LocRow}
    (h : r ∈ pmscGather IA ID cap) :
    ∃ R i, (pmscArea IA ID)[r.ix]? = some (R, i) ∧ ID[i]? = some R ∧ R.area = IA ∧
      r.plant = R.plant ∧ r.h1 = R.s1 * 168 - 168 ∧ r.h2 = R.s2 * 168 - 168 ∧ r.w1 = R.d1 ∧ r.w2 = R.d2 ∧
      r.pre = R.pre ∧ r.cap = cap i := by
  unfold pmscGather at h
  obtain ⟨q, hq, rfl⟩ := List.mem_map.1 h
  obtain ⟨⟨R, i⟩, k⟩ := q
  rw [List.mk_mem_zipIdx_iff_getElem?] at hq
  have hm : (R, i) ∈ pmscArea IA ID := List.mem_of_getElem? hq
  unfold pmscArea at hm
  rw [List.mem_filter, List.mk_mem_zipIdx_iff_getElem?] at hm
  exact ⟨R, i, hq, hm.1, by simpa using hm.2, rfl, rfl, rfl, rfl, rfl, rfl, rfl⟩

theorem area_get {IA : ℤ} {ID : List IdRow} {k : ℕ} {R : IdRow} {i : ℕ}
    (h : (pmscArea IA ID)[k]? = some (R, i)) : ID[i]? = some R ∧ R.area = IA := by
  have hm : (R, i) ∈ pmscArea IA ID := List.mem_of_getElem? h
  unfold pmscArea at hm
  rw [List.mem_filter, List.mk_mem_zipIdx_iff_getElem?] at hm
  exact ⟨hm.1, by simpa using hm.2⟩

theorem pmscRow_cases (sorted : List LocRow) (k : ℕ) :
    pmscRow sorted k = LocRow.zero ∨ pmscRow sorted k ∈ sorted := by
  unfold pmscRow
  split
  · exact .inl rfl
  · rw [List.getD_eq_getElem?_getD]
    cases h : sorted[k - 1]? with
    | none => exact .inl rfl
    | some x => exact .inr (List.mem_of_getElem? h)

theorem pmsc_nps (M : ℕ) (sorted : List LocRow) : pmscNPS M (pmscRow sorted) = 0 := by
  unfold pmscNPS
  cases M with
  | zero => rfl
  | succ M =>
    rw [List.range_succ_eq_map, List.takeWhile_cons]
    simp [pmscRow, LocRow.zero]

theorem weeks_back (x : ℤ) : (x * 168 - 168) / 168 + 1 = x := by omega

/-! ## What `pmsc` may change -/

/-- The unit numbers of `ID` are the row numbers (as `datax` makes them for distinct unit names). -/
def Numbered (ID : List IdRow) : Prop := ∀ (k : ℕ) (r : IdRow), ID[k]? = some r → r.unit = k

/-- Row number `k` is the first row of area `IA`. -/
def FirstOfArea (IA : ℤ) (ID : List IdRow) (k : ℕ) : Prop :=
  (∃ r, ID[k]? = some r ∧ r.area = IA) ∧
    ∀ (j : ℕ) (r : IdRow), j < k → ID[j]? = some r → r.area ≠ IA

theorem area_head {IA : ℤ} {ID : List IdRow} {R : IdRow} {i : ℕ}
    (h : (pmscArea IA ID)[0]? = some (R, i)) : FirstOfArea IA ID i := by
  have key : ∀ (l : List IdRow) (n : ℕ),
      ((l.zipIdx n).filter fun p => decide (p.1.area = IA))[0]? = some (R, i) →
      n ≤ i ∧ l[i - n]? = some R ∧ R.area = IA ∧ ∀ j r, j < i - n → l[j]? = some r → r.area ≠ IA := by
    intro l
    induction l with
    | nil => intro n h; simp at h
    | cons a l ih =>
      intro n h
      rw [List.zipIdx_cons, List.filter_cons] at h
      by_cases ha : a.area = IA
      · simp only [ha, decide_true, if_true, List.getElem?_cons_zero, Option.some.injEq,
          Prod.mk.injEq] at h
        obtain ⟨rfl, rfl⟩ := h
        refine ⟨le_refl _, by simp, ha, ?_⟩
        intro j r hj; omega
      · simp only [ha, decide_false, Bool.false_eq_true, if_false] at h
        obtain ⟨h1, h2, h3, h4⟩ := ih (n + 1) h
        have e : i - n = (i - (n + 1)) + 1 := by omega
        refine ⟨by omega, by rw [e, List.getElem?_cons_succ]; exact h2, h3, ?_⟩
        intro j r hj hr
        cases j with
        | zero => rw [List.getElem?_cons_zero] at hr; cases hr; exact ha
        | succ j =>
          rw [List.getElem?_cons_succ] at hr
          exact h4 j r (by omega) hr
  obtain ⟨_, h2, h3, h4⟩ := key ID 0 h
  exact ⟨⟨R, h2, h3⟩, h4⟩

/-- The state of `ID` during the final loop. -/
def FrameInv (u0 : ℕ) (ID D : List IdRow) : Prop :=
  D.length = ID.length ∧ ∀ k : ℕ, D[k]? = ID[k]? ∨ (k = u0 ∧ D[k]? = (ID[k]?).map (·.setStarts 1 1))

theorem write_real {IA : ℤ} {ID D D' : List IdRow} {u0 : ℕ} (hnum : Numbered ID)
    (hinv : FrameInv u0 ID D) {r : LocRow} {R : IdRow} {i : ℕ}
    (hi : (pmscArea IA ID)[r.ix]? = some (R, i))
    (h1 : r.h1 = R.s1 * 168 - 168) (h2 : r.h2 = R.s2 * 168 - 168)
    (h : pmscWrite (pmscNR0 IA ID) D r = .ok D') :
    FrameInv u0 ID D' ∧ D'[i]? = ID[i]? ∧ ∀ k : ℕ, D[k]? = ID[k]? → D'[k]? = ID[k]? := by
  have hR := (area_get hi).1
  have hu : R.unit = i := hnum i R hR
  unfold pmscWrite at h
  have hnr : (pmscNR0 IA ID)[r.ix]? = some (i : ℤ) := by
    unfold pmscNR0
    rw [List.getElem?_map, hi]
    simp [hu]
  rw [hnr] at h
  dsimp only at h
  split at h
  · cases h
    rw [h1, h2, weeks_back, weeks_back, Int.toNat_natCast]
    have hget : ∀ k : ℕ, (D.modify i fun x => x.setStarts R.s1 R.s2)[k]? =
        if i = k then ID[k]? else D[k]? := by
      intro k
      rw [List.getElem?_modify]
      by_cases hk : i = k
      · subst hk
        simp only [if_true]
        rw [hR]
        rcases hinv.2 i with e | ⟨_, e⟩
        · rw [e, hR]; rfl
        · rw [e, hR]; rfl
      · simp [hk]
    refine ⟨⟨by rw [List.length_modify]; exact hinv.1, ?_⟩, by rw [hget, if_pos rfl], ?_⟩
    · intro k
      rw [hget]
      split
      · exact .inl rfl
      · exact hinv.2 k
    · intro k hk
      rw [hget]
      split
      · rfl
      · exact hk
  · cases h

theorem write_zero {IA : ℤ} {ID D D' : List IdRow} {u0 : ℕ} {R : IdRow} (hnum : Numbered ID)
    (hinv : FrameInv u0 ID D) (hi : (pmscArea IA ID)[0]? = some (R, u0))
    (h : pmscWrite (pmscNR0 IA ID) D LocRow.zero = .ok D') :
    FrameInv u0 ID D' ∧ D'[u0]? = (ID[u0]?).map (·.setStarts 1 1) := by
  have hR := (area_get hi).1
  have hu : R.unit = u0 := hnum u0 R hR
  unfold pmscWrite at h
  have hnr : (pmscNR0 IA ID)[LocRow.zero.ix]? = some (u0 : ℤ) := by
    unfold pmscNR0
    rw [List.getElem?_map]
    show Option.map _ (pmscArea IA ID)[0]? = _
    rw [hi]
    simp [hu]
  rw [hnr] at h
  dsimp only at h
  split at h
  · cases h
    rw [Int.toNat_natCast]
    have hget : ∀ k : ℕ, (D.modify u0 fun x => x.setStarts (LocRow.zero.h1 / 168 + 1) (LocRow.zero.h2 / 168 + 1))[k]?
        = if u0 = k then (ID[k]?).map (·.setStarts 1 1) else D[k]? := by
      intro k
      rw [List.getElem?_modify]
      by_cases hk : u0 = k
      · subst hk
        simp only [if_true]
        rw [hR]
        rcases hinv.2 u0 with e | ⟨_, e⟩
        · rw [e, hR]; rfl
        · rw [e, hR]; rfl
      · simp [hk]
    refine ⟨⟨by rw [List.length_modify]; exact hinv.1, ?_⟩, by rw [hget, if_pos rfl]⟩
    intro k
    rw [hget]
    split
    · rename_i e; exact .inr ⟨e.symm, rfl⟩
    · exact hinv.2 k
  · cases h

theorem gather_length (IA : ℤ) (ID : List IdRow) (cap : ℕ → ℚ) :
    (pmscGather IA ID cap).length = (pmscArea IA ID).length := by
  unfold pmscGather; rw [List.length_map, List.length_zipIdx]

theorem area_length (IA : ℤ) (ID : List IdRow) :
    (pmscArea IA ID).length = ID.countP fun r => r.area = IA := by
  have key : ∀ (l : List IdRow) (n : ℕ),
      ((l.zipIdx n).filter fun p => decide (p.1.area = IA)).length = l.countP fun r => r.area = IA := by
    intro l
    induction l with
    | nil => intro n; rfl
    | cons a l ih =>
      intro n
      rw [List.zipIdx_cons, List.filter_cons, List.countP_cons]
      by_cases ha : a.area = IA
      · simp [ha, ih (n + 1)]
      · simp [ha, ih (n + 1)]
  exact key ID 0

/-- C62 (a frame that holds whatever the plants, capacities and durations). When the scheduling of an area
completes, it has changed nothing but, possibly, the two start weeks of the first unit of that area, which
are then both week 1 (the second week of the year): no other unit of the table has been given, moved or
deprived of a planned outage. The table counter is advanced by one exactly if the area has units. -/
theorem C62_frame (IA : ℤ) (ID ID' : List IdRow) (ITAB ITAB' : ℤ) (cap : ℕ → ℚ) (sl : ℚ → ℚ)
    (hnum : Numbered ID) (h : pmsc IA ID ITAB cap sl = .ok (ID', ITAB')) :
    ID'.length = ID.length ∧
    (∀ k : ℕ, ID'[k]? = ID[k]? ∨
      (FirstOfArea IA ID k ∧ ID'[k]? = (ID[k]?).map fun r => { r with s1 := 1, s2 := 1 })) ∧
    ITAB' = if ∃ r ∈ ID, r.area = IA then ITAB + 1 else ITAB := by
  unfold pmsc at h
  dsimp only at h
  have hcount : (pmscGather IA ID cap).length = 0 ↔ ¬ ∃ r ∈ ID, r.area = IA := by
    rw [gather_length, area_length, List.countP_eq_zero]
    push Not
    simp
  split at h
  · rename_i hM
    cases h
    exact ⟨rfl, fun k => .inl rfl, by rw [if_neg (hcount.1 hM)]⟩
  · rename_i hM
    cases hs : pmscSort (pmscGather IA ID cap) with
    | error e => rw [hs] at h; cases h
    | ok sorted =>
      rw [hs] at h
      change (if pmscNPS _ (pmscRow sorted) ≠ 0 then _ else _) = _ at h
      rw [if_neg (by rw [pmsc_nps]; simp)] at h
      cases hsch : pmscSched ID.length (pmscGather IA ID cap).length (pmscN (pmscGather IA ID cap)) sl
          (pmscRow sorted) (pmscTot ID.length (pmscGather IA ID cap).length sl (pmscRow sorted)) with
      | error e => rw [hsch] at h; cases h
      | ok u =>
        rw [hsch] at h
        dsimp only [bind, Except.bind] at h
        cases hw : (List.range (pmscGather IA ID cap).length).foldlM
            (fun D k => pmscWrite (pmscNR0 IA ID) D (pmscRow sorted k)) ID with
        | error e => rw [hw] at h; cases h
        | ok D' =>
          rw [hw] at h
          cases h
          have hpos : 0 < (pmscArea IA ID).length := by rw [gather_length] at hM; omega
          obtain ⟨⟨R, u0⟩, h0⟩ : ∃ p, (pmscArea IA ID)[0]? = some p :=
            ⟨_, List.getElem?_eq_getElem hpos⟩
          have hinv : FrameInv u0 ID ID' := by
            refine foldlM_inv (FrameInv u0 ID) _ ⟨rfl, fun k => .inl rfl⟩ ?_ hw
            intro D D' k _ hD e
            rcases pmscRow_cases sorted k with hz | hr
            · rw [hz] at e
              exact (write_zero hnum hD h0 e).1
            · obtain ⟨R, i, hi, _, _, _, h1, h2, _⟩ := gather_mem (pmscSort_mem hs _ hr)
              exact (write_real hnum hD hi h1 h2 e).1
          refine ⟨hinv.1, ?_, ?_⟩
          · intro k
            rcases hinv.2 k with e | ⟨rfl, e⟩
            · exact .inl e
            · exact .inr ⟨area_head h0, e⟩
          · rw [if_pos]
            by_contra hne
            exact hM (hcount.2 hne)

/-! ## The tables `datax` makes: one unit per plant -/

/-- Unit and plant number of a row are its row number. -/
def Wired (ID : List IdRow) : Prop := ∀ (k : ℕ) (r : IdRow), ID[k]? = some r → r.unit = k ∧ r.plant = k

theorem Wired.numbered {ID : List IdRow} (h : Wired ID) : Numbered ID := fun k r e => (h k r e).1

theorem foldlM_ok {σ β : Type} {f : σ → β → Except PyErr σ} (P : σ → Prop) :
    ∀ (l : List β) {s : σ}, P s → (∀ s b, b ∈ l → P s → ∃ s', f s b = .ok s' ∧ P s') →
      ∃ s', l.foldlM f s = .ok s' ∧ P s' := by
  intro l
  induction l with
  | nil => intro s h _; exact ⟨s, rfl, h⟩
  | cons b l ih =>
    intro s h hs
    obtain ⟨t, e, ht⟩ := hs s b (List.mem_cons_self ..) h
    rw [List.foldlM_cons, e]
    exact ih ht fun s b hb => hs s b (List.mem_cons_of_mem _ hb)

theorem area_pairwise (IA : ℤ) (ID : List IdRow) :
    (pmscArea IA ID).Pairwise fun p q => p.2 < q.2 := by
  unfold pmscArea
  apply List.Pairwise.filter
  have h : (ID.zipIdx.map Prod.snd).Pairwise (· < ·) := by
    rw [List.zipIdx_map_snd]
    exact List.pairwise_lt_range' ..
  exact List.pairwise_map.1 h

theorem gather_get (IA : ℤ) (ID : List IdRow) (cap : ℕ → ℚ) (k : ℕ) :
    (pmscGather IA ID cap)[k]? = ((pmscArea IA ID)[k]?).map fun p =>
      { ix := k, plant := p.1.plant, h1 := p.1.s1 * 168 - 168, w1 := p.1.d1,
        h2 := p.1.s2 * 168 - 168, w2 := p.1.d2, pre := p.1.pre, cap := cap p.2 } := by
  unfold pmscGather
  rw [List.getElem?_map, List.getElem?_zipIdx]
  cases (pmscArea IA ID)[k]? with
  | none => rfl
  | some p => simp

theorem gather_plants (IA : ℤ) (ID : List IdRow) (cap : ℕ → ℚ) (hw : Wired ID) :
    (pmscGather IA ID cap).map (·.plant) = (pmscArea IA ID).map fun p => ((p.2 : ℕ) : ℤ) := by
  apply List.ext_getElem?
  intro k
  rw [List.getElem?_map, List.getElem?_map, gather_get]
  cases h : (pmscArea IA ID)[k]? with
  | none => rfl
  | some p =>
    obtain ⟨R, i⟩ := p
    simp [(hw i R (area_get h).1).2]

theorem gather_pairwise (IA : ℤ) (ID : List IdRow) (cap : ℕ → ℚ) (hw : Wired ID) :
    (pmscGather IA ID cap).Pairwise fun p q => p.plant < q.plant := by
  have h : ((pmscGather IA ID cap).map (·.plant)).Pairwise (· < ·) := by
    rw [gather_plants IA ID cap hw, List.pairwise_map]
    exact (area_pairwise IA ID).imp fun h => by exact_mod_cast h
  exact List.pairwise_map.1 h

theorem pmscPlant_nil (n : ℕ) : pmscPlant n [] = .ok [] := by cases n <;> rfl

theorem pmscPlant_one (n : ℕ) (r : LocRow) (h : -5 < cdur r) : pmscPlant (n + 1) [r] = .ok [r] := by
  have hp : pmscPick [r] = some r := by
    unfold pmscPick
    simp [h]
  unfold pmscPlant
  rw [if_neg (by simp), hp]
  dsimp only
  have : ([r].filter fun x => decide (x.ix ≠ r.ix)) = [] := by simp
  rw [this, pmscPlant_nil]
  rfl

theorem filter_lt_succ (rows : List LocRow) (hp : rows.Pairwise fun p q => p.plant < q.plant) (n : ℤ) :
    rows.filter (fun r => decide (r.plant < n + 1)) =
      rows.filter (fun r => decide (r.plant < n)) ++ rows.filter (fun r => decide (r.plant = n)) := by
  induction rows with
  | nil => rfl
  | cons a l ih =>
    rw [List.pairwise_cons] at hp
    specialize ih hp.2
    rw [List.filter_cons, List.filter_cons, List.filter_cons]
    rcases lt_trichotomy a.plant n with h | h | h
    · rw [if_pos (by simp; omega), if_pos (by simp; omega), if_neg (by simp; omega), ih]; rfl
    · rw [if_pos (by simp; omega), if_neg (by simp; omega), if_pos (by simp; omega), ih]
      have : l.filter (fun r => decide (r.plant < n)) = [] := by
        rw [List.filter_eq_nil_iff]
        intro x hx
        have := hp.1 x hx
        simp; omega
      rw [this]; rfl
    · rw [if_neg (by simp; omega), if_neg (by simp; omega), if_neg (by simp; omega), ih]

theorem pmscSort_strict (rows : List LocRow) (hp : rows.Pairwise fun p q => p.plant < q.plant)
    (h0 : ∀ r ∈ rows, 0 ≤ r.plant) (hc : ∀ r ∈ rows, -5 < cdur r) :
    pmscSort rows = .ok (rows.filter fun r => decide (r.plant < pmscN rows)) := by
  unfold pmscSort
  generalize pmscN rows = n
  induction n with
  | zero =>
    have : rows.filter (fun r => decide (r.plant < ((0 : ℕ) : ℤ))) = [] := by
      rw [List.filter_eq_nil_iff]
      intro x hx
      have := h0 x hx
      simp; omega
    rw [this]; rfl
  | succ n ih =>
    rw [List.range_succ, List.foldlM_append, ih]
    have hone : pmscPlant rows.length (rows.filter fun r => decide (r.plant = (n : ℤ))) =
        .ok (rows.filter fun r => decide (r.plant = (n : ℤ))) := by
      have hpf := hp.filter (fun r => decide (r.plant = (n : ℤ)))
      have hmem : ∀ x ∈ rows.filter (fun r => decide (r.plant = (n : ℤ))), x ∈ rows ∧ x.plant = n := by
        intro x hx
        rw [List.mem_filter] at hx
        exact ⟨hx.1, by simpa using hx.2⟩
      have hlen := List.length_filter_le (fun r => decide (r.plant = (n : ℤ))) rows
      generalize hF : rows.filter (fun r => decide (r.plant = (n : ℤ))) = F at hpf hmem hlen ⊢
      match F, hpf, hmem, hlen with
      | [], _, _, _ => exact pmscPlant_nil _
      | [r], _, hmem, hlen =>
        obtain ⟨m, hm⟩ : ∃ m, rows.length = m + 1 := ⟨rows.length - 1, by simp at hlen; omega⟩
        rw [hm]
        exact pmscPlant_one m r (hc r (hmem r (by simp)).1)
      | a :: b :: l, hpf, hmem, _ =>
        have h1 := (hmem a (by simp)).2
        have h2 := (hmem b (by simp)).2
        rw [List.pairwise_cons] at hpf
        have := hpf.1 b (by simp)
        omega
    simp only [List.foldlM_cons, List.foldlM_nil]
    dsimp only [bind, Except.bind, pure, Except.pure]
    rw [hone]
    dsimp only
    push_cast
    rw [filter_lt_succ rows hp n]

theorem foldl_max_le (l : List LocRow) : ∀ (m b : ℤ), m ≤ b → (∀ r ∈ l, r.plant ≤ b) →
    l.foldl (fun (m : ℤ) (r : LocRow) => max m r.plant) m ≤ b := by
  induction l with
  | nil => intro m b h _; exact h
  | cons a l ih =>
    intro m b h hl
    rw [List.foldl_cons]
    exact ih _ b (max_le h (hl a (List.mem_cons_self ..))) fun r hr => hl r (List.mem_cons_of_mem _ hr)

theorem pmscN_last (init : List LocRow) (last : LocRow)
    (hp : (init ++ [last]).Pairwise fun p q => p.plant < q.plant) (h0 : 0 ≤ last.plant) :
    ((pmscN (init ++ [last]) : ℕ) : ℤ) = last.plant := by
  unfold pmscN
  rw [List.foldl_append]
  have h : init.foldl (fun (m : ℤ) (r : LocRow) => max m r.plant) 0 ≤ last.plant := by
    apply foldl_max_le _ _ _ h0
    intro r hr
    rw [List.pairwise_append] at hp
    exact le_of_lt (hp.2.2 r hr last (by simp))
  rw [List.foldl_cons, List.foldl_nil, max_eq_right h, Int.toNat_of_nonneg h0]

theorem pmscSort_last (init : List LocRow) (last : LocRow)
    (hp : (init ++ [last]).Pairwise fun p q => p.plant < q.plant) (h0 : ∀ r ∈ init ++ [last], 0 ≤ r.plant)
    (hc : ∀ r ∈ init ++ [last], -5 < cdur r) : pmscSort (init ++ [last]) = .ok init := by
  rw [pmscSort_strict _ hp h0 hc, pmscN_last init last hp (h0 last (by simp)), List.filter_append]
  congr 1
  rw [List.pairwise_append] at hp
  have h1 : init.filter (fun r => decide (r.plant < last.plant)) = init := by
    rw [List.filter_eq_self]
    intro r hr
    simpa using hp.2.2 r hr last (by simp)
  rw [h1]; simp

/-- `N2` is a row with `MWEEK ≠ 0`. -/
theorem pmscSpan_snd (M : ℕ) (mweek : ℕ → ℚ) :
    (pmscSpan M mweek).2 = -1 ∨ ∃ j < M, (pmscSpan M mweek).2 = (j : ℤ) ∧ mweek j ≠ 0 := by
  unfold pmscSpan
  induction M with
  | zero => exact .inl rfl
  | succ M ih =>
    rw [List.range_succ, List.foldl_append, List.foldl_cons, List.foldl_nil]
    dsimp only
    split
    · rename_i h; exact .inr ⟨M, by omega, rfl, h⟩
    · rcases ih with h | ⟨j, hj, h, hne⟩
      · exact .inl h
      · exact .inr ⟨j, by omega, h, hne⟩

theorem argmax_lt {N NU : ℕ} (hN : N < NU) (tot : ℕ → ℚ) (i : ℕ) (hi : i < NU) :
    pmscArgmax N tot i < NU := by
  unfold pmscArgmax
  have key : ∀ (l : List ℕ) (b : ℚ × ℕ), b.2 < NU → (∀ k ∈ l, k < N) →
      (l.foldl (fun (b : ℚ × ℕ) k => if b.1 ≥ tot k then b else (tot k, k)) b).2 < NU := by
    intro l
    induction l with
    | nil => intro b h _; exact h
    | cons a l ih =>
      intro b h hl
      rw [List.foldl_cons]
      refine ih _ ?_ fun k hk => hl k (List.mem_cons_of_mem _ hk)
      split
      · exact h
      · have := hl a (List.mem_cons_self ..)
        show a < NU
        omega
  exact key _ _ hi fun k hk => List.mem_range.1 hk

theorem pmscSched_ok {NU M N : ℕ} {sl : ℚ → ℚ} {row : ℕ → LocRow} (hN : N < NU)
    (huniq : ∀ j k, j < M → k < M → (row j).plant = (row k).plant → mwWeeks sl (row j) ≠ 0 →
      mwWeeks sl (row k) ≠ 0 → j = k) (t : TotSt) :
    pmscSched NU M N sl row t = .ok () := by
  unfold pmscSched
  obtain ⟨s', h, _⟩ := foldlM_ok (f := fun s (_ : ℕ) => pmscSchedStep NU M N sl row t.mwi s)
    (fun s => s.1 < NU) (List.range N) (s := (N, t.tot)) hN (by
      intro s b _ hs
      unfold pmscSchedStep
      rw [if_neg (by omega)]
      dsimp only
      have hi := argmax_lt hN s.2 s.1 hs
      rw [if_neg (by omega)]
      split
      · exact ⟨_, rfl, hi⟩
      · rw [if_neg]
        · exact ⟨_, rfl, hi⟩
        · intro hany
          rw [List.any_eq_true] at hany
          obtain ⟨ja, hja, hd⟩ := hany
          rw [decide_eq_true_eq] at hd
          rw [List.mem_range] at hja
          obtain ⟨_, h2, h3⟩ := hd
          rcases pmscSpan_snd M fun k => if (row k).plant = t.mwi (pmscArgmax N s.2 s.1)
              then mwWeeks sl (row k) else 0 with e | ⟨j, hj, e, hne⟩
          · rw [e] at h2; omega
          · rw [e] at h2
            have hp1 : (row ja).plant = t.mwi (pmscArgmax N s.2 s.1) := by
              by_contra hh; exact h3 (if_neg hh)
            have hp2 : (row j).plant = t.mwi (pmscArgmax N s.2 s.1) := by
              by_contra hh; exact hne (if_neg hh)
            rw [if_pos hp1] at h3
            rw [if_pos hp2] at hne
            have := huniq ja j hja hj (by rw [hp1, hp2]) h3 hne
            omega)
  rw [h]
  rfl

theorem mwWeeks_zero (sl : ℚ → ℚ) : mwWeeks sl LocRow.zero = 0 := by
  unfold mwWeeks LocRow.zero
  simp

theorem row_uniq (init : List LocRow) (hp : init.Pairwise fun p q => p.plant < q.plant) (sl : ℚ → ℚ) :
    ∀ j k, j < init.length + 1 → k < init.length + 1 → (pmscRow init j).plant = (pmscRow init k).plant →
      mwWeeks sl (pmscRow init j) ≠ 0 → mwWeeks sl (pmscRow init k) ≠ 0 → j = k := by
  intro j k hj hk he h1 h2
  cases j with
  | zero => exact absurd (mwWeeks_zero sl) h1
  | succ j =>
    cases k with
    | zero => exact absurd (mwWeeks_zero sl) h2
    | succ k =>
      have e : ∀ i (h : i < init.length), pmscRow init (i + 1) = init[i] := by
        intro i h
        unfold pmscRow
        rw [if_neg (by omega)]
        simp [h]
      rw [e j (by omega), e k (by omega)] at he
      rw [List.pairwise_iff_getElem] at hp
      rcases lt_trichotomy j k with h | h | h
      · have := hp j k (by omega) (by omega) h; omega
      · rw [h]
      · have := hp k j (by omega) (by omega) h; omega

theorem write_ok {IA : ℤ} {ID D : List IdRow} (hnum : Numbered ID) (hlen : D.length = ID.length)
    {r : LocRow} {R : IdRow} {i : ℕ} (hi : (pmscArea IA ID)[r.ix]? = some (R, i)) :
    ∃ D', pmscWrite (pmscNR0 IA ID) D r = .ok D' := by
  have hR := (area_get hi).1
  have hu : R.unit = i := hnum i R hR
  have hnr : (pmscNR0 IA ID)[r.ix]? = some (i : ℤ) := by
    unfold pmscNR0
    rw [List.getElem?_map, hi]
    simp [hu]
  unfold pmscWrite
  rw [hnr]
  dsimp only
  have hlt : i < ID.length := by
    by_contra hh
    rw [List.getElem?_eq_none (by omega)] at hR
    cases hR
  rw [if_pos ⟨by omega, by omega⟩]
  exact ⟨_, rfl⟩

theorem frame_eq {u0 : ℕ} {ID D : List IdRow} (h : FrameInv u0 ID D) (h0 : D[u0]? = ID[u0]?) : D = ID := by
  apply List.ext_getElem?
  intro k
  rcases h.2 k with e | ⟨rfl, e⟩
  · exact e
  · exact h0

/-- The result of scheduling one area for a table of one-unit plants. -/
theorem pmsc_wired (IA : ℤ) (ID : List IdRow) (ITAB : ℤ) (cap : ℕ → ℚ) (sl : ℚ → ℚ) (hw : Wired ID)
    (hcap : ∀ k, 0 ≤ cap k) (hdur : ∀ r ∈ ID, 0 ≤ r.d1) :
    pmsc IA ID ITAB cap sl = .ok
      (if (ID.countP fun r => r.area = IA) = 1 then
          ID.map fun r => if r.area = IA then r.setStarts 1 1 else r
        else ID,
       if (ID.countP fun r => r.area = IA) = 0 then ITAB else ITAB + 1) := by
  unfold pmsc
  dsimp only
  rw [← area_length IA ID, ← gather_length IA ID cap]
  by_cases hM : (pmscGather IA ID cap).length = 0
  · rw [if_pos hM, if_pos hM, if_neg (by omega)]
  rw [if_neg hM, if_neg hM]
  have hpw := gather_pairwise IA ID cap hw
  have hmem : ∀ r ∈ pmscGather IA ID cap, 0 ≤ r.plant ∧ -5 < cdur r := by
    intro r hr
    obtain ⟨R, i, _, hR, _, hpl, _, _, hw1, _, _, hc⟩ := gather_mem hr
    constructor
    · rw [hpl, (hw i R hR).2]; omega
    · have h1 : (0 : ℚ) ≤ r.w1 := by
        rw [hw1]; exact_mod_cast hdur R (List.mem_of_getElem? hR)
      have h2 : (0 : ℚ) ≤ r.cap := by rw [hc]; exact hcap i
      have : (0 : ℚ) ≤ cdur r := mul_nonneg h2 (le_trans h1 (le_max_left _ _))
      linarith
  have hgl := gather_length IA ID cap
  -- split off the last row
  obtain ⟨init, last, hrows⟩ : ∃ init last, pmscGather IA ID cap = init ++ [last] := by
    have hne : pmscGather IA ID cap ≠ [] := fun h => hM (by rw [h]; rfl)
    exact ⟨_, _, (List.dropLast_append_getLast hne).symm⟩
  have hN : pmscN (pmscGather IA ID cap) < ID.length := by
    have hl : last ∈ pmscGather IA ID cap := by rw [hrows]; simp
    obtain ⟨R, i, _, hR, _, hpl, _⟩ := gather_mem hl
    have h1 := pmscN_last init last (by rw [← hrows]; exact hpw) (hmem last hl).1
    rw [hrows]
    rw [hpl, (hw i R hR).2] at h1
    have hlt : i < ID.length := by
      by_contra hh
      rw [List.getElem?_eq_none (by omega)] at hR
      cases hR
    omega
  have hsort : pmscSort (pmscGather IA ID cap) = .ok init := by
    rw [hrows] at hpw hmem ⊢
    exact pmscSort_last init last hpw (fun r hr => (hmem r hr).1) fun r hr => (hmem r hr).2
  have hpi : init.Pairwise fun p q => p.plant < q.plant := by
    rw [hrows, List.pairwise_append] at hpw; exact hpw.1
  have hML : (pmscGather IA ID cap).length = init.length + 1 := by rw [hrows]; simp
  rw [hsort]
  change (if pmscNPS _ (pmscRow init) ≠ 0 then _ else _) = _
  rw [if_neg (by rw [pmsc_nps]; simp)]
  rw [pmscSched_ok hN (by rw [hML]; exact row_uniq init hpi sl)]
  dsimp only [bind, Except.bind]
  -- the final loop
  have hpos : 0 < (pmscArea IA ID).length := by omega
  obtain ⟨⟨R0, u0⟩, h0⟩ : ∃ p, (pmscArea IA ID)[0]? = some p := ⟨_, List.getElem?_eq_getElem hpos⟩
  have hnum := hw.numbered
  obtain ⟨D1, hD1⟩ := write_ok (r := LocRow.zero) (D := ID) hnum rfl h0
  have hz := write_zero hnum ⟨rfl, fun k => .inl rfl⟩ h0 hD1
  have hrow : ∀ i (h : i < init.length), pmscRow init (i + 1) = init[i] := by
    intro i h
    unfold pmscRow
    rw [if_neg (by omega)]
    simp [h]
  have hreal : ∀ i (h : i < init.length), ∃ R n, (pmscArea IA ID)[(init[i]).ix]? = some (R, n) ∧
      (init[i]).h1 = R.s1 * 168 - 168 ∧ (init[i]).h2 = R.s2 * 168 - 168 := by
    intro i h
    have : init[i] ∈ pmscGather IA ID cap := by
      rw [hrows]; exact List.mem_append_left _ (List.getElem_mem h)
    obtain ⟨R, n, hi, _, _, _, h1, h2, _⟩ := gather_mem this
    exact ⟨R, n, hi, h1, h2⟩
  rw [hML, List.range_succ_eq_map, List.foldlM_cons]
  have hr0 : pmscRow init 0 = LocRow.zero := rfl
  rw [hr0, hD1]
  dsimp only [bind, Except.bind]
  rw [List.foldlM_map]
  rcases Nat.eq_zero_or_pos init.length with hil | hil
  · -- a single unit
    rw [hil, if_pos rfl]
    dsimp only [List.range_zero, List.foldlM_nil, pure, Except.pure]
    have hcount : (ID.countP fun r => r.area = IA) = 1 := by rw [← area_length]; omega
    congr 2
    apply List.ext_getElem?
    intro k
    rw [List.getElem?_map]
    have hf := area_head h0
    have huq : ∀ r, ID[k]? = some r → r.area = IA → k = u0 := by
      intro r hr ha
      have hm : (r, k) ∈ pmscArea IA ID := by
        unfold pmscArea
        rw [List.mem_filter, List.mk_mem_zipIdx_iff_getElem?]
        exact ⟨hr, by simpa using ha⟩
      obtain ⟨n, hn⟩ := List.getElem?_of_mem hm
      have hlt : n < (pmscArea IA ID).length := by
        by_contra hh
        rw [List.getElem?_eq_none (by omega)] at hn
        cases hn
      have : n = 0 := by omega
      subst this
      rw [h0] at hn
      cases hn
      rfl
    cases hk : ID[k]? with
    | none =>
      rcases hz.1.2 k with e | ⟨_, e⟩
      · rw [e, hk]; rfl
      · rw [e, hk]; rfl
    | some r =>
      by_cases ha : r.area = IA
      · have := huq r hk ha
        subst this
        rw [hz.2, hk]
        simp [ha]
      · rcases hz.1.2 k with e | ⟨rfl, e⟩
        · rw [e, hk]; simp [ha]
        · obtain ⟨⟨r', hr', ha'⟩, _⟩ := hf
          rw [hk] at hr'
          cases hr'
          exact absurd ha' ha
  · -- at least two units
    rw [if_neg (by omega)]
    have hfix : ∀ n ≤ init.length, 1 ≤ n → (List.range n).foldlM
        (fun D k => pmscWrite (pmscNR0 IA ID) D (pmscRow init (Nat.succ k))) D1 = .ok ID := by
      intro n
      induction n with
      | zero => intro _ h; omega
      | succ n ih =>
        intro hn _
        rw [List.range_succ, List.foldlM_append]
        rcases Nat.eq_zero_or_pos n with rfl | hpn
        · simp only [List.range_zero, List.foldlM_nil, List.foldlM_cons]
          dsimp only [pure, Except.pure, bind, Except.bind]
          rw [show Nat.succ 0 = 0 + 1 from rfl]
          have hix : (init[0]).ix = 0 := by
            have h1 := gather_get IA ID cap 0
            rw [hrows, List.getElem?_append_left hil, List.getElem?_eq_getElem hil, h0] at h1
            simp only [Option.map_some, Option.some.injEq] at h1
            rw [h1]
          obtain ⟨R, i, hi, hh1, hh2⟩ := hreal 0 hil
          rw [hrow 0 hil]
          obtain ⟨D2, hD2⟩ := write_ok (D := D1) hnum hz.1.1 hi
          have hh := write_real hnum hz.1 hi hh1 hh2 hD2
          rw [hD2]
          dsimp only
          have hiu : i = u0 := by
            rw [hix, h0] at hi
            cases hi; rfl
          congr 1
          exact frame_eq hh.1 (by rw [← hiu]; exact hh.2.1)
        · rw [ih (by omega) hpn]
          simp only [List.foldlM_nil, List.foldlM_cons]
          dsimp only [pure, Except.pure, bind, Except.bind]
          obtain ⟨R, i, hi, hh1, hh2⟩ := hreal n (by omega)
          rw [show Nat.succ n = n + 1 from rfl, hrow n (by omega)]
          obtain ⟨D2, hD2⟩ := write_ok (D := ID) hnum rfl hi
          have hh := write_real hnum (u0 := u0) ⟨rfl, fun k => .inl rfl⟩ hi hh1 hh2 hD2
          rw [hD2]
          dsimp only
          congr 1
          apply List.ext_getElem?
          intro k
          exact hh.2.2 k rfl
    rw [hfix init.length (le_refl _) hil]

/-! ## All areas, and the planned outage table -/

/-- The row of a unit after `smaint` has called `pmsc` for the areas below `n`: unchanged, unless the unit
is alone in its area. -/
def afterPmsc (n : ℕ) (ID : List IdRow) (r : IdRow) : IdRow :=
  if 0 ≤ r.area ∧ r.area < n ∧ (ID.countP fun q => q.area = r.area) = 1 then { r with s1 := 1, s2 := 1 }
  else r

theorem afterPmsc_area (n : ℕ) (ID : List IdRow) (r : IdRow) : (afterPmsc n ID r).area = r.area := by
  unfold afterPmsc; split <;> rfl

theorem afterPmsc_wired {ID : List IdRow} (n : ℕ) (h : Wired ID) : Wired (ID.map (afterPmsc n ID)) := by
  intro k r hr
  rw [List.getElem?_map] at hr
  cases hk : ID[k]? with
  | none => rw [hk] at hr; cases hr
  | some x =>
    rw [hk] at hr
    cases hr
    have := h k x hk
    unfold afterPmsc
    split <;> exact this

theorem pmscAll_wired (n : ℕ) (ID : List IdRow) (ITAB : ℤ) (cap : ℕ → ℚ) (sl : ℕ → ℚ → ℚ) (hw : Wired ID)
    (hcap : ∀ k, 0 ≤ cap k) (hdur : ∀ r ∈ ID, 0 ≤ r.d1) :
    pmscAll n ID ITAB cap sl = .ok (ID.map (afterPmsc n ID),
      ITAB + ((List.range n).countP fun (a : ℕ) => ∃ r ∈ ID, r.area = (a : ℤ))) := by
  unfold pmscAll
  induction n with
  | zero =>
    have : ID.map (afterPmsc 0 ID) = ID := by
      rw [List.map_congr_left (g := id), List.map_id]
      intro r _
      unfold afterPmsc
      rw [if_neg (fun h => by have := h.1; have := h.2.1; omega)]
      rfl
    rw [this]
    simp [pure, Except.pure]
  | succ n ih =>
    rw [List.range_succ, List.foldlM_append, ih]
    simp only [List.foldlM_cons, List.foldlM_nil]
    dsimp only [bind, Except.bind]
    have hcnt : ∀ a : ℤ, ((ID.map (afterPmsc n ID)).countP fun r => r.area = a) =
        ID.countP fun r => r.area = a := by
      intro a
      rw [List.countP_map]
      apply List.countP_congr
      intro r _
      simp [afterPmsc_area]
    rw [pmsc_wired n _ _ cap (sl n) (afterPmsc_wired n hw) hcap (by
      intro r hr
      obtain ⟨x, hx, rfl⟩ := List.mem_map.1 hr
      have := hdur x hx
      unfold afterPmsc
      split <;> exact this), hcnt]
    dsimp only [pure, Except.pure]
    congr 2
    · split
      · rename_i h1
        rw [List.map_map]
        apply List.map_congr_left
        intro r _
        simp only [Function.comp, afterPmsc_area]
        unfold afterPmsc
        by_cases hr : r.area = (n : ℤ)
        · rw [if_pos hr, if_neg (fun h => by have := h.2.1; omega),
            if_pos ⟨by omega, by push_cast; omega, by rw [hr]; exact h1⟩]
          rfl
        · rw [if_neg hr]
          refine if_congr ?_ rfl rfl
          push_cast
          constructor
          · rintro ⟨a, b, c⟩; exact ⟨a, by omega, c⟩
          · rintro ⟨a, b, c⟩; exact ⟨a, by omega, c⟩
      · rename_i h1
        apply List.map_congr_left
        intro r _
        unfold afterPmsc
        refine if_congr ?_ rfl rfl
        push_cast
        constructor
        · rintro ⟨a, b, c⟩; exact ⟨a, by omega, c⟩
        · rintro ⟨a, b, c⟩
          refine ⟨a, ?_, c⟩
          by_contra hh
          have : r.area = (n : ℤ) := by omega
          rw [this] at c
          exact h1 c
    · rw [List.countP_append]
      have hz : (ID.countP fun r => r.area = (n : ℤ)) = 0 ↔ ¬ ∃ r ∈ ID, r.area = (n : ℤ) := by
        rw [List.countP_eq_zero]
        push Not
        simp
      by_cases hx : ∃ r ∈ ID, r.area = (n : ℤ)
      · rw [if_neg (fun h => hz.1 h hx), List.countP_singleton, if_pos (by simpa using hx)]
        push_cast
        ring
      · rw [if_pos (hz.2 hx), List.countP_singleton, if_neg (by simpa using hx)]
        push_cast
        ring

/-- C62 (exactly what automatic scheduling does). For every table with one unit per plant, as the program
builds them, the scheduling of all areas completes, and it moves no planned outage: every unit keeps the start
weeks it was entered with, except that a unit which is alone in its area has both start weeks replaced by
week 1, whether its schedule was pre-set or not. The table counter is advanced once per area with units. -/
theorem C62_schedule (NOAREA : ℕ) (ID : List IdRow) (ITAB : ℤ) (cap : ℕ → ℚ) (sl : ℕ → ℚ → ℚ)
    (hw : Wired ID) (hcap : ∀ k, 0 ≤ cap k) (hdur : ∀ r ∈ ID, 0 ≤ r.d1)
    (harea : ∀ r ∈ ID, 0 ≤ r.area ∧ r.area < NOAREA) :
    ∃ ID', pmscAll NOAREA ID ITAB cap sl =
        .ok (ID', ITAB + ((List.range NOAREA).countP fun (a : ℕ) => ∃ r ∈ ID, r.area = (a : ℤ))) ∧
      ID'.length = ID.length ∧
      ∀ (k : ℕ) (r : IdRow), ID[k]? = some r →
        ID'[k]? = some (if (ID.countP fun q => q.area = r.area) = 1 then { r with s1 := 1, s2 := 1 } else r) := by
  refine ⟨_, pmscAll_wired NOAREA ID ITAB cap sl hw hcap hdur, by rw [List.length_map], ?_⟩
  intro k r hr
  rw [List.getElem?_map, hr]
  have ha := harea r (List.mem_of_getElem? hr)
  simp only [Option.map_some, Option.some.injEq]
  unfold afterPmsc
  simp only [ha.1, ha.2, true_and]

/-- Three units of area 0 (two of them left to the program, with 4 and 2 weeks of maintenance, no week entered)
and a lone pre-set unit of area 1 entered with week 20. -/
def pmDemo : List IdRow :=
  [⟨0, 0, 0, -1, 4, -1, 0, 0⟩, ⟨1, 1, 0, 9, 3, -1, 0, 1⟩, ⟨2, 2, 0, -1, 2, -1, 0, 0⟩, ⟨3, 3, 1, 20, 3, -1, 0, 1⟩]

theorem pmDemo_wired : Wired pmDemo := by
  intro k r h
  match k with
  | 0 => cases h; exact ⟨rfl, rfl⟩
  | 1 => cases h; exact ⟨rfl, rfl⟩
  | 2 => cases h; exact ⟨rfl, rfl⟩
  | 3 => cases h; exact ⟨rfl, rfl⟩
  | k + 4 => cases h

example : (∀ r ∈ pmDemo, 0 ≤ r.d1) ∧ (∀ r ∈ pmDemo, 0 ≤ r.area ∧ r.area < (2 : ℕ)) ∧
    pmscAll 2 pmDemo 6 (fun _ => 100) (fun _ c => c) = .ok
      ([⟨0, 0, 0, -1, 4, -1, 0, 0⟩, ⟨1, 1, 0, 9, 3, -1, 0, 1⟩, ⟨2, 2, 0, -1, 2, -1, 0, 0⟩,
        ⟨3, 3, 1, 1, 3, 1, 0, 1⟩], 8) := by
  refine ⟨by decide +kernel, by decide +kernel, ?_⟩
  decide +kernel

/-- C62, refuted for the automatic units: in every table the program builds in which an area has at least
two units, a unit left to the program and entered without a week never gets one. So the promise fails for
every such table and every choice of windows (weeks being numbered from 0). -/
theorem C62_automatic_refuted (NOAREA : ℕ) (ID : List IdRow) (ITAB : ℤ) (cap : ℕ → ℚ) (sl : ℕ → ℚ → ℚ)
    (hw : Wired ID) (hcap : ∀ k, 0 ≤ cap k) (hdur : ∀ r ∈ ID, 0 ≤ r.d1)
    (harea : ∀ r ∈ ID, 0 ≤ r.area ∧ r.area < NOAREA)
    (k : ℕ) (r : IdRow) (hr : ID[k]? = some r) (hauto : r.pre = 0) (hd : 0 < r.d1) (hno : r.s1 = -1)
    (hmany : (ID.countP fun q => q.area = r.area) ≠ 1)
    (lo hi f1 f2 : ℤ → ℤ) (hlo : 0 ≤ lo r.area) (ID' : List IdRow) (ITAB' : ℤ)
    (h : pmscAll NOAREA ID ITAB cap sl = .ok (ID', ITAB')) : ¬ MaintPromise lo hi f1 f2 ID ID' := by
  obtain ⟨ID'', h', _, hk⟩ := C62_schedule NOAREA ID ITAB cap sl hw hcap hdur harea
  rw [h] at h'
  cases h'
  intro hp
  have := (hp k r _ hr (hk k r hr)).2 hauto hd
  rw [if_neg hmany, hno] at this
  omega

/-- C62, refuted for the pre-set units: a unit alone in its area loses its pre-set weeks. -/
theorem C62_preset_refuted (NOAREA : ℕ) (ID : List IdRow) (ITAB : ℤ) (cap : ℕ → ℚ) (sl : ℕ → ℚ → ℚ)
    (hw : Wired ID) (hcap : ∀ k, 0 ≤ cap k) (hdur : ∀ r ∈ ID, 0 ≤ r.d1)
    (harea : ∀ r ∈ ID, 0 ≤ r.area ∧ r.area < NOAREA)
    (k : ℕ) (r : IdRow) (hr : ID[k]? = some r) (hpre : r.pre ≠ 0) (hs : r.s1 ≠ 1)
    (hlone : (ID.countP fun q => q.area = r.area) = 1)
    (lo hi f1 f2 : ℤ → ℤ) (ID' : List IdRow) (ITAB' : ℤ)
    (h : pmscAll NOAREA ID ITAB cap sl = .ok (ID', ITAB')) : ¬ MaintPromise lo hi f1 f2 ID ID' := by
  obtain ⟨ID'', h', _, hk⟩ := C62_schedule NOAREA ID ITAB cap sl hw hcap hdur harea
  rw [h] at h'
  cases h'
  intro hp
  have := ((hp k r _ hr (hk k r hr)).1 hpre).1
  rw [if_pos hlone] at this
  exact hs this.symm

example : (∃ r, pmDemo[2]? = some r ∧ r.pre = 0 ∧ 0 < r.d1 ∧ r.s1 = -1 ∧
      (pmDemo.countP fun q => q.area = r.area) ≠ 1) ∧
    (∃ r, pmDemo[3]? = some r ∧ r.pre ≠ 0 ∧ r.s1 ≠ 1 ∧ (pmDemo.countP fun q => q.area = r.area) = 1) :=
  ⟨⟨_, rfl, by decide, by decide, by decide, by decide⟩, ⟨_, rfl, by decide, by decide, by decide⟩⟩

/-- C62, the positive part for a whole run of `smaint`: if no area has exactly one unit and no unit has two
overlapping planned outages, the planned outage table is made without error and its row `w` (weeks 0 to
50) lists exactly the units with an outage in week `w` by the weeks entered on the cards. In particular a
unit entered without weeks, automatic or not, is in no row. -/
theorem C62_table (NOAREA : ℕ) (ID : List IdRow) (ITAB : ℤ) (cap : ℕ → ℚ) (sl : ℕ → ℚ → ℚ)
    (hw : Wired ID) (hcap : ∀ k, 0 ≤ cap k) (hdur : ∀ r ∈ ID, 0 ≤ r.d1)
    (hmany : ∀ a : ℤ, (ID.countP fun q => q.area = a) ≠ 1)
    (hov : ∀ r ∈ ID, ∀ w, ¬ (InWindow r.s1 r.d1 w ∧ InWindow r.s2 r.d2 w)) :
    ∃ T ITAB', smaint NOAREA ID ITAB cap sl = .ok (T, ITAB', ID) ∧
      (∀ w, let L := if w < 51 then
            (ID.filter fun r => InWindow r.s1 r.d1 w ∨ InWindow r.s2 r.d2 w).map (·.unit) else []
        T w 0 = L.length ∧ ∀ k, T w (k + 1) = L.getD k (-1)) ∧
      ∀ r ∈ ID, r.s1 = -1 → r.s2 = -1 → ∀ w k, T w (k + 1) ≠ r.unit := by
  have hsame : ID.map (afterPmsc NOAREA ID) = ID := by
    rw [List.map_congr_left (g := id), List.map_id]
    intro r _
    unfold afterPmsc
    rw [if_neg fun h => hmany _ h.2.2]
    rfl
  have hall := pmscAll_wired NOAREA ID ITAB cap sl hw hcap hdur
  rw [hsame] at hall
  obtain ⟨T, hT, hrows⟩ := C25_table_partial (ID.map IdRow.maint) (by
    intro r hr w
    obtain ⟨x, hx, rfl⟩ := List.mem_map.1 hr
    exact hov x hx w)
  have hL : ∀ w, ((ID.map IdRow.maint).filter fun r => decide (OutInWeek r w)).map (·.unit) =
      (ID.filter fun r => decide (InWindow r.s1 r.d1 w ∨ InWindow r.s2 r.d2 w)).map (·.unit) := by
    intro w
    rw [List.filter_map, List.map_map]
    rfl
  have hrow : ∀ w, let L := if w < 51 then
        (ID.filter fun r => decide (InWindow r.s1 r.d1 w ∨ InWindow r.s2 r.d2 w)).map (·.unit) else []
      T w 0 = L.length ∧ ∀ k, T w (k + 1) = L.getD k (-1) := by
    intro w
    have := hrows w
    rw [hL w] at this
    exact this
  refine ⟨T, ITAB + ((List.range NOAREA).countP fun (a : ℕ) => ∃ r ∈ ID, r.area = (a : ℤ)), ?_, hrow, ?_⟩
  · unfold smaint
    rw [hall]
    dsimp only [bind, Except.bind]
    rw [hT]
  · intro r hr h1 h2 w k e
    have hk := (hrow w).2 k
    rw [e] at hk
    obtain ⟨n, hn⟩ := List.getElem?_of_mem hr
    have hu := (hw n r hn).1
    have hin : r.unit ∈ (if w < 51 then
        (ID.filter fun r => decide (InWindow r.s1 r.d1 w ∨ InWindow r.s2 r.d2 w)).map (·.unit) else []) := by
      generalize (if w < 51 then
        (ID.filter fun r => decide (InWindow r.s1 r.d1 w ∨ InWindow r.s2 r.d2 w)).map (·.unit) else [])
        = L at hk ⊢
      rw [List.getD_eq_getElem?_getD] at hk
      cases hg : L[k]? with
      | none => rw [hg] at hk; simp only [Option.getD_none] at hk; omega
      | some x => rw [hg] at hk; simp only [Option.getD_some] at hk; rw [hk]; exact List.mem_of_getElem? hg
    split at hin
    · obtain ⟨x, hx, hxu⟩ := List.mem_map.1 hin
      rw [List.mem_filter] at hx
      obtain ⟨m, hm⟩ := List.getElem?_of_mem hx.1
      have hxm := (hw m x hm).1
      have : m = n := by rw [hu, hxm] at hxu; exact_mod_cast hxu
      subst this
      rw [hn] at hm
      cases hm
      have := hx.2
      rw [decide_eq_true_eq] at this
      rcases this with h | h
      · exact h.1 h1
      · exact h.1 h2
    · cases hin

example : (∀ a : ℤ, ((pmDemo.take 3).countP fun q => q.area = a) ≠ 1) ∧
    (∀ r ∈ pmDemo.take 3, ∀ w, ¬ (InWindow r.s1 r.d1 w ∧ InWindow r.s2 r.d2 w)) := by
  constructor
  · intro a h
    by_cases ha : a = 0
    · subst ha; revert h; decide
    · have : ¬ (0 : ℤ) = a := fun e => ha e.symm
      simp [pmDemo, this] at h
  · intro r hr w h
    have key : ∀ r ∈ pmDemo.take 3, r.s2 = -1 := by decide
    exact h.2.1 (key r hr)

/-! ## Where the tables come from -/

theorem nat_index {α : Type} [DecidableEq α] (names : List α) (hn : names.Nodup) (NAT : List ℕ)
    (hN : names.mapM (nameToInt names) = .ok NAT) (k n : ℕ) (h : NAT[k]? = some n) : n = k := by
  have hf := (mapM_ok_iff (nameToInt names) names NAT).1 hN
  obtain ⟨hk, rfl⟩ := List.getElem?_eq_some_iff.1 h
  have hlen := hf.length_eq
  have h1 := (List.forall₂_iff_get.1 hf).2 k (by omega) hk
  have h2 := ((C21_name names).2.2.2.2 hn _ _).1 h1
  obtain ⟨hn', h3⟩ := List.getElem?_eq_some_iff.1 h2
  exact (List.Nodup.getElem_inj_iff hn).1 h3

/-- Tables made by `datax` from unit cards with distinct names have the form assumed above. -/
theorem dataxID_wired {α : Type} [DecidableEq α] (names : List α) (hn : names.Nodup) (NAT NAR : List ℕ)
    (hN : names.mapM (nameToInt names) = .ok NAT) (cards : List UnitCard) :
    Wired (dataxID NAT NAR cards) := by
  have hNAT : ∀ (k n : ℕ), NAT[k]? = some n → n = k := by
    intro k n h
    exact nat_index names hn NAT hN k n h
  intro k r hr
  unfold dataxID at hr
  rw [List.getElem?_map] at hr
  cases hz : (NAT.zip (NAR.zip cards))[k]? with
  | none => rw [hz] at hr; cases hr
  | some p =>
    rw [hz] at hr
    obtain ⟨t, a, c⟩ := p
    have h1 : NAT[k]? = some t := by
      rw [List.getElem?_zip_eq_some] at hz
      exact hz.1
    have := hNAT k t h1
    cases hr
    subst this
    exact ⟨rfl, rfl⟩

example : (["U1", "U2", "U3"] : List String).mapM (nameToInt ["U1", "U2", "U3"]) = .ok [0, 1, 2] ∧
    dataxID [0, 1, 2] [0, 1, 0] [⟨0, 0, 4, 0, 0⟩, ⟨1, 10, 3, 0, 0⟩, ⟨0, 0, 2, 30, 1⟩] =
      [⟨0, 0, 0, -1, 4, -1, 0, 0⟩, ⟨1, 1, 1, 9, 3, -1, 0, 1⟩, ⟨2, 2, 0, -1, 2, 29, 1, 0⟩] := by
  decide +kernel

/-- C62, refuted for plants with several units (tables that only a direct caller of the API can build): two
units of the first plant, both to be scheduled, make the scheduling fail with a TypeError; and then no
plan is produced at all. -/
theorem C62_two_units_refuted :
    ∃ ID : List IdRow, Numbered ID ∧ (∀ r ∈ ID, r.area = 0 ∧ 0 < r.d1 ∧ r.pre = 0) ∧
      pmsc 0 ID 6 (fun _ => 100) (fun c => c) = .error .typeError := by
  refine ⟨[⟨0, 1, 0, -1, 2, -1, 0, 0⟩, ⟨1, 1, 0, -1, 3, -1, 0, 0⟩, ⟨2, 2, 0, -1, 4, -1, 0, 0⟩,
    ⟨3, 3, 0, -1, 1, -1, 0, 0⟩], ?_, by decide, by decide +kernel⟩
  intro k r h
  match k with
  | 0 => cases h; rfl
  | 1 => cases h; rfl
  | 2 => cases h; rfl
  | 3 => cases h; rfl
  | k + 4 => cases h

end Narp.Props
