import Verif.Spec.Queue

/-! Helper lemmas for the event calendar. -/

namespace Narp
open Spec

theorem rd_nat {E : List ℚ} {p : ℕ} (h : p < E.length) : rd E (p : ℤ) = .ok (E.getD p 0) := by
  unfold rd pyIdx
  have h0 : (0 : ℤ) ≤ p := by omega
  have h1 : (p : ℤ) < E.length := by omega
  simp only [h0, h1, if_true, Except.map]
  rfl

theorem wr_nat {E : List ℚ} {p : ℕ} (h : p < E.length) (v : ℚ) :
    wr E (p : ℤ) v = .ok (E.set p v) := by
  unfold wr pyIdx
  have h0 : (0 : ℤ) ≤ p := by omega
  have h1 : (p : ℤ) < E.length := by omega
  simp only [h0, h1, if_true, Except.map]
  rfl

theorem getD_set (E : List ℚ) (i j : ℕ) (v : ℚ) :
    (E.set i v).getD j 0 = if i = j ∧ j < E.length then v else E.getD j 0 := by
  simp only [List.getD_eq_getElem?_getD, List.getElem?_set]
  by_cases h : i = j
  · subst h
    by_cases h2 : i < E.length
    · simp [h2]
    · simp [h2]
  · simp [h]

theorem pyInt_intCast (z : ℤ) : pyInt (z : ℚ) = z := by
  unfold pyInt
  split <;> simp

theorem Spec.Chain.frame {E E' : List ℚ} (hlen : E'.length = E.length) :
    ∀ {ip : ℤ} {l : List (ℕ × Ev)}, Chain E ip l →
      (∀ x ∈ l, ∀ k < 3, E'.getD (x.1 + k) 0 = E.getD (x.1 + k) 0) → Chain E' ip l
  | ip, [], h, _ => h
  | ip, (p, e) :: r, h, hf => by
    obtain ⟨h1, h2, h3, h4, h5, nx, h6, h7⟩ := h
    have := hf (p, e) (by simp)
    refine ⟨h1, h2, by omega, ?_, ?_, nx, ?_, Spec.Chain.frame hlen h7 fun x hx => hf x (by simp [hx])⟩
    · rw [this 1 (by omega)]; exact h4
    · rw [this 2 (by omega)]; exact h5
    · have := this 0 (by omega); simp only [Nat.add_zero] at this; rw [this]; exact h6

theorem Spec.Chain.slot {E : List ℚ} : ∀ {ip : ℤ} {l : List (ℕ × Ev)}, Chain E ip l →
    ∀ x ∈ l, 4 ∣ x.1 ∧ x.1 + 4 ≤ E.length
  | ip, [], _, x, hx => by simp at hx
  | ip, (p, e) :: r, h, x, hx => by
    obtain ⟨h1, h2, h3, h4, h5, nx, h6, h7⟩ := h
    rcases List.mem_cons.1 hx with rfl | hx
    · exact ⟨h2, h3⟩
    · exact Spec.Chain.slot h7 x hx

/-- number of slots of the array bounds the length of a chain -/
theorem Spec.Chain.length_le {E : List ℚ} {ip : ℤ} {l : List (ℕ × Ev)} (h : Chain E ip l)
    (hn : (l.map Prod.fst).Nodup) : l.length ≤ E.length := by
  have hsub : l.map Prod.fst ⊆ List.range E.length := by
    intro x hx
    obtain ⟨y, hy, rfl⟩ := List.mem_map.1 hx
    have := (h.slot y hy).2
    exact List.mem_range.2 (by omega)
  have := (List.subperm_of_subset hn hsub).length_le
  simpa using this

/-- redirect the link of one slot of a chain -/
theorem Spec.Chain.relink {E : List ℚ} {k : ℕ} {e : Ev} {new : ℤ} {B B' : List (ℕ × Ev)} :
    ∀ {ip : ℤ} (A : List (ℕ × Ev)), Chain E ip (A ++ (k, e) :: B) →
      ((A ++ (k, e) :: B).map Prod.fst).Nodup →
      Chain (E.set k new) new B' → Chain (E.set k new) ip (A ++ (k, e) :: B')
  | ip, [], h, hn, hB => by
    obtain ⟨h1, h2, h3, h4, h5, nx, h6, h7⟩ := h
    refine ⟨h1, h2, by simpa using h3, ?_, ?_, new, ?_, hB⟩
    · rw [getD_set, if_neg (by omega)]; exact h4
    · rw [getD_set, if_neg (by omega)]; exact h5
    · rw [getD_set, if_pos (by omega)]
  | ip, (p, e') :: A, h, hn, hB => by
    have hs := Spec.Chain.slot h (k, e) (by simp)
    obtain ⟨h1, h2, h3, h4, h5, nx, h6, h7⟩ := h
    simp only [List.cons_append, List.map_cons, List.nodup_cons] at hn
    have hpk : p ≠ k := by
      intro hpk; apply hn.1; subst hpk; simp
    have h2' := h2
    obtain ⟨a, ha⟩ := h2'
    obtain ⟨⟨b, hb⟩, _⟩ := hs
    simp only at hb
    refine ⟨h1, h2, by simpa using h3, ?_, ?_, nx, ?_, Spec.Chain.relink A h7 hn.2 hB⟩
    · rw [getD_set, if_neg (by omega)]; exact h4
    · rw [getD_set, if_neg (by omega)]; exact h5
    · rw [getD_set, if_neg (by omega)]; exact h6

/-- where the search loop stops -/
theorem filemWalk_spec {E : List ℚ} {t : ℚ} : ∀ (l : List (ℕ × Ev)) (fuel : ℕ) (K : ℤ) (j : ℤ) (p : ℕ) (e : Ev)
    (_ : Chain E j ((p, e) :: l)) (_ : e.time < t) (_ : l.length + 1 < fuel),
    ∃ (A : List (ℕ × Ev)) (k : ℕ) (e' : Ev) (B : List (ℕ × Ev)), (p, e) :: l = A ++ (k, e') :: B ∧
      (∀ x ∈ A ++ [(k, e')], x.2.time < t) ∧
      ((B = [] ∧ filemWalk E t fuel K j = .ok ((k : ℤ), -1)) ∨
       (∃ (b : ℕ) (eb : Ev) (B' : List (ℕ × Ev)), B = (b, eb) :: B' ∧ t ≤ eb.time ∧ Chain E (b : ℤ) B ∧
        filemWalk E t fuel K j = .ok ((k : ℤ), (b : ℤ))))
  | l, 0, _, _, _, _, _, _, hf => by omega
  | l, fuel + 1, K, j, p, e, h, ht, hf => by
    obtain ⟨h1, h2, h3, h4, h5, nx, h6, h7⟩ := h
    subst h1
    have hrd1 : rd E ((p : ℤ) + 1) = .ok e.time := by
      have := rd_nat (E := E) (p := p + 1) (by omega)
      rw [h4] at this; push_cast at this; exact this
    have hrd0 : rd E (p : ℤ) = .ok (nx : ℚ) := by
      rw [rd_nat (by omega), h6]
    have hstep : filemWalk E t (fuel + 1) K p =
        if nx = -1 then .ok ((p : ℤ), -1) else filemWalk E t fuel p nx := by
      rw [filemWalk]
      simp only [hrd1, hrd0, bind, Except.bind, pure, Except.pure, pyInt_intCast, gt_iff_lt, ht,
        if_true]
    match l, h7, hf with
    | [], h7, hf =>
      refine ⟨[], p, e, [], rfl, ?_, Or.inl ⟨rfl, ?_⟩⟩
      · simpa using ht
      · rw [hstep, if_pos (show nx = -1 from h7)]
    | (b, eb) :: l', h7, hf =>
      have hb : nx = (b : ℤ) := h7.1
      subst hb
      have hne : ¬ ((b : ℤ) = -1) := by omega
      by_cases hlt : eb.time < t
      · obtain ⟨A, k, e', B, heq, hall, hres⟩ :=
          filemWalk_spec l' fuel p b b eb h7 hlt (by simp at hf; omega)
        refine ⟨(p, e) :: A, k, e', B, by rw [heq]; rfl, ?_, ?_⟩
        · intro x hx
          rcases List.mem_cons.1 hx with rfl | hx
          · exact ht
          · exact hall x hx
        · rw [hstep, if_neg hne]; exact hres
      · refine ⟨[], p, e, (b, eb) :: l', rfl, ?_, Or.inr ⟨b, eb, l', rfl, not_lt.1 hlt, h7, ?_⟩⟩
        · simpa using ht
        · rw [hstep, if_neg hne]
          obtain ⟨fuel', rfl⟩ : ∃ f, fuel = f + 1 := ⟨fuel - 1, by simp at hf; omega⟩
          rw [filemWalk]
          obtain ⟨_, g2, g3, g4, _⟩ := h7
          have hrd : rd E ((b : ℤ) + 1) = .ok eb.time := by
            have := rd_nat (E := E) (p := b + 1) (by omega)
            rw [g4] at this; push_cast at this; exact this
          simp only [hrd, bind, Except.bind, pure, Except.pure, gt_iff_lt, hlt, if_false]

/-- Ordered insertion, new event before events of the same time. -/
def insertEv (s : Ev) : List Ev → List Ev
  | [] => [s]
  | e :: r => if e.time < s.time then e :: insertEv s r else s :: e :: r

theorem insertEv_perm (s : Ev) : ∀ q, (insertEv s q).Perm (s :: q)
  | [] => List.Perm.refl _
  | e :: r => by
    unfold insertEv
    split
    · exact ((insertEv_perm s r).cons e).trans (List.Perm.swap s e r)
    · exact List.Perm.refl _

theorem insertEv_append (s : Ev) : ∀ (A B : List Ev), (∀ x ∈ A, x.time < s.time) →
    (∀ x ∈ B.head?, s.time ≤ x.time) → insertEv s (A ++ B) = A ++ s :: B
  | [], [], _, _ => rfl
  | [], b :: B, _, hB => by
    have := hB b (by simp)
    simp only [List.nil_append, insertEv, not_lt.2 this, if_false]
  | a :: A, B, hA, hB => by
    have h1 := hA a (by simp)
    simp only [List.cons_append, insertEv, h1, if_true]
    rw [insertEv_append s A B (fun x hx => hA x (by simp [hx])) hB]

theorem insertEv_sorted (s : Ev) {q : List Ev} (h : q.Pairwise fun a b => a.time ≤ b.time) :
    (insertEv s q).Pairwise fun a b => a.time ≤ b.time := by
  induction q with
  | nil => simp [insertEv]
  | cons e r ih =>
    unfold insertEv
    rw [List.pairwise_cons] at h
    split
    · rename_i hlt
      rw [List.pairwise_cons]
      refine ⟨fun x hx => ?_, ih h.2⟩
      have := (insertEv_perm s r).mem_iff.1 hx
      rcases List.mem_cons.1 this with rfl | hx
      · exact le_of_lt hlt
      · exact h.1 x hx
    · rename_i hlt
      rw [List.pairwise_cons]
      refine ⟨fun x hx => ?_, by rw [List.pairwise_cons]; exact h⟩
      rcases List.mem_cons.1 hx with rfl | hx
      · exact not_lt.1 hlt
      · exact le_trans (not_lt.1 hlt) (h.1 x hx)

/-- `filem` into a free slot. -/
theorem filem_chain {c : Cal} {l : List (ℕ × Ev)} {m : ℕ} (hc : Chain c.E c.IPOINT l)
    (hn : (l.map Prod.fst).Nodup) (hm : c.MFA = m) (hm4 : 4 ∣ m) (hmlen : m + 4 ≤ c.E.length)
    (hfree : m ∉ l.map Prod.fst) (s : Ev) :
    ∃ c' l', filem c s.time s.kind = .ok c' ∧ Chain c'.E c'.IPOINT l' ∧
      (l'.map Prod.fst).Perm (m :: l.map Prod.fst) ∧
      l'.map Prod.snd = insertEv s (l.map Prod.snd) ∧
      c'.NUMINQ = c.NUMINQ + 1 ∧ c'.E.length = c.E.length ∧
      c'.MFA = pyInt (c.E.getD m 0) ∧
      (∀ k, 4 ∣ k → k ≠ m → k ∉ l.map Prod.fst → c'.E.getD k 0 = c.E.getD k 0) := by
  obtain ⟨E, MFA, IPOINT, NUMINQ⟩ := c
  simp only at hc hm hmlen ⊢
  subst hm
  set E1 := (E.set (m + 1) s.time).set (m + 2) s.kind with hE1
  have hlen1 : E1.length = E.length := by simp [hE1]
  have hw1 : wr E ((m : ℤ) + 1) s.time = .ok (E.set (m + 1) s.time) := by
    have := wr_nat (E := E) (p := m + 1) (by omega) s.time
    push_cast at this; exact this
  have hw2 : wr (E.set (m + 1) s.time) ((m : ℤ) + 2) s.kind = .ok E1 := by
    have := wr_nat (E := E.set (m + 1) s.time) (p := m + 2) (by simp; omega) s.kind
    push_cast at this; exact this
  have hg0 : E1.getD m 0 = E.getD m 0 := by
    rw [hE1, getD_set, if_neg (by omega), getD_set, if_neg (by omega)]
  have hrm : rd E1 (m : ℤ) = .ok (E.getD m 0) := by rw [rd_nat (by omega), hg0]
  have hslot4 : ∀ k, 4 ∣ k → k ≠ m → ∀ d < 4, E1.getD (k + d) 0 = E.getD (k + d) 0 := by
    intro k hk4 hkm d hd
    obtain ⟨a, ha⟩ := hk4
    obtain ⟨b, hb⟩ := hm4
    rw [hE1, getD_set, if_neg (by omega), getD_set, if_neg (by omega)]
  have hc1 : Chain E1 IPOINT l := by
    refine hc.frame hlen1 fun x hx k hk => ?_
    refine hslot4 x.1 (hc.slot x hx).1 ?_ k (by omega)
    rintro rfl
    exact hfree (List.mem_map.2 ⟨x, hx, rfl⟩)
  have ht1 : E1.getD (m + 1) 0 = s.time := by
    rw [hE1, getD_set, if_neg (by omega), getD_set, if_pos (by omega)]
  have ht2 : E1.getD (m + 2) 0 = s.kind := by
    rw [hE1, getD_set, if_pos (by simp; omega)]
  -- linking the new slot to `nx` in front of a chain `B`
  have hnew : ∀ (nx : ℤ) (B : List (ℕ × Ev)), Chain E1 nx B → m ∉ B.map Prod.fst →
      Chain (E1.set m (nx : ℚ)) (m : ℤ) ((m, s) :: B) := by
    intro nx B hB hmB
    refine ⟨rfl, hm4, by simp only [List.length_set]; omega, ?_, ?_, nx, ?_, ?_⟩
    · rw [getD_set, if_neg (by omega)]; exact ht1
    · rw [getD_set, if_neg (by omega)]; exact ht2
    · rw [getD_set, if_pos (by omega)]
    · refine hB.frame (by simp) fun x hx k hk => ?_
      have hx4 := (hB.slot x hx).1
      have hxm : x.1 ≠ m := by
        rintro rfl; exact hmB (List.mem_map.2 ⟨x, hx, rfl⟩)
      obtain ⟨a, ha⟩ := hx4
      obtain ⟨b, hb⟩ := hm4
      rw [getD_set, if_neg (by omega)]
  match l, hc, hn, hfree, hc1 with
  | [], hc, hn, hfree, hc1 =>
    have hip : IPOINT = -1 := hc
    refine ⟨⟨E1.set m ((-1 : ℤ) : ℚ), pyInt (E.getD m 0), m, NUMINQ + 1⟩, [(m, s)], ?_,
      hnew (-1) [] rfl (by simp), by simp, by simp [insertEv], rfl, by simp [hlen1], rfl, ?_⟩
    · unfold filem
      have hw3 := wr_nat (E := E1) (p := m) (by omega) (((-1 : ℤ) : ℚ))
      simp only [hw1, hw2, hrm, bind, Except.bind, pure, Except.pure, hip]
      rw [if_neg (by omega)]
      have : ((-1 : ℤ) : ℚ) = -1 := by norm_num
      rw [this] at hw3
      rw [hw3, this]
    · intro k hk4 hkm _
      rw [getD_set, if_neg (by omega)]
      simpa using hslot4 k hk4 hkm 0 (by omega)
  | (p, e) :: r, hc, hn, hfree, hc1 =>
    have hip : IPOINT = (p : ℤ) := hc1.1
    subst hip
    have hp3 : p + 4 ≤ E1.length := hc1.2.2.1
    have hrd1 : rd E1 ((p : ℤ) + 1) = .ok e.time := by
      have := rd_nat (E := E1) (p := p + 1) (by omega)
      rw [hc1.2.2.2.1] at this; push_cast at this; exact this
    have hgt : (p : ℤ) > -1 := by omega
    by_cases hlt : e.time < s.time
    · -- search
      have hfuel : r.length + 1 < 2 * E1.length + 1 := by
        have := hc1.length_le hn
        simp only [List.length_cons] at this
        omega
      obtain ⟨A, k, e', B, heq, hall, hres⟩ :=
        filemWalk_spec (t := s.time) r (2 * E1.length + 1) 0 p p e hc1 hlt hfuel
      rw [heq] at hc1 hn hfree hc
      have hkm : k ≠ m := by
        rintro rfl; apply hfree; simp
      have hmB : m ∉ B.map Prod.fst := by
        intro h; apply hfree; simp only [List.map_append, List.map_cons, List.mem_append,
          List.mem_cons]; exact Or.inr (Or.inr h)
      have hk4 := (hc1.slot (k, e') (by simp)).1
      have hklen := (hc1.slot (k, e') (by simp)).2
      simp only at hk4 hklen
      have hins : insertEv s ((A ++ (k, e') :: B).map Prod.snd) =
          (A ++ (k, e') :: (m, s) :: B).map Prod.snd := by
        have : (A ++ (k, e') :: B).map Prod.snd = ((A ++ [(k, e')]).map Prod.snd) ++ B.map Prod.snd := by
          simp
        rw [this, insertEv_append]
        · simp
        · intro x hx
          obtain ⟨y, hy, rfl⟩ := List.mem_map.1 hx
          exact hall y hy
        · intro x hx
          rcases hres with ⟨rfl, _⟩ | ⟨b, eb, B', rfl, hle, _⟩
          · simp at hx
          · simp at hx; subst hx; exact hle
      have hperm : ((A ++ (k, e') :: (m, s) :: B).map Prod.fst).Perm
          (m :: (A ++ (k, e') :: B).map Prod.fst) := by
        have : A ++ (k, e') :: (m, s) :: B = (A ++ [(k, e')]) ++ (m, s) :: B := by simp
        rw [this]
        have h2 : A ++ (k, e') :: B = (A ++ [(k, e')]) ++ B := by simp
        rw [h2]
        exact (List.perm_middle (a := (m, s)) (l₁ := A ++ [(k, e')]) (l₂ := B)).map Prod.fst
      have hcommon : ∀ nx : ℤ, Chain E1 nx B →
          Chain ((E1.set m (nx : ℚ)).set k ((m : ℤ) : ℚ)) (p : ℤ) (A ++ (k, e') :: (m, s) :: B) := by
        intro nx hB
        have h1 : Chain (E1.set m (nx : ℚ)) (p : ℤ) (A ++ (k, e') :: B) := by
          refine hc1.frame (by simp) fun x hx d hd => ?_
          have hx4 := (hc1.slot x hx).1
          have hxm : x.1 ≠ m := by
            rintro rfl; exact hfree (List.mem_map.2 ⟨x, hx, rfl⟩)
          obtain ⟨a, ha⟩ := hx4
          obtain ⟨b, hb⟩ := hm4
          rw [getD_set, if_neg (by omega)]
        refine Spec.Chain.relink A h1 hn ?_
        refine (hnew nx B hB hmB).frame (by simp) fun x hx d hd => ?_
        have hxk : x.1 ≠ k := by
          rcases List.mem_cons.1 hx with rfl | hx
          · exact fun h => hkm h.symm
          · rintro rfl
            rw [List.map_append, List.map_cons, List.nodup_append] at hn
            exact (List.nodup_cons.1 hn.2.1).1 (List.mem_map.2 ⟨x, hx, rfl⟩)
        have hx4 : 4 ∣ x.1 := by
          rcases List.mem_cons.1 hx with rfl | hx
          · exact hm4
          · exact (hB.slot x hx).1
        obtain ⟨a, ha⟩ := hx4
        obtain ⟨b, hb⟩ := hk4
        rw [getD_set, if_neg (by omega)]
      have hothers : ∀ nx : ℚ, ∀ i, 4 ∣ i → i ≠ m → i ∉ (A ++ (k, e') :: B).map Prod.fst →
          ((E1.set m nx).set k ((m : ℤ) : ℚ)).getD i 0 = E.getD i 0 := by
        intro nx i hi4 him hil
        have hik : k ≠ i := by rintro rfl; apply hil; simp
        rw [getD_set, if_neg (by omega), getD_set, if_neg (by omega)]
        simpa using hslot4 i hi4 him 0 (by omega)
      have hwm : ∀ v, wr E1 (m : ℤ) v = .ok (E1.set m v) := fun v => wr_nat (by omega) v
      rcases hres with ⟨hB, hwalk⟩ | ⟨b, eb, B', hB, hle, hchB, hwalk⟩
      · refine ⟨⟨(E1.set m ((-1 : ℤ) : ℚ)).set k ((m : ℤ) : ℚ), pyInt (E.getD m 0), p, NUMINQ + 1⟩,
          A ++ (k, e') :: (m, s) :: B, ?_, hcommon (-1) (by rw [hB]; rfl), by rw [heq]; exact hperm,
          by rw [heq, hins], rfl, by simp [hlen1], rfl, by rw [heq]; exact hothers _⟩
        have hwk : wr E1 (k : ℤ) ((m : ℤ) : ℚ) = .ok (E1.set k ((m : ℤ) : ℚ)) := wr_nat (by omega) _
        have hwm' := wr_nat (E := E1.set k ((m : ℤ) : ℚ)) (p := m) (by simp; omega) (-1 : ℚ)
        unfold filem
        simp only [hw1, hw2, hrm, bind, Except.bind, pure, Except.pure]
        simp only [hgt, if_true, hrd1, gt_iff_lt, hlt, hwalk, hwk, hwm']
        have hcomm := List.set_comm ((m : ℤ) : ℚ) (-1 : ℚ) (l := E1) (i := k) (j := m) hkm
        have h1 : ((-1 : ℤ) : ℚ) = -1 := by norm_num
        rw [h1, ← hcomm]
      · have hbpos : ¬ ((b : ℤ) = -1) := by omega
        refine ⟨⟨(E1.set m ((b : ℤ) : ℚ)).set k ((m : ℤ) : ℚ), pyInt (E.getD m 0), p, NUMINQ + 1⟩,
          A ++ (k, e') :: (m, s) :: B, ?_, hcommon b hchB, by rw [heq]; exact hperm,
          by rw [heq, hins], rfl, by simp [hlen1], rfl, by rw [heq]; exact hothers _⟩
        have hwk : wr (E1.set m ((b : ℤ) : ℚ)) (k : ℤ) ((m : ℤ) : ℚ) =
            .ok ((E1.set m ((b : ℤ) : ℚ)).set k ((m : ℤ) : ℚ)) := wr_nat (by simp; omega) _
        unfold filem
        simp only [hw1, hw2, hrm, bind, Except.bind, pure, Except.pure]
        simp only [hgt, if_true, hrd1, gt_iff_lt, hlt, hwalk, hbpos, if_false, hwm, hwk]
    · -- new head
      refine ⟨⟨E1.set m ((p : ℤ) : ℚ), pyInt (E.getD m 0), m, NUMINQ + 1⟩, (m, s) :: (p, e) :: r, ?_,
        hnew p _ hc1 hfree, by simp, ?_, rfl, by simp [hlen1], rfl, ?_⟩
      · have hw3 := wr_nat (E := E1) (p := m) (by omega) ((p : ℤ) : ℚ)
        unfold filem
        simp only [hw1, hw2, hrm, bind, Except.bind, pure, Except.pure]
        simp only [hgt, if_true, hrd1, gt_iff_lt, hlt, if_false, hw3]
      · simp [insertEv, hlt]
      · intro k hk4 hkm _
        rw [getD_set, if_neg (by omega)]
        simpa using hslot4 k hk4 hkm 0 (by omega)

/-- `remove` from a non empty chain. -/
theorem remove_chain {c : Cal} {p : ℕ} {e : Ev} {l : List (ℕ × Ev)}
    (hc : Chain c.E c.IPOINT ((p, e) :: l))
    (hn : (((p, e) :: l).map Prod.fst).Nodup) (hq : 0 < c.NUMINQ) :
    ∃ c', remove c = .ok ((e.time, e.kind), c') ∧ Chain c'.E c'.IPOINT l ∧ c'.MFA = p ∧
      c'.NUMINQ = c.NUMINQ - 1 ∧ c'.E.length = c.E.length := by
  obtain ⟨E, MFA, IPOINT, NUMINQ⟩ := c
  simp only at hc hq ⊢
  have hslots := hc.slot
  obtain ⟨h1, h2, h3, h4, h5, nx, h6, h7⟩ := hc
  subst h1
  have hrd1 : rd E ((p : ℤ) + 1) = .ok e.time := by
    have := rd_nat (E := E) (p := p + 1) (by omega)
    rw [h4] at this; push_cast at this; exact this
  have hrd2 : rd E ((p : ℤ) + 2) = .ok e.kind := by
    have := rd_nat (E := E) (p := p + 2) (by omega)
    rw [h5] at this; push_cast at this; exact this
  have hw1 : wr E ((p : ℤ) + 1) 0 = .ok (E.set (p + 1) 0) := by
    have := wr_nat (E := E) (p := p + 1) (by omega) 0
    push_cast at this; exact this
  have hw2 : wr (E.set (p + 1) 0) ((p : ℤ) + 2) 0 = .ok ((E.set (p + 1) 0).set (p + 2) 0) := by
    have := wr_nat (E := E.set (p + 1) 0) (p := p + 2) (by simp; omega) 0
    push_cast at this; exact this
  have hrd0 : rd ((E.set (p + 1) 0).set (p + 2) 0) (p : ℤ) = .ok (nx : ℚ) := by
    rw [rd_nat (by simp; omega), getD_set, if_neg (by omega), getD_set, if_neg (by omega), h6]
  refine ⟨⟨(E.set (p + 1) 0).set (p + 2) 0, p, nx, NUMINQ - 1⟩, ?_, ?_, rfl, rfl, by simp⟩
  · unfold remove
    simp only [not_le.2 hq, if_false, hrd1, hrd2, hw1, hw2, hrd0, bind, Except.bind, pure,
      Except.pure, pyInt_intCast]
    rw [if_neg (by omega)]
  · refine h7.frame (by simp) fun x hx k hk => ?_
    have hx4 := (hslots x (by simp [hx])).1
    have hxp : x.1 ≠ p := by
      rintro rfl
      simp only [List.map_cons, List.nodup_cons] at hn
      exact hn.1 (List.mem_map.2 ⟨x, hx, rfl⟩)
    obtain ⟨a, ha⟩ := hx4
    obtain ⟨b, hb⟩ := h2
    simp only
    rw [getD_set, if_neg (by omega), getD_set, if_neg (by omega)]

/-- One take/schedule pair on a calendar, exact form. -/
theorem pair_step {c : Cal} {e : Ev} {q : List Ev} (h : Holds c (e :: q)) (s : Ev) :
    ∃ c1 c2, remove c = .ok ((e.time, e.kind), c1) ∧ filem c1 s.time s.kind = .ok c2 ∧
      Holds c2 (insertEv s q) ∧ c2.E.length = c.E.length ∧
      c1.NUMINQ = c.NUMINQ - 1 := by
  obtain ⟨⟨l, hch, hnd, hl⟩, hs, hcnt⟩ := h
  match l, hch, hnd, hl with
  | [], _, _, hl => simp at hl
  | (p, e0) :: l, hch, hnd, hl =>
    simp only [List.map_cons, List.cons.injEq] at hl
    obtain ⟨rfl, rfl⟩ := hl
    obtain ⟨c1, hr, hch1, hm, hn1, hlen1⟩ := remove_chain hch hnd (by rw [hcnt]; simp)
    have hsl := hch.slot (p, e0) (by simp)
    simp only [List.map_cons, List.nodup_cons] at hnd
    obtain ⟨c2, l', hf, hch2, hp2, hins, hn2, hlen2, _⟩ :=
      filem_chain hch1 hnd.2 hm hsl.1 (by simp only at hsl; omega) hnd.1 s
    refine ⟨c1, c2, hr, hf, ⟨⟨l', hch2, ?_, hins⟩, ?_, ?_⟩, by omega, hn1⟩
    · rw [hp2.nodup_iff, List.nodup_cons]; exact hnd
    · exact insertEv_sorted s (List.pairwise_cons.1 hs).2
    · rw [hn2, hn1, hcnt, (insertEv_perm s _).length_eq]; simp

end Narp
