import Verif.Props.LoadFlow
import Mathlib.Tactic.Ring
import Mathlib.Algebra.BigOperators.Field

/-!
# C40: the assignment of assistance and of the shortage
-/

namespace Narp.Props
open Narp Spec BigOperators

variable {n m : ℕ}

/-- Sum of the deficits of the areas, and sum of their surpluses. -/
def deficits (INJ : Fin (n + 1) → ℚ) : ℚ := ∑ i, max 0 (-INJ i)
/-- see `deficits` -/
def surpluses (INJ : Fin (n + 1) → ℚ) : ℚ := ∑ i, max 0 (INJ i)

theorem sumIf_neg (INJ : Fin (n + 1) → ℚ) : |sumIf (fun x => decide (x ≤ 0)) INJ| = deficits INJ := by
  unfold sumIf deficits
  rw [finRange_sum]
  have : ∑ i, (if decide (INJ i ≤ 0) = true then INJ i else 0) = -∑ i, max 0 (-INJ i) := by
    rw [← Finset.sum_neg_distrib]
    refine Finset.sum_congr rfl fun i _ => ?_
    by_cases h : INJ i ≤ 0
    · simp [h]
    · simp [h, (not_le.1 h).le]
  rw [this, abs_neg, abs_of_nonneg (Finset.sum_nonneg fun i _ => le_max_left _ _)]

theorem sumIf_pos (INJ : Fin (n + 1) → ℚ) : sumIf (fun x => decide (0 < x)) INJ = surpluses INJ := by
  unfold sumIf surpluses
  rw [finRange_sum]
  refine Finset.sum_congr rfl fun i _ => ?_
  by_cases h : 0 < INJ i
  · simp [h, h.le]
  · simp [h, not_lt.1 h]

theorem deficits_nonneg (INJ : Fin (n + 1) → ℚ) : 0 ≤ deficits INJ :=
  Finset.sum_nonneg fun _ _ => le_max_left _ _

theorem surpluses_nonneg (INJ : Fin (n + 1) → ℚ) : 0 ≤ surpluses INJ :=
  Finset.sum_nonneg fun _ _ => le_max_left _ _

theorem sum_split (INJ : Fin (n + 1) → ℚ) : ∑ i, INJ i = surpluses INJ - deficits INJ := by
  unfold surpluses deficits
  rw [← Finset.sum_sub_distrib]
  refine Finset.sum_congr rfl fun i _ => ?_
  rcases le_total 0 (INJ i) with h | h
  · simp [h]
  · simp [h]

/-- Sum of the injections with the deficits (≤ 0) scaled by `s` and the surpluses scaled by `t`. -/
theorem sum_scaled (INJ : Fin (n + 1) → ℚ) (s t : ℚ) :
    ∑ i, (if 0 < INJ i then INJ i * t else INJ i * s) = surpluses INJ * t - deficits INJ * s := by
  unfold surpluses deficits
  rw [Finset.sum_mul, Finset.sum_mul, ← Finset.sum_sub_distrib]
  refine Finset.sum_congr rfl fun i _ => ?_
  by_cases h : 0 < INJ i
  · simp [h, h.le]
  · rw [if_neg h, max_eq_left (not_lt.1 h), max_eq_right (by linarith [not_lt.1 h])]; ring

theorem scatter_all {LT : Fin (n + 1) → Fin (n + 1)} (h : Function.Bijective LT) (v : Fin (n + 1) → ℚ)
    (i : Fin (n + 1)) :
    ((List.finRange (n + 1)).foldl (fun f i => fun a => if a = LT i then v i else f a) fun _ => 0) (LT i) = v i :=
  scatter_hit h.1 v _ _ (List.nodup_finRange _) i (List.mem_finRange i)

/-- Masked writes at different places over zeros. -/
theorem scatter_mask {LT : Fin (n + 1) → Fin (n + 1)} (h : Function.Injective LT) (v : Fin (n + 1) → ℚ)
    (p : Fin (n + 1) → Prop) [DecidablePred p] (i : Fin (n + 1)) (l : List (Fin (n + 1))) :
    ∀ f : Fin (n + 1) → ℚ, (i ∉ l ∨ p i ∨ f (LT i) = 0) → l.Nodup →
    (l.foldl (fun f i => fun a => if a = LT i ∧ p i then v i else f a) f) (LT i) =
      if i ∈ l then (if p i then v i else 0) else f (LT i) := by
  induction l with
  | nil => intro f _ _; simp
  | cons j l ih =>
    intro f hf hnd
    rw [List.nodup_cons] at hnd
    rw [List.foldl_cons]
    by_cases hij : i = j
    · subst hij
      rw [ih _ (Or.inl hnd.1) hnd.2, if_neg hnd.1, if_pos List.mem_cons_self]
      by_cases hpi : p i
      · simp [hpi]
      · have : f (LT i) = 0 := by
          rcases hf with hf | hf | hf
          · exact absurd List.mem_cons_self hf
          · exact absurd hf hpi
          · exact hf
        simp [hpi, this]
    · have hne : ¬(LT i = LT j) := fun e => hij (h e)
      rw [ih _ _ hnd.2]
      · simp [hne, hij]
      · rcases hf with hf | hf | hf
        · exact Or.inl fun h' => hf (List.mem_cons_of_mem _ h')
        · exact Or.inr (Or.inl hf)
        · exact Or.inr (Or.inr (by simp [hne, hf]))

/-- What `assign` computes, in each of its three cases. -/
theorem assign_enough {INJ LOD : Fin (n + 1) → ℚ} {LT : Fin (n + 1) → Fin (n + 1)} {NLS : ℤ}
    (h : deficits INJ ≤ surpluses INJ) :
    assign INJ LOD LT NLS = (fun i => if 0 < INJ i then INJ i * (deficits INJ / surpluses INJ) else INJ i,
      fun _ => 0) := by
  unfold assign
  rw [sumIf_neg, sumIf_pos, if_pos h]
  refine Prod.ext (funext fun i => ?_) rfl
  simp only
  by_cases h1 : 0 < INJ i
  · have : 0 < surpluses INJ := by
      refine Finset.sum_pos' (fun i _ => le_max_left _ _) ⟨i, Finset.mem_univ i, ?_⟩
      rw [max_eq_right h1.le]; exact h1
    rw [if_pos this]
  · rw [if_neg h1, if_neg h1]

theorem scale_nonpos {INJ : Fin (n + 1) → ℚ} (i : Fin (n + 1)) :
    (if INJ i ≤ 0 then INJ i * (surpluses INJ / deficits INJ) else INJ i) ≤ 0 ↔ INJ i ≤ 0 := by
  by_cases h : INJ i ≤ 0
  · rw [if_pos h]
    exact iff_of_true (mul_nonpos_of_nonpos_of_nonneg h (div_nonneg (surpluses_nonneg _) (deficits_nonneg _))) h
  · rw [if_neg h]

theorem assign_noshare {INJ LOD : Fin (n + 1) → ℚ} {LT : Fin (n + 1) → Fin (n + 1)} {NLS : ℤ}
    (hLT : Function.Bijective LT) (h : surpluses INJ < deficits INJ) (hN : NLS ≠ 0) :
    (∀ i, (assign INJ LOD LT NLS).1 i =
      if INJ i ≤ 0 then INJ i * (surpluses INJ / deficits INJ) else INJ i) ∧
    ∀ i, (assign INJ LOD LT NLS).2 (LT i) =
      if INJ i ≤ 0 then -INJ i * ((deficits INJ - surpluses INJ) / deficits INJ) else 0 := by
  unfold assign
  rw [sumIf_neg, sumIf_pos, if_neg (not_le.2 h), if_pos hN]
  refine ⟨fun i => rfl, fun i => ?_⟩
  simp only
  rw [scatter_mask hLT.1 _ (fun i => (if INJ i ≤ 0 then INJ i * (surpluses INJ / deficits INJ) else INJ i) ≤ 0)
    i _ _ (Or.inr (Or.inr rfl)) (List.nodup_finRange _), if_pos (List.mem_finRange i)]
  simp only [scale_nonpos]
  have hd : deficits INJ ≠ 0 := ne_of_gt (lt_of_le_of_lt (surpluses_nonneg _) h)
  by_cases h1 : INJ i ≤ 0
  · simp only [if_pos h1]; field_simp; ring
  · simp only [if_neg h1]

theorem assign_share {INJ LOD : Fin (n + 1) → ℚ} {LT : Fin (n + 1) → Fin (n + 1)}
    (hLT : Function.Bijective LT) (h : surpluses INJ < deficits INJ) :
    (∀ a, (assign INJ LOD LT 0).2 a = LOD a * (deficits INJ - surpluses INJ) / ∑ c, LOD c) ∧
    ∀ i, (assign INJ LOD LT 0).1 i = INJ i + LOD (LT i) * (deficits INJ - surpluses INJ) / ∑ c, LOD c := by
  unfold assign
  rw [sumIf_neg, sumIf_pos, if_neg (not_le.2 h), if_neg (by simp), finRange_sum]
  simp only
  have := scatter_all hLT fun i => LOD (LT i) * (deficits INJ - surpluses INJ) / ∑ c, LOD c
  refine ⟨fun a => ?_, fun i => by rw [this]⟩
  obtain ⟨i, rfl⟩ := hLT.2 a
  exact this i

theorem sum_LT {LT : Fin (n + 1) → Fin (n + 1)} (h : Function.Bijective LT) (f : Fin (n + 1) → ℚ) :
    ∑ a, f a = ∑ i, f (LT i) := (Equiv.sum_comp (Equiv.ofBijective LT h) f).symm

/-- C40. For every vector of margins: the assigned injections balance; curtailments are non-negative and add up
to the pool's shortage (zero when the surpluses suffice); an area with a deficit is supplied or curtailed by
exactly its deficit; an area with a surplus exports at most its surplus plus what its own load gives up, and
never imports. -/
theorem C40_assign {INJ LOD : Fin (n + 1) → ℚ} {LT : Fin (n + 1) → Fin (n + 1)} {NLS : ℤ}
    (hLT : Function.Bijective LT) (hL : NLS = 0 → (∀ a, 0 ≤ LOD a) ∧ 0 < ∑ a, LOD a) :
    let r := assign INJ LOD LT NLS
    ∑ i, r.1 i = 0 ∧ (∀ a, 0 ≤ r.2 a) ∧ ∑ a, r.2 a = max 0 (-∑ i, INJ i) ∧
    (∀ i, INJ i ≤ 0 → r.1 i = INJ i + r.2 (LT i)) ∧
    ∀ i, 0 ≤ INJ i → 0 ≤ r.1 i ∧ r.1 i ≤ INJ i + r.2 (LT i) := by
  intro r
  have hs := sum_split INJ
  have h1 := surpluses_nonneg INJ
  have h2 := deficits_nonneg INJ
  rcases le_or_gt (deficits INJ) (surpluses INJ) with h | h
  · have e : r = _ := assign_enough h
    rw [e]
    have hr : deficits INJ / surpluses INJ ≤ 1 := div_le_one_of_le₀ h h1
    have hr0 : 0 ≤ deficits INJ / surpluses INJ := div_nonneg h2 h1
    refine ⟨?_, fun a => le_refl _, ?_, fun i hi => ?_, fun i hi => ?_⟩
    · have := sum_scaled INJ 1 (deficits INJ / surpluses INJ)
      simp only [mul_one] at this
      simp only
      rw [this]
      rcases eq_or_lt_of_le h1 with h0 | h0
      · rw [← h0] at h ⊢; simp [le_antisymm h h2]
      · rw [mul_div_cancel₀ _ h0.ne', sub_self]
    · simp only [Finset.sum_const_zero]
      rw [hs, max_eq_left]; linarith
    · simp only [add_zero]; rw [if_neg (not_lt.2 hi)]
    · simp only [add_zero]
      split
      · exact ⟨mul_nonneg hi hr0, by nlinarith⟩
      · exact ⟨hi, le_refl _⟩
  · have hd : 0 < deficits INJ := lt_of_le_of_lt h1 h
    have hmax : max 0 (-∑ i, INJ i) = deficits INJ - surpluses INJ := by
      rw [hs, max_eq_right] <;> linarith
    rw [hmax]
    by_cases hN : NLS = 0
    · subst hN
      obtain ⟨hl0, hl1⟩ := hL rfl
      obtain ⟨ea, ei⟩ := assign_share (INJ := INJ) (LOD := LOD) hLT h
      have hc : ∀ a, 0 ≤ r.2 a := fun a => by
        rw [show r.2 a = _ from ea a]
        exact div_nonneg (mul_nonneg (hl0 a) (by linarith)) hl1.le
      have hsum : ∑ a, r.2 a = deficits INJ - surpluses INJ := by
        rw [Finset.sum_congr rfl fun a _ => show r.2 a = _ from ea a, ← Finset.sum_div, ← Finset.sum_mul]
        field_simp
      have hri : ∀ i, r.1 i = INJ i + r.2 (LT i) := fun i => by
        rw [show r.1 i = _ from ei i, show r.2 _ = _ from ea _]
      refine ⟨?_, hc, hsum, fun i _ => hri i, fun i hi => ⟨?_, (hri i).le⟩⟩
      · rw [Finset.sum_congr rfl fun i _ => hri i, Finset.sum_add_distrib, ← sum_LT hLT, hsum, hs]; ring
      · rw [hri i]; exact add_nonneg hi (hc _)
    · obtain ⟨ei, ea⟩ := assign_noshare (LOD := LOD) hLT h hN
      have ei' : ∀ i, r.1 i = _ := ei
      have ea' : ∀ i, r.2 (LT i) = _ := ea
      have hri : ∀ i, INJ i ≤ 0 → r.1 i = INJ i + r.2 (LT i) := fun i hi => by
        rw [ei' i, ea' i, if_pos hi, if_pos hi]; field_simp; ring
      refine ⟨?_, fun a => ?_, ?_, hri, fun i hi => ?_⟩
      · rw [Finset.sum_congr rfl fun i _ => ei' i]
        have := sum_scaled INJ (surpluses INJ / deficits INJ) 1
        simp only [mul_one] at this
        rw [mul_div_cancel₀ _ hd.ne', sub_self] at this
        refine Eq.trans ?_ this
        refine Finset.sum_congr rfl fun i _ => ?_
        by_cases hi : INJ i ≤ 0
        · rw [if_pos hi, if_neg (not_lt.2 hi)]
        · rw [if_neg hi, if_pos (not_le.1 hi)]
      · obtain ⟨i, rfl⟩ := hLT.2 a
        rw [ea' i]
        split
        · rename_i hi
          exact mul_nonneg (by linarith) (div_nonneg (by linarith) hd.le)
        · exact le_refl _
      · rw [sum_LT hLT, Finset.sum_congr rfl fun i _ => ea' i]
        have : ∀ i, (if INJ i ≤ 0 then -INJ i * ((deficits INJ - surpluses INJ) / deficits INJ) else 0) =
            max 0 (-INJ i) * ((deficits INJ - surpluses INJ) / deficits INJ) := fun i => by
          by_cases hi : INJ i ≤ 0
          · rw [if_pos hi, max_eq_right (by linarith)]
          · rw [if_neg hi, max_eq_left (by linarith [not_le.1 hi]), zero_mul]
        rw [Finset.sum_congr rfl fun i _ => this i, ← Finset.sum_mul]
        show deficits INJ * _ = _
        rw [mul_div_cancel₀ _ hd.ne']
      · rw [ei' i, ea' i]
        by_cases h0 : INJ i ≤ 0
        · have : INJ i = 0 := le_antisymm h0 hi
          simp [this]
        · rw [if_neg h0, if_neg h0, add_zero]; exact ⟨hi, le_refl _⟩

/-- C40: how a shortage is shared. With loss sharing every area gives up the same fraction of its load;
without, every area with a deficit is left with the same fraction of its deficit and the others with nothing. -/
theorem C40_sharing {INJ LOD : Fin (n + 1) → ℚ} {LT : Fin (n + 1) → Fin (n + 1)} {NLS : ℤ}
    (hLT : Function.Bijective LT) (hshort : ∑ i, INJ i < 0) :
    (NLS = 0 → 0 < ∑ c, LOD c →
      ∃ f, ∀ a, (assign INJ LOD LT NLS).2 a = f * LOD a) ∧
    (NLS ≠ 0 → ∃ f, 0 < f ∧ f ≤ 1 ∧ ∀ i, (assign INJ LOD LT NLS).2 (LT i) = f * max 0 (-INJ i)) := by
  have h : surpluses INJ < deficits INJ := by have := sum_split INJ; linarith
  have h1 := surpluses_nonneg INJ
  constructor
  · rintro rfl hl
    refine ⟨(deficits INJ - surpluses INJ) / ∑ c, LOD c, fun a => ?_⟩
    rw [(assign_share hLT h).1 a]; ring
  · intro hN
    have hd : 0 < deficits INJ := lt_of_le_of_lt h1 h
    refine ⟨(deficits INJ - surpluses INJ) / deficits INJ, div_pos (by linarith) hd,
      div_le_one_of_le₀ (by linarith) hd.le, fun i => ?_⟩
    rw [(assign_noshare hLT h hN).2 i]
    by_cases hi : INJ i ≤ 0
    · rw [if_pos hi, max_eq_right (by linarith)]; ring
    · rw [if_neg hi, max_eq_left (by linarith [not_le.1 hi]), mul_zero]

/-- Body of the loop of `assign'`. -/
def aStep (LT : Fin (n + 1) → Fin (n + 1)) (g : ℚ → ℚ) (s : (Fin (n + 1) → ℚ) × (Fin (n + 1) → ℚ))
    (i : Fin (n + 1)) : (Fin (n + 1) → ℚ) × (Fin (n + 1) → ℚ) :=
  if 0 < s.1 i then s
  else (fun a => if a = i then g (s.1 i) else s.1 a, fun a => if a = LT i then g (s.1 i) - s.1 i else s.2 a)

theorem assign'_loop {LT : Fin (n + 1) → Fin (n + 1)} (h : Function.Injective LT) (g : ℚ → ℚ) (INJ : Fin (n + 1) → ℚ)
    (l : List (Fin (n + 1))) : ∀ s : (Fin (n + 1) → ℚ) × (Fin (n + 1) → ℚ), l.Nodup →
    (∀ i ∈ l, s.1 i = INJ i ∧ s.2 (LT i) = 0) →
    let r := l.foldl (aStep LT g) s
    (∀ i, r.1 i = if i ∈ l then (if 0 < INJ i then INJ i else g (INJ i)) else s.1 i) ∧
    ∀ i, r.2 (LT i) = if i ∈ l then (if 0 < INJ i then 0 else g (INJ i) - INJ i) else s.2 (LT i) := by
  induction l with
  | nil => intro s _ _; simp
  | cons j l ih =>
    intro s hnd hs r
    rw [List.nodup_cons] at hnd
    have hj := hs j List.mem_cons_self
    have hjl : ∀ i ∈ l, i ≠ j := fun i hi e => hnd.1 (e ▸ hi)
    by_cases h0 : 0 < INJ j
    · have hr := ih s hnd.2 fun i hi => hs i (List.mem_cons_of_mem _ hi)
      have e : r = l.foldl (aStep LT g) s := by
        show List.foldl _ _ (j :: l) = _
        rw [List.foldl_cons, aStep, if_pos (by rw [hj.1]; exact h0)]
      rw [e]
      refine ⟨fun i => ?_, fun i => ?_⟩
      · rw [hr.1 i]
        by_cases hij : i = j
        · subst hij; rw [if_neg hnd.1, if_pos List.mem_cons_self, if_pos h0, hj.1]
        · simp [hij]
      · rw [hr.2 i]
        by_cases hij : i = j
        · subst hij; rw [if_neg hnd.1, if_pos List.mem_cons_self, if_pos h0, hj.2]
        · simp [hij]
    · have e : r = l.foldl (aStep LT g)
          (fun a => if a = j then g (s.1 j) else s.1 a, fun a => if a = LT j then g (s.1 j) - s.1 j else s.2 a) := by
        show List.foldl _ _ (j :: l) = _
        rw [List.foldl_cons, aStep, if_neg (by rw [hj.1]; exact h0)]
      have hr := ih (fun a => if a = j then g (s.1 j) else s.1 a, fun a => if a = LT j then g (s.1 j) - s.1 j else s.2 a)
        hnd.2 (fun i hi => by
          have hne : ¬LT i = LT j := fun e => hjl i hi (h e)
          have := hs i (List.mem_cons_of_mem _ hi)
          simp only [if_neg (hjl i hi), if_neg hne]
          exact this)
      rw [e]
      refine ⟨fun i => ?_, fun i => ?_⟩
      · rw [hr.1 i]
        by_cases hij : i = j
        · subst hij; simp only [if_neg hnd.1, if_pos List.mem_cons_self, if_neg h0, hj.1, if_true]
        · simp [hij]
      · rw [hr.2 i]
        by_cases hij : i = j
        · subst hij; simp only [if_neg hnd.1, if_pos List.mem_cons_self, if_neg h0, hj.1, if_true]
        · have hne : ¬LT i = LT j := fun e => hij (h e)
          simp [hij, hne]

/-- C40: the loop implementation and the vectorised one agree. -/
theorem C40_versions {INJ LOD : Fin (n + 1) → ℚ} {LT : Fin (n + 1) → Fin (n + 1)} {NLS : ℤ}
    (hLT : Function.Bijective LT) : assign' INJ LOD LT NLS = assign INJ LOD LT NLS := by
  rcases le_or_gt (deficits INJ) (surpluses INJ) with h | h
  · rw [assign_enough h]
    unfold assign'
    rw [sumIf_neg, sumIf_pos, if_pos h]
    refine Prod.ext (funext fun i => ?_) rfl
    simp only
    rw [mul_div_assoc]
  · by_cases hN : NLS = 0
    · subst hN
      unfold assign' assign
      rw [sumIf_neg, sumIf_pos, if_neg (not_le.2 h), if_neg (not_le.2 h), if_neg (by simp), if_neg (by simp)]
    · obtain ⟨e1, e2⟩ := assign_noshare (LOD := LOD) hLT h hN
      have hd : deficits INJ ≠ 0 := ne_of_gt (lt_of_le_of_lt (surpluses_nonneg _) h)
      have := assign'_loop hLT.1 (fun x => x * surpluses INJ / deficits INJ) INJ (List.finRange (n + 1))
        (INJ, fun _ => 0) (List.nodup_finRange _) (fun i _ => ⟨rfl, rfl⟩)
      simp only [List.mem_finRange, if_true] at this
      have e : assign' INJ LOD LT NLS = (List.finRange (n + 1)).foldl
          (aStep LT fun x => x * surpluses INJ / deficits INJ) (INJ, fun _ => 0) := by
        unfold assign'
        rw [sumIf_neg, sumIf_pos, if_neg (not_le.2 h), if_pos hN]
        rfl
      rw [e]
      refine Prod.ext (funext fun i => ?_) (funext fun a => ?_)
      · refine (this.1 i).trans ?_
        rw [e1 i]
        by_cases hi : INJ i ≤ 0
        · rw [if_neg (not_lt.2 hi), if_pos hi, mul_div_assoc]
        · rw [if_pos (not_le.1 hi), if_neg hi]
      · obtain ⟨i, rfl⟩ := hLT.2 a
        refine (this.2 i).trans ?_
        rw [e2 i]
        by_cases hi : INJ i ≤ 0
        · rw [if_neg (not_lt.2 hi), if_pos hi]; field_simp; ring
        · rw [if_pos (not_le.1 hi), if_neg hi]

/-- Three areas: margins 50, -120, -80 and loads 100, 200, 300. -/
def exINJ : Fin 3 → ℚ := ![50, -120, -80]
/-- see `exINJ` -/
def exLOD : Fin 3 → ℚ := ![100, 200, 300]

example : (List.finRange 3).map (assign exINJ exLOD id 1).1 = [50, -30, -20] ∧
    (List.finRange 3).map (assign exINJ exLOD id 1).2 = [0, 90, 60] ∧
    (List.finRange 3).map (assign exINJ exLOD id 0).1 = [75, -70, -5] ∧
    (List.finRange 3).map (assign exINJ exLOD id 0).2 = [25, 50, 75] ∧
    Function.Bijective (id : Fin 3 → Fin 3) ∧ (∀ a, 0 ≤ exLOD a) ∧ 0 < ∑ a, exLOD a ∧ ∑ a, exINJ a < 0 := by
  refine ⟨?_, ?_, ?_, ?_, Function.bijective_id, ?_, ?_, ?_⟩ <;> decide +kernel

end Narp.Props
