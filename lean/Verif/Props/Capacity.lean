import Verif.Model.Capacity
import Mathlib.Algebra.BigOperators.Ring.Finset
import Mathlib.Algebra.BigOperators.Fin
import Mathlib.Data.Fintype.BigOperators
import Mathlib.Algebra.BigOperators.Field
import Mathlib.Tactic.Ring
import Mathlib.Tactic.Linarith
import Mathlib.Data.Fin.VecNotation
import Mathlib.Data.List.Nodup
import Mathlib.Data.Fintype.EquivFin

/-!
# Capacity and contracts (C16, C17)
-/

namespace Narp.Props
open Narp BigOperators

/-- a loop whose body adds pointwise amounts -/
theorem foldl_add_pointwise {α ι : Type} (l : List α) (body : (ι → ℚ) → α → ι → ℚ) (d : α → ι → ℚ)
    (hb : ∀ f a x, body f a x = f x + d a x) (f : ι → ℚ) (x : ι) :
    l.foldl body f x = f x + (l.map fun a => d a x).sum := by
  induction l generalizing f with
  | nil => simp
  | cons a l ih => rw [List.foldl_cons, ih, hb, List.map_cons, List.sum_cons]; ring

/-- same with two indices -/
theorem foldl_add_pointwise2 {α ι κ : Type} (l : List α) (body : (ι → κ → ℚ) → α → ι → κ → ℚ)
    (d : α → ι → κ → ℚ) (hb : ∀ f a x y, body f a x y = f x y + d a x y) (f : ι → κ → ℚ) (x : ι) (y : κ) :
    l.foldl body f x y = f x y + (l.map fun a => d a x y).sum := by
  induction l generalizing f with
  | nil => simp
  | cons a l ih => rw [List.foldl_cons, ih, hb, List.map_cons, List.sum_cons]; ring

theorem addAt_apply {ι : Type} [DecidableEq ι] (a : ι → ℚ) (j : ι) (v : ℚ) (x : ι) :
    addAt a j v x = a x + if x = j then v else 0 := by
  unfold addAt
  by_cases h : x = j
  · subst h; simp
  · simp [h]

theorem sum_filter_map {α : Type} (l : List α) (p : α → Prop) [DecidablePred p] (g : α → ℚ) :
    ((l.filter fun a => p a).map g).sum = (l.map fun a => if p a then g a else 0).sum := by
  induction l with
  | nil => simp
  | cons a l ih =>
    by_cases h : p a
    · simp [h, ih]
    · simp [h, ih]

theorem sum_finRange_map {n : ℕ} (g : Fin n → ℚ) : ((List.finRange n).map g).sum = ∑ i, g i := by
  rw [← List.ofFn_eq_map, List.sum_ofFn]

theorem sum_areaPairs {n : ℕ} (g : Fin n × Fin n → ℚ) :
    ((areaPairs n).map g).sum = ∑ j1, ∑ j2, g (j1, j2) := by
  unfold areaPairs
  have hfl : ∀ (l : List (Fin n)) (f : Fin n → List ℚ),
      (l.flatMap f).sum = (l.map fun a => (f a).sum).sum := by
    intro l f
    induction l with
    | nil => simp
    | cons a l ih => simp [List.flatMap_cons, ih]
  rw [List.map_flatMap, hfl]
  simp only [List.map_map]
  rw [sum_finRange_map]
  refine Finset.sum_congr rfl fun j _ => ?_
  exact sum_finRange_map fun j2 => g (j, j2)

/-! ## C16 -/

/-- C16 (per area). The capacity controlled by an area is the available capacity of the units located
in it, the capacity owned is the sum of its shares. -/
theorem C16_per_area {n m : ℕ} (AVAIL : Fin m → ℚ) (CAPOWN : Fin n → Fin m → ℚ) (CAPCON : Fin m → Fin n)
    (j : Fin n) :
    (sumcap AVAIL CAPOWN CAPCON).2.2.1 j = ∑ i ∈ Finset.univ.filter (fun i => CAPCON i = j), AVAIL i ∧
    (sumcap AVAIL CAPOWN CAPCON).2.1 j = ∑ i, CAPOWN j i * AVAIL i := by
  refine ⟨?_, rfl⟩
  show (List.finRange m).foldl (fun S i => addAt S (CAPCON i) (AVAIL i)) (fun _ => 0) j = _
  rw [foldl_add_pointwise _ _ (fun i j => if j = CAPCON i then AVAIL i else 0)
    (fun f a x => addAt_apply f _ _ x), sum_finRange_map, zero_add, Finset.sum_filter]
  exact Finset.sum_congr rfl fun i _ => by simp [eq_comm]

/-- C16. Totals over the areas: controlled capacity is all available capacity; owned capacity too, and
the joint-ownership transfers cancel, when the shares of each unit sum to 1; the firm interchange of
any day cancels. -/
theorem C16_conservation {n m : ℕ} (AVAIL : Fin m → ℚ) (CAPOWN : Fin n → Fin m → ℚ)
    (CAPCON : Fin m → Fin n) (JENT : Fin n → Fin n → ℤ) (INTCH : ℤ → ℕ → ℚ) (JDAY : ℕ) :
    (∑ j, (sumcap AVAIL CAPOWN CAPCON).2.2.1 j = ∑ i, AVAIL i) ∧
    ((∀ i, ∑ j, CAPOWN j i = 1) →
      ∑ j, (sumcap AVAIL CAPOWN CAPCON).2.1 j = ∑ i, AVAIL i ∧
      ∑ j, (sumcap AVAIL CAPOWN CAPCON).2.2.2 j = 0) ∧
    ∑ j, findtn JENT INTCH JDAY j = 0 := by
  have h1 : ∑ j, (sumcap AVAIL CAPOWN CAPCON).2.2.1 j = ∑ i, AVAIL i := by
    simp only [(C16_per_area AVAIL CAPOWN CAPCON _).1, Finset.sum_filter]
    rw [Finset.sum_comm]
    simp
  refine ⟨h1, ?_, ?_⟩
  · intro hs
    have h2 : ∑ j, (sumcap AVAIL CAPOWN CAPCON).2.1 j = ∑ i, AVAIL i := by
      simp only [(C16_per_area AVAIL CAPOWN CAPCON _).2]
      rw [Finset.sum_comm]
      refine Finset.sum_congr rfl fun i _ => ?_
      rw [← Finset.sum_mul, hs i, one_mul]
    refine ⟨h2, ?_⟩
    show ∑ j, ((sumcap AVAIL CAPOWN CAPCON).2.2.1 j - (sumcap AVAIL CAPOWN CAPCON).2.1 j) = 0
    rw [Finset.sum_sub_distrib, h1, h2, sub_self]
  · unfold findtn
    simp only
    rw [Finset.sum_congr rfl fun j _ => foldl_add_pointwise _ _
      (fun (p : Fin n × Fin n) j => (if j = p.1 then INTCH (JENT p.1 p.2) JDAY else 0) +
        if j = p.2 then -INTCH (JENT p.1 p.2) JDAY else 0)
      (fun f a x => by rw [addAt_apply, addAt_apply, add_assoc]) (fun _ => 0) j]
    simp only [zero_add]
    generalize (areaPairs n).filter (fun p => JENT p.1 p.2 ≠ -1) = l
    induction l with
    | nil => simp
    | cons a l ih =>
      simp only [List.map_cons, List.sum_cons]
      rw [Finset.sum_add_distrib, ih, Finset.sum_add_distrib]
      simp

/-- The net interchange of an area is what it exports minus what it imports. -/
theorem findtn_eq {n : ℕ} (JENT : Fin n → Fin n → ℤ) (INTCH : ℤ → ℕ → ℚ) (JDAY : ℕ) (j : Fin n) :
    findtn JENT INTCH JDAY j =
      (∑ j2, if JENT j j2 ≠ -1 then INTCH (JENT j j2) JDAY else 0) -
      ∑ j1, if JENT j1 j ≠ -1 then INTCH (JENT j1 j) JDAY else 0 := by
  unfold findtn
  simp only
  rw [foldl_add_pointwise _ _
      (fun (p : Fin n × Fin n) j => (if j = p.1 then INTCH (JENT p.1 p.2) JDAY else 0) +
        if j = p.2 then -INTCH (JENT p.1 p.2) JDAY else 0)
      (fun f a x => by rw [addAt_apply, addAt_apply, add_assoc]) (fun _ => 0) j,
    sum_filter_map (areaPairs n) (fun p => JENT p.1 p.2 ≠ -1), sum_areaPairs, zero_add]
  have e : ∀ j1 j2 : Fin n,
      (if JENT j1 j2 ≠ -1 then (if j = j1 then INTCH (JENT j1 j2) JDAY else 0) +
        (if j = j2 then -INTCH (JENT j1 j2) JDAY else 0) else 0) =
      (if j = j1 then (if JENT j1 j2 ≠ -1 then INTCH (JENT j1 j2) JDAY else 0) else 0) -
      (if j = j2 then (if JENT j1 j2 ≠ -1 then INTCH (JENT j1 j2) JDAY else 0) else 0) := by
    intro j1 j2
    split_ifs <;> simp
  simp only [e, Finset.sum_sub_distrib]
  congr 1
  · rw [Finset.sum_comm]; simp
  · simp

/-- C16 (per area, contracts). -/
theorem C16_interchange {n : ℕ} (JENT : Fin n → Fin n → ℤ) (INTCH : ℤ → ℕ → ℚ) (JDAY : ℕ) (j : Fin n) :
    findtn JENT INTCH JDAY j =
      (∑ j2, if JENT j j2 ≠ -1 then INTCH (JENT j j2) JDAY else 0) -
      ∑ j1, if JENT j1 j ≠ -1 then INTCH (JENT j1 j) JDAY else 0 := findtn_eq JENT INTCH JDAY j

/-- C16 (default ownership). With one card per unit the shares of each unit sum to 1, and the owner is
the area in which the unit is located. -/
theorem C16_default_ownership {n m : ℕ} [NeZero n] (NAR : Fin m → Fin n) (NAT : Fin m → Fin m)
    (hinj : Function.Injective NAT) (i : Fin m) :
    ∑ j, dataxCAPOWN NAR NAT j i = 1 ∧ dataxCAPOWN NAR NAT (dataxCAPCON NAR NAT i) i = 1 := by
  obtain ⟨c, hc⟩ := (Finite.injective_iff_surjective.1 hinj) i
  have own : ∀ (l : List (Fin m)) (C : Fin n → Fin m → ℚ) (j : Fin n), c ∉ l →
      l.foldl (fun C c => fun j i => if j = NAR c ∧ i = NAT c then (1 : ℚ) else C j i) C j i = C j i := by
    intro l
    induction l with
    | nil => intros; rfl
    | cons a l ih =>
      intro C j hn
      simp only [List.mem_cons, not_or] at hn
      rw [List.foldl_cons, ih _ _ hn.2, if_neg]
      rintro ⟨_, h⟩
      exact hn.1 (hinj (hc.trans h))
  have own2 : ∀ (l : List (Fin m)) (C : Fin n → Fin m → ℚ) (j : Fin n), c ∈ l → l.Nodup →
      l.foldl (fun C c => fun j i => if j = NAR c ∧ i = NAT c then (1 : ℚ) else C j i) C j i =
        if j = NAR c then 1 else C j i := by
    intro l
    induction l with
    | nil => intro C j h; simp at h
    | cons a l ih =>
      intro C j hm hnd
      rw [List.nodup_cons] at hnd
      rw [List.foldl_cons]
      by_cases h : a = c
      · subst h
        rw [own _ _ _ hnd.1]
        simp [hc]
      · have hm' : c ∈ l := by simpa [Ne.symm h] using hm
        rw [ih _ _ hm' hnd.2, if_neg (c := j = NAR a ∧ i = NAT a)]
        rintro ⟨_, h'⟩
        exact h (hinj (hc.trans h').symm)
  have con : ∀ (l : List (Fin m)) (C : Fin m → Fin n), c ∉ l →
      l.foldl (fun C c => Function.update C (NAT c) (NAR c)) C i = C i := by
    intro l
    induction l with
    | nil => intros; rfl
    | cons a l ih =>
      intro C hn
      simp only [List.mem_cons, not_or] at hn
      rw [List.foldl_cons, ih _ hn.2, Function.update_of_ne]
      intro h
      exact hn.1 (hinj (hc.trans h))
  have con2 : ∀ (l : List (Fin m)) (C : Fin m → Fin n), c ∈ l → l.Nodup →
      l.foldl (fun C c => Function.update C (NAT c) (NAR c)) C i = NAR c := by
    intro l
    induction l with
    | nil => intro C h; simp at h
    | cons a l ih =>
      intro C hm hnd
      rw [List.nodup_cons] at hnd
      rw [List.foldl_cons]
      by_cases h : a = c
      · subst h
        rw [con _ _ hnd.1, hc, Function.update_self]
      · exact ih _ (by simpa [Ne.symm h] using hm) hnd.2
  have hm := List.mem_finRange c
  have hnd := List.nodup_finRange m
  refine ⟨?_, ?_⟩
  · unfold dataxCAPOWN
    simp only [own2 _ _ _ hm hnd]
    simp
  · unfold dataxCAPOWN dataxCAPCON
    rw [own2 _ _ _ hm hnd, con2 _ _ hm hnd, if_pos rfl]

example : let A : Fin 3 → ℚ := ![100, 50, 25]
    (sumcap A (dataxCAPOWN ![(1 : Fin 2), 0, 1] ![0, 1, 2]) (dataxCAPCON ![1, 0, 1] ![0, 1, 2])).2.2.1 1 =
      125 := by decide +kernel

/-! ## C17 -/

theorem addDay_apply {n : ℕ} (H : Fin n → ℕ → ℚ) (j : Fin n) (day : ℕ) (v : ℚ) (x : Fin n) (h : ℕ) :
    addDay H j day v x h = H x h + if x = j ∧ h / 24 = day then v else 0 := by
  unfold addDay
  have : (day * 24 ≤ h ∧ h < (day + 1) * 24) ↔ h / 24 = day := by omega
  simp only [this]
  split_ifs <;> simp

theorem addHour_apply {n : ℕ} (H : Fin n → ℕ → ℚ) (j : Fin n) (k : ℕ) (v : ℚ) (x : Fin n) (h : ℕ) :
    addHour H j k v x h = H x h + if x = j ∧ h = k then v else 0 := by
  unfold addHour
  split_ifs <;> simp

theorem sum_range_single (N d : ℕ) (g : ℕ → ℚ) :
    ((List.range N).map fun k => if d = k then g k else 0).sum = if d < N then g d else 0 := by
  induction N with
  | zero => simp
  | succ N ih =>
    rw [List.range_succ, List.map_append, List.sum_append, ih]
    rcases lt_trichotomy d N with h | h | h
    · simp [h, h.ne, Nat.lt_succ_of_lt h]
    · subst h; simp
    · have h1 : ¬ d < N := by omega
      have h2 : ¬ d < N + 1 := by omega
      simp [h1, h2, h.ne']

/-- both implementations in closed form -/
theorem xporta_eq {n : ℕ} (JENT : Fin n → Fin n → ℤ) (INTCH : ℤ → ℕ → ℚ) (H : Fin n → ℕ → ℚ)
    (j : Fin n) (h : ℕ) :
    xporta JENT INTCH H j h = H j h + if h / 24 < 365 then findtn JENT INTCH (h / 24) j else 0 := by
  unfold xporta findtn
  simp only
  rw [foldl_add_pointwise _ _
      (fun (p : Fin n × Fin n) j => (if j = p.1 then INTCH (JENT p.1 p.2) (h / 24) else 0) +
        if j = p.2 then -INTCH (JENT p.1 p.2) (h / 24) else 0)
      (fun f a x => by rw [addAt_apply, addAt_apply, add_assoc]) (fun _ => 0) j, zero_add]
  rw [foldl_add_pointwise2 _ _
      (fun (p : Fin n × Fin n) j h => if h / 24 < 365 then
        (if j = p.1 then INTCH (JENT p.1 p.2) (h / 24) else 0) +
        (if j = p.2 then -INTCH (JENT p.1 p.2) (h / 24) else 0) else 0) ?_ H j h]
  · congr 1
    generalize (areaPairs n).filter (fun p => JENT p.1 p.2 ≠ -1) = l
    by_cases hd : h / 24 < 365
    · simp [hd]
    · simp [hd]
  · intro f p x y
    rw [foldl_add_pointwise2 _ _
      (fun (day : ℕ) j h => if h / 24 = day then
        (if j = p.1 then INTCH (JENT p.1 p.2) day else 0) +
        (if j = p.2 then -INTCH (JENT p.1 p.2) day else 0) else 0) ?_ f x y]
    · congr 1
      rw [sum_filter_map (List.range 365) (fun day => INTCH (JENT p.1 p.2) day ≠ 0)]
      rw [← sum_range_single 365 (y / 24) fun k => (if x = p.1 then INTCH (JENT p.1 p.2) k else 0) +
        (if x = p.2 then -INTCH (JENT p.1 p.2) k else 0)]
      congr 1
      refine List.map_congr_left fun k _ => ?_
      by_cases hk : INTCH (JENT p.1 p.2) k = 0
      · simp [hk]
      · simp [hk]
    · intro f day x y
      rw [addDay_apply, addDay_apply]
      by_cases h1 : y / 24 = day <;> by_cases h2 : x = p.1 <;> by_cases h3 : x = p.2 <;>
        simp only [h1, h2, h3, and_true, and_false, if_true, if_false, add_zero, add_assoc]

/-- C17 (what the step does). Hour `h` of area `j` gets the net firm export of its day added. -/
theorem C17_export_amount {n : ℕ} (JENT : Fin n → Fin n → ℤ) (INTCH : ℤ → ℕ → ℚ) (H : Fin n → ℕ → ℚ)
    (j : Fin n) (h : ℕ) (hh : h < 8760) :
    xporta JENT INTCH H j h = H j h +
      ((∑ j2, if JENT j j2 ≠ -1 then INTCH (JENT j j2) (h / 24) else 0) -
        ∑ j1, if JENT j1 j ≠ -1 then INTCH (JENT j1 j) (h / 24) else 0) := by
  rw [xporta_eq, if_pos (by omega), findtn_eq]

/-- C17. Exporting does not change the pool load of any hour, and removing the contracts afterwards
gives back the original loads (in either order). -/
theorem C17_export_conserves_and_inverts {n : ℕ} (JENT : Fin n → Fin n → ℤ) (INTCH : ℤ → ℕ → ℚ)
    (H : Fin n → ℕ → ℚ) :
    (∀ h, ∑ j, xporta JENT INTCH H j h = ∑ j, H j h) ∧
      xports JENT INTCH (xporta JENT INTCH H) = H ∧ xporta JENT INTCH (xports JENT INTCH H) = H := by
  refine ⟨?_, ?_, ?_⟩
  · intro h
    simp only [xporta_eq, Finset.sum_add_distrib]
    split_ifs
    · rw [(C16_conservation (m := 0) (fun i => i.elim0) (fun _ i => i.elim0) (fun i => i.elim0) JENT
        INTCH (h / 24)).2.2, add_zero]
    · simp
  all_goals
    funext j h
    unfold xports
    rw [xporta_eq, xporta_eq]
    split_ifs
    · rw [findtn_eq, findtn_eq]
      have : ∀ c : Prop, [Decidable c] → ∀ v : ℚ, (if c then -v else 0) = -(if c then v else 0) := by
        intro c _ v; split_ifs <;> simp
      simp only [this, Finset.sum_neg_distrib]
      ring
    · simp

/-- C17 (the two implementations agree). -/
theorem C17_variants_agree {n : ℕ} (JENT : Fin n → Fin n → ℤ) (INTCH : ℤ → ℕ → ℚ) (H : Fin n → ℕ → ℚ) :
    xporta' JENT INTCH H = xporta JENT INTCH H := by
  funext j h
  rw [xporta_eq]
  unfold xporta' findtn
  simp only
  rw [foldl_add_pointwise _ _
      (fun (p : Fin n × Fin n) j => (if j = p.1 then INTCH (JENT p.1 p.2) (h / 24) else 0) +
        if j = p.2 then -INTCH (JENT p.1 p.2) (h / 24) else 0)
      (fun f a x => by rw [addAt_apply, addAt_apply, add_assoc]) (fun _ => 0) j, zero_add]
  rw [foldl_add_pointwise2 _ _
      (fun (p : Fin n × Fin n) j h => if JENT p.1 p.2 ≠ -1 then (if h / 24 < 365 then
        (if j = p.1 then INTCH (JENT p.1 p.2) (h / 24) else 0) +
        (if j = p.2 then -INTCH (JENT p.1 p.2) (h / 24) else 0) else 0) else 0) ?_ H j h]
  · congr 1
    rw [sum_filter_map (areaPairs n) (fun p => JENT p.1 p.2 ≠ -1)]
    by_cases hd : h / 24 < 365
    · simp [hd]
    · simp [hd]
  · intro f p x y
    by_cases hp : JENT p.1 p.2 = -1
    · simp [hp]
    rw [if_neg hp, if_pos hp]
    rw [foldl_add_pointwise2 _ _
      (fun (day : ℕ) j h => if h / 24 = day then
        (if j = p.1 then INTCH (JENT p.1 p.2) day else 0) +
        (if j = p.2 then -INTCH (JENT p.1 p.2) day else 0) else 0) ?_ f x y]
    · congr 1
      rw [← sum_range_single 365 (y / 24) fun k => (if x = p.1 then INTCH (JENT p.1 p.2) k else 0) +
        (if x = p.2 then -INTCH (JENT p.1 p.2) k else 0)]
    · intro f day x y
      by_cases hk : INTCH (JENT p.1 p.2) day = 0
      · simp [hk]
      rw [if_neg hk]
      rw [foldl_add_pointwise2 _ _
        (fun (k3 : ℕ) j h => if h = k3 then
          (if j = p.1 then INTCH (JENT p.1 p.2) day else 0) +
          (if j = p.2 then -INTCH (JENT p.1 p.2) day else 0) else 0) ?_ f x y]
      · congr 1
        rw [List.range'_eq_map_range, List.map_map]
        by_cases hy : y / 24 = day
        · rw [if_pos hy]
          have := sum_range_single 24 (y - day * 24) fun _ =>
            (if x = p.1 then INTCH (JENT p.1 p.2) day else 0) +
            (if x = p.2 then -INTCH (JENT p.1 p.2) day else 0)
          rw [if_pos (show y - day * 24 < 24 by omega)] at this
          refine Eq.trans ?_ this
          congr 1
          refine List.map_congr_left fun k _ => ?_
          have : (y = day * 24 + k) ↔ (y - day * 24 = k) := by omega
          simp only [Function.comp, this]
        · rw [if_neg hy]
          refine List.sum_eq_zero ?_
          intro q hq
          obtain ⟨k, hk, rfl⟩ := List.mem_map.1 hq
          have hk' := List.mem_range.1 hk
          have : ¬ y = day * 24 + k := by omega
          simp [this]
      · intro f k3 x y
        rw [addHour_apply, addHour_apply]
        by_cases h1 : y = k3 <;> by_cases h2 : x = p.1 <;> by_cases h3 : x = p.2 <;>
        simp only [h1, h2, h3, and_true, and_false, if_true, if_false, add_zero, add_assoc]

/-- two areas, contract 0 from area 1 to area 0 of 30 MW on day 1 -/
def demoJENT : Fin 2 → Fin 2 → ℤ := ![![-1, -1], ![0, -1]]
/-- contract table of the example -/
def demoINTCH : ℤ → ℕ → ℚ := fun c d => if c = 0 ∧ d = 1 then 30 else 0

example : xporta demoJENT demoINTCH (fun _ _ => 100) 1 30 = 130 ∧
    xporta demoJENT demoINTCH (fun _ _ => 100) 0 30 = 70 ∧
    xporta demoJENT demoINTCH (fun _ _ => 100) 0 3 = 100 := by decide +kernel

end Narp.Props
