import Verif.Model.Outage
import Verif.Spec.Outage
import Mathlib.Tactic.Ring
import Mathlib.Tactic.Linarith
import Mathlib.Tactic.Positivity
import Mathlib.Algebra.BigOperators.Ring.List
import Mathlib.Algebra.Order.BigOperators.Group.List

/-!
# C24: the capacity outage probability table
-/

namespace Narp.Props
open Narp.Spec

/-- The probability of losing at least `x` MW according to a table. -/
def OTab.tail (t : OTab) (x : ℤ) : ℚ := tabTail t.N t.KA t.PA x

/-- A well-formed table: at least the level 0 with probability 1, levels strictly increasing,
probabilities non-increasing and not negative. -/
structure TabOk (t : OTab) : Prop where
  pos : 0 < t.N
  zero : t.KA 0 = 0
  one : t.PA 0 = 1
  lt : ∀ i j, i < j → j < t.N → t.KA i < t.KA j
  anti : ∀ i j, i ≤ j → j < t.N → t.PA j ≤ t.PA i
  nonneg : ∀ j, j < t.N → 0 ≤ t.PA j

theorem TabOk.le {t : OTab} (h : TabOk t) {i j : ℕ} (hij : i ≤ j) (hj : j < t.N) : t.KA i ≤ t.KA j := by
  rcases hij.eq_or_lt with e | l
  · rw [e]
  · exact (h.lt i j l hj).le

/-- Reading the table: below a level `j` and above everything before it. -/
theorem tail_eq {N : ℕ} {KA : ℕ → ℤ} {PA : ℕ → ℚ} {x : ℤ} {j : ℕ} (hj : j ≤ N)
    (hlt : ∀ i, i < j → KA i < x) (hx : j < N → x ≤ KA j) :
    tabTail N KA PA x = if j < N then PA j else 0 := by
  unfold tabTail
  split
  · rename_i k hk
    obtain ⟨hk0, hk1, hk2⟩ := List.find?_range_eq_some.1 hk
    simp only [decide_eq_true_eq] at hk0
    have hkN : k < N := by simpa using hk1
    have h1 : ¬ k < j := fun h => by have := hlt k h; omega
    rcases Nat.lt_or_ge j k with h2 | h2
    · have := hk2 j h2
      have hjN : j < N := by omega
      simp only [Bool.not_eq_true', decide_eq_false_iff_not] at this
      exact absurd (hx hjN) this
    · have : k = j := by omega
      subst this
      rw [if_pos hkN]
  · rename_i hn
    rw [List.find?_range_eq_none] at hn
    split
    · rename_i hjN
      have := hn j hjN
      simp only [Bool.not_eq_true', decide_eq_false_iff_not] at this
      exact absurd (hx hjN) this
    · rfl

/-- For every `x` there is a cursor position. -/
theorem exists_cursor (N : ℕ) (KA : ℕ → ℤ) (x : ℤ) :
    ∃ j ≤ N, (∀ i, i < j → KA i < x) ∧ (j < N → x ≤ KA j) := by
  induction N with
  | zero => exact ⟨0, le_rfl, fun i h => absurd h (by omega), fun h => absurd h (by omega)⟩
  | succ n ih =>
    obtain ⟨j, hj, h1, h2⟩ := ih
    rcases Nat.lt_or_ge j n with h | h
    · exact ⟨j, by omega, h1, fun _ => h2 h⟩
    · have : j = n := by omega
      subst this
      by_cases hx : x ≤ KA j
      · exact ⟨j, by omega, h1, fun _ => hx⟩
      · refine ⟨j + 1, le_rfl, fun i hi => ?_, fun h => absurd h (by omega)⟩
        rcases Nat.lt_or_ge i j with h3 | h3
        · exact h1 i h3
        · have : i = j := by omega
          subst this
          omega

theorem TabOk.tail_anti {t : OTab} (h : TabOk t) {x y : ℤ} (hxy : x ≤ y) : OTab.tail t y ≤ OTab.tail t x := by
  obtain ⟨i, hi, hi1, hi2⟩ := exists_cursor t.N t.KA x
  obtain ⟨j, hj, hj1, hj2⟩ := exists_cursor t.N t.KA y
  unfold OTab.tail
  rw [tail_eq hi hi1 hi2, tail_eq hj hj1 hj2]
  have hij : i ≤ j := by
    by_contra hc
    have hjN : j < t.N := by omega
    have h1 := hi1 j (by omega)
    have h2 := hj2 hjN
    omega
  split
  · rename_i hjN
    rw [if_pos (by omega)]
    exact h.anti i j hij hjN
  · split
    · exact h.nonneg _ (by assumption)
    · exact le_rfl

theorem TabOk.tail_nonneg {t : OTab} (h : TabOk t) (x : ℤ) : 0 ≤ OTab.tail t x := by
  obtain ⟨i, hi, hi1, hi2⟩ := exists_cursor t.N t.KA x
  unfold OTab.tail
  rw [tail_eq hi hi1 hi2]
  split
  · exact h.nonneg _ (by assumption)
  · exact le_rfl

theorem TabOk.tail_nonpos_arg {t : OTab} (h : TabOk t) {x : ℤ} (hx : x ≤ 0) : OTab.tail t x = 1 := by
  unfold OTab.tail
  rw [tail_eq (j := 0) (Nat.zero_le _) (fun i hi => absurd hi (by omega)) (fun _ => by rw [h.zero]; exact hx),
    if_pos h.pos, h.one]

theorem TabOk.tail_le_one {t : OTab} (h : TabOk t) (x : ℤ) : OTab.tail t x ≤ 1 := by
  rcases le_total x 0 with hx | hx
  · rw [h.tail_nonpos_arg hx]
  · rw [← h.tail_nonpos_arg (le_refl 0)]
    exact h.tail_anti hx

/-- What the table should say after a three-state unit has been added: the convolution of the old tail
with the states of the unit. -/
def conv (t : OTab) (u : OUnit) (x : ℤ) : ℚ :=
  OTab.tail t x * u.P1 + OTab.tail t (x - u.KP) * u.P2 + OTab.tail t (x - u.KT) * u.P3

/-- An admissible unit: probabilities of its states, positive (rounded) capacity, derating not negative. -/
structure UnitOk (u : OUnit) : Prop where
  kt : 0 < u.KT
  kp : 0 ≤ u.KP
  p1 : 0 ≤ u.P1
  p2 : 0 ≤ u.P2
  p3 : 0 ≤ u.P3
  sum : u.P1 + u.P2 + u.P3 = 1

theorem conv_anti {t : OTab} {u : OUnit} (h : TabOk t) (hu : UnitOk u) {x y : ℤ} (hxy : x ≤ y) :
    conv t u y ≤ conv t u x := by
  unfold conv
  have a := mul_le_mul_of_nonneg_right (h.tail_anti hxy) hu.p1
  have b := mul_le_mul_of_nonneg_right (h.tail_anti (show x - u.KP ≤ y - u.KP by omega)) hu.p2
  have c := mul_le_mul_of_nonneg_right (h.tail_anti (show x - u.KT ≤ y - u.KT by omega)) hu.p3
  linarith

theorem conv_nonneg {t : OTab} {u : OUnit} (h : TabOk t) (hu : UnitOk u) (x : ℤ) : 0 ≤ conv t u x := by
  unfold conv
  have a := mul_nonneg (h.tail_nonneg x) hu.p1
  have b := mul_nonneg (h.tail_nonneg (x - u.KP)) hu.p2
  have c := mul_nonneg (h.tail_nonneg (x - u.KT)) hu.p3
  linarith

theorem conv_nonpos {t : OTab} {u : OUnit} (h : TabOk t) (hu : UnitOk u) {x : ℤ} (hx : x ≤ 0) :
    conv t u x = 1 := by
  unfold conv
  have hk := hu.kt
  have hp := hu.kp
  rw [h.tail_nonpos_arg hx, h.tail_nonpos_arg (by omega), h.tail_nonpos_arg (by omega), one_mul, one_mul,
    one_mul, hu.sum]

/-- The position of one cursor: everything before it is at most the level `k` last written, and the level
under it, if any, is above `k`. -/
structure Cur (t : OTab) (s : ℤ) (J : ℕ) (k : ℤ) : Prop where
  le : J ≤ t.N
  before : ∀ i, i < J → t.KA i + s ≤ k
  after : J < t.N → k < t.KA J + s

theorem Cur.ko {t : OTab} {s : ℤ} {J : ℕ} {k : ℤ} (h : Cur t s J k) :
    gsmKO t.N t.KA s J = if J < t.N then t.KA J + s else 1000000 := by
  have := h.le
  unfold gsmKO
  by_cases hJ : J < t.N
  · rw [if_neg (by omega), if_pos hJ]
  · rw [if_pos (by omega), if_neg hJ]

theorem Cur.p {t : OTab} {s : ℤ} {J : ℕ} {k : ℤ} (h : Cur t s J k) :
    gsmP t.N t.PA J = if J < t.N then t.PA J else 0 := by
  have := h.le
  unfold gsmP
  by_cases hJ : J < t.N
  · rw [if_neg (by omega), if_pos hJ]
  · rw [if_pos (by omega), if_neg hJ]

/-- Between the last level and the level under the cursor the tail of the column is the probability under
the cursor. -/
theorem Cur.tail {t : OTab} {s : ℤ} {J : ℕ} {k x : ℤ} (h : Cur t s J k) (hk : k < x)
    (hx : J < t.N → x ≤ t.KA J + s) : OTab.tail t (x - s) = gsmP t.N t.PA J := by
  rw [h.p]
  exact tail_eq h.le (fun i hi => by have := h.before i hi; omega) (fun hJ => by have := hx hJ; omega)

/-- A cursor steps forward exactly when its level is the one written. -/
theorem Cur.step {t : OTab} (ht : TabOk t) {s : ℤ} {J : ℕ} {k m : ℤ} (h : Cur t s J k) (hk : k < m)
    (hm : m ≤ gsmKO t.N t.KA s J) (hM : m < 1000000) :
    Cur t s (if gsmKO t.N t.KA s J = m then J + 1 else J) m := by
  rw [h.ko] at hm ⊢
  have hle := h.le
  by_cases hJ : J < t.N
  · rw [if_pos hJ] at hm ⊢
    split
    · rename_i e
      refine ⟨by omega, fun i hi => ?_, fun h2 => ?_⟩
      · rcases Nat.lt_or_ge i J with h3 | h3
        · have := h.before i h3; omega
        · have : i = J := by omega
          subst this
          omega
      · have := ht.lt J (J + 1) (by omega) h2
        omega
    · exact ⟨hle, fun i hi => by have := h.before i hi; omega, fun _ => by omega⟩
  · rw [if_neg hJ] at hm ⊢
    rw [if_neg (by omega)]
    exact ⟨hle, fun i hi => by have := h.before i hi; omega, fun h2 => absurd h2 hJ⟩

/-- The loop invariant: everything written so far is the convolution at its level, levels increase, the
cursors are placed for the last level, and between two levels written nothing is missed. -/
structure GsmInv (t : OTab) (u : OUnit) (s : GsmSt) : Prop where
  c1 : Cur t 0 s.J1 (s.KA s.L)
  c2 : Cur t u.KP s.J2 (s.KA s.L)
  c3 : Cur t u.KT s.J3 (s.KA s.L)
  zero : s.KA 0 = 0
  lt : ∀ i, i < s.L → s.KA i < s.KA (i + 1)
  exact : ∀ i, i ≤ s.L → s.PA i = conv t u (s.KA i)
  gap : ∀ i x, i < s.L → s.KA i < x → x ≤ s.KA (i + 1) → conv t u x = s.PA (i + 1)

/-- The largest level that can be produced stays below the sentinel of a million. -/
def Fits (t : OTab) (u : OUnit) : Prop := ∀ j, j < t.N → t.KA j + u.KT < 1000000 ∧ t.KA j + u.KP < 1000000

theorem gsmInit_inv {t : OTab} {u : OUnit} (ht : TabOk t) (hu : UnitOk u) : GsmInv t u (gsmInit t u) := by
  have hk := hu.kt
  have hp := hu.kp
  have hN := ht.pos
  refine ⟨?_, ?_, ?_, ?_, ?_, ?_, ?_⟩
  · refine ⟨hN, fun i hi => ?_, fun h => ?_⟩
    · have : i = 0 := by simp [gsmInit] at hi; omega
      subst this
      simp [gsmInit, ht.zero]
    · have := ht.lt 0 1 (by omega) h
      simp only [gsmInit, if_true]
      rw [ht.zero] at this
      omega
  · by_cases h0 : u.KP = 0
    · simp only [gsmInit, h0, if_true]
      refine ⟨hN, fun i hi => ?_, fun h => ?_⟩
      · have : i = 0 := by omega
        subst this
        rw [ht.zero]; omega
      · have := ht.lt 0 1 (by omega) h
        rw [ht.zero] at this
        omega
    · simp only [gsmInit, h0, if_true, if_false]
      refine ⟨by omega, fun i hi => absurd hi (by omega), fun h => ?_⟩
      rw [ht.zero]; omega
  · refine ⟨by simp [gsmInit], fun i hi => absurd hi (by simp [gsmInit]), fun h => ?_⟩
    simp [gsmInit, ht.zero, hk]
  · simp [gsmInit]
  · intro i hi
    simp [gsmInit] at hi
  · intro i hi
    have : i = 0 := by simpa [gsmInit] using hi
    subst this
    simp [gsmInit, conv_nonpos ht hu]
  · intro i x hi
    simp [gsmInit] at hi

theorem gsmMin_le {t : OTab} {u : OUnit} {s : GsmSt} :
    gsmMin t u s ≤ gsmKO t.N t.KA 0 s.J1 ∧ gsmMin t u s ≤ gsmKO t.N t.KA u.KP s.J2 ∧
      gsmMin t u s ≤ gsmKO t.N t.KA u.KT s.J3 := by
  unfold gsmMin
  omega

theorem Cur.ko_gt {t : OTab} {s : ℤ} {J : ℕ} {k : ℤ} (h : Cur t s J k) (hk : k < 1000000) :
    k < gsmKO t.N t.KA s J := by
  rw [h.ko]
  split
  · exact h.after (by assumption)
  · exact hk

/-- While some cursor is inside the table, the level selected is a real one. -/
theorem gsmMin_lt {t : OTab} {u : OUnit} {s : GsmSt} (hu : UnitOk u) (hf : Fits t u) (h : GsmInv t u s)
    (hJ : min (min s.J1 s.J2) s.J3 < t.N) : gsmMin t u s < 1000000 := by
  have hk := hu.kt
  obtain ⟨h1, h2, h3⟩ := gsmMin_le (t := t) (u := u) (s := s)
  by_cases a : s.J1 < t.N
  · rw [h.c1.ko, if_pos a] at h1
    have := hf _ a
    omega
  by_cases b : s.J2 < t.N
  · rw [h.c2.ko, if_pos b] at h2
    have := hf _ b
    omega
  · have c : s.J3 < t.N := by omega
    rw [h.c3.ko, if_pos c] at h3
    have := hf _ c
    omega

theorem GsmInv.cur_lt {t : OTab} {u : OUnit} {s : GsmSt} (hu : UnitOk u) (hf : Fits t u) (h : GsmInv t u s)
    (hJ : min (min s.J1 s.J2) s.J3 < t.N) : s.KA s.L < gsmMin t u s := by
  have hk := hu.kt
  have hK : s.KA s.L < 1000000 := by
    by_cases a : s.J1 < t.N
    · have := h.c1.after a; have := hf _ a; omega
    by_cases b : s.J2 < t.N
    · have := h.c2.after b; have := hf _ b; omega
    · have := h.c3.after (by omega); have := hf s.J3 (by omega); omega
  have h1 := h.c1.ko_gt hK
  have h2 := h.c2.ko_gt hK
  have h3 := h.c3.ko_gt hK
  unfold gsmMin
  omega

theorem gsmBody_inv {t : OTab} {u : OUnit} {s : GsmSt} (ht : TabOk t) (hu : UnitOk u) (hf : Fits t u)
    (h : GsmInv t u s) (hJ : min (min s.J1 s.J2) s.J3 < t.N) : GsmInv t u (gsmBody t u s) := by
  have hM := gsmMin_lt hu hf h hJ
  have hk := h.cur_lt hu hf hJ
  obtain ⟨h1, h2, h3⟩ := gsmMin_le (t := t) (u := u) (s := s)
  have hgap : ∀ x, s.KA s.L < x → x ≤ gsmMin t u s → conv t u x =
      gsmP t.N t.PA s.J1 * u.P1 + gsmP t.N t.PA s.J2 * u.P2 + gsmP t.N t.PA s.J3 * u.P3 := by
    intro x hx hxm
    unfold conv
    have e1 := h.c1.tail hx (fun a => by rw [h.c1.ko, if_pos a] at h1; omega)
    have e2 := h.c2.tail hx (fun a => by rw [h.c2.ko, if_pos a] at h2; omega)
    have e3 := h.c3.tail hx (fun a => by rw [h.c3.ko, if_pos a] at h3; omega)
    rw [sub_zero] at e1
    rw [e1, e2, e3]
  refine ⟨?_, ?_, ?_, ?_, ?_, ?_, ?_⟩
  · have := h.c1.step ht hk h1 hM
    simpa [gsmBody] using this
  · have := h.c2.step ht hk h2 hM
    simpa [gsmBody] using this
  · have := h.c3.step ht hk h3 hM
    simpa [gsmBody] using this
  · simp only [gsmBody]
    rw [if_neg (by omega)]
    exact h.zero
  · intro i hi
    simp only [gsmBody] at hi ⊢
    rw [if_neg (by omega)]
    by_cases e : i = s.L
    · subst e
      rw [if_pos rfl]
      exact hk
    · rw [if_neg (by omega)]
      exact h.lt i (by omega)
  · intro i hi
    simp only [gsmBody] at hi ⊢
    by_cases e : i = s.L + 1
    · rw [if_pos e, if_pos e]
      exact (hgap _ hk le_rfl).symm
    · rw [if_neg e, if_neg e]
      exact h.exact i (by omega)
  · intro i x hi
    simp only [gsmBody] at hi ⊢
    rw [if_neg (by omega)]
    by_cases e : i = s.L
    · subst e
      rw [if_pos rfl, if_pos rfl]
      exact hgap x
    · rw [if_neg (by omega), if_neg (by omega)]
      exact h.gap i x (by omega)

theorem gsmLoop_inv {t : OTab} {u : OUnit} (ht : TabOk t) (hu : UnitOk u) (hf : Fits t u) (f : ℕ) :
    ∀ s, GsmInv t u s → GsmInv t u (gsmLoop t u f s) := by
  induction f with
  | zero => intro s h; exact h
  | succ f ih =>
    intro s h
    unfold gsmLoop
    split
    · rename_i hc
      exact ih _ (gsmBody_inv ht hu hf h hc.1)
    · exact h

/-- The fuel is never what ends the loop: on exit the loop condition is false. -/
theorem gsmLoop_exit (t : OTab) (u : OUnit) (f : ℕ) :
    ∀ s, 4950 < f + s.L → ¬ gsmCond t (gsmLoop t u f s) := by
  induction f with
  | zero =>
    intro s h hc
    simp only [gsmLoop] at hc
    have := hc.2.2
    omega
  | succ f ih =>
    intro s h
    unfold gsmLoop
    split
    · exact ih _ (by simp only [gsmBody]; omega)
    · assumption

theorem gsmLoop_L (t : OTab) (u : OUnit) (f : ℕ) :
    ∀ s, s.L ≤ 4950 → (gsmLoop t u f s).L ≤ 4950 := by
  induction f with
  | zero => intro s h; exact h
  | succ f ih =>
    intro s h
    unfold gsmLoop
    split
    · rename_i hc
      have := hc.2.2
      exact ih _ (by simp only [gsmBody]; omega)
    · exact h

theorem strict_of_succ {K : ℕ → ℤ} {L : ℕ} (h : ∀ i, i < L → K i < K (i + 1)) :
    ∀ i j, i < j → j ≤ L → K i < K j := by
  intro i j hij
  induction j with
  | zero => omega
  | succ j ih =>
    intro hj
    rcases Nat.lt_or_ge i j with h1 | h1
    · have := ih h1 (by omega)
      have := h j (by omega)
      omega
    · have : i = j := by omega
      subst this
      exact h i (by omega)

/-- Everything the unit addition does to a table. `last` is the highest level kept. -/
theorem gsm_inv {t : OTab} {u : OUnit} (ht : TabOk t) (hu : UnitOk u) (hf : Fits t u) :
    ∃ s, gsm t u = gsmFinish s ∧ GsmInv t u s ∧ ¬ gsmCond t s ∧ s.L ≤ 4950 :=
  ⟨_, rfl, gsmLoop_inv ht hu hf _ _ (gsmInit_inv ht hu), gsmLoop_exit t u _ _ (by simp [gsmInit]),
    gsmLoop_L t u _ _ (by simp [gsmInit])⟩

theorem finish_ok {t : OTab} {u : OUnit} {s : GsmSt} (ht : TabOk t) (hu : UnitOk u) (h : GsmInv t u s) :
    TabOk (gsmFinish s) := by
  have hlt := strict_of_succ h.lt
  have hPA : ∀ i, i ≤ s.L → (gsmFinish s).PA i = conv t u (s.KA i) := fun i hi => by
    simp only [gsmFinish]
    rw [if_neg (by omega)]
    exact h.exact i hi
  refine ⟨by simp [gsmFinish], h.zero, ?_, ?_, ?_, ?_⟩
  · rw [hPA 0 (by omega), h.zero, conv_nonpos ht hu le_rfl]
  · intro i j hij hj
    exact hlt i j hij (by simp [gsmFinish] at hj; omega)
  · intro i j hij hj
    simp only [gsmFinish] at hj
    rw [hPA i (by omega), hPA j (by omega)]
    apply conv_anti ht hu
    rcases hij.eq_or_lt with e | l
    · rw [e]
    · exact (hlt i j l (by omega)).le
  · intro j hj
    simp only [gsmFinish] at hj
    rw [hPA j (by omega)]
    exact conv_nonneg ht hu _

/-- Below the last level the new table is the convolution, at every `x`. -/
theorem finish_tail {t : OTab} {u : OUnit} {s : GsmSt} (ht : TabOk t) (hu : UnitOk u) (h : GsmInv t u s)
    (x : ℤ) : OTab.tail (gsmFinish s) x = if x ≤ s.KA s.L then conv t u x else 0 := by
  have hlt := strict_of_succ h.lt
  obtain ⟨j, hj, h1, h2⟩ := exists_cursor (s.L + 1) s.KA x
  unfold OTab.tail
  show tabTail (s.L + 1) s.KA (fun i => if i = s.L + 1 then 0 else s.PA i) x = _
  rw [tail_eq hj h1 h2]
  by_cases hL : j < s.L + 1
  · rw [if_pos hL, if_neg (by omega)]
    have hxj := h2 hL
    have hxL : x ≤ s.KA s.L := by
      rcases Nat.lt_or_ge j s.L with h3 | h3
      · have := hlt j s.L h3 le_rfl; omega
      · have : j = s.L := by omega
        subst this; exact hxj
    rw [if_pos hxL]
    rcases Nat.eq_zero_or_pos j with e | hp
    · subst e
      rw [h.zero] at hxj
      rw [conv_nonpos ht hu hxj, h.exact 0 (by omega), h.zero, conv_nonpos ht hu le_rfl]
    · have := h.gap (j - 1) x (by omega) (h1 (j - 1) (by omega))
      rw [Nat.sub_add_cancel hp] at this
      exact (this hxj).symm
  · rw [if_neg hL]
    have hj' : j = s.L + 1 := by omega
    have := h1 s.L (by omega)
    rw [if_neg (by omega)]

/-- The part of the convolution above the last level. -/
theorem finish_rest {t : OTab} {u : OUnit} {s : GsmSt} (ht : TabOk t) (hu : UnitOk u) (h : GsmInv t u s)
    (hc : ¬ gsmCond t s) (hL : s.L < 4950) {x : ℤ} (hx : s.KA s.L < x) : conv t u x ≤ 1 / 1000000000 := by
  by_cases hJ : min (min s.J1 s.J2) s.J3 < t.N
  · have hp : ¬ (1 / 1000000000 < s.PA s.L) := fun h' => hc ⟨hJ, h', hL⟩
    have := conv_anti ht hu hx.le
    rw [← h.exact s.L le_rfl] at this
    linarith
  · have a1 := h.c1.le
    have a2 := h.c2.le
    have a3 := h.c3.le
    have e1 := h.c1.tail hx (fun a => by omega)
    have e2 := h.c2.tail hx (fun a => by omega)
    have e3 := h.c3.tail hx (fun a => by omega)
    rw [h.c1.p, if_neg (by omega), sub_zero] at e1
    rw [h.c2.p, if_neg (by omega)] at e2
    rw [h.c3.p, if_neg (by omega)] at e3
    unfold conv
    rw [e1, e2, e3]
    norm_num

/-- C24 (one unit): adding a three-state unit to a well-formed table gives a well-formed table (levels
strictly increasing from 0, probabilities non-increasing from 1, not negative) and at every level of the
new table the probability is the convolution of the old distribution with the unit. -/
theorem C24_unit {t : OTab} {u : OUnit} (ht : TabOk t) (hu : UnitOk u) (hf : Fits t u) :
    TabOk (gsm t u) ∧ ∀ k, k < (gsm t u).N →
      (gsm t u).PA k = u.P1 * tabTail t.N t.KA t.PA ((gsm t u).KA k)
        + u.P2 * tabTail t.N t.KA t.PA ((gsm t u).KA k - u.KP)
        + u.P3 * tabTail t.N t.KA t.PA ((gsm t u).KA k - u.KT) := by
  obtain ⟨s, e, h, _, _⟩ := gsm_inv ht hu hf
  rw [e]
  refine ⟨finish_ok ht hu h, fun k hk => ?_⟩
  simp only [gsmFinish] at hk ⊢
  rw [if_neg (by omega), h.exact k (by omega)]
  unfold conv OTab.tail
  ring

/-- C24 (one unit, between the levels): the new table agrees with the convolution for every number `x` of
megawatts up to its last level; above it, as long as the table did not run full (4951 states), the
convolution is at most `10⁻⁹`. -/
theorem C24_unit_tail {t : OTab} {u : OUnit} (ht : TabOk t) (hu : UnitOk u) (hf : Fits t u) (x : ℤ) :
    OTab.tail (gsm t u) x ≤ conv t u x ∧
      ((gsm t u).N < 4951 → conv t u x ≤ OTab.tail (gsm t u) x + 1 / 1000000000) := by
  obtain ⟨s, e, h, hc, _⟩ := gsm_inv ht hu hf
  rw [e, finish_tail ht hu h]
  have h0 := conv_nonneg ht hu x
  split
  · exact ⟨le_rfl, fun _ => by norm_num⟩
  · rename_i hx
    refine ⟨h0, fun hN => ?_⟩
    have := finish_rest ht hu h hc (by simp [gsmFinish] at hN; omega) (show s.KA s.L < x by omega)
    linarith

/-! ### Levels -/

/-- Every level written is one of the old levels, possibly shifted by the unit's losses. -/
theorem gsmLoop_levels {t : OTab} {u : OUnit} (ht : TabOk t) (hu : UnitOk u) (hf : Fits t u) (Q : ℤ → Prop)
    (hQ : ∀ j, j < t.N → Q (t.KA j) ∧ Q (t.KA j + u.KP) ∧ Q (t.KA j + u.KT)) (f : ℕ) :
    ∀ s, GsmInv t u s → (∀ i, i ≤ s.L → Q (s.KA i)) →
      ∀ i, i ≤ (gsmLoop t u f s).L → Q ((gsmLoop t u f s).KA i) := by
  induction f with
  | zero => intro s _ h; exact h
  | succ f ih =>
    intro s h hq
    unfold gsmLoop
    split
    · rename_i hc
      refine ih _ (gsmBody_inv ht hu hf h hc.1) fun i hi => ?_
      simp only [gsmBody] at hi ⊢
      split
      · have hM := gsmMin_lt hu hf h hc.1
        have k1 := h.c1.ko
        have k2 := h.c2.ko
        have k3 := h.c3.ko
        have : gsmMin t u s = gsmKO t.N t.KA 0 s.J1 ∨ gsmMin t u s = gsmKO t.N t.KA u.KP s.J2 ∨
            gsmMin t u s = gsmKO t.N t.KA u.KT s.J3 := by unfold gsmMin; omega
        rcases this with e | e | e
        · rw [e, k1] at hM ⊢
          split at hM
          · rename_i hj
            rw [if_pos hj, add_zero]
            exact (hQ _ hj).1
          · omega
        · rw [e, k2] at hM ⊢
          split at hM
          · rename_i hj
            rw [if_pos hj]
            exact (hQ _ hj).2.1
          · omega
        · rw [e, k3] at hM ⊢
          split at hM
          · rename_i hj
            rw [if_pos hj]
            exact (hQ _ hj).2.2
          · omega
      · exact hq i (by omega)
    · exact hq

theorem gsm_levels {t : OTab} {u : OUnit} (ht : TabOk t) (hu : UnitOk u) (hf : Fits t u) (Q : ℤ → Prop)
    (hQ : ∀ j, j < t.N → Q (t.KA j) ∧ Q (t.KA j + u.KP) ∧ Q (t.KA j + u.KT)) :
    ∀ k, k < (gsm t u).N → Q ((gsm t u).KA k) := by
  intro k hk
  refine gsmLoop_levels ht hu hf Q hQ 4951 _ (gsmInit_inv ht hu) (fun i hi => ?_) k ?_
  · have : i = 0 := by simpa [gsmInit] using hi
    subst this
    have := (hQ 0 ht.pos).1
    rw [ht.zero] at this
    simpa [gsmInit] using this
  · simp only [gsm, gsmFinish] at hk
    omega

/-- C24: every array index the table uses is inside the arrays of length 5000: at most 4951 states are
kept, and the code touches at most the two entries above them. -/
theorem C24_indices (t : OTab) (u : OUnit) : (gsm t u).N + 1 ≤ 4952 := by
  have := gsmLoop_L t u 4951 (gsmInit t u) (by simp [gsmInit])
  simp only [gsm, gsmFinish]
  omega

/-! ### The whole table -/

theorem round10_spec {x : ℚ} (hx : 0 ≤ x) :
    (10 : ℤ) ∣ round10 x ∧ 0 ≤ round10 x ∧ (round10 x : ℚ) ≤ x + 11 / 2 ∧ x < round10 x + 9 / 2 := by
  have h : pyInt (x + 11 / 2) = ⌊x + 11 / 2⌋ := if_pos (by linarith)
  have h0 : 0 ≤ ⌊x + 11 / 2⌋ := Int.floor_nonneg.2 (by linarith)
  have h1 := Int.floor_le (x + 11 / 2)
  have h2 := Int.lt_floor_add_one (x + 11 / 2)
  unfold round10
  rw [h]
  generalize ⌊x + 11 / 2⌋ = k at *
  have e : k - k % 10 + 10 ≥ k + 1 := by omega
  have e2 : k - k % 10 ≤ k := by omega
  have e' : ((k - k % 10 : ℤ) : ℚ) + 10 ≥ k + 1 := by exact_mod_cast e
  have e2' : ((k - k % 10 : ℤ) : ℚ) ≤ k := by exact_mod_cast e2
  refine ⟨by omega, by omega, by linarith, by linarith⟩

/-- A row of unit data the table is meant for: a capacity of at least 4.5 MW (so that it is not rounded to
zero), probabilities of the derated and the outage state, and a derating fraction. -/
structure RowOk (r : LossRow) : Prop where
  cap : 9 / 2 ≤ r.caplos
  d : 0 ≤ r.rd0
  o : 0 ≤ r.rd1
  up : r.rd0 + r.rd1 < 1 - 1 / 1000000
  f0 : 0 ≤ r.rd2
  f1 : r.rd2 ≤ 1

/-- C24: capacities are rounded to the nearest 10 MW (ties and the half megawatt above upwards). -/
theorem C24_rounding {r : LossRow} (h : RowOk r) :
    UnitOk (lossUnit r) ∧ (lossUnit r).KP ≤ (lossUnit r).KT ∧ (10 : ℤ) ∣ (lossUnit r).KT ∧
      (10 : ℤ) ∣ (lossUnit r).KP ∧ -(9 / 2) < ((lossUnit r).KT : ℚ) - r.caplos ∧
      ((lossUnit r).KT : ℚ) - r.caplos ≤ 11 / 2 := by
  obtain ⟨a1, a2, a3, a4⟩ := round10_spec (x := r.caplos) (by linarith [h.cap])
  have hpos : 0 < round10 r.caplos := by
    have : (0 : ℚ) < round10 r.caplos := by linarith [h.cap]
    exact_mod_cast this
  have hq : (0 : ℚ) ≤ round10 r.caplos := by exact_mod_cast a2
  obtain ⟨b1, b2, b3, b4⟩ := round10_spec (x := (round10 r.caplos : ℚ) * r.rd2) (mul_nonneg hq h.f0)
  have hle : ((round10 ((round10 r.caplos : ℚ) * r.rd2) : ℤ) : ℚ) ≤ round10 r.caplos + 11 / 2 := by
    have := mul_le_mul_of_nonneg_left h.f1 hq
    linarith
  have hle' : round10 ((round10 r.caplos : ℚ) * r.rd2) < round10 r.caplos + 6 := by
    have : ((round10 ((round10 r.caplos : ℚ) * r.rd2) : ℤ) : ℚ) < ((round10 r.caplos + 6 : ℤ) : ℚ) := by
      push_cast; linarith
    exact_mod_cast this
  refine ⟨⟨hpos, b2, ?_, h.d, h.o, ?_⟩, ?_, a1, b1, ?_, ?_⟩
  · simp only [lossUnit]; linarith [h.up]
  · simp only [lossUnit]; ring
  · simp only [lossUnit]; omega
  · simp only [lossUnit]; linarith
  · simp only [lossUnit]; linarith

/-- The three states of a unit of the table: nothing lost, derated, lost. -/
def unitOutcomes (r : LossRow) : Outcomes :=
  [(0, 1 - r.rd0 - r.rd1), ((lossUnit r).KP, r.rd0), ((lossUnit r).KT, r.rd1)]

theorem probLost_nil (x : ℤ) : probLost [] x = 0 := rfl

theorem probLost_append (a b : Outcomes) (x : ℤ) : probLost (a ++ b) x = probLost a x + probLost b x := by
  simp [probLost]

theorem probLost_shift (k : ℤ) (p : ℚ) (o : Outcomes) (x : ℤ) :
    probLost (o.map fun b => (k + b.1, p * b.2)) x = p * probLost o (x - k) := by
  induction o with
  | nil => simp [probLost]
  | cons b o ih =>
    have e : ∀ (c : ℤ × ℚ) (l : Outcomes) (y : ℤ),
        probLost (c :: l) y = (if y ≤ c.1 then c.2 else 0) + probLost l y := by
      intro c l y
      unfold probLost
      by_cases h : y ≤ c.1
      · simp [h]
      · simp [h]
    rw [List.map_cons, e, e, ih, mul_add]
    congr 1
    by_cases h : x ≤ k + b.1
    · rw [if_pos h, if_pos (by omega)]
    · rw [if_neg h, if_neg (by omega), mul_zero]

theorem probLost_cons (r : LossRow) (us : List Outcomes) (x : ℤ) :
    probLost (joint (unitOutcomes r :: us)) x = (1 - r.rd0 - r.rd1) * probLost (joint us) x
      + r.rd0 * probLost (joint us) (x - (lossUnit r).KP)
      + r.rd1 * probLost (joint us) (x - (lossUnit r).KT) := by
  simp only [joint, unitOutcomes, List.flatMap_cons, List.flatMap_nil, List.append_nil]
  rw [probLost_append, probLost_append, probLost_shift, probLost_shift, probLost_shift, sub_zero]
  ring

/-- Adding a unit at the end of the list gives the same distribution as adding it in front. -/
theorem probLost_concat (rs : List LossRow) (r : LossRow) (x : ℤ) :
    probLost (joint ((rs ++ [r]).map unitOutcomes)) x
      = (1 - r.rd0 - r.rd1) * probLost (joint (rs.map unitOutcomes)) x
      + r.rd0 * probLost (joint (rs.map unitOutcomes)) (x - (lossUnit r).KP)
      + r.rd1 * probLost (joint (rs.map unitOutcomes)) (x - (lossUnit r).KT) := by
  induction rs generalizing x with
  | nil =>
    simp only [List.nil_append, List.map_cons, List.map_nil]
    exact probLost_cons r [] x
  | cons q rs ih =>
    simp only [List.cons_append, List.map_cons]
    rw [probLost_cons, probLost_cons, probLost_cons, probLost_cons, ih, ih, ih]
    have e1 : ∀ a b : ℤ, x - a - b = x - b - a := fun a b => by omega
    rw [e1 (lossUnit r).KP, e1 (lossUnit r).KP, e1 (lossUnit r).KT, e1 (lossUnit r).KT]
    ring

theorem otab0_ok : TabOk otab0 := by
  refine ⟨by simp [otab0], rfl, rfl, ?_, ?_, ?_⟩
  · intro i j h hj; simp [otab0] at hj; omega
  · intro i j h hj
    have : j = 0 := by simp [otab0] at hj; omega
    subst this
    have : i = 0 := by omega
    subst this
    exact le_rfl
  · intro j hj
    have : j = 0 := by simp [otab0] at hj; omega
    subst this
    simp [otab0]

theorem otab0_tail (x : ℤ) : OTab.tail otab0 x = probLost (joint []) x := by
  simp only [OTab.tail, tabTail, otab0, probLost, joint]
  by_cases h : x ≤ 0
  · simp [h, List.range_succ]
  · simp [h, List.range_succ]

/-- Total rounded capacity of the units. -/
def totalKT (rs : List LossRow) : ℤ := (rs.map fun r => (lossUnit r).KT).sum

theorem pmlolp_concat (rs : List LossRow) (r : LossRow) (hr : RowOk r) :
    pmlolp (rs ++ [r]) = gsm (pmlolp rs) (lossUnit r) := by
  unfold pmlolp
  rw [List.foldl_append]
  simp only [List.foldl_cons, List.foldl_nil, pmlolpStep]
  exact if_pos (by simp only [lossUnit]; linarith [hr.up])

theorem totalKT_nonneg {rs : List LossRow} (h : ∀ r ∈ rs, RowOk r) : 0 ≤ totalKT rs := by
  unfold totalKT
  apply List.sum_nonneg
  intro k hk
  obtain ⟨r, hr, rfl⟩ := List.mem_map.1 hk
  exact (C24_rounding (h r hr)).1.kt.le

/-- Everything about the table of a list of units, by induction on the list. -/
theorem pmlolp_all (rs : List LossRow) : (∀ r ∈ rs, RowOk r) → totalKT rs < 1000000 →
    TabOk (pmlolp rs) ∧ (∀ k, k < (pmlolp rs).N → (10 : ℤ) ∣ (pmlolp rs).KA k ∧ (pmlolp rs).KA k ≤ totalKT rs) ∧
      (∀ x, OTab.tail (pmlolp rs) x ≤ probLost (joint (rs.map unitOutcomes)) x) ∧
      (totalKT rs < 49500 → ∀ x, probLost (joint (rs.map unitOutcomes)) x
        ≤ OTab.tail (pmlolp rs) x + rs.length * (1 / 1000000000)) := by
  induction rs using List.reverseRecOn with
  | nil =>
    intro _ _
    refine ⟨otab0_ok, fun k hk => ?_, fun x => (otab0_tail x).le, fun _ x => ?_⟩
    · simp [pmlolp, otab0, totalKT]
    · have := (otab0_tail x).ge
      simpa [pmlolp] using this
  | append_singleton rs r ih =>
    intro hall hT
    have hr : RowOk r := hall r (by simp)
    have hrs : ∀ q ∈ rs, RowOk q := fun q hq => hall q (by simp [hq])
    obtain ⟨hu, hkp, hd, hdp, _, _⟩ := C24_rounding hr
    have hsum : totalKT (rs ++ [r]) = totalKT rs + (lossUnit r).KT := by simp [totalKT]
    rw [hsum] at hT ⊢
    have hk := hu.kt
    obtain ⟨ht, hlev, hlow, hup⟩ := ih hrs (by omega)
    have hf : Fits (pmlolp rs) (lossUnit r) := fun j hj => by
      have := (hlev j hj).2
      omega
    rw [pmlolp_concat rs r hr]
    have hok := (C24_unit ht hu hf).1
    have hlev' : ∀ k, k < (gsm (pmlolp rs) (lossUnit r)).N →
        (10 : ℤ) ∣ (gsm (pmlolp rs) (lossUnit r)).KA k ∧
        (gsm (pmlolp rs) (lossUnit r)).KA k ≤ totalKT rs + (lossUnit r).KT := by
      refine gsm_levels ht hu hf (fun y => (10 : ℤ) ∣ y ∧ y ≤ totalKT rs + (lossUnit r).KT) fun j hj => ?_
      have := hlev j hj
      exact ⟨⟨this.1, by omega⟩, ⟨dvd_add this.1 hdp, by omega⟩, ⟨dvd_add this.1 hd, by omega⟩⟩
    refine ⟨hok, hlev', fun x => ?_, fun h49 x => ?_⟩
    · refine ((C24_unit_tail ht hu hf x).1).trans ?_
      rw [probLost_concat]
      unfold conv
      have a := mul_le_mul_of_nonneg_right (hlow x) hu.p1
      have b := mul_le_mul_of_nonneg_right (hlow (x - (lossUnit r).KP)) hu.p2
      have c := mul_le_mul_of_nonneg_right (hlow (x - (lossUnit r).KT)) hu.p3
      simp only [lossUnit] at a b c ⊢
      linarith
    · have hN : (gsm (pmlolp rs) (lossUnit r)).N < 4951 := by
        have hgrow : ∀ k, k < (gsm (pmlolp rs) (lossUnit r)).N →
            10 * (k : ℤ) ≤ (gsm (pmlolp rs) (lossUnit r)).KA k := by
          intro k
          induction k with
          | zero => intro _; rw [hok.zero]; norm_num
          | succ k ihk =>
            intro hk1
            have h1 := ihk (by omega)
            have h2 := hok.lt k (k + 1) (by omega) hk1
            have h3 := (hlev' k (by omega)).1
            have h4 := (hlev' (k + 1) hk1).1
            push_cast
            omega
        have hp := hok.pos
        have h1 := hgrow ((gsm (pmlolp rs) (lossUnit r)).N - 1) (by omega)
        have h2 := (hlev' ((gsm (pmlolp rs) (lossUnit r)).N - 1) (by omega)).2
        omega
      have h1 := (C24_unit_tail ht hu hf x).2 hN
      rw [probLost_concat]
      have hup' := hup (by omega)
      have a := mul_le_mul_of_nonneg_right (hup' x) hu.p1
      have b := mul_le_mul_of_nonneg_right (hup' (x - (lossUnit r).KP)) hu.p2
      have c := mul_le_mul_of_nonneg_right (hup' (x - (lossUnit r).KT)) hu.p3
      unfold conv at h1
      rw [List.length_append]
      simp only [lossUnit, List.length_singleton, Nat.cast_add, Nat.cast_one] at a b c h1 ⊢
      nlinarith [a, b, c, h1]

/-- C24 (whole table): for units of at least 4.5 MW that are up with a probability above `10⁻⁶`, of
together less than a million MW, the table starts with probability 1 at 0 MW, its levels increase strictly
and are multiples of 10 MW, its probabilities do not increase and lie in [0, 1], and for every `x` the
probability read off it never exceeds the true probability that independent units of these (rounded)
capacities lose at least `x` MW. If they have together less than 49 500 MW, the difference is at most
`10⁻⁹` per unit. -/
theorem C24_table (rs : List LossRow) (h : ∀ r ∈ rs, RowOk r) (hT : totalKT rs < 1000000) :
    (pmlolp rs).KA 0 = 0 ∧ (pmlolp rs).PA 0 = 1 ∧
    (∀ i j, i < j → j < (pmlolp rs).N → (pmlolp rs).KA i < (pmlolp rs).KA j ∧
      (pmlolp rs).PA j ≤ (pmlolp rs).PA i) ∧
    (∀ k, k < (pmlolp rs).N → 0 ≤ (pmlolp rs).PA k ∧ (pmlolp rs).PA k ≤ 1 ∧ (10 : ℤ) ∣ (pmlolp rs).KA k) ∧
    (∀ x, tabTail (pmlolp rs).N (pmlolp rs).KA (pmlolp rs).PA x
        ≤ probLost (joint (rs.map unitOutcomes)) x) ∧
    (totalKT rs < 49500 → ∀ x, probLost (joint (rs.map unitOutcomes)) x
      ≤ tabTail (pmlolp rs).N (pmlolp rs).KA (pmlolp rs).PA x + rs.length * (1 / 1000000000)) := by
  obtain ⟨hok, hlev, hlow, hup⟩ := pmlolp_all rs h hT
  refine ⟨hok.zero, hok.one, fun i j hij hj => ⟨hok.lt i j hij hj, hok.anti i j hij.le hj⟩,
    fun k hk => ⟨hok.nonneg k hk, ?_, (hlev k hk).1⟩, hlow, hup⟩
  rw [← hok.one]
  exact hok.anti 0 k (by omega) hk

/-! ### The two implementations -/

theorem gsmKO'_eq {t : OTab} {s : ℤ} {J : ℕ} {k : ℤ} (h : Cur t s J k) :
    gsmKO' t.N t.KA s J = gsmKO t.N t.KA s J := by
  have := h.le
  rw [h.ko]
  unfold gsmKO'
  by_cases hJ : J < t.N
  · rw [if_pos hJ, if_pos hJ]
  · rw [if_neg hJ, if_neg hJ, if_pos (by omega)]

theorem gsmP'_eq {t : OTab} {s : ℤ} {J : ℕ} {k : ℤ} (h : Cur t s J k) :
    gsmP' t.N t.PA J = gsmP t.N t.PA J := by rw [h.p]; rfl

theorem gsmBody'_eq {t : OTab} {u : OUnit} {s : GsmSt} (h : GsmInv t u s) :
    gsmBody' t u s = gsmBody t u s := by
  simp only [gsmBody', gsmBody, gsmMin, gsmKO'_eq h.c1, gsmKO'_eq h.c2, gsmKO'_eq h.c3, gsmP'_eq h.c1,
    gsmP'_eq h.c2, gsmP'_eq h.c3]
  rw [GsmSt.mk.injEq]
  exact ⟨rfl, if_congr eq_comm rfl rfl, if_congr eq_comm rfl rfl, if_congr eq_comm rfl rfl, rfl, rfl⟩

theorem gsmLoop'_eq {t : OTab} {u : OUnit} (ht : TabOk t) (hu : UnitOk u) (hf : Fits t u) (f : ℕ) :
    ∀ s, GsmInv t u s → gsmCond t s → gsmLoop' t u f s = gsmLoop t u f s := by
  induction f with
  | zero => intro s _ _; rfl
  | succ f ih =>
    intro s h hc
    have hb := gsmBody_inv ht hu hf h hc.1
    unfold gsmLoop' gsmLoop
    rw [if_pos hc, gsmBody'_eq h]
    generalize gsmBody t u s = s' at hb
    have stop : ¬ gsmCond t s' → gsmLoop t u f s' = s' := by
      intro hn
      cases f with
      | zero => rfl
      | succ f => unfold gsmLoop; exact if_neg hn
    simp only
    split
    · rename_i h1
      exact (stop fun hc' => by have := hc'.1; omega).symm
    · rename_i h1
      split
      · rename_i h2
        exact (stop fun hc' => absurd hc'.2.1 (by linarith)).symm
      · rename_i h2
        split
        · rename_i h3
          exact (stop fun hc' => by have := hc'.2.2; omega).symm
        · rename_i h3
          exact ih _ hb ⟨by omega, by linarith, by omega⟩

/-- C24: the loop version `_gsm` and the vectorised `gsm` give the same table. -/
theorem C24_versions {t : OTab} {u : OUnit} (ht : TabOk t) (hu : UnitOk u) (hf : Fits t u) :
    gsm' t u = gsm t u := by
  unfold gsm' gsm
  rw [gsmLoop'_eq ht hu hf 4951 _ (gsmInit_inv ht hu)]
  have := ht.pos
  refine ⟨by simp [gsmInit]; omega, ?_, by simp [gsmInit]⟩
  simp only [gsmInit, if_true]
  norm_num

/-! ### Where the table is wrong -/

/-- A unit that is never up. -/
def deadRow : LossRow := { caplos := 100, rd0 := 0, rd1 := 1, rd2 := 0 }

/-- C24, refuted for units that are (almost) never up: such a unit is left out of the table, although its
capacity is lost with certainty. -/
theorem C24_dead_unit_refuted :
    tabTail (pmlolp [deadRow]).N (pmlolp [deadRow]).KA (pmlolp [deadRow]).PA 100 = 0 ∧
      probLost (joint [unitOutcomes deadRow]) 100 = 1 := by
  decide +kernel

/-- A unit of less than 4.5 MW. -/
def tinyRow : LossRow := { caplos := 4, rd0 := 0, rd1 := 1 / 10, rd2 := 0 }

/-- C24, refuted for units below 4.5 MW: they are rounded to 0 MW and the table then has the level 0 twice,
with different probabilities. -/
theorem C24_tiny_unit_refuted :
    (pmlolp [tinyRow]).N = 2 ∧ (pmlolp [tinyRow]).KA 0 = (pmlolp [tinyRow]).KA 1 ∧
      (pmlolp [tinyRow]).PA 0 = 1 ∧ (pmlolp [tinyRow]).PA 1 = 1 / 10 := by
  decide +kernel

/-! ### Non-vacuity -/

/-- Two units: 100 MW with a derated state of 60 % loss, and 50 MW. -/
def rowA : LossRow := { caplos := 100, rd0 := 1 / 10, rd1 := 1 / 5, rd2 := 3 / 5 }
/-- see `rowA` -/
def rowB : LossRow := { caplos := 52, rd0 := 0, rd1 := 1 / 4, rd2 := 0 }

example : RowOk rowA ∧ RowOk rowB ∧ totalKT [rowA, rowB] = 150 := by
  refine ⟨?_, ?_, by decide +kernel⟩ <;> constructor <;> norm_num [rowA, rowB]

example : (pmlolp [rowA, rowB]).N = 6 ∧
    (List.range 6).map (pmlolp [rowA, rowB]).KA = [0, 50, 60, 100, 110, 150] ∧
    (List.range 6).map (pmlolp [rowA, rowB]).PA = [1, 19/40, 3/10, 9/40, 3/40, 1/20] ∧
    probLost (joint ([rowA, rowB].map unitOutcomes)) 70 = 9/40 := by
  decide +kernel

end Narp.Props
