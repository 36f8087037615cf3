import Verif.Model.Load
import Verif.Spec.Load
import Verif.Props.Capacity
import Mathlib.Tactic.FinCases

/-!
# Loads and peaks (C18, C19, C20, C23)
-/

namespace Narp.Props
open Narp Narp.Spec BigOperators

/-! ## Maxima -/

theorem le_foldl_max (l : List ℚ) (x : ℚ) : x ≤ l.foldl max x ∧ ∀ y ∈ l, y ≤ l.foldl max x := by
  induction l generalizing x with
  | nil => simp
  | cons a l ih =>
    rw [List.foldl_cons]
    obtain ⟨h1, h2⟩ := ih (max x a)
    refine ⟨le_trans (le_max_left _ _) h1, ?_⟩
    intro y hy
    rcases List.mem_cons.1 hy with rfl | hy
    · exact le_trans (le_max_right _ _) h1
    · exact h2 y hy

theorem foldl_max_mem (l : List ℚ) (x : ℚ) : l.foldl max x = x ∨ l.foldl max x ∈ l := by
  induction l generalizing x with
  | nil => simp
  | cons a l ih =>
    rw [List.foldl_cons]
    rcases ih (max x a) with h | h
    · rcases max_choice x a with h' | h'
      · left; rw [h, h']
      · right; rw [h, h']; simp
    · right; exact List.mem_cons_of_mem _ h

theorem npMax_spec {l : List ℚ} (h : l ≠ []) : npMax l ∈ l ∧ ∀ y ∈ l, y ≤ npMax l := by
  cases l with
  | nil => exact absurd rfl h
  | cons a l =>
    show l.foldl max a ∈ a :: l ∧ ∀ y ∈ a :: l, y ≤ l.foldl max a
    obtain ⟨h1, h2⟩ := le_foldl_max l a
    refine ⟨?_, ?_⟩
    · rcases foldl_max_mem l a with h | h
      · rw [h]; simp
      · exact List.mem_cons_of_mem _ h
    · intro y hy
      rcases List.mem_cons.1 hy with rfl | hy
      · exact h1
      · exact h2 y hy

theorem argmaxGo_spec (f : ℕ → ℚ) : ∀ (m i bi : ℕ), bi < i →
    (∀ k < i, f k ≤ f bi ∧ (k < bi → f k < f bi)) →
    IsFirstMax f 0 (i + m) (argmaxGo (f bi) bi i ((List.range' i m).map f))
  | 0, i, bi, hb, h => by
    simp only [List.range'_zero, List.map_nil, argmaxGo]
    exact ⟨by omega, by omega, fun k _ hk => h k (by omega)⟩
  | m + 1, i, bi, hb, h => by
    rw [List.range'_succ, List.map_cons]
    unfold argmaxGo
    split
    · next hlt =>
      have := argmaxGo_spec f m (i + 1) i (by omega) (by
        intro k hk
        by_cases hki : k = i
        · subst hki; exact ⟨le_refl _, fun hh => absurd hh (lt_irrefl _)⟩
        · have := (h k (by omega)).1
          exact ⟨(lt_of_le_of_lt this hlt).le, fun _ => lt_of_le_of_lt this hlt⟩)
      rw [show i + (m + 1) = i + 1 + m by omega]
      exact this
    · next hge =>
      have := argmaxGo_spec f m (i + 1) bi (by omega) (by
        intro k hk
        by_cases hki : k = i
        · subst hki; exact ⟨not_lt.1 hge, fun hh => by omega⟩
        · exact h k (by omega))
      rw [show i + (m + 1) = i + 1 + m by omega]
      exact this

theorem npArgmax_spec (f : ℕ → ℚ) {n : ℕ} (hn : 0 < n) : IsFirstMax f 0 n (npArgmax ((List.range n).map f)) := by
  obtain ⟨m, rfl⟩ : ∃ m, n = m + 1 := ⟨n - 1, by omega⟩
  rw [List.range_eq_range', List.range'_succ, List.map_cons]
  unfold npArgmax
  have := argmaxGo_spec f m 1 0 (by omega) (by
    intro k hk
    have : k = 0 := by omega
    subst this; exact ⟨le_refl _, fun h => absurd h (lt_irrefl _)⟩)
  rw [show m + 1 = 1 + m by omega]
  exact this

theorem _root_.Narp.Spec.IsFirstMax.unique {f : ℕ → ℚ} {lo n i j : ℕ} (hi : IsFirstMax f lo n i) (hj : IsFirstMax f lo n j) :
    i = j := by
  by_contra hne
  rcases lt_or_gt_of_ne hne with h | h
  · have h1 := (hj.2.2 i hi.1 hi.2.1).2 h
    have h2 := (hi.2.2 j hj.1 hj.2.1).1
    exact absurd h1 (not_lt.2 h2)
  · have h1 := (hi.2.2 j hj.1 hj.2.1).2 h
    have h2 := (hj.2.2 i hi.1 hi.2.1).1
    exact absurd h1 (not_lt.2 h2)

theorem npMax_eq_of_firstMax {f : ℕ → ℚ} {n i : ℕ} (h : IsFirstMax f 0 n i) :
    npMax ((List.range n).map f) = f i := by
  have hn : (List.range n).map f ≠ [] := by
    intro h0
    have : n = 0 := by simpa using h0
    have := h.2.1
    omega
  obtain ⟨h1, h2⟩ := npMax_spec hn
  obtain ⟨k, hk, hk2⟩ := List.mem_map.1 h1
  refine le_antisymm ?_ (h2 _ (List.mem_map.2 ⟨i, List.mem_range.2 (by have := h.2.1; omega), rfl⟩))
  rw [← hk2]
  exact (h.2.2 k (by omega) (by have := List.mem_range.1 hk; omega)).1

theorem _root_.Narp.Spec.IsFirstMax.shift {f : ℕ → ℚ} {lo n i : ℕ} (h : IsFirstMax (fun j => f (lo + j)) 0 n i) :
    IsFirstMax f lo n (lo + i) := by
  obtain ⟨_, h2, h3⟩ := h
  refine ⟨by omega, by omega, ?_⟩
  intro k hk1 hk2
  have := h3 (k - lo) (by omega) (by omega)
  simp only at this
  rw [show lo + (k - lo) = k by omega] at this
  exact ⟨this.1, fun h => this.2 (by omega)⟩

theorem firstMax_block (f : ℕ → ℚ) (N : ℕ) (hN : 0 < N) (lo : ℕ) :
    IsFirstMax f lo N (npArgmax ((List.range N).map fun j => f (lo + j)) + lo) := by
  rw [add_comm _ lo]
  exact (npArgmax_spec (fun j => f (lo + j)) hN).shift

/-! ## C18 -/

/-- C18 (daily and annual peaks). For every load table, the recorded peak hour of each day is the first
hour of that day with the largest load, the daily peak is the load in it, and the peak day is the first
day with the largest daily peak. -/
theorem C18_daily_peaks {n : ℕ} (hpd D : ℕ) (hh : 0 < hpd) (hD : 0 < D) (H : Fin n → ℕ → ℚ) (a : Fin n) :
    (∀ d, IsFirstMax (H a) (hpd * d) hpd ((dpeak hpd D H).1 a d) ∧
      (dpeak hpd D H).2.1 a d = H a ((dpeak hpd D H).1 a d)) ∧
    IsFirstMax ((dpeak hpd D H).2.1 a) 0 D ((dpeak hpd D H).2.2 a) := by
  refine ⟨?_, ?_⟩
  · intro d
    simp only [dpeak]
    have key := npArgmax_spec (fun j => H a (hpd * d + j)) hh
    have e : ((List.range hpd).map fun j => H a (d * hpd + j)) =
        (List.range hpd).map fun j => H a (hpd * d + j) := by
      rw [mul_comm]
    rw [e, add_comm _ (hpd * d)]
    exact ⟨key.shift, npMax_eq_of_firstMax key⟩
  · exact npArgmax_spec _ hD

theorem peakScan_spec (f : ℕ → ℚ) (lo : ℕ) : ∀ n, 0 < n →
    ∃ i, IsFirstMax f lo n i ∧ peakScan f ((List.range n).map fun j => lo + j) = (some (f i), i)
  | 0, h => absurd h (lt_irrefl _)
  | 1, _ => ⟨lo, ⟨by omega, by omega, fun k h1 h2 => by
      have : k = lo := by omega
      subst this; exact ⟨le_refl _, fun h => absurd h (lt_irrefl _)⟩⟩, by simp [peakScan]⟩
  | n + 2, _ => by
    obtain ⟨i, hi, hs⟩ := peakScan_spec f lo (n + 1) (by omega)
    rw [List.range_succ, List.map_append]
    unfold peakScan at hs ⊢
    rw [List.foldl_append, hs]
    simp only [List.map_cons, List.map_nil, List.foldl_cons, List.foldl_nil]
    obtain ⟨h1, h2, h3⟩ := hi
    split
    · next hle =>
      refine ⟨i, ⟨h1, by omega, ?_⟩, rfl⟩
      intro k hk1 hk2
      by_cases hk : k = lo + (n + 1)
      · subst hk; exact ⟨hle, fun h => by omega⟩
      · exact h3 k hk1 (by omega)
    · next hgt =>
      refine ⟨lo + (n + 1), ⟨by omega, by omega, ?_⟩, rfl⟩
      intro k hk1 hk2
      by_cases hk : k = lo + (n + 1)
      · subst hk; exact ⟨le_refl _, fun h => absurd h (lt_irrefl _)⟩
      · have := (h3 k hk1 (by omega)).1
        have hlt := lt_of_le_of_lt this (not_le.1 hgt)
        exact ⟨hlt.le, fun _ => hlt⟩

/-- C18 (the two implementations agree) on all days and areas. -/
theorem C18_variants_agree {n : ℕ} (hpd D : ℕ) (hh : 0 < hpd) (hD : 0 < D) (H : Fin n → ℕ → ℚ) :
    dpeak' hpd D H = dpeak hpd D H := by
  have hday : ∀ a d, peakScan (H a) ((List.range hpd).map fun j => d * hpd + j) =
      (some ((dpeak hpd D H).2.1 a d), (dpeak hpd D H).1 a d) := by
    intro a d
    obtain ⟨i, hi, hs⟩ := peakScan_spec (H a) (d * hpd) hpd hh
    obtain ⟨h1, h2⟩ := (C18_daily_peaks hpd D hh hD H a).1 d
    rw [mul_comm] at hi
    rw [hs, h2, hi.unique h1]
  have hd : (fun a d => (peakScan (H a) ((List.range hpd).map fun j => d * hpd + j)).1.getD 0) =
      (dpeak hpd D H).2.1 := by
    funext a d; rw [hday]; rfl
  refine Prod.ext ?_ (Prod.ext hd ?_)
  · funext a d
    show (peakScan (H a) _).2 = _
    rw [hday]
  · funext a
    show (peakScan (fun d => (peakScan (H a) _).1.getD 0) (List.range D)).2 = _
    have := congrFun hd a
    rw [show (fun d => (peakScan (H a) ((List.range hpd).map fun j => d * hpd + j)).1.getD 0) =
      (dpeak hpd D H).2.1 a from this]
    obtain ⟨i, hi, hs⟩ := peakScan_spec ((dpeak hpd D H).2.1 a) 0 D hD
    have e : ((List.range D).map fun j => 0 + j) = List.range D := by simp
    rw [e] at hs
    rw [hs]
    exact hi.unique (C18_daily_peaks hpd D hh hD H a).2

/-- C18 (pool). The pool peak hour of each day is the first hour of the day with the largest total
load. -/
theorem C18_pool_peak {n : ℕ} (H : Fin n → ℕ → ℚ) (d : ℕ) :
    IsFirstMax (fun h => ∑ a, H a h) (24 * d) 24 (plhr H d) := by
  unfold plhr
  rw [mul_comm d 24]
  exact firstMax_block (fun h => ∑ a, H a h) 24 (Nat.succ_pos 23) (24 * d)

/-- C18/C17 (order of the input steps). The loads handed to the simulation are the scaled loads, the
daily peaks are those of the loads with firm interchange, and the pool peak hours are those of the
loads without it (the interchange cancels in the pool). -/
theorem C18_input_steps {n : ℕ} (JENT : Fin n → Fin n → ℤ) (INTCH : ℤ → ℕ → ℚ) (H : Fin n → ℕ → ℚ) :
    (loadSteps JENT INTCH H).1 = H ∧ (loadSteps JENT INTCH H).2.1 = dpeak 24 365 (xporta JENT INTCH H) ∧
      ∀ d, IsFirstMax (fun h => ∑ a, H a h) (24 * d) 24 ((loadSteps JENT INTCH H).2.2 d) := by
  obtain ⟨h1, h2, _⟩ := C17_export_conserves_and_inverts JENT INTCH H
  refine ⟨h2, rfl, fun d => ?_⟩
  have := C18_pool_peak (xporta JENT INTCH H) d
  simp only [h1] at this
  exact this

example : (dpeak 3 2 (fun (_ : Fin 1) h => ([1, 4, 4, 2, 5, 1] : List ℚ).getD h 0)).1 0 0 = 1 ∧
    (dpeak 3 2 (fun (_ : Fin 1) h => ([1, 4, 4, 2, 5, 1] : List ℚ).getD h 0)).2.2 0 = 1 := by
  decide +kernel

/-! ## C19 -/

/-- C19. Each weekly peak is attained on a day of that week and bounds all days of that week; the 365
days are distributed over the 52 weeks, the last one having eight. -/
theorem C19_weekly_peaks (D : ℕ → ℚ) (w : ℕ) (hw : w < 52) :
    (∃ d < 365, weekOf d = w ∧ wpeakf D w = D d) ∧
      (∀ d < 365, weekOf d = w → D d ≤ wpeakf D w) ∧ wpeakf' D w = wpeakf D w := by
  have h7 := npMax_spec (l := (List.range 7).map fun j => D (w * 7 + j)) (by simp)
  obtain ⟨hm, hb⟩ := h7
  obtain ⟨k, hk, hk2⟩ := List.mem_map.1 hm
  have hk7 := List.mem_range.1 hk
  have hle : ∀ j < 7, D (w * 7 + j) ≤ npMax ((List.range 7).map fun j => D (w * 7 + j)) :=
    fun j hj => hb _ (List.mem_map.2 ⟨j, List.mem_range.2 hj, rfl⟩)
  have loop : ∀ (m : ℕ), 0 < m → (List.range m).foldl (wpeakStep D w) none =
        some (npMax ((List.range m).map fun j => D (w * 7 + j))) := by
    intro m
    induction m with
    | zero => intro h; exact absurd h (lt_irrefl _)
    | succ m ih =>
      intro _
      rcases Nat.eq_zero_or_pos m with h0 | h0
      · subst h0; simp [npMax, wpeakStep]
      · rw [List.range_succ, List.foldl_append, ih h0]
        simp only [List.foldl_cons, List.foldl_nil, wpeakStep]
        have : npMax ((List.range m ++ [m]).map fun j => D (w * 7 + j)) =
            max (npMax ((List.range m).map fun j => D (w * 7 + j))) (D (w * 7 + m)) := by
          obtain ⟨q, rfl⟩ : ∃ q, m = q + 1 := ⟨m - 1, by omega⟩
          rw [List.map_append, List.range_eq_range', List.range'_succ, List.map_cons]
          simp [npMax, List.foldl_append]
        rw [this]
        split
        · next h => rw [max_eq_right (le_of_lt h)]
        · next h => rw [max_eq_left (not_lt.1 h)]
  have hvar : wpeakf' D w = wpeakf D w := by
    unfold wpeakf wpeakf'
    by_cases h51 : w = 51
    · subst h51
      simp only [if_true]
      rw [loop 8 (by norm_num)]
      have : npMax ((List.range 8).map fun j => D (51 * 7 + j)) =
          max (npMax ((List.range 7).map fun j => D (51 * 7 + j))) (D 364) := by
        rw [show List.range 8 = List.range 7 ++ [7] from List.range_succ, List.map_append]
        simp only [show List.range 7 = 0 :: List.range' 1 6 from rfl, List.map_cons]
        simp [npMax, List.foldl_append]
      rw [this]; rfl
    · simp only [h51, if_false]
      rw [loop 7 (by norm_num)]; rfl
  unfold wpeakf at hvar ⊢
  by_cases h51 : w = 51
  · subst h51
    simp only [if_true] at hvar ⊢
    refine ⟨?_, ?_, hvar⟩
    · rcases max_choice (npMax ((List.range 7).map fun j => D (51 * 7 + j))) (D 364) with h | h
      · exact ⟨51 * 7 + k, by omega, by unfold weekOf; omega, by rw [h, ← hk2]⟩
      · exact ⟨364, by omega, by unfold weekOf; omega, h⟩
    · intro d hd hwd
      unfold weekOf at hwd
      by_cases h364 : d = 364
      · subst h364; exact le_max_right _ _
      · have := hle (d - 51 * 7) (by omega)
        rw [show 51 * 7 + (d - 51 * 7) = d by omega] at this
        exact le_trans this (le_max_left _ _)
  · simp only [h51, if_false] at hvar ⊢
    refine ⟨⟨w * 7 + k, by omega, by unfold weekOf; omega, by rw [← hk2]⟩, ?_, hvar⟩
    intro d hd hwd
    unfold weekOf at hwd
    have := hle (d - w * 7) (by omega)
    rw [show w * 7 + (d - w * 7) = d by omega] at this
    exact this

example : wpeakf (fun d => if d = 364 then 9 else 1) 51 = 9 ∧ wpeakf (fun d => (d : ℚ)) 3 = 27 := by
  decide +kernel

/-! ## C23 -/

/-- the sum form of the contract terms -/
theorem contracts_sum {n : ℕ} (J : Fin n → ℤ) (g : ℤ → ℚ) :
    ((((List.finRange n).map J).filter (· ≠ -1)).map g).sum = ∑ j, if J j ≠ -1 then g (J j) else 0 := by
  rw [← sum_finRange_map]
  generalize List.finRange n = l
  induction l with
  | nil => simp
  | cons a l ih =>
    by_cases h : J a = -1
    · simp [h]; simpa using ih
    · simp [h]; simpa using ih

theorem foldl_add_sum {α : Type} (l : List α) (g : α → ℚ) (s : ℚ) :
    l.foldl (fun s a => s + g a) s = s + (l.map g).sum := by
  induction l generalizing s with
  | nil => simp
  | cons a l ih => rw [List.foldl_cons, ih, List.map_cons, List.sum_cons]; ring

/-- both versions in closed form -/
theorem resca_eq {n m : ℕ} (S1 : Fin n → ℚ) (MAXDAY : Fin n → ℕ) (QTR : Fin 3 → ℚ)
    (CAPOWN : Fin n → Fin m → ℚ) (RATES : Fin m → ℕ → ℚ) (JENT : Fin n → Fin n → ℤ) (INTCH : ℤ → ℕ → ℚ)
    (i : Fin n) :
    resca S1 MAXDAY QTR CAPOWN RATES JENT INTCH i =
      S1 i + ∑ j, CAPOWN i j * RATES j (rescaIPER QTR (MAXDAY i)) - findtn JENT INTCH (MAXDAY i) i ∧
    resca' S1 MAXDAY QTR CAPOWN RATES JENT INTCH i =
      S1 i + ∑ j, CAPOWN i j * RATES j (rescaIPER' QTR (MAXDAY i)) - findtn JENT INTCH (MAXDAY i) i := by
  refine ⟨?_, ?_⟩
  · unfold resca
    simp only
    rw [contracts_sum (fun j => JENT i j) (fun c => INTCH c (MAXDAY i)),
      contracts_sum (fun j => JENT j i) (fun c => INTCH c (MAXDAY i)), foldl_add_sum, sum_finRange_map,
      findtn_eq]
    ring
  · unfold resca'
    simp only
    rw [foldl_add_sum, sum_finRange_map, findtn_eq]
    have e : ∀ (s : ℚ) (j1 : Fin n),
        (if JENT j1 i ≠ -1 then (if JENT i j1 ≠ -1 then s - INTCH (JENT i j1) (MAXDAY i) else s) +
          INTCH (JENT j1 i) (MAXDAY i)
        else (if JENT i j1 ≠ -1 then s - INTCH (JENT i j1) (MAXDAY i) else s)) =
        s + ((if JENT j1 i ≠ -1 then INTCH (JENT j1 i) (MAXDAY i) else 0) -
          if JENT i j1 ≠ -1 then INTCH (JENT i j1) (MAXDAY i) else 0) := by
      intro s j1
      split_ifs <;> ring
    simp only [e]
    rw [foldl_add_sum, sum_finRange_map, Finset.sum_sub_distrib]
    ring

/-- the loop version picks the season of the hour, for ordered season ends -/
theorem rescaIPER'_eq (QTR : Fin 3 → ℚ) (h01 : QTR 0 ≤ QTR 1) (h12 : QTR 1 ≤ QTR 2) (d : ℕ) :
    rescaIPER' QTR d = seasonIndex QTR ((d : ℚ) * 24) := by
  unfold rescaIPER' seasonIndex
  simp only [gt_iff_lt]
  split_ifs <;> first | rfl | (exfalso; linarith)

theorem rescaIPER_eq (QTR : Fin 3 → ℚ) (h01 : QTR 0 ≤ QTR 1) (h12 : QTR 1 ≤ QTR 2) (d : ℕ)
    (hne : ∀ k, QTR k ≠ (d : ℚ) * 24) :
    rescaIPER QTR d = if QTR 2 < (d : ℚ) * 24 then 0 else seasonIndex QTR ((d : ℚ) * 24) := by
  have n0 := hne 0; have n1 := hne 1; have n2 := hne 2
  unfold rescaIPER seasonIndex npArgmaxBool
  rw [show List.finRange 3 = [0, 1, 2] from rfl]
  simp only [List.map_cons, List.map_nil, List.any_cons, List.any_nil, id, gt_iff_lt]
  generalize (d : ℚ) * 24 = x at *
  rcases lt_or_gt_of_ne n0 with a0 | a0 <;> rcases lt_or_gt_of_ne n1 with a1 | a1 <;>
    rcases lt_or_gt_of_ne n2 with a2 | a2 <;>
    first
    | (exfalso; linarith)
    | (simp [a0, a1, a2, not_lt.2 a0.le, not_lt.2 a1.le, not_lt.2 a2.le, List.findIdx_cons])

/-- C23 (what holds). When the peak day of the area is not in the fourth season, the owned capacity at
the peak is computed with the ratings of the season of the peak day: previous value plus owned rating
minus net firm export. -/
theorem C23_season_of_peak_partial {n m : ℕ} (S1 : Fin n → ℚ) (MAXDAY : Fin n → ℕ) (QTR : Fin 3 → ℚ)
    (CAPOWN : Fin n → Fin m → ℚ) (RATES : Fin m → ℕ → ℚ) (JENT : Fin n → Fin n → ℤ) (INTCH : ℤ → ℕ → ℚ)
    (h01 : QTR 0 ≤ QTR 1) (h12 : QTR 1 ≤ QTR 2) (i : Fin n)
    (hne : ∀ k, QTR k ≠ (MAXDAY i : ℚ) * 24) (h4 : (MAXDAY i : ℚ) * 24 < QTR 2) :
    resca S1 MAXDAY QTR CAPOWN RATES JENT INTCH i =
      S1 i + ∑ j, CAPOWN i j * RATES j (seasonIndex QTR ((MAXDAY i : ℚ) * 24)) -
        ((∑ j2, if JENT i j2 ≠ -1 then INTCH (JENT i j2) (MAXDAY i) else 0) -
          ∑ j1, if JENT j1 i ≠ -1 then INTCH (JENT j1 i) (MAXDAY i) else 0) ∧
    resca S1 MAXDAY QTR CAPOWN RATES JENT INTCH i = resca' S1 MAXDAY QTR CAPOWN RATES JENT INTCH i := by
  obtain ⟨e1, e2⟩ := resca_eq S1 MAXDAY QTR CAPOWN RATES JENT INTCH i
  rw [rescaIPER_eq QTR h01 h12 _ hne, if_neg (not_lt.2 h4.le)] at e1
  rw [rescaIPER'_eq QTR h01 h12] at e2
  refine ⟨by rw [e1, findtn_eq], by rw [e1, e2]⟩

/-- C23 (what fails). For a peak day in the fourth season the ratings of the first season are used, so
the vectorised version differs from the loop version. -/
theorem C23_fourth_season_refuted :
    (∀ (QTR : Fin 3 → ℚ) (d : ℕ), QTR 0 ≤ QTR 1 → QTR 1 ≤ QTR 2 → QTR 2 < (d : ℚ) * 24 →
      rescaIPER QTR d = 0 ∧ seasonIndex QTR ((d : ℚ) * 24) = 3) ∧
    ∃ (QTR : Fin 3 → ℚ) (RATES : Fin 1 → ℕ → ℚ) (MAXDAY : Fin 1 → ℕ),
      (∀ k : Fin 3, QTR k = 13 * ((k : ℕ) + 1) * 168 + 1/2) ∧ MAXDAY 0 < 365 ∧
      resca (fun _ => 0) MAXDAY QTR (fun _ _ => 1) RATES (fun _ _ => -1) (fun _ _ => 0) 0 ≠
        resca' (fun _ => 0) MAXDAY QTR (fun _ _ => 1) RATES (fun _ _ => -1) (fun _ _ => 0) 0 := by
  refine ⟨?_, ?_⟩
  · intro QTR d h01 h12 h
    have hne : ∀ k, QTR k ≠ (d : ℚ) * 24 := by
      intro k hk
      fin_cases k
      · simp at hk; linarith
      · simp at hk; linarith
      · simp at hk; linarith
    refine ⟨by rw [rescaIPER_eq QTR h01 h12 d hne, if_pos h], ?_⟩
    unfold seasonIndex
    rw [if_pos (by linarith), if_pos (by linarith), if_pos h]
  · refine ⟨fun k => 13 * ((k : ℕ) + 1) * 168 + 1/2, fun _ k => if k = 0 then 100 else 80, fun _ => 340,
      fun _ => rfl, by norm_num, ?_⟩
    decide +kernel

example : (∀ k : Fin 3, (fun k : Fin 3 => 13 * (((k : ℕ) : ℚ) + 1) * 168 + 1/2) k ≠ ((200 : ℕ) : ℚ) * 24) ∧
    rescaIPER (fun k : Fin 3 => 13 * (((k : ℕ) : ℚ) + 1) * 168 + 1/2) 200 = 2 := by decide +kernel

end Narp.Props
