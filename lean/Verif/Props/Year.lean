import Verif.Model.Year
import Verif.Spec.Year
import Verif.Lemmas.Control
import Mathlib.Algebra.Order.Chebyshev
import Mathlib.Tactic.FieldSimp
import Mathlib.Tactic.Ring
import Mathlib.Tactic.Positivity
import Mathlib.Tactic.NormNum
import Mathlib.Tactic.FinCases

/-!
# C29, C30, C31, C33, C50: the year-end evaluation
-/

namespace Narp.Props
open Narp.Spec BigOperators

variable {n : ℕ} {α : Type}

/-! ## Histories of year ends -/

/-- What the yearly event finds at the end of one year. -/
structure YearEnd (n : ℕ) (α : Type) where
  CLOCK : ℚ
  cal : Cal
  net : α
  LSFLG : Fin n → ℚ
  /-- the hourly counters of the year -/
  H : Cnt n
  /-- the peak counters of the year -/
  P : Cnt n

/-- Successive yearly events, with whatever the years left in the counters. -/
def yearRun (c : YearIn) (evs : List (YearEnd n α)) (y : YearSt n α) : Except PyErr (YearSt n α) :=
  evs.foldlM (fun y e => (yearBody c e.CLOCK e.cal e.net e.LSFLG e.H e.P y).map fun r => r.2.1) y

/-- All counters are whole numbers. -/
structure WholeCnt (c : Cnt n) : Prop where
  LOLTA : ∀ j t, Whole (c.LOLTA j t)
  LOLGA : ∀ j t, Whole (c.LOLGA j t)
  LOLTP : ∀ t, Whole (c.LOLTP t)
  LOLGP : ∀ t, Whole (c.LOLGP t)
  MGNTA : ∀ j t, Whole (c.MGNTA j t)
  MGNGA : ∀ j t, Whole (c.MGNGA j t)
  MGNTP : ∀ t, Whole (c.MGNTP t)
  MGNGP : ∀ t, Whole (c.MGNGP t)

theorem _root_.Narp.Spec.Whole.add {x y : ℚ} (hx : Whole x) (hy : Whole y) : Whole (x + y) := by
  obtain ⟨a, rfl⟩ := hx; obtain ⟨b, rfl⟩ := hy; exact ⟨a + b, by push_cast; rfl⟩

theorem _root_.Narp.Spec.Whole.nonneg {x : ℚ} (hx : Whole x) : 0 ≤ x := by
  obtain ⟨a, rfl⟩ := hx; exact Nat.cast_nonneg a

theorem _root_.Narp.Spec.Whole.pyInt {x : ℚ} (hx : Whole x) : ((pyInt x : ℤ) : ℚ) = x := by
  obtain ⟨a, rfl⟩ := hx
  unfold Narp.pyInt
  rw [if_pos (Nat.cast_nonneg a), Int.floor_natCast]; rfl

theorem sumTG_whole {N : ℕ} {T G : Fin 5 → ℚ} (hT : ∀ t, Whole (T t)) (hG : ∀ t, Whole (G t)) (t : Fin 5) :
    sumTG N T G t = if t.val < N then T t + G t else 0 := by
  unfold sumTG
  split_ifs
  · exact Whole.pyInt ((hT t).add (hG t))
  · rfl

/-- What a successful yearly event does (all parts). -/
theorem yearBody_ok {c : YearIn} {CLOCK : ℚ} {cal : Cal} {net : α} {LS : Fin n → ℚ} {H P : Cnt n}
    {y : YearSt n α} {H' P' : Cnt n} {y' : YearSt n α} {rf : ℤ}
    (h : yearBody c CLOCK cal net LS H P y = .ok ((H', P'), y', rf)) :
    histLoop c.NFCST c.NORR c.LSTEP H P y.hist = .ok y'.hist ∧
    y'.CH = accum c.NFCST H y.CH ∧ y'.CP = accum c.NFCST P y.CP ∧
    y'.XNEWA = newA c.NFCST H P y.XNEWA ∧ y'.XNEWP = newP (poolW c.NFCST H) (poolW c.NFCST P) y.XNEWP ∧
    H' = resetCnt c.NFCST H ∧ P' = resetCnt c.NFCST P ∧
    (∃ SUM, selSum c y'.CH y'.CP (poolW c.NFCST H) (poolW c.NFCST P) = .ok SUM ∧
      (rf, y'.SSQ, y'.XLAST) =
        cvchk CLOCK c.FINISH (pyInt ((CLOCK + 1) / 8760)) c.CVTEST SUM y.XLAST y.SSQ) ∧
    (rf = 1 ∨ CLOCK ≥ c.FINISH → ∃ r, y'.rep = some r ∧ r.IYEAR = pyInt ((CLOCK + 1) / 8760) ∧
      r.CH = y'.CH ∧ r.CP = y'.CP ∧ r.hist = y'.hist ∧ r.XNEWA = y'.XNEWA ∧ r.XNEWP = y'.XNEWP ∧
      r.WH = poolW c.NFCST H ∧ r.WP = poolW c.NFCST P) ∧
    yearRows c H P y.rows = .ok y'.rows := by
  unfold yearBody at h
  simp only at h
  obtain ⟨hist, h1, h⟩ := Except.bind_ok h
  obtain ⟨rows, h2, h⟩ := Except.bind_ok h
  obtain ⟨SUM, h3, h⟩ := Except.bind_ok h
  have hs : ∀ (C : ℚ) (I : ℤ) (y : YearSt n α), (yearSave c C I cal net LS y).hist = y.hist ∧
      (yearSave c C I cal net LS y).CH = y.CH ∧ (yearSave c C I cal net LS y).CP = y.CP ∧
      (yearSave c C I cal net LS y).XNEWA = y.XNEWA ∧ (yearSave c C I cal net LS y).XNEWP = y.XNEWP ∧
      (yearSave c C I cal net LS y).SSQ = y.SSQ ∧ (yearSave c C I cal net LS y).XLAST = y.XLAST ∧
      (yearSave c C I cal net LS y).rows = y.rows := by
    intro C I y
    unfold yearSave
    split_ifs <;> exact ⟨rfl, rfl, rfl, rfl, rfl, rfl, rfl, rfl⟩
  have hrp : ∀ (C : ℚ) (I rf : ℤ) (wh wp : PoolW) (y : YearSt n α),
      (yearReport c C I rf wh wp y).hist = y.hist ∧
      (yearReport c C I rf wh wp y).CH = y.CH ∧ (yearReport c C I rf wh wp y).CP = y.CP ∧
      (yearReport c C I rf wh wp y).XNEWA = y.XNEWA ∧ (yearReport c C I rf wh wp y).XNEWP = y.XNEWP ∧
      (yearReport c C I rf wh wp y).SSQ = y.SSQ ∧ (yearReport c C I rf wh wp y).XLAST = y.XLAST ∧
      (yearReport c C I rf wh wp y).rows = y.rows := by
    intro C I rf wh wp y
    unfold yearReport
    split_ifs <;> exact ⟨rfl, rfl, rfl, rfl, rfl, rfl, rfl, rfl⟩
  simp only [pure, Except.pure, Except.ok.injEq, Prod.mk.injEq] at h
  obtain ⟨⟨rfl, rfl⟩, rfl, rfl⟩ := h
  simp only at h3 ⊢
  refine ⟨?_, ?_, ?_, ?_, ?_, trivial, trivial, ⟨SUM, ?_, ?_⟩, fun hc => ?_, ?_⟩
  · simp only [hs, hrp]; exact h1
  · simp only [hs, hrp]
  · simp only [hs, hrp]
  · simp only [hs, hrp]
  · simp only [hs, hrp]
  · simp only [hs, hrp]; exact h3
  · simp only [hs, hrp]
  · simp only [hs, hrp]
    unfold yearReport
    rw [if_pos hc]
    exact ⟨_, rfl, rfl, by simp only [hs], by simp only [hs], by simp only [hs], by simp only [hs],
      by simp only [hs], rfl, rfl⟩
  · simp only [hs, hrp]; exact h2

theorem yearRun_append {c : YearIn} {evs : List (YearEnd n α)} {e : YearEnd n α} {y y' : YearSt n α}
    (h : yearRun c (evs ++ [e]) y = .ok y') :
    ∃ y1 r, yearRun c evs y = .ok y1 ∧ yearBody c e.CLOCK e.cal e.net e.LSFLG e.H e.P y1 = .ok r ∧ r.2.1 = y' := by
  unfold yearRun at h
  rw [List.foldlM_append] at h
  obtain ⟨y1, h1, h⟩ := Except.bind_ok h
  rw [List.foldlM_cons] at h
  obtain ⟨y2, h2, h⟩ := Except.bind_ok h
  cases h
  cases hb : yearBody c e.CLOCK e.cal e.net e.LSFLG e.H e.P y1 with
  | error x => rw [hb] at h2; cases h2
  | ok r =>
    rw [hb] at h2
    simp only [Except.map, Except.ok.injEq] at h2
    exact ⟨y1, r, h1, hb, h2⟩

/-- The single step of `yearRun` for a history that grows at the end. -/
theorem yearRun_append' {c : YearIn} {evs : List (YearEnd n α)} {e : YearEnd n α} {y y1 : YearSt n α}
    {r : (Cnt n × Cnt n) × YearSt n α × ℤ} (h1 : yearRun c evs y = .ok y1)
    (h2 : yearBody c e.CLOCK e.cal e.net e.LSFLG e.H e.P y1 = .ok r) :
    yearRun c (evs ++ [e]) y = .ok r.2.1 := by
  unfold yearRun at h1 ⊢
  rw [List.foldlM_append, h1]
  simp only [bind, Except.bind]
  rw [List.foldlM_cons, h2]
  rfl

/-! ## C29 -/

/-- Annual totals of a year: area `j`, tier `t`. -/
def totLole (c : Cnt n) (j : Fin n) (t : Fin 5) : ℚ := c.LOLTA j t + c.LOLGA j t
/-- Annual unserved energy of area `j` in tier `t`. -/
def totEue (c : Cnt n) (j : Fin n) (t : Fin 5) : ℚ := c.MGNTA j t + c.MGNGA j t

theorem pyInt_nonneg {x : ℚ} (h : 0 ≤ x) : pyInt x = (⌊x⌋₊ : ℤ) := by
  unfold Narp.pyInt
  rw [if_pos h]
  exact (Int.natCast_floor_eq_floor h).symm

theorem class_idx {x : ℚ} (h : 0 ≤ x) :
    pyIdx 22 (min 22 (pyInt x + 1) - 1) = .ok (min 21 ⌊x⌋₊) := by
  rw [pyInt_nonneg h]
  unfold pyIdx
  rw [if_pos (by omega), if_pos (by omega)]
  congr 1
  omega

theorem class_idx' {x w : ℚ} (h : 0 ≤ x) (hw : 0 < w) :
    pyIdx 22 (min 22 (pyInt (x / w + 1)) - 1) = .ok (cls w x) := by
  have h0 : 0 ≤ x / w := div_nonneg h hw.le
  have e : pyInt (x / w + 1) = pyInt (x / w) + 1 := by
    unfold Narp.pyInt
    rw [if_pos h0, if_pos (by linarith)]
    exact Int.floor_add_one _
  rw [e, class_idx h0]; rfl

theorem histBody_eq {N : ℕ} {R : Fin 5} {L : ℤ} {H P : Cnt n} (hN : R.val < N) (hL : 0 < L) (hH : WholeCnt H)
    (hP : WholeCnt P) (h : Hist n) (j : Fin n) :
    histBody N R L H P h j = .ok ⟨hit h.HLOLE j (cls 1 (totLole H j R)), hit h.DPLOLE j (cls 1 (totLole P j R)),
      hit h.EUES j (cls L (totEue H j R))⟩ := by
  have e1 : sumTG N (H.LOLTA j) (H.LOLGA j) R = totLole H j R := by
    rw [sumTG_whole (hH.LOLTA j) (hH.LOLGA j), if_pos hN]; rfl
  have e2 : sumTG N (P.LOLTA j) (P.LOLGA j) R = totLole P j R := by
    rw [sumTG_whole (hP.LOLTA j) (hP.LOLGA j), if_pos hN]; rfl
  have e3 : sumTG N (H.MGNTA j) (H.MGNGA j) R = totEue H j R := by
    rw [sumTG_whole (hH.MGNTA j) (hH.MGNGA j), if_pos hN]; rfl
  have n1 : 0 ≤ totLole H j R := ((hH.LOLTA j R).add (hH.LOLGA j R)).nonneg
  have n2 : 0 ≤ totLole P j R := ((hP.LOLTA j R).add (hP.LOLGA j R)).nonneg
  have n3 : 0 ≤ totEue H j R := ((hH.MGNTA j R).add (hH.MGNGA j R)).nonneg
  unfold histBody
  rw [if_neg (by omega), if_neg (by omega)]
  simp only [e1, e2, e3, class_idx n1, class_idx n2, class_idx' n3 (show (0 : ℚ) < L by exact_mod_cast hL)]
  simp [bind, Except.bind, pure, Except.pure, cls]

theorem histLoop_aux {N : ℕ} {R : Fin 5} {L : ℤ} {H P : Cnt n} (hN : R.val < N) (hL : 0 < L) (hH : WholeCnt H)
    (hP : WholeCnt P) : ∀ (l : List (Fin n)) (h : Hist n), l.Nodup →
    ∃ h', l.foldlM (histBody N R L H P) h = .ok h' ∧
      (∀ j k, h'.HLOLE j k = h.HLOLE j k + if j ∈ l ∧ k.val = cls 1 (totLole H j R) then 1 else 0) ∧
      (∀ j k, h'.DPLOLE j k = h.DPLOLE j k + if j ∈ l ∧ k.val = cls 1 (totLole P j R) then 1 else 0) ∧
      (∀ j k, h'.EUES j k = h.EUES j k + if j ∈ l ∧ k.val = cls L (totEue H j R) then 1 else 0) := by
  intro l
  induction l with
  | nil => intro h _; exact ⟨h, rfl, by simp, by simp, by simp⟩
  | cons a l ih =>
    intro h hnd
    rw [List.nodup_cons] at hnd
    rw [List.foldlM_cons, histBody_eq hN hL hH hP h a]
    obtain ⟨h', e, p1, p2, p3⟩ := ih ⟨hit h.HLOLE a (cls 1 (totLole H a R)),
      hit h.DPLOLE a (cls 1 (totLole P a R)), hit h.EUES a (cls L (totEue H a R))⟩ hnd.2
    refine ⟨h', e, ?_, ?_, ?_⟩
    · intro j k
      rw [p1]
      unfold hit
      by_cases hj : j = a
      · subst hj; by_cases hk : k.val = cls 1 (totLole H j R) <;> simp [hnd.1, hk]
      · simp [hj]
    · intro j k
      rw [p2]
      unfold hit
      by_cases hj : j = a
      · subst hj; by_cases hk : k.val = cls 1 (totLole P j R) <;> simp [hnd.1, hk]
      · simp [hj]
    · intro j k
      rw [p3]
      unfold hit
      by_cases hj : j = a
      · subst hj; by_cases hk : k.val = cls L (totEue H j R) <;> simp [hnd.1, hk]
      · simp [hj]

theorem ind_cast (x a b : ℕ) :
    (x : ℚ) + (if a = b then 1 else 0) = ((x + if decide (b = a) = true then 1 else 0 : ℕ) : ℚ) := by
  by_cases h : a = b
  · simp [h]
  · have : ¬ b = a := fun e => h e.symm
    simp [h, this]

/-- The number of years of the history whose value `f` is in class `k` (of width `w`). -/
def yearsInClass (evs : List (YearEnd n α)) (w : ℚ) (f : YearEnd n α → ℚ) (k : ℕ) : ℕ :=
  evs.countP fun e => cls w (f e) = k

/-- C29. After any history of year ends with whole-number counters, started with empty histograms, class `k`
of each area's histogram holds exactly the number of years whose value of the reference tier is in that class
(loss-of-load hours, loss-of-load days, unserved energy in steps of `LSTEP`). -/
theorem C29_histograms_count_years (c : YearIn) (hN : c.NORR.val < c.NFCST) (hL : 0 < c.LSTEP)
    (evs : List (YearEnd n α)) (hw : ∀ e ∈ evs, WholeCnt e.H ∧ WholeCnt e.P) (I T : ℤ) (y : YearSt n α)
    (h : yearRun c evs (YearSt.init n α I T) = .ok y) (j : Fin n) (k : Fin 22) :
    y.hist.HLOLE j k = yearsInClass evs 1 (fun e => totLole e.H j c.NORR) k ∧
    y.hist.DPLOLE j k = yearsInClass evs 1 (fun e => totLole e.P j c.NORR) k ∧
    y.hist.EUES j k = yearsInClass evs c.LSTEP (fun e => totEue e.H j c.NORR) k := by
  induction evs using List.reverseRecOn generalizing y with
  | nil => cases h; simp [YearSt.init, yearsInClass]
  | append_singleton evs e ih =>
    obtain ⟨y1, r, h1, h2, rfl⟩ := yearRun_append h
    obtain ⟨⟨H', P'⟩, y', rf⟩ := r
    obtain ⟨i1, i2, i3⟩ := ih (fun e he => hw e (by simp [he])) y1 h1
    obtain ⟨hh, _⟩ := yearBody_ok h2
    have hwe := hw e (by simp)
    obtain ⟨h', e', p1, p2, p3⟩ := histLoop_aux hN hL hwe.1 hwe.2 (List.finRange n) y1.hist
      (List.nodup_finRange n)
    unfold histLoop at hh
    rw [e'] at hh
    simp only [Except.ok.injEq] at hh
    simp only
    rw [← hh, p1, p2, p3, i1, i2, i3]
    simp only [List.mem_finRange, true_and, yearsInClass, List.countP_append, List.countP_singleton]
    exact ⟨ind_cast _ _ _, ind_cast _ _ _, ind_cast _ _ _⟩

theorem cls_lt (w x : ℚ) : cls w x < 22 := by unfold cls; omega

theorem yearsInClass_sum (evs : List (YearEnd n α)) (w : ℚ) (f : YearEnd n α → ℚ) :
    ∑ k : Fin 22, yearsInClass evs w f k = evs.length := by
  induction evs with
  | nil => simp [yearsInClass]
  | cons e evs ih =>
    simp only [yearsInClass, List.countP_cons, List.length_cons] at ih ⊢
    rw [Finset.sum_add_distrib, ih]
    have h1 : ∀ c, c < 22 → ∑ k : Fin 22, (if decide (c = k.val) = true then 1 else 0) = 1 := by
      intro c hc
      rw [Finset.sum_eq_single ⟨c, hc⟩]
      · simp
      · intro b _ hb
        have : ¬ c = b.val := fun h => hb (Fin.ext h.symm)
        simp [this]
      · simp
    rw [h1 _ (cls_lt w (f e))]

/-- C29 (totals). Each histogram of each area holds exactly one entry per simulated year. -/
theorem C29_one_entry_per_year (c : YearIn) (hN : c.NORR.val < c.NFCST) (hL : 0 < c.LSTEP)
    (evs : List (YearEnd n α)) (hw : ∀ e ∈ evs, WholeCnt e.H ∧ WholeCnt e.P) (I T : ℤ) (y : YearSt n α)
    (h : yearRun c evs (YearSt.init n α I T) = .ok y) (j : Fin n) :
    ∑ k, y.hist.HLOLE j k = evs.length ∧ ∑ k, y.hist.DPLOLE j k = evs.length ∧
    ∑ k, y.hist.EUES j k = evs.length := by
  have H := C29_histograms_count_years c hN hL evs hw I T y h j
  refine ⟨?_, ?_, ?_⟩
  · rw [Finset.sum_congr rfl fun k _ => (H k).1, ← Nat.cast_sum, yearsInClass_sum]
  · rw [Finset.sum_congr rfl fun k _ => (H k).2.1, ← Nat.cast_sum, yearsInClass_sum]
  · rw [Finset.sum_congr rfl fun k _ => (H k).2.2, ← Nat.cast_sum, yearsInClass_sum]

/-- C29 (the histogram needs a positive step). `LSTEP` is a twentieth of the largest expected unserved energy
of the input, rounded down (`narpMain.py:86`): below 20 it is 0, and then the first year end raises, for every
content of the counters. -/
theorem C29_zero_step_refuted (c : YearIn) (hL : c.LSTEP = 0) (hn : 0 < n) (C : ℚ) (cal : Cal) (net : α)
    (LS : Fin n → ℚ) (H P : Cnt n) (y : YearSt n α) :
    ∃ e, yearBody c C cal net LS H P y = .error e := by
  have : ∃ e, histLoop c.NFCST c.NORR c.LSTEP H P y.hist = .error e := by
    unfold histLoop
    cases hf : List.finRange n with
    | nil => have := congrArg List.length hf; simp at this; omega
    | cons a l =>
      rw [List.foldlM_cons]
      unfold histBody
      rw [hL]
      by_cases h1 : c.NFCST ≤ c.NORR.val
      · rw [if_pos h1]; exact ⟨_, rfl⟩
      · rw [if_neg h1, if_pos rfl]; exact ⟨_, rfl⟩
  obtain ⟨e, he⟩ := this
  refine ⟨e, ?_⟩
  unfold yearBody
  simp only [he, bind, Except.bind]

/-! ## C30 -/

/-- C30 (what holds). The yearly event leaves every pool counter of the tiers in use at zero. An area's
counters of tier `t` are zeroed if the area's number is below the number of tiers and the tier's number
below the number of areas; all others are kept. -/
theorem C30_counters_zeroed_partial {c : YearIn} {C : ℚ} {cal : Cal} {net : α} {LS : Fin n → ℚ} {H P : Cnt n}
    {y : YearSt n α} {r : (Cnt n × Cnt n) × YearSt n α × ℤ} (h : yearBody c C cal net LS H P y = .ok r) :
    (∀ t : Fin 5, t.val < c.NFCST →
      (r.1.1.LOLTP t = 0 ∧ r.1.1.LOLGP t = 0 ∧ r.1.1.MGNTP t = 0 ∧ r.1.1.MGNGP t = 0) ∧
      (r.1.2.LOLTP t = 0 ∧ r.1.2.LOLGP t = 0 ∧ r.1.2.MGNTP t = 0 ∧ r.1.2.MGNGP t = 0)) ∧
    (∀ (j : Fin n) (t : Fin 5), j.val < c.NFCST → t.val < n →
      (r.1.1.LOLTA j t = 0 ∧ r.1.1.LOLGA j t = 0 ∧ r.1.1.MGNTA j t = 0 ∧ r.1.1.MGNGA j t = 0) ∧
      (r.1.2.LOLTA j t = 0 ∧ r.1.2.LOLGA j t = 0 ∧ r.1.2.MGNTA j t = 0 ∧ r.1.2.MGNGA j t = 0)) ∧
    (∀ (j : Fin n) (t : Fin 5), ¬ (j.val < c.NFCST ∧ t.val < n) →
      r.1.1.LOLTA j t = H.LOLTA j t ∧ r.1.1.LOLGA j t = H.LOLGA j t ∧ r.1.1.MGNTA j t = H.MGNTA j t ∧
      r.1.1.MGNGA j t = H.MGNGA j t ∧
      r.1.2.LOLTA j t = P.LOLTA j t ∧ r.1.2.LOLGA j t = P.LOLGA j t ∧ r.1.2.MGNTA j t = P.MGNTA j t ∧
      r.1.2.MGNGA j t = P.MGNGA j t) := by
  obtain ⟨⟨H', P'⟩, y', rf⟩ := r
  obtain ⟨_, _, _, _, _, rfl, rfl, _⟩ := yearBody_ok h
  refine ⟨?_, ?_, ?_⟩
  · intro t ht; simp [resetCnt, resetP, ht]
  · intro j t hj ht; simp [resetCnt, resetA, hj, ht]
  · intro j t hjt; simp [resetCnt, resetA, hjt]

/-- C30 (refuted). The area counters restart from zero after every possible year only if the number of areas
equals the number of forecast tiers (1 or 5): for any other number of areas some year leaves a non-zero
counter of an area and a tier in use, because the reset has its two indices exchanged. -/
theorem C30_reset_refuted (NFCST : ℕ) (h5 : NFCST ≤ 5) (h1 : 1 ≤ NFCST) (hn : 1 ≤ n) :
    (∀ c : Cnt n, ∀ (j : Fin n) (t : Fin 5), t.val < NFCST → (resetCnt NFCST c).LOLTA j t = 0) ↔ n = NFCST := by
  constructor
  · intro h
    by_contra hne
    let one : Cnt n := ⟨fun _ _ => 1, fun _ _ => 1, fun _ => 1, fun _ => 1, fun _ _ => 1, fun _ _ => 1,
      fun _ => 1, fun _ => 1⟩
    by_cases hlt : NFCST < n
    · have := h one ⟨NFCST, hlt⟩ ⟨0, by omega⟩ (by simp; omega)
      simp [resetCnt, resetA, one] at this
    · have := h one ⟨0, by omega⟩ ⟨n, by omega⟩ (by simp; omega)
      simp [resetCnt, resetA, one] at this
  · rintro rfl c j t ht
    simp [resetCnt, resetA, ht]

end Narp.Props
