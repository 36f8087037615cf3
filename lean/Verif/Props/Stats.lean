import Verif.Model.Stats
import Verif.Spec.Stats
import Verif.Props.Capacity
import Mathlib.Algebra.BigOperators.Ring.Finset
import Mathlib.Algebra.Order.BigOperators.Group.Finset
import Mathlib.Tactic.Ring
import Mathlib.Tactic.FinCases

/-!
# C26, C27, C28: loss-of-load bookkeeping of one hour
-/

namespace Narp.Props
open Narp.Spec BigOperators

/-- Cause attributed to the areas by the code: transmission iff the pool sum is positive. -/
def areaCause (SUM : ℚ) : Cause := if SUM > 0 then .transmission else .generation
/-- Cause attributed to the pool by the code. -/
def poolCause (SUM : ℚ) : Cause := if SUM ≥ 0 then .transmission else .generation

/-- `c'` is `c` plus the statistics of one hour with margins `M` in tier `t`, the pool loss being
attributed to `pc` and the area losses to `ac`, the unserved energy of the pool growing by `pe`. -/
structure Adds {n : ℕ} (c c' : Cnt n) (t : Fin 5) (M : Fin n → ℚ) (pc ac : Cause) (pe : ℤ) : Prop where
  lolTP : ∀ t', c'.LOLTP t' = c.LOLTP t' + if t' = t ∧ pc = .transmission then 1 else 0
  lolGP : ∀ t', c'.LOLGP t' = c.LOLGP t' + if t' = t ∧ pc = .generation then 1 else 0
  lolTA : ∀ j t', c'.LOLTA j t' = c.LOLTA j t' + if t' = t ∧ ac = .transmission then shortFlag M j else 0
  lolGA : ∀ j t', c'.LOLGA j t' = c.LOLGA j t' + if t' = t ∧ ac = .generation then shortFlag M j else 0
  mgnTA : ∀ j t', c'.MGNTA j t' = c.MGNTA j t' + if t' = t ∧ ac = .transmission then (shortMW M j : ℚ) else 0
  mgnGA : ∀ j t', c'.MGNGA j t' = c.MGNGA j t' + if t' = t ∧ ac = .generation then (shortMW M j : ℚ) else 0
  mgnTP : ∀ t', c'.MGNTP t' = c.MGNTP t' + if t' = t ∧ ac = .transmission then (pe : ℚ) else 0
  mgnGP : ∀ t', c'.MGNGP t' = c.MGNGP t' + if t' = t ∧ ac = .generation then (pe : ℚ) else 0

theorem Adds.unique {n : ℕ} {c c1 c2 : Cnt n} {t : Fin 5} {M : Fin n → ℚ} {pc ac : Cause} {pe : ℤ}
    (h1 : Adds c c1 t M pc ac pe) (h2 : Adds c c2 t M pc ac pe) : c1 = c2 := by
  cases c1; cases c2
  simp only [Cnt.mk.injEq]
  refine ⟨?_, ?_, ?_, ?_, ?_, ?_, ?_, ?_⟩ <;> funext x
  · funext y; exact (h1.lolTA x y).trans (h2.lolTA x y).symm
  · funext y; exact (h1.lolGA x y).trans (h2.lolGA x y).symm
  · exact (h1.lolTP x).trans (h2.lolTP x).symm
  · exact (h1.lolGP x).trans (h2.lolGP x).symm
  · funext y; exact (h1.mgnTA x y).trans (h2.mgnTA x y).symm
  · funext y; exact (h1.mgnGA x y).trans (h2.mgnGA x y).symm
  · exact (h1.mgnTP x).trans (h2.mgnTP x).symm
  · exact (h1.mgnGP x).trans (h2.mgnGP x).symm

theorem pyInt_neg_of_neg {q : ℚ} (h : q < 0) : pyInt (-q) = ⌊-q⌋ ∧ -(pyInt q) = ⌊-q⌋ := by
  unfold pyInt
  rw [if_pos (by linarith), if_neg (by linarith), Int.floor_neg]
  exact ⟨rfl, rfl⟩

/-- Invariant of the area loops after the areas of `l` have been treated. -/
theorem hrstat_loop {n : ℕ} (NST : Fin 5) (SUM : ℚ) (M : Fin n → ℚ) (l : List (Fin n)) :
    ∀ (s : (Fin n → ℚ) × Cnt n), l.Nodup →
    (∀ j, (l.foldl (hrstatBody NST SUM M) s).1 j = s.1 j + if j ∈ l then shortFlag M j else 0) ∧
    (l.foldl (hrstatBody NST SUM M) s).2.LOLTP = s.2.LOLTP ∧
    (l.foldl (hrstatBody NST SUM M) s).2.LOLGP = s.2.LOLGP ∧
    (∀ j t, (l.foldl (hrstatBody NST SUM M) s).2.LOLTA j t = s.2.LOLTA j t +
      if j ∈ l ∧ t = NST ∧ areaCause SUM = .transmission then shortFlag M j else 0) ∧
    (∀ j t, (l.foldl (hrstatBody NST SUM M) s).2.LOLGA j t = s.2.LOLGA j t +
      if j ∈ l ∧ t = NST ∧ areaCause SUM = .generation then shortFlag M j else 0) ∧
    (∀ j t, (l.foldl (hrstatBody NST SUM M) s).2.MGNTA j t = s.2.MGNTA j t +
      if j ∈ l ∧ t = NST ∧ areaCause SUM = .transmission then (shortMW M j : ℚ) else 0) ∧
    (∀ j t, (l.foldl (hrstatBody NST SUM M) s).2.MGNGA j t = s.2.MGNGA j t +
      if j ∈ l ∧ t = NST ∧ areaCause SUM = .generation then (shortMW M j : ℚ) else 0) ∧
    (∀ t, (l.foldl (hrstatBody NST SUM M) s).2.MGNTP t = s.2.MGNTP t +
      if t = NST ∧ areaCause SUM = .transmission then ((l.map fun j => (shortMW M j : ℚ)).sum) else 0) ∧
    (∀ t, (l.foldl (hrstatBody NST SUM M) s).2.MGNGP t = s.2.MGNGP t +
      if t = NST ∧ areaCause SUM = .generation then ((l.map fun j => (shortMW M j : ℚ)).sum) else 0) := by
  induction l with
  | nil => intro s _; simp
  | cons a l ih =>
    intro s hnd
    rw [List.nodup_cons] at hnd
    obtain ⟨i0, i1, i2, i3, i4, i5, i6, i7, i8⟩ := ih (hrstatBody NST SUM M s a) hnd.2
    simp only [List.foldl_cons]
    simp only [i0, i1, i2, i3, i4, i5, i6, i7, i8]
    unfold hrstatBody
    by_cases hX : M a < 0
    · have hi := (pyInt_neg_of_neg hX).1
      have e1 : shortMW M a = ⌊-M a⌋ := if_pos hX
      have e2 : shortFlag M a = 1 := if_pos hX
      by_cases hS : SUM > 0
      · have hc : areaCause SUM = .transmission := if_pos hS
        simp only [hX, if_true, hS, hc, hi, List.mem_cons, List.map_cons, List.sum_cons]
        refine ⟨?_, trivial, trivial, ?_, ?_, ?_, ?_, ?_, ?_⟩
        · intro j
          rw [addAt_apply]
          by_cases hj : j = a
          · subst hj; simp [hnd.1, e2]
          · simp [hj]
        · intro j t
          unfold addAt2
          by_cases hj : j = a
          · subst hj; by_cases ht : t = NST <;> simp [hnd.1, e2, ht]
          · simp [hj]
        · intro j t; simp
        · intro j t
          unfold addAt2
          by_cases hj : j = a
          · subst hj; by_cases ht : t = NST <;> simp [hnd.1, e1, ht]
          · simp [hj]
        · intro j t; simp
        · intro t
          rw [addAt_apply]
          by_cases ht : t = NST <;> simp [e1, ht]; ring
        · intro t; simp
      · have hc : areaCause SUM = .generation := if_neg hS
        simp only [hX, if_true, hS, if_false, hc, hi, List.mem_cons, List.map_cons, List.sum_cons]
        refine ⟨?_, trivial, trivial, ?_, ?_, ?_, ?_, ?_, ?_⟩
        · intro j
          rw [addAt_apply]
          by_cases hj : j = a
          · subst hj; simp [hnd.1, e2]
          · simp [hj]
        · intro j t; simp
        · intro j t
          unfold addAt2
          by_cases hj : j = a
          · subst hj; by_cases ht : t = NST <;> simp [hnd.1, e2, ht]
          · simp [hj]
        · intro j t; simp
        · intro j t
          unfold addAt2
          by_cases hj : j = a
          · subst hj; by_cases ht : t = NST <;> simp [hnd.1, e1, ht]
          · simp [hj]
        · intro t; simp
        · intro t
          rw [addAt_apply]
          by_cases ht : t = NST <;> simp [e1, ht]; ring
    · have e1 : shortMW M a = 0 := if_neg hX
      have e2 : shortFlag M a = 0 := if_neg hX
      simp only [hX, if_false, List.mem_cons, List.map_cons, List.sum_cons, e1]
      refine ⟨?_, trivial, trivial, ?_, ?_, ?_, ?_, ?_, ?_⟩
      · intro j
        by_cases hj : j = a
        · subst hj; simp [hnd.1, e2]
        · simp [hj]
      · intro j t
        by_cases hj : j = a
        · subst hj; simp [hnd.1, e2]
        · simp [hj]
      · intro j t
        by_cases hj : j = a
        · subst hj; simp [hnd.1, e2]
        · simp [hj]
      · intro j t
        by_cases hj : j = a
        · subst hj; simp [hnd.1, e1]
        · simp [hj]
      · intro j t
        by_cases hj : j = a
        · subst hj; simp [hnd.1, e1]
        · simp [hj]
      · intro t; simp
      · intro t; simp

/-- The loop of `_pkstat` is the loop of `hrstat` on the counters. -/
theorem pkstatBody_eq {n : ℕ} (NST : Fin 5) (SUM : ℚ) (M : Fin n → ℚ) (l : List (Fin n)) :
    ∀ (L : Fin n → ℚ) (c : Cnt n),
      l.foldl (pkstatBody NST SUM M) c = (l.foldl (hrstatBody NST SUM M) (L, c)).2 := by
  induction l with
  | nil => intro L c; rfl
  | cons a l ih =>
    intro L c
    simp only [List.foldl_cons]
    by_cases hX : M a < 0
    · have h1 := (pyInt_neg_of_neg hX).1
      have h2 := (pyInt_neg_of_neg hX).2
      have h3 : (-(pyInt (M a) : ℚ)) = ((pyInt (-M a) : ℤ) : ℚ) := by rw [h1, ← h2]; push_cast; rfl
      have hb : hrstatBody NST SUM M (L, c) a =
          ((hrstatBody NST SUM M (L, c) a).1, pkstatBody NST SUM M c a) := by
        unfold hrstatBody pkstatBody
        simp only [hX, if_true, h3]
        split_ifs <;> rfl
      rw [hb]; exact ih _ _
    · have hb : hrstatBody NST SUM M (L, c) a = (L, pkstatBody NST SUM M c a) := by
        unfold hrstatBody pkstatBody
        simp only [hX, if_false]
      rw [hb]; exact ih _ _

theorem poolCount_eq {n : ℕ} (t : Fin 5) (SUM : ℚ) (c : Cnt n) :
    (∀ t', (poolCount t SUM c).LOLTP t' = c.LOLTP t' + if t' = t ∧ poolCause SUM = .transmission then 1 else 0) ∧
    (∀ t', (poolCount t SUM c).LOLGP t' = c.LOLGP t' + if t' = t ∧ poolCause SUM = .generation then 1 else 0) ∧
    (poolCount t SUM c).LOLTA = c.LOLTA ∧ (poolCount t SUM c).LOLGA = c.LOLGA ∧
    (poolCount t SUM c).MGNTA = c.MGNTA ∧ (poolCount t SUM c).MGNGA = c.MGNGA ∧
    (poolCount t SUM c).MGNTP = c.MGNTP ∧ (poolCount t SUM c).MGNGP = c.MGNGP := by
  unfold poolCount poolCause
  by_cases h : SUM ≥ 0
  · simp only [h, if_true]
    refine ⟨fun t' => ?_, fun t' => ?_, ?_, ?_, ?_, ?_, ?_, ?_⟩ <;> try trivial
    · rw [addAt_apply]; by_cases ht : t' = t <;> simp [ht]
    · simp
  · simp only [h, if_false]
    refine ⟨fun t' => ?_, fun t' => ?_, ?_, ?_, ?_, ?_, ?_, ?_⟩ <;> try trivial
    · simp
    · rw [addAt_apply]; by_cases ht : t' = t <;> simp [ht]

/-- C26/C27 (hourly statistics). For all margins and all previous counters, an hour adds one loss-of-load
hour to one of the two pool counters of its tier, one to each short area and nothing to any other area
or tier, and its shortage in whole MW to the area and (summed) to the pool. -/
theorem C26_hrstat {n : ℕ} (t : Fin 5) (M : Fin n → ℚ) (L : Fin n → ℚ) (c : Cnt n) :
    (∀ j, (hrstat t M (L, c)).1 j = L j + shortFlag M j) ∧
    Adds c (hrstat t M (L, c)).2 t M (poolCause (∑ j, M j)) (areaCause (∑ j, M j)) (∑ j, shortMW M j) := by
  obtain ⟨i0, i1, i2, i3, i4, i5, i6, i7, i8⟩ :=
    hrstat_loop t (∑ j, M j) M (List.finRange n) (L, poolCount t (∑ j, M j) c) (List.nodup_finRange n)
  obtain ⟨p1, p2, p3, p4, p5, p6, p7, p8⟩ := poolCount_eq t (∑ j, M j) c
  have hs : ((List.finRange n).map fun j => (shortMW M j : ℚ)).sum = ((∑ j, shortMW M j : ℤ) : ℚ) := by
    rw [sum_finRange_map]; push_cast; rfl
  unfold hrstat
  refine ⟨fun j => by rw [i0 j]; simp, ⟨?_, ?_, ?_, ?_, ?_, ?_, ?_, ?_⟩⟩
  · intro t'; rw [i1]; exact p1 t'
  · intro t'; rw [i2]; exact p2 t'
  · intro j t'; rw [i3]; simp [p3]
  · intro j t'; rw [i4]; simp [p4]
  · intro j t'; rw [i5]; simp [p5]
  · intro j t'; rw [i6]; simp [p6]
  · intro t'; rw [i7, hs, p7]
  · intro t'; rw [i8, hs, p8]

/-- The unserved energy that the vectorised versions add to the pool: the truncated sum. -/
theorem areaVec_adds {n : ℕ} (t : Fin 5) (M : Fin n → ℚ) (c : Cnt n) :
    Adds c (areaVec t (∑ j, M j) M (poolCount t (∑ j, M j) c)) t M (poolCause (∑ j, M j))
      (areaCause (∑ j, M j)) (-(pyInt (negSum M))) := by
  obtain ⟨p1, p2, p3, p4, p5, p6, p7, p8⟩ := poolCount_eq t (∑ j, M j) c
  have hmw : ∀ j, M j < 0 → (-(pyInt (M j) : ℚ)) = (shortMW M j : ℚ) := by
    intro j hj
    unfold shortMW
    rw [if_pos hj, ← (pyInt_neg_of_neg hj).2]; push_cast; rfl
  have hmw0 : ∀ j, ¬ M j < 0 → shortMW M j = 0 := fun j hj => if_neg hj
  have hf : ∀ j, M j < 0 → shortFlag M j = 1 := fun j hj => if_pos hj
  have hf0 : ∀ j, ¬ M j < 0 → shortFlag M j = 0 := fun j hj => if_neg hj
  by_cases hS : ∑ j, M j > 0
  · have hc : areaCause (∑ j, M j) = .transmission := if_pos hS
    rw [hc]
    unfold areaVec
    simp only [hS, if_true]
    refine ⟨p1, p2, ?_, ?_, ?_, ?_, ?_, ?_⟩ <;> (try intro j) <;> (try intro t')
    · unfold addMask
      by_cases ht : t' = t <;> by_cases hj : M j < 0 <;> simp [ht, hj, p3, hf, hf0]
    · simp [p4]
    · unfold addMask
      by_cases ht : t' = t <;> by_cases hj : M j < 0 <;> simp [ht, hj, p5, hmw, hmw0]
    · simp [p6]
    · simp only [addAt_apply]; by_cases ht : j = t <;> simp [ht, p7]
    · simp [p8]
  · have hc : areaCause (∑ j, M j) = .generation := if_neg hS
    rw [hc]
    unfold areaVec
    simp only [hS, if_false]
    refine ⟨p1, p2, ?_, ?_, ?_, ?_, ?_, ?_⟩ <;> (try intro j) <;> (try intro t')
    · simp [p3]
    · unfold addMask
      by_cases ht : t' = t <;> by_cases hj : M j < 0 <;> simp [ht, hj, p4, hf, hf0]
    · simp [p5]
    · unfold addMask
      by_cases ht : t' = t <;> by_cases hj : M j < 0 <;> simp [ht, hj, p6, hmw, hmw0]
    · simp [p7]
    · simp only [addAt_apply]; by_cases ht : j = t <;> simp [ht, p8]

theorem negSum_int {n : ℕ} (M : Fin n → ℤ) :
    -(pyInt (negSum fun j => (M j : ℚ))) = ∑ j, shortMW (fun j => (M j : ℚ)) j := by
  have h1 : negSum (fun j => (M j : ℚ)) = ((∑ j, if M j < 0 then M j else 0 : ℤ) : ℚ) := by
    unfold negSum
    push_cast
    refine Finset.sum_congr rfl fun j _ => ?_
    by_cases h : M j < 0
    · have : (M j : ℚ) < 0 := by exact_mod_cast h
      simp [h]
    · have : ¬ (M j : ℚ) < 0 := by exact_mod_cast h
      simp [h]
  have h2 : ∀ z : ℤ, pyInt (z : ℚ) = z := by
    intro z; unfold pyInt; split_ifs <;> simp
  rw [h1, h2, ← Finset.sum_neg_distrib]
  refine Finset.sum_congr rfl fun j _ => ?_
  unfold shortMW
  by_cases h : M j < 0
  · have h' : (M j : ℚ) < 0 := by exact_mod_cast h
    rw [if_pos h, if_pos h']
    rw [show (-(M j : ℚ)) = ((-M j : ℤ) : ℚ) by push_cast; rfl, Int.floor_intCast]
  · have h' : ¬ (M j : ℚ) < 0 := by exact_mod_cast h
    rw [if_neg h, if_neg h']; rfl

/-- C26/C27 (peak statistics), for the whole-megawatt margins that the simulation passes. -/
theorem C26_pkstat {n : ℕ} (t : Fin 5) (M : Fin n → ℤ) (c : Cnt n) :
    Adds c (pkstat t (fun j => (M j : ℚ)) c) t (fun j => (M j : ℚ)) (poolCause (∑ j, (M j : ℚ)))
      (areaCause (∑ j, (M j : ℚ))) (∑ j, shortMW (fun j => (M j : ℚ)) j) := by
  have := areaVec_adds t (fun j => (M j : ℚ)) c
  rw [negSum_int] at this
  exact this

/-- C27 (the two implementations agree) for whole-megawatt margins, hourly and peak. -/
theorem C27_variants_agree_partial {n : ℕ} (t : Fin 5) (M : Fin n → ℤ) (L : Fin n → ℚ) (c : Cnt n) :
    hrstat t (fun j => (M j : ℚ)) (L, c) = hrstat' t (fun j => (M j : ℚ)) (L, c) ∧
    pkstat t (fun j => (M j : ℚ)) c = pkstat' t (fun j => (M j : ℚ)) c := by
  obtain ⟨a1, a2⟩ := C26_hrstat t (fun j => (M j : ℚ)) L c
  have b := C26_pkstat t M c
  constructor
  · refine Prod.ext ?_ ?_
    · funext j
      rw [a1 j]
      unfold hrstat' shortFlag
      simp only
      split_ifs <;> ring
    · exact a2.unique b
  · have e : pkstat' t (fun j => (M j : ℚ)) c = (hrstat t (fun j => (M j : ℚ)) (L, c)).2 :=
      pkstatBody_eq _ _ _ _ _ _
    rw [e]; exact b.unique a2

/-- C27 (what fails). On fractional margins the implementations differ: two areas short by half a
megawatt each add 0 in one version and 1 in the other. -/
theorem C27_variants_refuted : ∃ (M : Fin 2 → ℚ) (c : Cnt 2),
    (pkstat 0 M c).MGNGP 0 ≠ (pkstat' 0 M c).MGNGP 0 ∧
    (hrstat 0 M (fun _ => 0, c)).2.MGNGP 0 ≠ (hrstat' 0 M (fun _ => 0, c)).2.MGNGP 0 :=
  ⟨fun _ => -1/2, Cnt.zero 2, by decide +kernel, by decide +kernel⟩

/-- C26 (as in the claim). Exactly one pool counter of the tier goes up by one; the counters of an area
go up by one in total iff it is short; other tiers are untouched. -/
theorem C26_once {n : ℕ} (t : Fin 5) (M : Fin n → ℚ) (L : Fin n → ℚ) (c : Cnt n) :
    let c' := (hrstat t M (L, c)).2
    ((c'.LOLTP t = c.LOLTP t + 1 ∧ c'.LOLGP t = c.LOLGP t) ∨
      (c'.LOLTP t = c.LOLTP t ∧ c'.LOLGP t = c.LOLGP t + 1)) ∧
    (∀ j, M j < 0 → (c'.LOLTA j t = c.LOLTA j t + 1 ∧ c'.LOLGA j t = c.LOLGA j t) ∨
      (c'.LOLTA j t = c.LOLTA j t ∧ c'.LOLGA j t = c.LOLGA j t + 1)) ∧
    (∀ j, ¬ M j < 0 → c'.LOLTA j t = c.LOLTA j t ∧ c'.LOLGA j t = c.LOLGA j t ∧
      c'.MGNTA j t = c.MGNTA j t ∧ c'.MGNGA j t = c.MGNGA j t) ∧
    (∀ t', t' ≠ t → c'.LOLTP t' = c.LOLTP t' ∧ c'.LOLGP t' = c.LOLGP t' ∧ c'.MGNTP t' = c.MGNTP t' ∧
      c'.MGNGP t' = c.MGNGP t' ∧ ∀ j, c'.LOLTA j t' = c.LOLTA j t' ∧ c'.LOLGA j t' = c.LOLGA j t' ∧
        c'.MGNTA j t' = c.MGNTA j t' ∧ c'.MGNGA j t' = c.MGNGA j t') := by
  intro c'
  have a := (C26_hrstat t M L c).2
  have hc' : c' = (hrstat t M (L, c)).2 := rfl
  rw [← hc'] at a
  obtain ⟨a1, a2, a3, a4, a5, a6, a7, a8⟩ := a
  refine ⟨?_, ?_, ?_, ?_⟩
  · rw [a1, a2]
    cases poolCause (∑ j, M j)
    · left; simp
    · right; simp
  · intro j hj
    rw [a3, a4]
    have : shortFlag M j = 1 := if_pos hj
    cases areaCause (∑ j, M j)
    · left; simp [this]
    · right; simp [this]
  · intro j hj
    rw [a3, a4, a5, a6]
    have e1 : shortFlag M j = 0 := if_neg hj
    have e2 : shortMW M j = 0 := if_neg hj
    simp [e1, e2]
  · intro t' ht
    rw [a1, a2, a7, a8]
    refine ⟨by simp [ht], by simp [ht], by simp [ht], by simp [ht], fun j => ?_⟩
    rw [a3, a4, a5, a6]
    simp [ht]

/-- the two-area example: area 0 has 30 MW to spare, area 1 is 10 MW short -/
def statDemo : (Fin 2 → ℚ) × Cnt 2 := hrstat 1 ![30, -10] (fun _ => 0, Cnt.zero 2)

example : statDemo.2.LOLTP 1 = 1 ∧ statDemo.2.LOLTA 1 1 = 1 ∧ statDemo.2.MGNTA 1 1 = 10 ∧
    statDemo.2.LOLTA 0 1 = 0 ∧ statDemo.2.MGNTP 1 = 10 ∧ statDemo.2.LOLTP 0 = 0 := by decide +kernel

/-- Pool unserved energy is the sum over the areas, for each cause and tier. -/
def Balanced {n : ℕ} (c : Cnt n) : Prop :=
  ∀ t, c.MGNTP t = ∑ j, c.MGNTA j t ∧ c.MGNGP t = ∑ j, c.MGNGA j t

theorem Adds.balanced {n : ℕ} {c c' : Cnt n} {t : Fin 5} {M : Fin n → ℚ} {pc ac : Cause}
    (h : Adds c c' t M pc ac (∑ j, shortMW M j)) (hb : Balanced c) : Balanced c' := by
  intro t'
  obtain ⟨b1, b2⟩ := hb t'
  rw [h.mgnTP, h.mgnGP, b1, b2]
  simp only [h.mgnTA, h.mgnGA, Finset.sum_add_distrib]
  constructor
  · congr 1
    by_cases hh : t' = t ∧ ac = .transmission <;> simp [hh]
  · congr 1
    by_cases hh : t' = t ∧ ac = .generation <;> simp [hh]

/-- C27. Starting from zeroed counters, after any history of hours and peaks (whole-megawatt margins in
any tiers) the pool's unserved energy is the sum over its areas, separately for each cause, for the
hourly and for the peak counters. -/
theorem C27_pool_is_sum {n : ℕ} (hist : List (Fin 5 × (Fin n → ℤ) × Bool)) :
    let r := hist.foldl (fun (s : ((Fin n → ℚ) × Cnt n) × Cnt n) e =>
      (hrstat e.1 (fun j => (e.2.1 j : ℚ)) s.1,
        if e.2.2 then pkstat e.1 (fun j => (e.2.1 j : ℚ)) s.2 else s.2)) ((fun _ => 0, Cnt.zero n), Cnt.zero n)
    Balanced r.1.2 ∧ Balanced r.2 := by
  intro r
  have main : ∀ (hist : List (Fin 5 × (Fin n → ℤ) × Bool)) (s : ((Fin n → ℚ) × Cnt n) × Cnt n),
      Balanced s.1.2 → Balanced s.2 →
      Balanced (hist.foldl (fun (s : ((Fin n → ℚ) × Cnt n) × Cnt n) e =>
        (hrstat e.1 (fun j => (e.2.1 j : ℚ)) s.1,
          if e.2.2 then pkstat e.1 (fun j => (e.2.1 j : ℚ)) s.2 else s.2)) s).1.2 ∧
      Balanced (hist.foldl (fun (s : ((Fin n → ℚ) × Cnt n) × Cnt n) e =>
        (hrstat e.1 (fun j => (e.2.1 j : ℚ)) s.1,
          if e.2.2 then pkstat e.1 (fun j => (e.2.1 j : ℚ)) s.2 else s.2)) s).2 := by
    intro hist
    induction hist with
    | nil => intro s h1 h2; exact ⟨h1, h2⟩
    | cons e hist ih =>
      intro s h1 h2
      rw [List.foldl_cons]
      refine ih _ ?_ ?_
      · exact (C26_hrstat e.1 _ s.1.1 s.1.2).2.balanced h1
      · show Balanced (if e.2.2 then _ else _)
        split_ifs
        · exact (C26_pkstat e.1 e.2.1 s.2).balanced h2
        · exact h2
  exact main hist _ (fun t => by simp [Cnt.zero]) (fun t => by simp [Cnt.zero])

/-- C28 (what holds). When the pool sum is not zero the pool and its short areas are given the same
cause: transmission if the pool as a whole has enough, generation otherwise. -/
theorem C28_same_cause_partial {n : ℕ} (t : Fin 5) (M : Fin n → ℚ) (L : Fin n → ℚ) (c : Cnt n)
    (hne : ∑ j, M j ≠ 0) (j : Fin n) (hj : M j < 0) :
    let c' := (hrstat t M (L, c)).2
    if 0 < ∑ j, M j then c'.LOLTP t = c.LOLTP t + 1 ∧ c'.LOLTA j t = c.LOLTA j t + 1
    else c'.LOLGP t = c.LOLGP t + 1 ∧ c'.LOLGA j t = c.LOLGA j t + 1 := by
  intro c'
  have a := (C26_hrstat t M L c).2
  have hc' : c' = (hrstat t M (L, c)).2 := rfl
  rw [← hc'] at a
  have hf : shortFlag M j = 1 := if_pos hj
  split_ifs with hS
  · rw [a.lolTP, a.lolTA]
    have e1 : poolCause (∑ j, M j) = .transmission := if_pos hS.le
    have e2 : areaCause (∑ j, M j) = .transmission := if_pos hS
    simp [e1, e2, hf]
  · rw [a.lolGP, a.lolGA]
    have hlt : ∑ j, M j < 0 := lt_of_le_of_ne (not_lt.1 hS) hne
    have e1 : poolCause (∑ j, M j) = .generation := if_neg (not_le.2 hlt)
    have e2 : areaCause (∑ j, M j) = .generation := if_neg hS
    simp [e1, e2, hf]

/-- C28 (what fails). When the surpluses exactly cover the shortages (pool sum 0) the pool loss is
booked as transmission and every short area's loss as generation, for all such margins. -/
theorem C28_same_cause_refuted :
    (∃ M : Fin 2 → ℚ, ∑ j, M j = 0 ∧ ∃ j, M j < 0) ∧
    ∀ {n : ℕ} (t : Fin 5) (M : Fin n → ℚ) (L : Fin n → ℚ) (c : Cnt n), ∑ j, M j = 0 → ∀ j, M j < 0 →
      (hrstat t M (L, c)).2.LOLTP t = c.LOLTP t + 1 ∧ (hrstat t M (L, c)).2.LOLGA j t = c.LOLGA j t + 1 := by
  refine ⟨⟨![10, -10], by decide +kernel, 1, by decide +kernel⟩, ?_⟩
  intro n t M L c h0 j hj
  have a := (C26_hrstat t M L c).2
  have hf : shortFlag M j = 1 := if_pos hj
  rw [a.lolTP, a.lolGA, h0]
  have e1 : poolCause 0 = .transmission := if_pos (le_refl _)
  have e2 : areaCause 0 = .generation := if_neg (lt_irrefl _)
  simp [e1, e2, hf]

example : ∃ M : Fin 2 → ℚ, ∑ j, M j ≠ 0 ∧ M 1 < 0 := ⟨![30, -10], by decide +kernel, by decide +kernel⟩

end Narp.Props
