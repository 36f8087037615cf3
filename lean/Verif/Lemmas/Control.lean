import Verif.Lemmas.EventList
import Verif.Spec.Schedule
import Mathlib.Tactic.FinCases
import Mathlib.Tactic.IntervalCases

/-! Invariant of the main loop. -/

namespace Narp
open Spec

variable {σ : Type}

theorem Except.bind_ok {ε α β : Type} {x : Except ε α} {f : α → Except ε β} {b : β}
    (h : (x >>= f) = .ok b) : ∃ a, x = .ok a ∧ f a = .ok b := by
  cases x with
  | error e => cases h
  | ok a => exact ⟨a, rfl, h⟩

theorem pyInt_one : pyInt 1 = 1 := by decide +kernel
theorem pyInt_two : pyInt 2 = 2 := by decide +kernel
theorem pyInt_three : pyInt 3 = 3 := by decide +kernel
theorem pyInt_four : pyInt 4 = 4 := by decide +kernel

/-- the effect of the dispatched handler on the loop variables -/
theorem events_inv {cfg : Cfg σ} {s s' : St σ} (i : Fin 7) (h : events cfg s (kind i) = .ok s') :
    filem s.cal (s.CLOCK + period cfg.JSTEP i) (kind i) = .ok s'.cal ∧ s'.CLOCK = s.CLOCK ∧
    (s'.JHOUR = if i = 0 then -1 + pyInt (pyMod s.CLOCK 8760) else s.JHOUR) ∧
    (s'.IQ = if kind i = 3 then (s.IQ + 1) % 4 else s.IQ) ∧
    (s'.RATING = s.RATING ∨ kind i = 3) ∧
    (s'.PLNDST = s.PLNDST ∨ kind i = 2) ∧ (s'.RFLAG = s.RFLAG ∨ kind i = 4) := by
  unfold events at h
  match i, h with
  | 0, h =>
    simp only [kind, Matrix.cons_val_zero, pyInt_one, if_true] at h
    obtain ⟨c, h1, h⟩ := Except.bind_ok h
    obtain ⟨w, h2, h⟩ := Except.bind_ok h
    cases h
    refine ⟨h1, rfl, rfl, ?_, Or.inl rfl, Or.inl rfl, Or.inl rfl⟩
    rw [if_neg (by simp [kind])]
  | 1, h =>
    have hk : kind 1 = 2 := rfl
    simp only [hk, pyInt_two] at h ⊢
    rw [if_neg (by decide), if_pos trivial] at h
    obtain ⟨c, h1, h⟩ := Except.bind_ok h
    obtain ⟨w, h2, h⟩ := Except.bind_ok h
    cases h
    refine ⟨h1, rfl, rfl, ?_, Or.inl rfl, Or.inr (by simp), Or.inl rfl⟩
    rw [if_neg (by norm_num)]
  | 2, h => 
    have hk : kind 2 = 3 := rfl
    simp only [hk, pyInt_three] at h ⊢
    rw [if_neg (by decide), if_neg (by decide), if_pos trivial] at h
    obtain ⟨w, h2, h⟩ := Except.bind_ok h
    obtain ⟨c, h1, h⟩ := Except.bind_ok h
    cases h
    exact ⟨h1, rfl, rfl, by simp, Or.inr (by simp), Or.inl rfl, Or.inl rfl⟩
  | 3, h => 
    have hk : kind 3 = 3 := rfl
    simp only [hk, pyInt_three] at h ⊢
    rw [if_neg (by decide), if_neg (by decide), if_pos trivial] at h
    obtain ⟨w, h2, h⟩ := Except.bind_ok h
    obtain ⟨c, h1, h⟩ := Except.bind_ok h
    cases h
    exact ⟨h1, rfl, rfl, by simp, Or.inr (by simp), Or.inl rfl, Or.inl rfl⟩
  | 4, h => 
    have hk : kind 4 = 3 := rfl
    simp only [hk, pyInt_three] at h ⊢
    rw [if_neg (by decide), if_neg (by decide), if_pos trivial] at h
    obtain ⟨w, h2, h⟩ := Except.bind_ok h
    obtain ⟨c, h1, h⟩ := Except.bind_ok h
    cases h
    exact ⟨h1, rfl, rfl, by simp, Or.inr (by simp), Or.inl rfl, Or.inl rfl⟩
  | 5, h => 
    have hk : kind 5 = 3 := rfl
    simp only [hk, pyInt_three] at h ⊢
    rw [if_neg (by decide), if_neg (by decide), if_pos trivial] at h
    obtain ⟨w, h2, h⟩ := Except.bind_ok h
    obtain ⟨c, h1, h⟩ := Except.bind_ok h
    cases h
    exact ⟨h1, rfl, rfl, by simp, Or.inr (by simp), Or.inl rfl, Or.inl rfl⟩
  | 6, h =>
    have hk : kind 6 = 4 := rfl
    simp only [hk, pyInt_four] at h ⊢
    rw [if_neg (by decide), if_neg (by decide), if_neg (by decide), if_pos trivial] at h
    obtain ⟨c, h1, h⟩ := Except.bind_ok h
    obtain ⟨w, h2, h⟩ := Except.bind_ok h
    cases h
    refine ⟨h1, rfl, rfl, ?_, Or.inl rfl, Or.inl rfl, Or.inr (by simp)⟩
    rw [if_neg (by norm_num)]

/-- Invariant of the loop at its top; `n i` is the number of processed events of source `i`. -/
structure Inv (cfg : Cfg σ) (log : List Ev) (s : St σ) (n : Fin 7 → ℕ) (q : List Ev) : Prop where
  holds : Holds s.cal q
  len : s.cal.E.length = 100
  pend : (q : Multiset Ev) = nextEvents cfg.JSTEP n
  tie : q.Pairwise fun a b => a.kind = 4 → b.kind = 1 → a.time < b.time
  clock0 : 0 ≤ s.CLOCK
  clock : ∀ x ∈ q, s.CLOCK ≤ x.time
  past : ∀ i, n i ≠ 0 → base cfg.JSTEP i + ((n i : ℚ) - 1) * period cfg.JSTEP i ≤ s.CLOCK
  log_eq : (log : Multiset Ev) = firstEvents cfg.JSTEP n
  log_sorted : log.Pairwise fun a b => a.time ≤ b.time
  log_le : ∀ x ∈ log, x.time ≤ s.CLOCK
  jhour : s.JHOUR = if n 0 = 0 then 0 else -1 + pyInt (pyMod ((n 0 : ℚ) * cfg.JSTEP) 8760)
  iq : s.IQ = ((n 2 + n 3 + n 4 + n 5 : ℕ) : ℤ) % 4

theorem nextEvents_update (J : ℚ) (n : Fin 7 → ℕ) (i : Fin 7) (m : ℕ) :
    nextEvents J (Function.update n i m) = occ J i m ::ₘ (nextEvents J n).erase (occ J i (n i)) := by
  have hu : (Finset.univ : Finset (Fin 7)) = Finset.cons i (Finset.univ.erase i) (by simp) := by
    ext x; simp
  unfold nextEvents
  rw [hu, Finset.cons_val, Multiset.map_cons, Multiset.map_cons, Multiset.erase_cons_head]
  rw [Function.update_self]
  congr 1
  apply Multiset.map_congr rfl
  intro x hx
  have : x ≠ i := Finset.ne_of_mem_erase (show x ∈ Finset.univ.erase i from hx)
  rw [Function.update_of_ne this]

theorem firstEvents_update (J : ℚ) (n : Fin 7 → ℕ) (i : Fin 7) :
    firstEvents J (Function.update n i (n i + 1)) = occ J i (n i) ::ₘ firstEvents J n := by
  unfold firstEvents
  rw [← Finset.add_sum_erase _ _ (Finset.mem_univ i),
    ← Finset.add_sum_erase (a := i) _ (fun i => (Multiset.range (n i)).map (occ J i)) (Finset.mem_univ i)]
  rw [Function.update_self, Multiset.range_succ, Multiset.map_cons, Multiset.cons_add]
  congr 2
  apply Finset.sum_congr rfl
  intro x hx
  rw [Function.update_of_ne (Finset.ne_of_mem_erase hx)]

theorem insertEv_pairwise {R : Ev → Ev → Prop} {s : Ev} {q : List Ev} (h : q.Pairwise R)
    (h1 : ∀ x ∈ q, x.time < s.time → R x s) (h2 : ∀ x ∈ q, s.time ≤ x.time → R s x)
    (hs : q.Pairwise fun a b => a.time ≤ b.time) : (insertEv s q).Pairwise R := by
  induction q with
  | nil => simp [insertEv]
  | cons e r ih =>
    rw [List.pairwise_cons] at h hs
    unfold insertEv
    split
    · rename_i hlt
      rw [List.pairwise_cons]
      refine ⟨fun x hx => ?_, ih h.2 (fun x hx => h1 x (by simp [hx])) (fun x hx => h2 x (by simp [hx])) hs.2⟩
      rcases List.mem_cons.1 ((insertEv_perm s r).mem_iff.1 hx) with rfl | hx
      · exact h1 e (by simp) hlt
      · exact h.1 x hx
    · rename_i hlt
      rw [List.pairwise_cons]
      refine ⟨fun x hx => ?_, by rw [List.pairwise_cons]; exact h⟩
      apply h2 x hx
      rcases List.mem_cons.1 hx with rfl | hx
      · exact not_lt.1 hlt
      · exact le_trans (not_lt.1 hlt) (hs.1 x hx)

theorem kind_eq_one {i : Fin 7} (h : kind i = 1) : i = 0 := by
  revert i; decide +kernel
theorem kind_eq_two {i : Fin 7} (h : kind i = 2) : i = 1 := by
  revert i; decide +kernel
theorem kind_eq_four {i : Fin 7} (h : kind i = 4) : i = 6 := by
  revert i; decide +kernel

theorem occ_succ (J : ℚ) (i : Fin 7) (m : ℕ) :
    (occ J i (m + 1)) = ⟨(occ J i m).time + period J i, kind i⟩ := by
  simp only [occ, Ev.mk.injEq, and_true]; push_cast; ring

theorem period_pos {J : ℚ} (hJ : 0 < J) (i : Fin 7) : 0 < period J i := by
  match i with
  | 0 => exact hJ
  | 1 => simp [period]
  | 2 => simp [period]
  | 3 => simp [period]
  | 4 => simp [period]
  | 5 => simp [period]
  | 6 => simp [period]

/-- shape of one iteration in a state satisfying the invariant -/
theorem step_shape {cfg : Cfg σ} {log : List Ev} {s : St σ} {n : Fin 7 → ℕ} {q : List Ev}
    (hI : Inv cfg log s n q) :
    ∃ i q0 c1, q = occ cfg.JSTEP i (n i) :: q0 ∧
      remove s.cal = .ok (((occ cfg.JSTEP i (n i)).time, kind i), c1) ∧
      (∀ e', ∃ c2, filem c1 e'.time e'.kind = .ok c2 ∧ Holds c2 (insertEv e' q0) ∧ c2.E.length = 100) ∧
      step cfg s =
        (if s.RFLAG = 1 then .ok (.exit .converged)
         else if (occ cfg.JSTEP i (n i)).time > cfg.FINISH + 1 then .ok (.exit .finished)
         else (events cfg { s with cal := c1, CLOCK := (occ cfg.JSTEP i (n i)).time } (kind i)).map
            fun s' => .next (occ cfg.JSTEP i (n i)) s') := by
  have hne : q ≠ [] := by
    rintro rfl
    have := congrArg Multiset.card hI.pend
    simp [nextEvents] at this
  obtain ⟨e, q0, rfl⟩ := List.exists_cons_of_ne_nil hne
  have hmem : e ∈ nextEvents cfg.JSTEP n := by rw [← hI.pend]; simp
  obtain ⟨i, _, hi⟩ := Multiset.mem_map.1 hmem
  obtain ⟨c1, _, hr, _⟩ := pair_step hI.holds ⟨0, 0⟩
  refine ⟨i, q0, c1, by rw [hi], ?_, ?_, ?_⟩
  · rw [hr, ← hi]; rfl
  · intro e'
    obtain ⟨c1', c2, hr', hf, hh, hl, _⟩ := pair_step hI.holds e'
    rw [hr] at hr'
    obtain rfl : c1 = c1' := by
      simpa using hr'
    exact ⟨c2, hf, hh, by rw [hl, hI.len]⟩
  · obtain ⟨l, hch, hnd, hl⟩ := hI.holds.chain
    match l, hl, hch with
    | [], hl, _ => simp at hl
    | (p, e0) :: l, hl, hch =>
      simp only [List.map_cons, List.cons.injEq] at hl
      have hip : s.cal.IPOINT = (p : ℤ) := hch.1
      have hrd : rd s.cal.E (s.cal.IPOINT + 1) = .ok e.time := by
        have := rd_nat (E := s.cal.E) (p := p + 1) (by have := hch.2.2.1; omega)
        rw [hch.2.2.2.1, hl.1] at this; push_cast at this; rw [hip]; exact this
      have hck : ¬ (s.CLOCK > e.time) := not_lt.2 (hI.clock e (by simp))
      unfold step
      rw [if_neg (by rw [hip]; omega)]
      simp only [hrd, bind, Except.bind, pure, Except.pure, hck, if_false, hr, hi]
      have hk : e.kind = kind i := by rw [← hi]; rfl
      rw [hk]
      split
      · rfl
      · split
        · rfl
        · generalize events cfg _ (kind i) = r
          cases r with
          | error e => rfl
          | ok s' => simp only [Except.map]; rw [← hk]

theorem past_clock {J : ℚ} (i : Fin 7) (m : ℕ) :
    base J i + (((m + 1 : ℕ) : ℚ) - 1) * period J i = (occ J i m).time := by
  simp only [occ]; push_cast; ring

theorem inv_step {cfg : Cfg σ} (hJ : 0 < cfg.JSTEP) (hJ2 : cfg.JSTEP < 8760) {log : List Ev} {s : St σ}
    {n : Fin 7 → ℕ} {q : List Ev} (hI : Inv cfg log s n q) {ev : Ev} {s' : St σ}
    (hs : step cfg s = .ok (.next ev s')) :
    ∃ i q', ev = occ cfg.JSTEP i (n i) ∧ s'.CLOCK = ev.time ∧
      Inv cfg (log ++ [ev]) s' (Function.update n i (n i + 1)) q' := by
  obtain ⟨i, q0, c1, hq, hrem, hfile, hst⟩ := step_shape hI
  rw [hst] at hs
  split at hs
  · cases hs
  split at hs
  · cases hs
  set e := occ cfg.JSTEP i (n i) with he
  cases hev : events cfg { s with cal := c1, CLOCK := e.time } (kind i) with
  | error x => rw [hev] at hs; cases hs
  | ok s2 =>
  rw [hev] at hs
  simp only [Except.map, Except.ok.injEq, StepRes.next.injEq] at hs
  obtain ⟨rfl, rfl⟩ := hs
  obtain ⟨hf, hclk, hjh, hiq, _⟩ := events_inv i hev
  simp only at hf hclk hjh hiq
  obtain ⟨c2, hf', hh2, hlen2⟩ := hfile (occ cfg.JSTEP i (n i + 1))
  rw [occ_succ] at hf'
  simp only at hf'
  rw [← he] at hf'
  rw [hf'] at hf
  obtain rfl : c2 = s2.cal := by simpa using hf
  have hpp := period_pos hJ i
  have hle : ∀ x ∈ q0, e.time ≤ x.time := by
    have := hI.holds.sorted
    rw [hq, List.pairwise_cons] at this
    exact this.1
  have hqtie := hI.tie
  rw [hq, List.pairwise_cons] at hqtie
  have hCe : s.CLOCK ≤ e.time := hI.clock e (by rw [hq]; simp)
  have hq0 : (q0 : Multiset Ev) = (nextEvents cfg.JSTEP n).erase e := by
    rw [← hI.pend, hq]; simp
  refine ⟨i, insertEv (occ cfg.JSTEP i (n i + 1)) q0, rfl, hclk,
    ⟨hh2, hlen2, ?_, ?_, ?_, ?_, ?_, ?_, ?_, ?_, ?_, ?_⟩⟩
  · rw [Multiset.coe_eq_coe.2 (insertEv_perm _ q0), nextEvents_update, ← Multiset.cons_coe, hq0]
  · -- ties between year ends and draws
    apply insertEv_pairwise hqtie.2
    · intro x _ hx _ _; exact hx
    · intro x hx hx2 hk hk1
      have hi6 : i = 6 := kind_eq_four (by simpa [occ] using hk)
      -- the pending draw is at most JSTEP after the clock
      have hxq : x ∈ nextEvents cfg.JSTEP n := by
        rw [← hI.pend, hq]; simp [hx]
      obtain ⟨j, _, hj⟩ := Multiset.mem_map.1 hxq
      have hj0 : j = 0 := kind_eq_one (by rw [← hj] at hk1; simpa [occ] using hk1)
      subst hj0
      have hxt : x.time = cfg.JSTEP + (n 0 : ℚ) * cfg.JSTEP := by rw [← hj]; rfl
      have hpast : (n 0 : ℚ) * cfg.JSTEP ≤ e.time := by
        by_cases h0 : n 0 = 0
        · rw [h0]; have := hI.clock0; push_cast; linarith
        · have := hI.past 0 h0
          simp only [base, period, Matrix.cons_val_zero] at this
          linarith
      have hper : period cfg.JSTEP i = 8760 := by rw [hi6]; rfl
      rw [occ_succ, ← he, hper] at hx2 ⊢
      simp only at hx2 ⊢
      linarith
    · have := hI.holds.sorted
      rw [hq, List.pairwise_cons] at this
      exact this.2
  · rw [hclk]; exact le_trans hI.clock0 hCe
  · intro x hx
    rw [hclk]
    rcases List.mem_cons.1 ((insertEv_perm _ q0).mem_iff.1 hx) with rfl | hx
    · rw [occ_succ, ← he]; simp only; linarith
    · exact hle x hx
  · intro j hj
    rw [hclk]
    by_cases hji : j = i
    · subst hji
      rw [Function.update_self, past_clock]
    · rw [Function.update_of_ne hji] at hj ⊢
      exact le_trans (hI.past j hj) hCe
  · rw [firstEvents_update, ← hI.log_eq, ← Multiset.coe_add]
    rw [← he, ← Multiset.singleton_add, add_comm]; rfl
  · rw [List.pairwise_append]
    refine ⟨hI.log_sorted, by simp, fun a ha b hb => ?_⟩
    simp only [List.mem_singleton] at hb; subst hb
    exact le_trans (hI.log_le a ha) hCe
  · intro x hx
    rw [hclk]
    rcases List.mem_append.1 hx with hx | hx
    · exact le_trans (hI.log_le x hx) hCe
    · simp only [List.mem_singleton] at hx; subst hx; exact le_refl _
  · rw [hjh]
    by_cases hi0 : i = 0
    · subst hi0
      rw [if_pos rfl, Function.update_self, if_neg (by omega)]
      congr 3
      rw [he]; simp only [occ, base, period, Matrix.cons_val_zero]; push_cast; ring
    · rw [if_neg hi0, Function.update_of_ne (fun h => hi0 h.symm)]
      exact hI.jhour
  · rw [hiq, hI.iq]
    match i with
    | 0 => simp [kind, Function.update]
    | 1 => simp [kind, Function.update]
    | 2 => simp [kind, Function.update]; omega
    | 3 => simp [kind, Function.update]; omega
    | 4 => simp [kind, Function.update]; omega
    | 5 => simp [kind, Function.update]; omega
    | 6 => simp [kind, Function.update]

end Narp
