import Verif.Lemmas.Control
import Verif.Props.EventList
import Mathlib.Tactic.Ring
import Mathlib.Tactic.NormNum

/-! Every reachable state of the main loop satisfies the invariant. -/

namespace Narp
open Spec Props

variable {σ : Type}

theorem nextEvents_list (J : ℚ) (n : Fin 7 → ℕ) :
    nextEvents J n = ([occ J 0 (n 0), occ J 1 (n 1), occ J 2 (n 2), occ J 3 (n 3), occ J 4 (n 4),
      occ J 5 (n 5), occ J 6 (n 6)] : List Ev) := rfl

theorem inv_init (cfg : Cfg σ) (hJ1 : 1/2 < cfg.JSTEP) (hJ2 : cfg.JSTEP ≤ 4369/2) (N : ℕ) (w : σ) :
    Inv cfg [] (narpInit cfg.JSTEP N w) (fun _ => 0) (initialEvents cfg.JSTEP) where
  holds := initl_holds (le_of_lt hJ1) hJ2
  len := rfl
  pend := by
    rw [nextEvents_list]
    apply Multiset.coe_eq_coe.2
    have := (List.perm_middle (l₁ := [(⟨1/2, 2⟩ : Ev), ⟨1/2, 3⟩]) (a := ⟨cfg.JSTEP, 1⟩)
      (l₂ := [⟨4369/2, 3⟩, ⟨8737/2, 3⟩, ⟨13105/2, 3⟩, ⟨8760, 4⟩]))
    simpa [initialEvents, occ, base, period, kind] using this
  tie := by
    simp [initialEvents]
  clock0 := le_refl _
  clock := by
    intro x hx
    simp only [initialEvents, List.mem_cons, List.not_mem_nil, or_false] at hx
    show 0 ≤ x.time
    rcases hx with rfl | rfl | rfl | rfl | rfl | rfl | rfl <;> simp <;> linarith
  past := by intro i hi; exact absurd rfl hi
  log_eq := by simp [firstEvents]
  log_sorted := by simp
  log_le := by simp
  jhour := by simp [narpInit]
  iq := by simp [narpInit]

theorem reach_inv {cfg : Cfg σ} (hJ1 : 1/2 < cfg.JSTEP) (hJ2 : cfg.JSTEP ≤ 4369/2) {N : ℕ} {w : σ}
    {log : List Ev} {s : St σ} (h : Reach cfg (narpInit cfg.JSTEP N w) log s) :
    ∃ n q, Inv cfg log s n q := by
  induction h with
  | start => exact ⟨_, _, inv_init cfg hJ1 hJ2 N w⟩
  | step _ hs ih =>
    obtain ⟨n, q, hI⟩ := ih
    obtain ⟨i, q', _, _, hI'⟩ := inv_step (by linarith) (by linarith) hI hs
    exact ⟨_, _, hI'⟩

theorem countP_occ (J : ℚ) (i : Fin 7) (m : ℕ) (c : ℚ) :
    Multiset.countP (fun e : Ev => e.kind = c) ((Multiset.range m).map (occ J i)) =
      if kind i = c then m else 0 := by
  rw [Multiset.countP_map]
  by_cases h : kind i = c
  · rw [if_pos h, Multiset.filter_eq_self.2 (by intro a _; exact h), Multiset.card_range]
  · rw [if_neg h, Multiset.filter_eq_nil.2 (by intro a _; exact h)]; rfl

theorem countP_firstEvents (J : ℚ) (n : Fin 7 → ℕ) (c : ℚ) :
    Multiset.countP (fun e : Ev => e.kind = c) (firstEvents J n) =
      ∑ i, if kind i = c then n i else 0 := by
  unfold firstEvents
  rw [Fin.sum_univ_seven, Fin.sum_univ_seven]
  simp only [Multiset.countP_add, countP_occ]

theorem log_count {cfg : Cfg σ} {log : List Ev} {s : St σ} {n : Fin 7 → ℕ} {q : List Ev}
    (hI : Inv cfg log s n q) (c : ℚ) :
    log.countP (fun e : Ev => e.kind = c) = ∑ i, if kind i = c then n i else 0 := by
  rw [← countP_firstEvents cfg.JSTEP, ← hI.log_eq]; simp

theorem log_count_one {cfg : Cfg σ} {log : List Ev} {s : St σ} {n : Fin 7 → ℕ} {q : List Ev}
    (hI : Inv cfg log s n q) : log.countP (fun e : Ev => e.kind = 1) = n 0 := by
  rw [log_count hI, Fin.sum_univ_seven]; simp [kind]

theorem log_count_two {cfg : Cfg σ} {log : List Ev} {s : St σ} {n : Fin 7 → ℕ} {q : List Ev}
    (hI : Inv cfg log s n q) : log.countP (fun e : Ev => e.kind = 2) = n 1 := by
  rw [log_count hI, Fin.sum_univ_seven]; simp [kind]

theorem log_count_four {cfg : Cfg σ} {log : List Ev} {s : St σ} {n : Fin 7 → ℕ} {q : List Ev}
    (hI : Inv cfg log s n q) : log.countP (fun e : Ev => e.kind = 4) = n 6 := by
  rw [log_count hI, Fin.sum_univ_seven]; simp [kind]

/-- facts about the event processed next -/
theorem inv_next {cfg : Cfg σ} (hJ : 0 < cfg.JSTEP) (hJ2 : cfg.JSTEP < 8760) {log : List Ev} {s : St σ}
    {n : Fin 7 → ℕ} {q : List Ev} (hI : Inv cfg log s n q) {ev : Ev} {s' : St σ}
    (hs : step cfg s = .ok (.next ev s')) :
    ∃ i, ev = occ cfg.JSTEP i (n i) ∧ s'.CLOCK = ev.time ∧
      (∀ j, ev.time ≤ (occ cfg.JSTEP j (n j)).time) ∧
      (i = 6 → ev.time < (occ cfg.JSTEP 0 (n 0)).time) ∧
      (∀ j, (n j : ℚ) * period cfg.JSTEP j ≠ 0 →
        base cfg.JSTEP j + ((n j : ℚ) - 1) * period cfg.JSTEP j ≤ ev.time) ∧
      s.RFLAG ≠ 1 ∧ ev.time ≤ cfg.FINISH + 1 := by
  obtain ⟨i0, q', hev, hclk, _⟩ := inv_step hJ hJ2 hI hs
  obtain ⟨i, q0, c1, hq, hrem, hfile, hst⟩ := step_shape hI
  rw [hst] at hs
  split at hs
  · cases hs
  rename_i hR
  split at hs
  · cases hs
  rename_i hF
  have hev' : ev = occ cfg.JSTEP i (n i) := by
    cases hevs : events cfg { s with cal := c1, CLOCK := (occ cfg.JSTEP i (n i)).time } (kind i) with
    | error x => rw [hevs] at hs; cases hs
    | ok s2 =>
      rw [hevs] at hs
      simp only [Except.map, Except.ok.injEq, StepRes.next.injEq] at hs
      exact hs.1.symm
  have hmem : ∀ j, occ cfg.JSTEP j (n j) ∈ q := by
    intro j
    have : occ cfg.JSTEP j (n j) ∈ (q : Multiset Ev) := by
      rw [hI.pend]; exact Multiset.mem_map.2 ⟨j, Finset.mem_univ_val j, rfl⟩
    simpa using this
  have hmin : ∀ j, ev.time ≤ (occ cfg.JSTEP j (n j)).time := by
    intro j
    have hj := hmem j
    have hso := hI.holds.sorted
    rw [hq, List.pairwise_cons] at hso
    rw [hq] at hj
    rcases List.mem_cons.1 hj with h | h
    · rw [h, hev']
    · rw [hev']; exact hso.1 _ h
  refine ⟨i, hev', hclk, hmin, ?_, ?_, hR, by rw [hev']; exact not_lt.1 hF⟩
  · rintro rfl
    have hj := hmem 0
    have ht := hI.tie
    rw [hq, List.pairwise_cons] at ht
    rw [hq] at hj
    rcases List.mem_cons.1 hj with h | h
    · have := congrArg Ev.kind h
      simp [occ, kind] at this
    · rw [hev']; exact ht.1 _ h rfl rfl
  · intro j hj
    have hn0 : n j ≠ 0 := by rintro h; rw [h] at hj; simp at hj
    have h1 := hI.past j hn0
    have h2 : s.CLOCK ≤ ev.time := by
      rw [hev']; exact hI.clock _ (hmem i)
    exact le_trans h1 h2

end Narp
