import Verif.Lemmas.ControlInit
import Mathlib.Algebra.Order.Floor.Ring
import Mathlib.Tactic.Positivity

/-!
# Properties of the main loop (C02, C05, C06, C07, C08, C09, C10, C11)

All theorems quantify over `cfg`, hence over arbitrary behaviour of the bodies of the hourly and
yearly handlers (`hourFx`, `yearFx`), over all tables, and over all runs started by `narpMain`
(`Reach cfg (narpInit ...) log s`).
-/

namespace Narp.Props
open Narp Narp.Spec

variable {σ : Type}

/-- The two sampling modes the program knows (`datax.py:200`). -/
def StepOK (J : ℚ) : Prop := J = 1 ∨ J = 24

theorem StepOK.lo {J : ℚ} (h : StepOK J) : 1/2 < J := by rcases h with rfl | rfl <;> norm_num
theorem StepOK.hi {J : ℚ} (h : StepOK J) : J ≤ 4369/2 := by rcases h with rfl | rfl <;> norm_num
theorem StepOK.one {J : ℚ} (h : StepOK J) : 1 ≤ J := by rcases h with rfl | rfl <;> norm_num

/-! ## C02 -/

/-- C02. In every run, at the top of the loop, the calendar holds exactly seven events in seven
pairwise different slots of the 100-word array, linked from `IPOINT` and ended by `-1` (this is
`Chain`), in chronological order, and the event counter says 7. -/
theorem C02_calendar_always_seven {cfg : Cfg σ} (hJ : StepOK cfg.JSTEP) {N : ℕ} {w : σ}
    {log : List Ev} {s : St σ} (h : Reach cfg (narpInit cfg.JSTEP N w) log s) :
    s.cal.NUMINQ = 7 ∧ s.cal.E.length = 100 ∧
      ∃ l : List (ℕ × Ev), Chain s.cal.E s.cal.IPOINT l ∧ (l.map Prod.fst).Nodup ∧ l.length = 7 ∧
        (l.map Prod.snd).Pairwise fun a b => a.time ≤ b.time := by
  obtain ⟨n, q, hI⟩ := reach_inv hJ.lo hJ.hi h
  have hq : q.length = 7 := by
    have := congrArg Multiset.card hI.pend
    simpa [nextEvents] using this
  obtain ⟨l, hc, hn, hl⟩ := hI.holds.chain
  refine ⟨by rw [hI.holds.count, hq]; rfl, hI.len, l, hc, hn, ?_, by rw [hl]; exact hI.holds.sorted⟩
  rw [← hq, ← hl]; simp

/-! ## C05 -/

/-- C05. In every run: the loop never takes the "pointer is -1" or the "scheduled prior to the
current time" exit; when it processes an event the clock moves to the event's time, which is not
before the old clock, and the event type is 1, 2, 3 or 4; the processed events are in chronological
order. -/
theorem C05_clock_monotone {cfg : Cfg σ} (hJ : StepOK cfg.JSTEP) {N : ℕ} {w : σ}
    {log : List Ev} {s : St σ} (h : Reach cfg (narpInit cfg.JSTEP N w) log s) :
    step cfg s ≠ .ok (.exit .badPointer) ∧ step cfg s ≠ .ok (.exit .timeError) ∧
      (∀ ev s', step cfg s = .ok (.next ev s') →
        s'.CLOCK = ev.time ∧ s.CLOCK ≤ s'.CLOCK ∧
        (ev.kind = 1 ∨ ev.kind = 2 ∨ ev.kind = 3 ∨ ev.kind = 4)) ∧
      log.Pairwise fun a b => a.time ≤ b.time := by
  obtain ⟨n, q, hI⟩ := reach_inv hJ.lo hJ.hi h
  have h1 := hJ.lo
  have h2 := hJ.hi
  obtain ⟨i, q0, c1, hq, hrem, hfile, hst⟩ := step_shape hI
  refine ⟨?_, ?_, ?_, hI.log_sorted⟩
  · rw [hst]
    split
    · simp
    split
    · simp
    cases events cfg { s with cal := c1, CLOCK := (occ cfg.JSTEP i (n i)).time } (kind i) <;>
      simp [Except.map]
  · rw [hst]
    split
    · simp
    split
    · simp
    cases events cfg { s with cal := c1, CLOCK := (occ cfg.JSTEP i (n i)).time } (kind i) <;>
      simp [Except.map]
  · intro ev s' hs
    obtain ⟨j, q', hev, hclk, hI'⟩ := inv_step (by linarith) (by linarith) hI hs
    refine ⟨hclk, ?_, ?_⟩
    · rw [hclk, hev]
      have : occ cfg.JSTEP j (n j) ∈ (q : Multiset Ev) := by
        rw [hI.pend]; exact Multiset.mem_map.2 ⟨j, Finset.mem_univ_val j, rfl⟩
      exact hI.clock _ (by simpa using this)
    · rw [hev]
      have : ∀ j, kind j = 1 ∨ kind j = 2 ∨ kind j = 3 ∨ kind j = 4 := by decide +kernel
      exact this j

/-- The planned outage table has 52 rows, each starting with a count and listing unit numbers (entries from the end
of the array, like the padding -1, are legal too). -/
def PlanOK (JPLOUT : List (List ℤ)) (N : ℕ) : Prop :=
  JPLOUT.length = 52 ∧ ∀ row ∈ JPLOUT, ∃ MT rest, row = MT :: rest ∧ ∀ x ∈ rest, -(N : ℤ) ≤ x ∧ x < N

theorem mapM_ok {α β : Type} {f : α → Except PyErr β} : ∀ (l : List α),
    (∀ x ∈ l, ∃ y, f x = .ok y) → ∃ r, l.mapM f = .ok r ∧ r.length = l.length
  | [], _ => ⟨[], rfl, rfl⟩
  | a :: l, h => by
    obtain ⟨y, hy⟩ := h a (by simp)
    obtain ⟨r, hr, hl⟩ := mapM_ok l (fun x hx => h x (by simp [hx]))
    refine ⟨y :: r, ?_, by simp [hl]⟩
    rw [List.mapM_cons, hy]
    simp only [bind, Except.bind, hr, pure, Except.pure]

theorem rd_ok {α : Type} [Inhabited α] {a : List α} {i : ℤ} (h1 : -(a.length : ℤ) ≤ i)
    (h2 : i < a.length) : ∃ x ∈ a, rd a i = .ok x := by
  unfold rd pyIdx
  by_cases h0 : 0 ≤ i
  · rw [if_pos h0, if_pos h2]
    have hl : i.toNat < a.length := by omega
    exact ⟨a[i.toNat], List.getElem_mem hl, by simp [Except.map, hl]⟩
  · rw [if_neg h0, if_pos h1]
    have hl : (i + a.length).toNat < a.length := by omega
    exact ⟨a[(i + a.length).toNat], List.getElem_mem hl, by simp [Except.map, hl]⟩

theorem pyIdx_ok {n : ℕ} {i : ℤ} (h1 : 0 ≤ i) (h2 : i < n) : pyIdx n i = .ok i.toNat := by
  simp [pyIdx, h1, h2]

theorem foldl_set_length (idx : List ℕ) : ∀ on : List ℚ,
    (idx.foldl (fun (a : List ℚ) k => a.set k 0) on).length = on.length := by
  induction idx with
  | nil => intro on; rfl
  | cons k r ih => intro on; rw [List.foldl_cons, ih]; simp

theorem weekPlan_length {T : List (List ℤ)} {J : ℤ} {p p' : List ℚ} (h : weekPlan T J p = .ok p') :
    p'.length = p.length := by
  unfold weekPlan at h
  simp only at h
  split at h
  · cases h; simp
  obtain ⟨row, _, h⟩ := Except.bind_ok h
  obtain ⟨MT, _, h⟩ := Except.bind_ok h
  obtain ⟨idx, _, h⟩ := Except.bind_ok h
  cases h
  rw [foldl_set_length]; simp

theorem weekPlan_ok {T : List (List ℤ)} {J : ℤ} {p : List ℚ} (hT : PlanOK T p.length) (hJ : -1 ≤ J) :
    ∃ p', weekPlan T J p = .ok p' := by
  unfold weekPlan
  simp only
  split
  · exact ⟨_, rfl⟩
  rename_i hle
  obtain ⟨row, hrow, hrd⟩ := rd_ok (a := T) (i := J / 168) (by rw [hT.1]; omega) (by rw [hT.1]; omega)
  obtain ⟨MT, rest, hr, hrest⟩ := hT.2 row hrow
  have hMT : rd row 0 = .ok MT := by rw [hr]; simp [rd, pyIdx, Except.map]
  have : ∃ idx, (slice row 1 (MT + 1)).mapM (pyIdx (p.map fun _ => (1 : ℚ)).length) = .ok idx := by
    obtain ⟨r, h, _⟩ := mapM_ok (f := pyIdx (p.map fun _ => (1 : ℚ)).length) (slice row 1 (MT + 1)) (by
      intro x hx
      have hx' : x ∈ rest := by
        unfold slice at hx
        rw [hr] at hx
        have h1 := List.drop_subset 1 _ hx
        simp only at hx
        generalize (if 0 ≤ MT + 1 then (MT + 1).toNat else (MT + 1 + ↑(MT :: rest).length).toNat) = k at hx
        cases k with
        | zero => simp at hx
        | succ k =>
          rw [List.take_succ_cons, List.drop_succ_cons, List.drop_zero] at hx
          exact List.take_subset _ _ hx
      have := hrest x hx'
      rw [List.length_map]
      unfold pyIdx
      by_cases h0 : 0 ≤ x
      · rw [if_pos h0, if_pos this.2]; exact ⟨_, rfl⟩
      · rw [if_neg h0, if_pos this.1]; exact ⟨_, rfl⟩)
    exact ⟨r, h⟩
  obtain ⟨idx, hidx⟩ := this
  simp only [hrd, hMT, bind, Except.bind, hidx, pure, Except.pure]
  exact ⟨_, rfl⟩

theorem pyMod_nonneg (x : ℚ) : 0 ≤ pyMod x 8760 := by
  unfold pyMod
  have := Int.floor_le (x / 8760)
  have h2 : x = 8760 * (x / 8760) := by field_simp
  linarith

theorem jhour_ge {cfg : Cfg σ} {log : List Ev} {s : St σ} {n : Fin 7 → ℕ} {q : List Ev}
    (hI : Inv cfg log s n q) : -1 ≤ s.JHOUR := by
  rw [hI.jhour]
  split
  · omega
  · have h := pyMod_nonneg ((n 0 : ℚ) * cfg.JSTEP)
    unfold pyInt
    rw [if_pos h]
    have := Int.floor_nonneg.2 h
    omega

theorem reach_plndst_length {cfg : Cfg σ} (hJ : StepOK cfg.JSTEP) {N : ℕ} {w : σ}
    {log : List Ev} {s : St σ} (h : Reach cfg (narpInit cfg.JSTEP N w) log s) :
    s.PLNDST.length = N := by
  induction h with
  | start => simp [narpInit]
  | @step log s ev s' hr hs ih =>
    obtain ⟨n, q, hI⟩ := reach_inv hJ.lo hJ.hi hr
    obtain ⟨i, q0, c1, hq, hrem, hfile, hst⟩ := step_shape hI
    rw [hst] at hs
    split at hs
    · cases hs
    split at hs
    · cases hs
    cases hev : events cfg { s with cal := c1, CLOCK := (occ cfg.JSTEP i (n i)).time } (kind i) with
    | error x => rw [hev] at hs; cases hs
    | ok s2 =>
      rw [hev] at hs
      simp only [Except.map, Except.ok.injEq, StepRes.next.injEq] at hs
      obtain ⟨_, rfl⟩ := hs
      obtain ⟨_, _, _, _, _, hp, _⟩ := events_inv i hev
      rcases hp with hp | hp
      · rw [hp]; exact ih
      · have := kind_eq_two hp
        subst this
        unfold events at hev
        have hk : kind 1 = 2 := rfl
        simp only [hk, pyInt_two] at hev
        rw [if_neg (by decide), if_pos trivial] at hev
        obtain ⟨c, h1, hev⟩ := Except.bind_ok hev
        obtain ⟨p, h2, hev⟩ := Except.bind_ok hev
        cases hev
        simp only at h2 ⊢
        rw [weekPlan_length h2]; exact ih

/-- An iteration raises only if the body of the hourly or yearly event raises. -/
theorem step_ok {cfg : Cfg σ} (hJ : StepOK cfg.JSTEP) {N : ℕ} {w : σ}
    (hT : PlanOK cfg.JPLOUT N) (hR : ∀ row ∈ cfg.RATES, row.length = 4)
    {log : List Ev} {s : St σ} (h : Reach cfg (narpInit cfg.JSTEP N w) log s)
    (hh : ∀ c, ∃ u', cfg.hourFx c s.RATING s.PLNDST s.world = .ok u')
    (hy : ∀ c e, ∃ r, cfg.yearFx c e s.world = .ok r) :
    ∃ r, step cfg s = .ok r := by
  obtain ⟨n, q, hI⟩ := reach_inv hJ.lo hJ.hi h
  obtain ⟨i, q0, c1, hq, hrem, hfile, hst⟩ := step_shape hI
  rw [hst]
  split
  · exact ⟨_, rfl⟩
  split
  · exact ⟨_, rfl⟩
  set s1 : St σ := { s with cal := c1, CLOCK := (occ cfg.JSTEP i (n i)).time } with hs1
  suffices hev : ∃ s2, events cfg s1 (kind i) = .ok s2 by
    obtain ⟨s2, h2⟩ := hev
    rw [h2]; exact ⟨_, rfl⟩
  have hfil : ∀ t k, ∃ c2, filem s1.cal t k = .ok c2 := fun t k => by
    obtain ⟨c2, h2, _⟩ := hfile ⟨t, k⟩
    exact ⟨c2, h2⟩
  have hquart : ∃ s2, quartr cfg s1 3 = .ok s2 := by
    obtain ⟨c2, h2⟩ := hfil (s1.CLOCK + 8760) 3
    obtain ⟨r, hr, _⟩ := mapM_ok (f := fun row => rd row ((s1.IQ + 1) % 4)) cfg.RATES (by
      intro row hrow
      obtain ⟨x, _, hx⟩ := rd_ok (a := row) (i := (s1.IQ + 1) % 4) (by rw [hR row hrow]; omega)
        (by rw [hR row hrow]; omega)
      exact ⟨x, hx⟩)
    unfold quartr
    simp only [hr, h2, bind, Except.bind, pure, Except.pure]
    exact ⟨_, rfl⟩
  unfold events
  have hkall : ∀ i, kind i = 1 ∨ kind i = 2 ∨ kind i = 3 ∨ kind i = 4 := by decide +kernel
  rcases hkall i with hk | hk | hk | hk <;> rw [hk]
  · simp only [pyInt_one, if_true]
    obtain ⟨c2, h2⟩ := hfil (s1.CLOCK + cfg.JSTEP) 1
    obtain ⟨u, hu⟩ := hh s1.CLOCK
    change cfg.hourFx s1.CLOCK s1.RATING s1.PLNDST s1.world = .ok u at hu
    unfold hourEv
    simp only [h2, hu, bind, Except.bind, pure, Except.pure]
    exact ⟨_, rfl⟩
  · simp only [pyInt_two]
    rw [if_neg (by decide), if_pos trivial]
    obtain ⟨c2, h2⟩ := hfil (s1.CLOCK + 168) 2
    have hlen : s1.PLNDST.length = N := (reach_plndst_length hJ h : s.PLNDST.length = N)
    obtain ⟨p, hp⟩ := weekPlan_ok (T := cfg.JPLOUT) (J := s1.JHOUR) (p := s1.PLNDST)
      (by rw [hlen]; exact hT) (jhour_ge hI : -1 ≤ s.JHOUR)
    unfold week
    simp only [h2, hp, bind, Except.bind, pure, Except.pure]
    exact ⟨_, rfl⟩
  · simp only [pyInt_three]
    rw [if_neg (by decide), if_neg (by decide), if_pos trivial]
    exact hquart
  · simp only [pyInt_four]
    rw [if_neg (by decide), if_neg (by decide), if_neg (by decide), if_pos trivial]
    obtain ⟨c2, h2⟩ := hfil (s1.CLOCK + 8760) 4
    obtain ⟨u, hu⟩ := hy s1.CLOCK c2
    change cfg.yearFx s1.CLOCK c2 s1.world = .ok u at hu
    unfold yearEv
    simp only [h2, hu, bind, Except.bind, pure, Except.pure]
    exact ⟨_, rfl⟩

/-- C05 (no exception comes from the scheduler). If the bodies of the hourly and yearly handlers do
not raise, and the planned outage and rating tables are well formed, then no iteration of the loop
raises: every calendar access is in range, the list is never empty, the dispatch assertion holds. -/
theorem C05_scheduler_never_raises {cfg : Cfg σ} (hJ : StepOK cfg.JSTEP) {N : ℕ} {w : σ}
    (hh : ∀ c r p u, ∃ u', cfg.hourFx c r p u = .ok u') (hy : ∀ c e u, ∃ r, cfg.yearFx c e u = .ok r)
    (hT : PlanOK cfg.JPLOUT N) (hR : ∀ row ∈ cfg.RATES, row.length = 4)
    {log : List Ev} {s : St σ} (h : Reach cfg (narpInit cfg.JSTEP N w) log s) :
    ∃ r, step cfg s = .ok r :=
  step_ok hJ hT hR h (fun c => hh c _ _ _) (fun c e => hy c e _)

/-! ## C06 -/

theorem period_ge_one {J : ℚ} (h : 1 ≤ J) (i : Fin 7) : 1 ≤ period J i := by
  match i with
  | 0 => exact h
  | 1 => show (1 ≤ (168 : ℚ)); norm_num
  | 2 => show (1 ≤ (8760 : ℚ)); norm_num
  | 3 => show (1 ≤ (8760 : ℚ)); norm_num
  | 4 => show (1 ≤ (8760 : ℚ)); norm_num
  | 5 => show (1 ≤ (8760 : ℚ)); norm_num
  | 6 => show (1 ≤ (8760 : ℚ)); norm_num

theorem base_nonneg {J : ℚ} (h : 1 ≤ J) (i : Fin 7) : 0 ≤ base J i := by
  match i with
  | 0 => exact le_trans zero_le_one h
  | 1 => show (0 ≤ (1/2 : ℚ)); norm_num
  | 2 => show (0 ≤ (1/2 : ℚ)); norm_num
  | 3 => show (0 ≤ (4369/2 : ℚ)); norm_num
  | 4 => show (0 ≤ (8737/2 : ℚ)); norm_num
  | 5 => show (0 ≤ (13105/2 : ℚ)); norm_num
  | 6 => show (0 ≤ (8760 : ℚ)); norm_num

theorem contrl_terminates_aux {cfg : Cfg σ} (hJ : StepOK cfg.JSTEP) : ∀ (fuel : ℕ) (log : List Ev) (s : St σ)
    (n : Fin 7 → ℕ) (q : List Ev), Inv cfg log s n q →
    ((∀ i, n i = 0) ∨ s.CLOCK ≤ cfg.FINISH + 1) →
    7 * (⌈cfg.FINISH⌉₊ + 2) < fuel + ∑ i, n i → ∃ r, contrl cfg fuel s = some r := by
  intro fuel
  have h1 := hJ.one
  induction fuel with
  | zero =>
    intro log s n q hI hc hlt
    exfalso
    have hsum : ∑ i, n i ≤ 7 * (⌈cfg.FINISH⌉₊ + 2) := by
      rcases hc with hc | hc
      · simp [hc]
      · have : ∀ i ∈ (Finset.univ : Finset (Fin 7)), n i ≤ ⌈cfg.FINISH⌉₊ + 2 := by
          intro i _
          by_cases h0 : n i = 0
          · omega
          have hp := hI.past i h0
          have hb := base_nonneg h1 i
          have hper := period_ge_one h1 i
          have hn1 : (1 : ℚ) ≤ n i := by exact_mod_cast Nat.one_le_iff_ne_zero.2 h0
          have hmul : ((n i : ℚ) - 1) * 1 ≤ ((n i : ℚ) - 1) * period cfg.JSTEP i :=
            mul_le_mul_of_nonneg_left hper (by linarith)
          have hceil := Nat.le_ceil cfg.FINISH
          have : (n i : ℚ) ≤ ⌈cfg.FINISH⌉₊ + 2 := by linarith
          exact_mod_cast this
        have := Finset.sum_le_card_nsmul Finset.univ n _ this
        simpa using this
    omega
  | succ fuel ih =>
    intro log s n q hI hc hlt
    unfold contrl
    cases hs : step cfg s with
    | error e => exact ⟨_, rfl⟩
    | ok r =>
      cases r with
      | exit e => exact ⟨_, rfl⟩
      | next ev s' =>
        simp only
        have hl := hJ.lo
        have hh := hJ.hi
        obtain ⟨i, q', hev, hclk, hI'⟩ := inv_step (by linarith) (by linarith) hI hs
        obtain ⟨_, _, _, _, _, _, _, hfin⟩ := inv_next (by linarith) (by linarith) hI hs
        refine ih _ _ _ _ hI' (Or.inr (by rw [hclk]; exact hfin)) ?_
        have : ∑ j, Function.update n i (n i + 1) j = ∑ j, n j + 1 := by
          rw [Finset.sum_update_of_mem (Finset.mem_univ i)]
          rw [← Finset.add_sum_erase Finset.univ n (Finset.mem_univ i), Finset.sdiff_singleton_eq_erase]
          ring
        rw [this]; omega

/-- C06. The main loop ends after at most `7 * (⌈FINISH⌉ + 2) + 1` iterations, whatever the handlers
do. -/
theorem C06_terminates {cfg : Cfg σ} (hJ : StepOK cfg.JSTEP) (N : ℕ) (w : σ) (fuel : ℕ)
    (hf : 7 * (⌈cfg.FINISH⌉₊ + 2) < fuel) :
    ∃ r, contrl cfg fuel (narpInit cfg.JSTEP N w) = some r :=
  contrl_terminates_aux hJ fuel [] _ _ _ (inv_init cfg hJ.lo hJ.hi N w) (Or.inl fun _ => rfl)
    (by simpa using hf)

/-- C06. No event later than one hour after the horizon is ever processed. -/
theorem C06_horizon {cfg : Cfg σ} (hJ : StepOK cfg.JSTEP) {N : ℕ} {w : σ} {log : List Ev} {s : St σ}
    (h : Reach cfg (narpInit cfg.JSTEP N w) log s) : ∀ ev ∈ log, ev.time ≤ cfg.FINISH + 1 := by
  have hl := hJ.lo
  have hh := hJ.hi
  induction h with
  | start => simp
  | @step log s ev s' hr hs ih =>
    obtain ⟨n, q, hI⟩ := reach_inv hl hh hr
    obtain ⟨_, _, _, _, _, _, _, hfin⟩ := inv_next (by linarith) (by linarith) hI hs
    intro x hx
    rcases List.mem_append.1 hx with hx | hx
    · exact ih x hx
    · simp only [List.mem_singleton] at hx; subst hx; exact hfin

/-- C06. A run is not cut short either: the loop ends only because convergence was signalled or the
next event is beyond the horizon. -/
theorem C06_exit_reason {cfg : Cfg σ} (hJ : StepOK cfg.JSTEP) {N : ℕ} {w : σ} {log : List Ev} {s : St σ}
    (h : Reach cfg (narpInit cfg.JSTEP N w) log s) {e : Exit} (he : step cfg s = .ok (.exit e)) :
    (e = .converged ∧ s.RFLAG = 1) ∨
      (e = .finished ∧ ∃ q, Holds s.cal q ∧ ∀ ev ∈ q, cfg.FINISH + 1 < ev.time) := by
  obtain ⟨n, q, hI⟩ := reach_inv hJ.lo hJ.hi h
  obtain ⟨i, q0, c1, hq, hrem, hfile, hst⟩ := step_shape hI
  rw [hst] at he
  split at he
  · rename_i hR
    cases he; exact Or.inl ⟨rfl, hR⟩
  split at he
  · rename_i hF
    cases he
    refine Or.inr ⟨rfl, q, hI.holds, fun ev hev => ?_⟩
    have hso := hI.holds.sorted
    rw [hq, List.pairwise_cons] at hso
    rw [hq] at hev
    rcases List.mem_cons.1 hev with rfl | hev
    · exact hF
    · exact lt_of_lt_of_le hF (hso.1 ev hev)
  · cases hev : events cfg { s with cal := c1, CLOCK := (occ cfg.JSTEP i (n i)).time } (kind i) with
    | error x => rw [hev] at he; cases he
    | ok s2 => rw [hev] at he; simp [Except.map] at he

/-! ## C07 -/

/-- C07. In every run, when a year-end event is processed and `k` year ends were processed before,
the clock is exactly `8760 (k+1)`, the number of draws processed before is exactly
`8760 (k+1) / JSTEP` (8760 per year in hourly mode, 365 in daily mode), and the year number computed
by the year-end routine (`year.py:156`) is `k+1`. -/
theorem C07_year_is_8760_hours {cfg : Cfg σ} (hJ : StepOK cfg.JSTEP) {N : ℕ} {w : σ}
    {log : List Ev} {s s' : St σ} {ev : Ev} (h : Reach cfg (narpInit cfg.JSTEP N w) log s)
    (hs : step cfg s = .ok (.next ev s')) (hk : ev.kind = 4) :
    let k := log.countP fun e => e.kind = 4
    ev.time = 8760 * ((k : ℚ) + 1) ∧ s'.CLOCK = ev.time ∧
      ((log.countP fun e => e.kind = 1 : ℕ) : ℚ) * cfg.JSTEP = 8760 * ((k : ℚ) + 1) ∧
      pyInt ((s'.CLOCK + 1) / 8760) = (k : ℤ) + 1 := by
  have hl := hJ.lo
  have hh := hJ.hi
  obtain ⟨n, q, hI⟩ := reach_inv hl hh h
  obtain ⟨i, hev, hclk, hmin, hyr, hpast, _, _⟩ := inv_next (by linarith) (by linarith) hI hs
  have hi6 : i = 6 := kind_eq_four (by rw [hev] at hk; exact hk)
  simp only
  rw [log_count_four hI, log_count_one hI]
  subst hi6
  have ht : ev.time = 8760 * ((n 6 : ℚ) + 1) := by
    rw [hev]; simp only [occ, base, period]; simp; ring
  have hlt : ev.time < cfg.JSTEP + (n 0 : ℚ) * cfg.JSTEP := by
    have := hyr rfl
    simpa [occ, base, period] using this
  have hge : (n 0 : ℚ) * cfg.JSTEP ≤ ev.time := by
    by_cases h0 : (n 0 : ℚ) * cfg.JSTEP = 0
    · rw [h0, ht]; positivity
    · have := hpast 0 (by simpa [period] using h0)
      simp only [base, period, Matrix.cons_val_zero] at this
      linarith
  refine ⟨ht, hclk, ?_, ?_⟩
  · rw [ht] at hlt hge
    rcases hJ with hJ | hJ
    · rw [hJ] at hlt hge ⊢
      have h1 : n 0 < 8760 * (n 6 + 1) + 1 := by
        have : (n 0 : ℚ) * 1 ≤ ((8760 * (n 6 + 1) : ℕ) : ℚ) := by push_cast; linarith
        have : n 0 ≤ 8760 * (n 6 + 1) := by
          rw [mul_one] at this; exact_mod_cast this
        omega
      have h2 : 8760 * (n 6 + 1) < 1 + n 0 := by
        have : ((8760 * (n 6 + 1) : ℕ) : ℚ) < ((1 + n 0 : ℕ) : ℚ) := by push_cast; linarith
        exact_mod_cast this
      have h3 : n 0 = 8760 * (n 6 + 1) := by omega
      rw [h3]; push_cast; ring
    · rw [hJ] at hlt hge ⊢
      have h1 : n 0 * 24 ≤ 8760 * (n 6 + 1) := by
        have : ((n 0 * 24 : ℕ) : ℚ) ≤ ((8760 * (n 6 + 1) : ℕ) : ℚ) := by push_cast; linarith
        exact_mod_cast this
      have h2 : 8760 * (n 6 + 1) < 24 + n 0 * 24 := by
        have : ((8760 * (n 6 + 1) : ℕ) : ℚ) < ((24 + n 0 * 24 : ℕ) : ℚ) := by push_cast; linarith
        exact_mod_cast this
      have h3 : n 0 * 24 = 8760 * (n 6 + 1) := by omega
      have : ((n 0 * 24 : ℕ) : ℚ) = ((8760 * (n 6 + 1) : ℕ) : ℚ) := by rw [h3]
      push_cast at this; linarith
  · rw [hclk, ht]
    have hq : (8760 * ((n 6 : ℚ) + 1) + 1) / 8760 = (n 6 : ℚ) + 1 + 1 / 8760 := by
      field_simp
    rw [hq]
    unfold pyInt
    rw [if_pos (by positivity)]
    rw [Int.floor_eq_iff]
    push_cast
    constructor
    · linarith [show (0 : ℚ) ≤ 1 / 8760 by norm_num]
    · linarith [show (1 : ℚ) / 8760 < 1 by norm_num]

/-- C07. Within a year every hour gets exactly one draw: the draws processed are exactly those at
`JSTEP, 2 JSTEP, ...` up to their number. -/
theorem C07_draw_times {cfg : Cfg σ} (hJ : StepOK cfg.JSTEP) {N : ℕ} {w : σ}
    {log : List Ev} {s : St σ} (h : Reach cfg (narpInit cfg.JSTEP N w) log s) :
    (log.filter fun e => e.kind = 1).map Ev.time =
      (List.range (log.countP fun e => e.kind = 1)).map fun (m : ℕ) => ((m : ℚ) + 1) * cfg.JSTEP := by
  have hl := hJ.lo
  have hh := hJ.hi
  induction h with
  | start => simp
  | @step log s ev s' hr hs ih =>
    obtain ⟨n, q, hI⟩ := reach_inv hl hh hr
    obtain ⟨i, hev, _⟩ := inv_next (by linarith) (by linarith) hI hs
    have hc := log_count_one hI
    by_cases hk : ev.kind = 1
    · have hi : i = 0 := kind_eq_one (by rw [hev] at hk; exact hk)
      subst hi
      rw [List.filter_append, List.map_append, ih, List.countP_append, hc]
      simp only [List.filter_cons, hk, decide_true, if_true, List.filter_nil, List.map_cons,
        List.map_nil, List.countP_cons, List.countP_nil, Nat.zero_add]
      rw [List.range_succ, List.map_append]
      congr 1
      rw [hev]; simp [occ, base, period]; ring
    · rw [List.filter_append, List.countP_append]
      simp [hk, ih]

/-! ### The hypotheses of C02-C07 are met by a run through a year end -/

/-- run `k` iterations, collecting the events -/
def runLog {σ : Type} (cfg : Cfg σ) : ℕ → St σ → Except PyErr (List Ev × St σ)
  | 0, s => .ok ([], s)
  | k + 1, s => do
    match ← step cfg s with
    | .exit _ => .ok ([], s)
    | .next ev s' => do
      let (l, s'') ← runLog cfg k s'
      return (ev :: l, s'')

/-- a daily-mode configuration without units whose handlers do nothing -/
def demoCfg : Cfg Unit where
  JSTEP := 24
  FINISH := 26280
  JPLOUT := List.replicate 52 [0]
  RATES := []
  hourFx := fun _ _ _ u => .ok u
  yearFx := fun _ _ u => .ok (u, 0)

example : ((runLog demoCfg 423 (narpInit 24 0 ())).map fun r =>
    (r.1.countP (fun e => e.kind = 4), r.1.length)) = .ok (1, 423) := by decide +kernel

example : StepOK demoCfg.JSTEP ∧ (∀ c r p u, ∃ u', demoCfg.hourFx c r p u = .ok u') ∧
    (∀ c e u, ∃ r, demoCfg.yearFx c e u = .ok r) ∧ PlanOK demoCfg.JPLOUT 0 ∧
    (∀ row ∈ demoCfg.RATES, row.length = 4) :=
  ⟨Or.inr rfl, fun _ _ _ _ => ⟨_, rfl⟩, fun _ _ _ => ⟨_, rfl⟩,
   ⟨rfl, fun row hrow => ⟨0, [], by simpa [demoCfg] using hrow, by simp⟩⟩, by simp [demoCfg]⟩

end Narp.Props
