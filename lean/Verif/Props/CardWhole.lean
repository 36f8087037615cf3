import Verif.Props.CardEnergy

/-!
# Whole runs from the cards

The program only survives hours with a shortage (C43). For inputs in which every area is always short it runs to a
regular end; this shows that the theorems on runs from the cards (C69 to C72) speak of something.
-/

namespace Narp.Props
open Narp.Spec BigOperators

/-! ## Runs -/

section Runs
variable {σ : Type} {cfg : Cfg σ}

/-- Every event of a run was processed in a state of the run. -/
theorem reach_split {s₀ s : St σ} {log : List Ev} (h : Reach cfg s₀ log s) :
    ∀ {l1 l2 : List Ev} {ev : Ev}, log = l1 ++ ev :: l2 →
      ∃ st st', Reach cfg s₀ l1 st ∧ step cfg st = .ok (.next ev st') := by
  induction h with
  | start => intro l1 l2 ev e; simp at e
  | @step log s ev' s' hr hs ih =>
    intro l1 l2 ev e
    rcases List.eq_nil_or_concat l2 with rfl | ⟨l3, x, rfl⟩
    · have := List.append_inj' e rfl
      obtain ⟨rfl, e2⟩ := this
      cases e2
      exact ⟨s, s', hr, hs⟩
    · refine ih (l2 := l3) ?_
      rw [List.concat_eq_append, ← List.cons_append, ← List.append_assoc] at e
      exact (List.append_inj' e rfl).1

/-- Convergence is only signalled by a year end. -/
theorem rflag_year (hJ : StepOK cfg.JSTEP) {N : ℕ} {w : σ} {log : List Ev} {s : St σ}
    (h : Reach cfg (narpInit cfg.JSTEP N w) log s) : s.RFLAG ≠ 0 → ∃ ev ∈ log, ev.kind = 4 := by
  induction h with
  | start => intro h; exact absurd rfl h
  | @step log s ev s' hr hs ih =>
    intro hne
    rcases step_world hJ hr hs with ⟨_, _, e⟩ | ⟨_, _, e⟩ | ⟨e, _⟩
    · rw [e] at hne
      obtain ⟨x, hx, hk⟩ := ih hne
      exact ⟨x, List.mem_append_left _ hx, hk⟩
    · rw [e] at hne
      obtain ⟨x, hx, hk⟩ := ih hne
      exact ⟨x, List.mem_append_left _ hx, hk⟩
    · exact ⟨ev, by simp, e⟩

/-- A run that ended has made every draw of the first year. -/
theorem draw_exists (hJ : StepOK cfg.JSTEP) (hF : 8760 ≤ cfg.FINISH) {N : ℕ} {w : σ} {log : List Ev} {s : St σ}
    (h : Reach cfg (narpInit cfg.JSTEP N w) log s) {e : Exit} (he : step cfg s = .ok (.exit e)) (T : ℕ) (hT1 : 1 ≤ T)
    (hT2 : T * cfg.JSTEP ≤ 8760) :
    ∃ l1 st st' ev, Reach cfg (narpInit cfg.JSTEP N w) l1 st ∧ step cfg st = .ok (.next ev st') ∧ ev.kind = 1 ∧
      ev.time = T * cfg.JSTEP := by
  have hJ0 : 0 < cfg.JSTEP := by linarith [hJ.lo]
  have hcount : T ≤ log.countP fun e => e.kind = 1 := by
    rcases C06_exit_reason hJ h he with ⟨_, hR⟩ | ⟨_, q, hq, hall⟩
    · obtain ⟨x, hx, hk⟩ := rflag_year hJ h (by rw [hR]; norm_num)
      obtain ⟨l1, l2, e⟩ := List.append_of_mem hx
      obtain ⟨st, st', hr, hs⟩ := reach_split h e
      obtain ⟨_, _, hc, _⟩ := C07_year_is_8760_hours hJ hr hs hk
      have : T ≤ l1.countP fun e => e.kind = 1 := by
        have h0 : (0 : ℚ) ≤ ((l1.countP fun e => decide (e.kind = 4) : ℕ) : ℚ) := by positivity
        have : (T : ℚ) * cfg.JSTEP ≤ ((l1.countP fun e => e.kind = 1 : ℕ) : ℚ) * cfg.JSTEP := by rw [hc]; linarith
        exact_mod_cast le_of_mul_le_mul_right this hJ0
      rw [e, List.countP_append]
      omega
    · obtain ⟨n, q', hI⟩ := reach_inv hJ.lo hJ.hi h
      obtain ⟨n0, hn0, _⟩ : ∃ k, k = n 0 ∧ True := ⟨_, rfl, trivial⟩
      obtain ⟨i, q0, c1, hq', hrem, hfile, hst⟩ := step_shape hI
      have hc1 : log.countP (fun e => e.kind = 1) = n 0 := by
        rw [log_count hI, Fin.sum_univ_seven]; simp [kind]
      rw [hc1]
      by_contra hlt
      rw [not_le] at hlt
      rw [hst] at he
      split at he
      · rename_i hR
        obtain ⟨x, hx, hk⟩ := rflag_year hJ h (by rw [hR]; norm_num)
        obtain ⟨l1, l2, e⟩ := List.append_of_mem hx
        obtain ⟨st, st', hr, hs⟩ := reach_split h e
        obtain ⟨_, _, hc, _⟩ := C07_year_is_8760_hours hJ hr hs hk
        have : T ≤ l1.countP fun e => e.kind = 1 := by
          have h0 : (0 : ℚ) ≤ ((l1.countP fun e => decide (e.kind = 4) : ℕ) : ℚ) := by positivity
          have : (T : ℚ) * cfg.JSTEP ≤ ((l1.countP fun e => e.kind = 1 : ℕ) : ℚ) * cfg.JSTEP := by rw [hc]; linarith
          exact_mod_cast le_of_mul_le_mul_right this hJ0
        rw [e, List.countP_append] at hc1
        omega
      split at he
      · rename_i hFi
        have hmem : occ cfg.JSTEP 0 (n 0) ∈ q' := by
          have : occ cfg.JSTEP 0 (n 0) ∈ (q' : Multiset Ev) := by
            rw [hI.pend]; exact Multiset.mem_map.2 ⟨0, Finset.mem_univ_val 0, rfl⟩
          simpa using this
        have hso := hI.holds.sorted
        rw [hq', List.pairwise_cons] at hso
        rw [hq'] at hmem
        have hle : (occ cfg.JSTEP i (n i)).time ≤ (occ cfg.JSTEP 0 (n 0)).time := by
          rcases List.mem_cons.1 hmem with h | h
          · rw [h]
          · exact hso.1 _ h
        have : (occ cfg.JSTEP 0 (n 0)).time = cfg.JSTEP + (n 0 : ℚ) * cfg.JSTEP := by
          simp [occ, base, period]
        rw [this] at hle
        have h2 : (n 0 : ℚ) + 1 ≤ T := by exact_mod_cast hlt
        have h3 := mul_le_mul_of_nonneg_right h2 hJ0.le
        linarith
      · cases hev : events cfg { s with cal := c1, CLOCK := (occ cfg.JSTEP i (n i)).time } (kind i) with
        | error x => rw [hev] at he; cases he
        | ok s2 => rw [hev] at he; cases he
  have ht := C07_draw_times hJ h
  have hmem : ((T : ℕ) : ℚ) * cfg.JSTEP ∈ (log.filter fun e => e.kind = 1).map Ev.time := by
    rw [ht]
    refine List.mem_map.2 ⟨T - 1, List.mem_range.2 (by omega), ?_⟩
    have : ((T - 1 + 1 : ℕ) : ℚ) = T := by rw [Nat.sub_add_cancel hT1]
    rw [← this]; push_cast; rfl
  obtain ⟨ev, hev, htime⟩ := List.mem_map.1 hmem
  obtain ⟨hev, hk⟩ := List.mem_filter.1 hev
  obtain ⟨l1, l2, e⟩ := List.append_of_mem hev
  obtain ⟨st, st', hr, hs⟩ := reach_split h e
  exact ⟨l1, st, st', ev, hr, hs, by simpa using hk, htime⟩

theorem foldl_set_bit (idx : List ℕ) : ∀ on : List ℚ, (∀ i, on.getD i 0 = 0 ∨ on.getD i 0 = 1) →
    ∀ i, (idx.foldl (fun (a : List ℚ) k => a.set k 0) on).getD i 0 = 0 ∨
      (idx.foldl (fun (a : List ℚ) k => a.set k 0) on).getD i 0 = 1 := by
  induction idx with
  | nil => intro on h; exact h
  | cons k r ih =>
    intro on h
    rw [List.foldl_cons]
    refine ih _ fun i => ?_
    rw [List.getD_eq_getElem?_getD, List.getElem?_set]
    split
    · split
      · left; rfl
      · left; rfl
    · rw [← List.getD_eq_getElem?_getD]; exact h i

theorem ones_bit (p : List ℚ) (i : ℕ) : (p.map fun _ => (1 : ℚ)).getD i 0 = 0 ∨ (p.map fun _ => (1 : ℚ)).getD i 0 = 1 := by
  rw [List.getD_eq_getElem?_getD, List.getElem?_map]
  cases p[i]? with
  | none => left; rfl
  | some x => right; rfl

/-- The maintenance status of a unit is 0 or 1 in every state of every run. -/
theorem plndst_bit (hJ : StepOK cfg.JSTEP) {N : ℕ} {w : σ} {log : List Ev} {s : St σ}
    (h : Reach cfg (narpInit cfg.JSTEP N w) log s) (i : ℕ) : s.PLNDST.getD i 0 = 0 ∨ s.PLNDST.getD i 0 = 1 := by
  by_cases hw : 0 < log.countP fun e => e.kind = 2
  · obtain ⟨p, _, hp⟩ := plan_run hJ h hw
    unfold weekPlan at hp
    simp only at hp
    split at hp
    · rw [← Except.ok.inj hp]; exact ones_bit _ _
    obtain ⟨row, _, hp⟩ := Except.bind_ok hp
    obtain ⟨MT, _, hp⟩ := Except.bind_ok hp
    obtain ⟨idx, _, hp⟩ := Except.bind_ok hp
    rw [← Except.ok.inj hp]
    exact foldl_set_bit _ _ (ones_bit _) i
  · left
    have key : (∀ ev ∈ log, ev.kind ≠ 2) → s.PLNDST = List.replicate N 0 := by
      clear hw
      induction h with
      | start => intro _; rfl
      | @step log s ev s' hr hs ih =>
        intro hno
        obtain ⟨n, q, hI⟩ := reach_inv hJ.lo hJ.hi hr
        obtain ⟨j, q0, c1, hq, hrem, hfile, hst⟩ := step_shape hI
        rw [hst] at hs
        split at hs
        · cases hs
        split at hs
        · cases hs
        cases hev : events cfg { s with cal := c1, CLOCK := (occ cfg.JSTEP j (n j)).time } (kind j) with
        | error x => rw [hev] at hs; cases hs
        | ok s2 =>
          rw [hev] at hs
          simp only [Except.map, Except.ok.injEq, StepRes.next.injEq] at hs
          obtain ⟨rfl, rfl⟩ := hs
          obtain ⟨_, _, _, _, _, hp, _⟩ := events_inv j hev
          rw [hp.resolve_right fun e => hno (occ cfg.JSTEP j (n j)) (by simp) e]
          exact ih fun x hx => hno x (List.mem_append_left _ hx)
    rw [key fun ev hev e => hw (List.countP_pos_iff.2 ⟨ev, hev, by simpa using e⟩)]
    rw [List.getD_eq_getElem?_getD, List.getElem?_replicate]
    split <;> rfl

/-- The rating of a unit is 0 or one of its seasonal ratings in every state of every run. -/
theorem rating_cases (hJ : StepOK cfg.JSTEP) {N : ℕ} {w : σ} {log : List Ev} {s : St σ}
    (h : Reach cfg (narpInit cfg.JSTEP N w) log s) (hlen : cfg.RATES.length = N) (i : ℕ) (hi : i < N) :
    s.RATING.getD i 0 = 0 ∨ s.RATING.getD i 0 ∈ cfg.RATES.getD i [] := by
  rcases reach_rating hJ h with hno | hR
  · left
    have key : (∀ ev ∈ log, ev.kind ≠ 3) → s.RATING = List.replicate N 0 := by
      clear hno
      induction h with
      | start => intro _; rfl
      | @step log s ev s' hr hs ih =>
        intro hno
        obtain ⟨n, q, hI⟩ := reach_inv hJ.lo hJ.hi hr
        obtain ⟨j, q0, c1, hq, hrem, hfile, hst⟩ := step_shape hI
        rw [hst] at hs
        split at hs
        · cases hs
        split at hs
        · cases hs
        cases hev : events cfg { s with cal := c1, CLOCK := (occ cfg.JSTEP j (n j)).time } (kind j) with
        | error x => rw [hev] at hs; cases hs
        | ok s2 =>
          rw [hev] at hs
          simp only [Except.map, Except.ok.injEq, StepRes.next.injEq] at hs
          obtain ⟨rfl, rfl⟩ := hs
          obtain ⟨_, _, _, _, hp, _⟩ := events_inv j hev
          rw [hp.resolve_right fun e => hno (occ cfg.JSTEP j (n j)) (by simp) e]
          exact ih fun x hx => hno x (List.mem_append_left _ hx)
    rw [key hno, List.getD_eq_getElem?_getD, List.getElem?_replicate]
    split <;> rfl
  · right
    have hf := (mapM_ok_iff _ _ _).1 hR
    have hl : s.RATING.length = N := by rw [← hf.length_eq, hlen]
    have := List.Forall₂.get hf (i := i) (by omega) (by omega)
    simp only [List.get_eq_getElem] at this
    rw [List.getD_eq_getElem?_getD, List.getElem?_eq_getElem (by omega), Option.getD_some, List.getD_eq_getElem?_getD,
      List.getElem?_eq_getElem (by omega), Option.getD_some]
    unfold rd at this
    cases hx : pyIdx (cfg.RATES[i]'(by omega)).length s.IQ with
    | error x => rw [hx] at this; cases this
    | ok k =>
      rw [hx] at this
      have hk : k < (cfg.RATES[i]'(by omega)).length := by
        unfold pyIdx at hx
        split_ifs at hx <;> (cases hx; omega)
      have e : (cfg.RATES[i]'(by omega)).getD k default = s.RATING[i]'(by omega) := Except.ok.inj this
      rw [← e, List.getD_eq_getElem?_getD, List.getElem?_eq_getElem hk, Option.getD_some]
      exact List.getElem_mem hk

end Runs

/-! ## Hours in which every area is short -/

/-- If every area lacks at least 1 MW in every tier, the hourly event returns, whatever the transmission module. -/
theorem hourBody_all_short {n m l : ℕ} {ν : Type} (c : HourIn n m l ν) (hn : 0 < n) (hf : c.JFREQ = 1)
    (hM : ∀ d < 365, c.MXPLHR d < 8760) (C : ℚ) (R P : Fin m → ℚ) (w : HourSt n m l ν)
    (hs : ∀ day, ∀ hr < 8760, ∀ t j, (hourDraw c day R P w).1.SYSCON j - findld t hr c.HRLOAD c.FCTERR j ≤ -1) :
    ∃ w', hourBody c C R P w = .ok w' := by
  have hmod := pyMod_nonneg C
  have hmod2 : pyMod C 8760 < 8760 := by
    unfold pyMod
    have := Int.lt_floor_add_one (C / 8760)
    have h2 : C = 8760 * (C / 8760) := by field_simp
    linarith
  set z := pyInt (pyMod C 8760) with hz
  have hz0 : 0 ≤ z := by
    rw [hz]; unfold pyInt; rw [if_pos hmod]; exact Int.floor_nonneg.2 hmod
  have hz1 : z < 8760 := by
    rw [hz]; unfold pyInt; rw [if_pos hmod]
    have := Int.floor_le (pyMod C 8760)
    have h3 : ((⌊pyMod C 8760⌋ : ℤ) : ℚ) < ((8760 : ℤ) : ℚ) := by push_cast; linarith
    exact_mod_cast h3
  obtain ⟨day, hday, hd⟩ : ∃ day, pyIdx 365 ((-1 + z) / 24) = .ok day ∧ day < 365 := by
    unfold pyIdx
    by_cases h0 : 0 ≤ (-1 + z) / 24
    · rw [if_pos h0, if_pos (by omega)]; exact ⟨_, rfl, by omega⟩
    · rw [if_neg h0, if_pos (by omega)]; exact ⟨_, rfl, by omega⟩
  have hMd := hM day hd
  obtain ⟨hr, hhr, hh8⟩ : ∃ hr, pyIdx 8760 (if c.JSTEP = 24 then ((c.MXPLHR day : ℕ) : ℤ) else -1 + z) = .ok hr ∧
      hr < 8760 := by
    by_cases h24 : c.JSTEP = 24
    · rw [if_pos h24, pyIdx_ok (by omega) (by omega)]; exact ⟨_, rfl, by omega⟩
    · rw [if_neg h24]
      unfold pyIdx
      by_cases h0 : 0 ≤ -1 + z
      · rw [if_pos h0, if_pos (by omega)]; exact ⟨_, rfl, by omega⟩
      · rw [if_neg h0, if_pos (by omega)]; exact ⟨_, rfl, by omega⟩
  have hloop : ∀ (pk : Bool) (ts : List (Fin 5)) (f : ℤ) (w0 : HourSt n m l ν),
      ∃ w', tierLoop c (hourDraw c day R P w).1 hr pk ts f w0 = .ok w' := by
    intro pk ts
    induction ts with
    | nil => intro f w0; exact ⟨_, rfl⟩
    | cons t ts ih =>
      intro f w0
      have hmar : ∀ j, tierMargin c (hourDraw c day R P w).1 hr t j < 0 := by
        intro j
        have := hs day hr hh8 t j
        unfold tierMargin marginInt pyInt
        rw [if_neg (by linarith)]
        have : (((-1 : ℤ)) : ℚ) ≥ (hourDraw c day R P w).1.SYSCON j - findld t hr c.HRLOAD c.FCTERR j := by
          push_cast; linarith
        have := Int.ceil_le.2 this
        exact lt_of_le_of_lt this (by norm_num)
      have hfil : ((List.finRange n).filter fun j => decide (tierMargin c (hourDraw c day R P w).1 hr t j < 0)) =
          List.finRange n := by
        rw [List.filter_eq_self]
        intro j _
        simpa using hmar j
      unfold tierLoop tierBody
      simp only
      rw [hfil]
      have hne : List.finRange n ≠ [] := by
        intro h; have := congrArg List.length h; simp at this; omega
      rw [if_neg hne, if_neg (by simp; omega), if_neg (by simp)]
      exact ih _ _
  unfold hourBody
  simp only
  rw [← hz, hday]
  simp only [bind, Except.bind, hf]
  rw [if_neg (by norm_num), if_neg (by simp), hhr]
  exact hloop _ _ _ _

/-! ## Scarce inputs -/

variable {n m l : ℕ} {sl : ℕ → ℚ → ℚ} {fuel : ℕ} {c : Cards n m l} {s : Setup n m l}

/-- In every hour and forecast tier every area needs at least 1 MW more than its units can deliver in any season. -/
def Scarce (c : Cards n m l) (load : Fin (n + 1) → ℕ → ℚ) : Prop :=
  ∀ j t, ∀ h < 8760, ∀ season : Fin m → Fin 4,
    ∑ i ∈ unitsIn c j, (c.units i).cap (season i) + 1 ≤ load j h * forecast (c.areas j).lfu t

theorem setup_rates (h : setup sl fuel c = .ok s) : s.RATES = List.ofFn fun i => List.ofFn (c.units i).cap := by
  obtain ⟨wr, raw, T, ITAB, ID', hw, _, _, _, _, rfl⟩ := setup_ok h
  rfl

/-- In every state of every run a unit delivers at most its largest seasonal capacity. -/
theorem capacity_le (h1 : OneCard c) (hs : Sensible c) (hd : ∀ i, 0 ≤ (c.units i).der ∧ (c.units i).der ≤ 100)
    (h : setup sl fuel c = .ok s) (hJ : StepOK s.hour.JSTEP) (JSEED : ℤ) {log : List Ev} {st : St _}
    (hr : Reach s.cfg (s.start JSEED) log st) (day : ℕ) :
    ∃ season : Fin m → Fin 4, ∀ j,
      (hourDraw s.hour day (fun i => st.RATING.getD i 0) (fun i => st.PLNDST.getD i 0) st.world.h).1.SYSCON j ≤
        ∑ i ∈ unitsIn c j, (c.units i).cap (season i) := by
  have hR : ∀ i : Fin m, ∃ q : Fin 4, 0 ≤ st.RATING.getD i 0 ∧ st.RATING.getD i 0 ≤ (c.units i).cap q := by
    intro i
    have hlen : s.cfg.RATES.length = m := by
      show s.RATES.length = m
      rw [setup_rates h]; simp
    rcases rating_cases (cfg := s.cfg) hJ hr hlen i i.isLt with e | e
    · exact ⟨0, by rw [e], by rw [e]; exact hs.cap i 0⟩
    · change _ ∈ s.RATES.getD i [] at e
      rw [setup_rates h, List.getD_eq_getElem?_getD, List.getElem?_ofFn, dif_pos i.isLt, Option.getD_some,
        List.mem_ofFn] at e
      obtain ⟨q, hq⟩ := e
      exact ⟨q, by rw [← hq]; exact hs.cap i q, by rw [← hq]⟩
  choose season h0 hle using hR
  refine ⟨season, fun j => ?_⟩
  rw [(C64_units h1 h day _ _ st.world.h j).1]
  refine Finset.sum_le_sum fun i _ => ?_
  have hP := plndst_bit (cfg := s.cfg) hJ hr i
  have ho : ∀ u, 0 ≤ outcome (c.units i) u ∧ outcome (c.units i) u ≤ 1 := by
    intro u
    have := hd i
    unfold outcome
    split_ifs
    · exact ⟨zero_le_one, le_rfl⟩
    · constructor <;> linarith
    · exact ⟨le_rfl, zero_le_one⟩
  refine le_trans ?_ (hle i)
  obtain ⟨a, b⟩ := ho (variate ((hourDraw s.hour day (fun i => st.RATING.getD i 0) (fun i => st.PLNDST.getD i 0)
    st.world.h).2.IGSEED i))
  rcases hP with e | e
  · rw [e, mul_zero]; exact h0 i
  · rw [e, mul_one]; exact mul_le_of_le_one_left (h0 i) b

/-- C43 (from the cards, what holds). Every accepted sensible input in which no area has exactly one unit and every
area is always short, with legal settings (every hour evaluated, annual tables not printed or daily mode), runs to a regular end. -/
theorem C43_cards_partial (h1 : OneCard c) (hs : Sensible c) (hl : NoLone c)
    (hd : ∀ i, 0 ≤ (c.units i).der ∧ (c.units i).der ≤ 100) (h : setup sl fuel c = .ok s)
    (hstep : c.misc.JSTEP = 1 ∨ c.misc.JSTEP = 24) (hfreq : c.misc.JFREQ = 1) (hIOJ : c.misc.IOJ = 0 ∨ c.misc.JSTEP = 24)
    (hE : 20 ≤ c.misc.MAXEUE) (hK : c.misc.KWHERE = 1 → 1 ≤ c.misc.KVLOC ∧ c.misc.KVLOC ≤ n + 1)
    (hsc : Scarce c s.hour.HRLOAD) (JSEED : ℤ) :
    ∃ (log : List Ev) (st : St _) (e : Exit), Reach s.cfg (s.start JSEED) log st ∧ step s.cfg st = .ok (.exit e) ∧
      (e = .converged ∨ e = .finished) := by
  have hJ : StepOK s.hour.JSTEP := by
    obtain ⟨wr, raw, T, ITAB, ID', hw, _, _, _, _, rfl⟩ := setup_ok h
    show ((c.misc.JSTEP : ℤ) : ℚ) = 1 ∨ ((c.misc.JSTEP : ℤ) : ℚ) = 24
    rcases hstep with e | e <;> rw [e]
    · left; norm_num
    · right; norm_num
  have hyr : s.year = setupYear c := by
    obtain ⟨wr, raw, T, ITAB, ID', hw, _, _, _, _, rfl⟩ := setup_ok h
    rfl
  have hJF : s.hour.JFREQ = 1 := by
    obtain ⟨wr, raw, T, ITAB, ID', hw, _, _, _, _, rfl⟩ := setup_ok h
    exact hfreq
  obtain ⟨raw, hraw, _, hld, ⟨hNF, hNR⟩, _, hmx⟩ := C64_loads h
  obtain ⟨e, st, _, he, log, hre, hx⟩ := C43_run_completes_partial (hc := s.hour) (yc := s.year) (T := s.JPLOUT)
    (R := s.RATES) (snap := snapNet) (g0 := fun i => (programSeeds JSEED m l).1 i)
    (l0 := fun k => (programSeeds JSEED m l).2 k) (net := s.net) (I := s.INTVT) (A := s.ITAB) hJ
    (by
      intro log st hr C
      refine hourBody_all_short s.hour (Nat.succ_pos n) hJF ?_ C _ _ st.world.h ?_
      · intro d hd
        have := (hmx d).2.1
        omega
      · intro day hr' hh t j
        obtain ⟨season, hcap⟩ := capacity_le h1 hs hd h hJ JSEED hr day
        have a := hcap j
        have b := hsc j t hr' hh season
        rw [← hld j t hr'] at b
        linarith)
    (setup_planOK h1 hs hl h)
    (by
      intro row hrow
      rw [setup_rates h, List.mem_ofFn] at hrow
      obtain ⟨i, rfl⟩ := hrow
      simp)
    (by
      rcases hNR with ⟨_, a, b⟩ | ⟨_, a, b⟩
      · rw [← hNF, a, b]; norm_num
      · rw [← hNF, a, b]; norm_num)
    (by
      rw [hyr]
      show 0 < ⌊c.misc.MAXEUE / 20⌋
      rw [Int.lt_iff_add_one_le, zero_add, Int.le_floor]
      push_cast
      rw [le_div_iff₀ (by norm_num)]
      linarith)
    (by
      rw [hyr]
      rcases hIOJ with e | e
      · exact .inl e
      · exact .inr ⟨if_pos e, Nat.succ_pos n⟩)
    (by
      rw [hyr]
      intro hk
      have := hK hk
      show 0 ≤ c.misc.KVLOC - 1 ∧ c.misc.KVLOC - 1 < ((n + 1 : ℕ) : ℤ)
      push_cast
      omega)
    (7 * (⌈s.year.FINISH⌉₊ + 2) + 1) (Nat.lt_succ_self _)
  exact ⟨log, st, e, hre, hx, he⟩

/-- In hourly mode such a run draws every hour of its first year. -/
theorem scarce_draws (h1 : OneCard c) (hs : Sensible c) (hl : NoLone c)
    (hd : ∀ i, 0 ≤ (c.units i).der ∧ (c.units i).der ≤ 100) (h : setup sl fuel c = .ok s)
    (hstep : c.misc.JSTEP = 1) (hfreq : c.misc.JFREQ = 1) (hIOJ : c.misc.IOJ = 0)
    (hE : 20 ≤ c.misc.MAXEUE) (hK : c.misc.KWHERE = 1 → 1 ≤ c.misc.KVLOC ∧ c.misc.KVLOC ≤ n + 1)
    (hF : 1 ≤ c.misc.FINISH) (hsc : Scarce c s.hour.HRLOAD) (JSEED : ℤ) (T : ℕ) (hT1 : 1 ≤ T) (hT2 : T ≤ 8760) :
    ∃ log st st' ev, Reach s.cfg (s.start JSEED) log st ∧ step s.cfg st = .ok (.next ev st') ∧ ev.kind = 1 ∧
      ev.time = T := by
  obtain ⟨log, st, e, hr, hx, _⟩ := C43_cards_partial h1 hs hl hd h (.inl hstep) hfreq (.inl hIOJ) hE hK hsc JSEED
  have hJ1 : s.hour.JSTEP = 1 := by
    obtain ⟨wr, raw, T, ITAB, ID', hw, _, _, _, _, rfl⟩ := setup_ok h
    show ((c.misc.JSTEP : ℤ) : ℚ) = 1
    rw [hstep]; norm_num
  have key := draw_exists (cfg := s.cfg) (.inl hJ1) ?_ hr hx T hT1 (by
    show (T : ℚ) * s.hour.JSTEP ≤ 8760
    rw [hJ1, mul_one]
    exact_mod_cast hT2)
  · obtain ⟨log, st, st', ev, a, b, c', d⟩ := key
    exact ⟨log, st, st', ev, a, b, c', d.trans (by show (T : ℚ) * s.hour.JSTEP = T; rw [hJ1, mul_one])⟩
  · show (8760 : ℚ) ≤ s.year.FINISH
    obtain ⟨wr, raw, T, ITAB, ID', hw, _, _, _, _, rfl⟩ := setup_ok h
    show (8760 : ℚ) ≤ c.misc.FINISH * 8760
    have : (1 : ℚ) ≤ c.misc.FINISH := by exact_mod_cast hF
    linarith

/-! ## A concrete input -/

/-- The input of `demoCards` with peaks of 1000 and 900 MW: always short. Unit `P` (100 MW in `A`) is to be out in
calendar weeks 10 and 11. -/
def scarceCards : Cards 1 4 1 :=
  { demoCards 1 (-100) 50 with
    areas := ![⟨1, ['A'], 1000, 0, fun _ => 0, 1000⟩, ⟨2, ['B'], 900, 0, fun _ => 0, 1000⟩] }

theorem scarce_one : OneCard scarceCards := by
  constructor
  · intro a b; fin_cases a <;> fin_cases b <;> simp [scarceCards]
  · exact (demo_one 1 (-100) 50).units

theorem scarce_known : AllKnown scarceCards := by
  constructor
  · intro i; fin_cases i <;> simp [scarceCards, demoCards]
  · intro i; exact ⟨0, by fin_cases i; rfl⟩
  · intro i; exact ⟨1, by fin_cases i; rfl⟩
  · intro x hx; cases hx
  · intro x hx; cases hx
  · intro x hx; cases hx

theorem scarce_sensible : Sensible scarceCards :=
  ⟨(demo_sensible 1 (-100) 50).cap, (demo_sensible 1 (-100) 50).dur, (demo_sensible 1 (-100) 50).apart⟩

theorem scarce_lone : NoLone scarceCards := demo_lone 1 (-100) 50

theorem scarce_network : SoundNetwork scarceCards := by
  constructor
  · intro k; fin_cases k; simp [scarceCards, demoCards]
  · intro a
    fin_cases a
    · exact .refl
    · exact .single ⟨0, .inl ⟨rfl, rfl⟩⟩
  · intro k t; fin_cases k; simp [scarceCards, demoCards]
  · intro k t; fin_cases k; simp [scarceCards, demoCards]

theorem scarce_derating (i : Fin 4) : 0 ≤ (scarceCards.units i).der ∧ (scarceCards.units i).der ≤ 100 := by
  fin_cases i <;> simp [scarceCards, demoCards]

/-- The input is accepted, and always short. -/
theorem scarce_ok (sl : ℕ → ℚ → ℚ) (fuel : ℕ) : ∃ s, setup sl fuel scarceCards = .ok s ∧ Scarce scarceCards s.hour.HRLOAD := by
  obtain ⟨raw, h, r0, r1⟩ := flat_read
  obtain ⟨s, hs⟩ := C64_accepted (c := scarceCards) sl fuel scarce_one (by norm_num) scarce_known scarce_sensible
    scarce_lone.once ⟨raw, h⟩ rfl rfl
  refine ⟨s, hs, ?_⟩
  have hread : leeiRead (1 + 1) scarceCards.leei = .ok raw := h
  have hpk : ∀ j, 0 < (scarceCards.areas j).peak := by
    intro j; fin_cases j <;> simp [scarceCards]
  have hflat : ∀ j : Fin 2, ∀ h < 8760, 5 ≤ raw j h ∧ ∀ h' < 8760, raw j h = raw j h' := by
    intro j h hh
    fin_cases j
    · refine ⟨?_, fun h' hh' => ?_⟩
      · show 5 ≤ raw 0 h; rw [r0 h hh]
      · show raw 0 h = raw 0 h'; rw [r0 h hh, r0 h' hh']
    · refine ⟨?_, fun h' hh' => ?_⟩
      · show 5 ≤ raw 1 h; rw [r1 h hh]; norm_num
      · show raw 1 h = raw 1 h'; rw [r1 h hh, r1 h' hh']
  intro j t h hh season
  obtain ⟨x, hx, hx0, _, hv⟩ := loads_scaled hs hread j (hpk j) (fun h hh => by have := (hflat j h hh).1; linarith)
    ⟨0, by norm_num, by have := (hflat j 0 (by norm_num)).1; linarith⟩
  have hload : s.hour.HRLOAD j h = (scarceCards.areas j).peak := by
    rw [hv, (hflat j h hh).2 x hx]
    field_simp
  have hsum : ∑ i ∈ unitsIn scarceCards j, (scarceCards.units i).cap (season i) ≤ 400 := by
    have hcap : ∀ i, 0 ≤ (scarceCards.units i).cap (season i) ∧ (scarceCards.units i).cap (season i) ≤ 100 := by
      intro i; fin_cases i <;> simp [scarceCards, demoCards] <;> norm_num
    calc _ ≤ ∑ i, (scarceCards.units i).cap (season i) :=
          Finset.sum_le_univ_sum_of_nonneg fun i => (hcap i).1
      _ ≤ ∑ _i : Fin 4, (100 : ℚ) := Finset.sum_le_sum fun i _ => (hcap i).2
      _ = 400 := by simp; norm_num
  have hf : forecast (scarceCards.areas j).lfu t = 1 := by
    fin_cases j <;> simp [scarceCards, forecast]
  have hp : 900 ≤ (scarceCards.areas j).peak := by
    fin_cases j <;> simp [scarceCards]; norm_num
  rw [hload, hf]
  linarith

/-- C70, refuted on a concrete input: in every run, at the first draw of week 10 the unit that is to be out in weeks
10 and 11 is on, and at the first draw of week 12 it is off; these draws take place. -/
theorem C70_concrete_refuted (sl : ℕ → ℚ → ℚ) (fuel : ℕ) (JSEED : ℤ) : ∃ s, setup sl fuel scarceCards = .ok s ∧
    plannedOut (scarceCards.units 0) 10 ∧ ¬ plannedOut (scarceCards.units 0) 12 ∧
    (∃ log st st' ev, Reach s.cfg (s.start JSEED) log st ∧ step s.cfg st = .ok (.next ev st') ∧ ev.kind = 1 ∧
      ev.time = ((168 * 9 + 1 : ℕ) : ℚ) ∧ st.PLNDST.getD 0 0 = 1) ∧
    (∃ log st st' ev, Reach s.cfg (s.start JSEED) log st ∧ step s.cfg st = .ok (.next ev st') ∧ ev.kind = 1 ∧
      ev.time = ((168 * 11 + 1 : ℕ) : ℚ) ∧ st.PLNDST.getD 0 0 = 0) := by
  obtain ⟨s, hs, hsc⟩ := scarce_ok sl fuel
  have hJ : StepOK s.hour.JSTEP := by
    obtain ⟨wr, raw, T, ITAB, ID', hw, _, _, _, _, rfl⟩ := setup_ok hs
    left
    show (((1 : ℤ)) : ℚ) = 1
    norm_num
  have p10 : plannedOut (scarceCards.units 0) 10 := by simp [plannedOut, covers, scarceCards, demoCards]
  have p9 : ¬ plannedOut (scarceCards.units 0) 9 := by simp [plannedOut, covers, scarceCards, demoCards]
  have p11 : plannedOut (scarceCards.units 0) 11 := by simp [plannedOut, covers, scarceCards, demoCards]
  have p12 : ¬ plannedOut (scarceCards.units 0) 12 := by simp [plannedOut, covers, scarceCards, demoCards]
  have draws := scarce_draws scarce_one scarce_sensible scarce_lone scarce_derating hs rfl rfl rfl
    (by simp [scarceCards, demoCards]; norm_num) (by simp [scarceCards, demoCards]) (by simp [scarceCards, demoCards])
    hsc JSEED
  refine ⟨s, hs, p10, p12, ?_, ?_⟩
  · obtain ⟨log, st, st', ev, hr, hst, hk, hT⟩ := draws (168 * 9 + 1) (by norm_num) (by norm_num)
    exact ⟨log, st, st', ev, hr, hst, hk, hT, (C70_weeks_refuted scarce_one scarce_sensible scarce_lone hs hJ JSEED hr hst
      _ hT 10 (by norm_num) (by norm_num) 0).1 p10 p9⟩
  · obtain ⟨log, st, st', ev, hr, hst, hk, hT⟩ := draws (168 * 11 + 1) (by norm_num) (by norm_num)
    exact ⟨log, st, st', ev, hr, hst, hk, hT, (C70_weeks_refuted scarce_one scarce_sensible scarce_lone hs hJ JSEED hr hst
      _ hT 12 (by norm_num) (by norm_num) 0).2 p12 p11⟩

/-- Non-vacuity of C69 and C71: all their hypotheses are met at every draw of the first year of the run of this
input. -/
theorem C71_applies (sl : ℕ → ℚ → ℚ) (fuel : ℕ) (JSEED : ℤ) (T : ℕ) (hT1 : 1 ≤ T) (hT2 : T ≤ 8759) :
    ∃ (s : Setup 1 4 1) (raw : ℕ → ℕ → ℚ) (log : List Ev) (st st' : St _) (ev : Ev) (LP : LEnds 1 1)
      (w' : HourSt 2 4 1 (NetSt 1 1)),
      setup sl fuel scarceCards = .ok s ∧ leeiRead 2 scarceCards.leei = .ok raw ∧
      (∀ j : Fin 2, ∀ h < 8760, 5 ≤ raw j h) ∧
      Reach s.cfg (s.start JSEED) log st ∧ step s.cfg st = .ok (.next ev st') ∧ ev.kind = 1 ∧
      ev.time = ((8760 * 0 + T : ℕ) : ℚ) ∧
      (∀ k, (scarceCards.areas (LP k).1).name = (scarceCards.lines k).src ∧
        (scarceCards.areas (LP k).2).name = (scarceCards.lines k).dst) ∧
      hourBody { s.hour with transm := (hourTransm noRedispatch LP
        (fun k => dataxBLPA (scarceCards.lines k)) 0 scarceCards.misc.NLS) } ev.time (fun i => st.RATING.getD i 0) (fun i => st.PLNDST.getD i 0) st.world.h = .ok w' := by
  obtain ⟨s, hs, hsc⟩ := scarce_ok sl fuel
  obtain ⟨raw, h, r0, r1⟩ := flat_read
  have hJ : StepOK s.hour.JSTEP := by
    obtain ⟨wr, raw, T, ITAB, ID', hw, _, _, _, _, rfl⟩ := setup_ok hs
    left
    show (((1 : ℤ)) : ℚ) = 1
    norm_num
  have hJF : s.hour.JFREQ = 1 := by
    obtain ⟨wr, raw, T, ITAB, ID', hw, _, _, _, _, rfl⟩ := setup_ok hs
    rfl
  obtain ⟨log, st, st', ev, hr, hst, hk, hT⟩ := scarce_draws scarce_one scarce_sensible scarce_lone scarce_derating hs
    rfl rfl rfl (by simp [scarceCards, demoCards]; norm_num) (by simp [scarceCards, demoCards])
    (by simp [scarceCards, demoCards]) hsc JSEED T hT1 (by omega)
  have hLP : ∀ k : Fin 1, (scarceCards.areas (twoLP k).1).name = (scarceCards.lines k).src ∧
      (scarceCards.areas (twoLP k).2).name = (scarceCards.lines k).dst := by
    intro k; fin_cases k; exact ⟨rfl, rfl⟩
  obtain ⟨_, _, _, hld, _, _, hmx⟩ := C64_loads hs
  obtain ⟨w', hw'⟩ := hourBody_all_short
    { s.hour with transm := (hourTransm noRedispatch twoLP
        (fun k => dataxBLPA (scarceCards.lines k)) 0 scarceCards.misc.NLS) } (by norm_num) hJF (fun d hd => by have := (hmx d).2.1; show s.hour.MXPLHR d < 8760; omega)
    ev.time (fun i => st.RATING.getD i 0) (fun i => st.PLNDST.getD i 0) st.world.h (by
      intro day hr' hh t j
      obtain ⟨season, hcap⟩ := capacity_le scarce_one scarce_sensible scarce_derating hs hJ JSEED hr day
      have a := hcap j
      have b := hsc j t hr' hh season
      rw [← hld j t hr'] at b
      change (hourDraw s.hour day _ _ st.world.h).1.SYSCON j - findld t hr' s.hour.HRLOAD s.hour.FCTERR j ≤ -1
      linarith)
  refine ⟨s, raw, log, st, st', ev, twoLP, w', hs, h, ?_, hr, hst, hk, by rw [hT]; push_cast; ring, hLP, hw'⟩
  · intro j h hh
    fin_cases j
    · show 5 ≤ raw 0 h; rw [r0 h hh]
    · show 5 ≤ raw 1 h; rw [r1 h hh]; norm_num

end Narp.Props
