import Verif.Props.Datax
import Verif.Props.Program
import Verif.Props.Seasons
import Verif.Props.Report
import Verif.Props.HourEnergy
import Verif.Props.RedispatchHour

/-!
# From the input cards to the run: C66 to C72
-/

namespace Narp.Props
open Narp.Spec BigOperators

/-! ## The planned outages in effect at a draw -/

/-- The value of `JHOUR` that weekly event `w` (0-based) finds. -/
def weekHour (w : ℕ) : ℤ := if w = 0 then 0 else ((168 * w % 8760 : ℕ) : ℤ) - 1

/-- At every moment after the first weekly event, the planned outages in effect are those set by the last one. -/
theorem plan_run {σ : Type} {cfg : Cfg σ} (hJ : StepOK cfg.JSTEP) {N : ℕ} {wld : σ} {log : List Ev} {s : St σ}
    (h : Reach cfg (narpInit cfg.JSTEP N wld) log s) (hw : 0 < log.countP fun e => e.kind = 2) :
    ∃ p, p.length = N ∧ weekPlan cfg.JPLOUT (weekHour (log.countP (fun e => e.kind = 2) - 1)) p = .ok s.PLNDST := by
  induction h with
  | start => simp at hw
  | @step log s ev s' hr hs ih =>
    by_cases hk : ev.kind = 2
    · obtain ⟨_, h2, h3⟩ := C11_week_row_partial hJ hr hs hk
      rw [List.countP_append]
      refine ⟨s.PLNDST, reach_plndst_length hJ hr, ?_⟩
      have : (log.countP (fun e => decide (e.kind = 2)) + [ev].countP (fun e => decide (e.kind = 2)) - 1) =
          log.countP (fun e => decide (e.kind = 2)) := by simp [hk]
      rw [this, ← h3, h2]
      rfl
    · have hc : (log ++ [ev]).countP (fun e => decide (e.kind = 2)) = log.countP fun e => decide (e.kind = 2) := by
        rw [List.countP_append]; simp [hk]
      rw [hc] at hw ⊢
      obtain ⟨p, hp, e⟩ := ih hw
      refine ⟨p, hp, ?_⟩
      rw [e]
      obtain ⟨n, q, hI⟩ := reach_inv hJ.lo hJ.hi hr
      obtain ⟨i, q0, c1, hq, hrem, hfile, hst⟩ := step_shape hI
      rw [hst] at hs
      split at hs
      · cases hs
      split at hs
      · cases hs
      cases hev : events cfg { s with cal := c1, CLOCK := (occ cfg.JSTEP i (n i)).time } (kind i) with
      | error x => rw [hev] at hs; cases hs
      | ok s2 =>
        rw [hev] at hs
        simp only [Except.map, Except.ok.injEq, StepRes.next.injEq] at hs
        obtain ⟨rfl, rfl⟩ := hs
        obtain ⟨_, _, _, _, _, hp', _⟩ := events_inv i hev
        rw [hp'.resolve_right fun h => hk h]

/-- A draw at hour `T` (counted from 1 over the whole run) comes after exactly the weekly events `0` to
`(T - 1) / 168`. -/
theorem weeks_before_draw {σ : Type} {cfg : Cfg σ} (hJ : StepOK cfg.JSTEP) {N : ℕ} {wld : σ} {log : List Ev}
    {s s' : St σ} {ev : Ev} (h : Reach cfg (narpInit cfg.JSTEP N wld) log s)
    (hs : step cfg s = .ok (.next ev s')) (T : ℕ) (hT : ev.time = T) (hT1 : 1 ≤ T) :
    log.countP (fun e => e.kind = 2) = (T - 1) / 168 + 1 := by
  have hl := hJ.lo
  have hh := hJ.hi
  obtain ⟨n, q, hI⟩ := reach_inv hl hh h
  obtain ⟨i, hev, hclk, hmin, _, hpast, _, _⟩ := inv_next (by linarith) (by linarith) hI hs
  rw [log_count_two hI]
  have a := hmin 1
  rw [hT] at a
  simp only [occ, base, period, Matrix.cons_val_one, Matrix.cons_val_zero] at a
  have a' : T < 168 * n 1 + 1 := by
    have : (T : ℚ) < ((168 * n 1 + 1 : ℕ) : ℚ) := by push_cast; linarith
    exact_mod_cast this
  have b : 168 * n 1 < T + 168 := by
    by_cases h0 : n 1 = 0
    · omega
    · have hp := hpast 1 (by simp [period, h0])
      rw [hT] at hp
      simp only [base, period, Matrix.cons_val_one, Matrix.cons_val_zero] at hp
      have : ((168 * n 1 : ℕ) : ℚ) < ((T + 168 : ℕ) : ℚ) := by push_cast; linarith
      exact_mod_cast this
  omega

variable {n m l : ℕ} {sl : ℕ → ℚ → ℚ} {fuel : ℕ} {c : Cards n m l} {s : Setup n m l}

/-- The calendar week (1 = first week of the year) whose planned outages are in effect in hour `T` of the run, if any. -/
def weekInEffect (T : ℕ) : Option ℕ :=
  let q := (T - 1) / 168
  let r := 168 * q % 8760
  if q = 0 then some 1 else if r = 0 ∨ 8568 < r then none else some ((r - 1) / 168 + 1)

/-- The card of the unit has a planned outage in the week in effect in hour `T` of the run. -/
def offInHour (g : GenCard) (T : ℕ) : Prop := ∃ k ∈ weekInEffect T, plannedOut g k

instance (g : GenCard) (T : ℕ) : Decidable (offInHour g T) := by
  unfold offInHour
  cases h : weekInEffect T with
  | none => exact isFalse fun ⟨k, hk, _⟩ => by cases hk
  | some k => exact decidable_of_iff (plannedOut g k) ⟨fun h => ⟨k, rfl, h⟩, fun ⟨k', e, h⟩ => by cases e; exact h⟩

/-- A weekly event in the last week of the year, or exactly at the end of a year, finds no planned outage. -/
theorem plan_none (h1 : OneCard c) (hs : Sensible c) (hl : NoLone c) (h : setup sl fuel c = .ok s)
    (JHOUR : ℤ) (hJ : 51 ≤ JHOUR / 168 ∨ JHOUR / 168 = -1) (p p' : List ℚ)
    (hwk : weekPlan s.JPLOUT JHOUR p = .ok p') : p' = p.map fun _ => 1 := by
  obtain ⟨w, T, hwa, hJP, hT, hm⟩ := setup_table h1 hs hl h
  obtain ⟨T', hT', hrows⟩ := C25_table_partial ((setupID c w).map IdRow.maint) (maint_apart hs)
  have e : T' = T := Except.ok.inj (hT'.symm.trans hT)
  subst e
  unfold weekPlan at hwk
  simp only at hwk
  by_cases h51 : JHOUR / 168 > 51
  · rw [if_pos h51] at hwk
    exact (Except.ok.inj hwk).symm
  · rw [if_neg h51] at hwk
    have hrow : rd s.JPLOUT (JHOUR / 168) = .ok ((List.range (m + 1)).map fun q => T' 51 q) := by
      have : JHOUR / 168 = 51 ∨ JHOUR / 168 = -1 := by omega
      rw [hJP]
      rcases this with e | e <;> rw [e] <;> unfold rd pyIdx planRows <;> simp [Except.map]
    have hz : T' 51 0 = 0 := by
      have := (hrows 51).1
      simpa using this
    have h0 : rd ((List.range (m + 1)).map fun q => T' 51 q) 0 = .ok 0 := by
      unfold rd pyIdx
      rw [List.range_succ_eq_map]
      simp [Except.map, hz]
    rw [hrow] at hwk
    dsimp only [bind, Except.bind] at hwk
    rw [h0] at hwk
    have hsl : slice ((List.range (m + 1)).map fun q => T' 51 q) 1 (0 + 1) = [] := by
      simp [slice]
    dsimp only at hwk
    rw [hsl] at hwk
    exact (Except.ok.inj hwk).symm

/-- C70 (what happens). For every accepted sensible input in which no area has exactly one unit, in every run, at
every draw: exactly the units whose cards have a planned outage in the calendar week `weekInEffect T` (if any) are
off. -/
theorem C70_weeks_partial (h1 : OneCard c) (hs : Sensible c) (hl : NoLone c) (h : setup sl fuel c = .ok s)
    (hJ : StepOK s.hour.JSTEP) (JSEED : ℤ) {log : List Ev} {st st' : St _} {ev : Ev}
    (hr : Reach s.cfg (s.start JSEED) log st) (hst : step s.cfg st = .ok (.next ev st')) (T : ℕ) (hT : ev.time = T)
    (hT1 : 1 ≤ T) (i : Fin m) :
    st.PLNDST.getD i 0 = if offInHour (c.units i) T then 0 else 1 := by
  have hc := weeks_before_draw (cfg := s.cfg) hJ hr hst T hT hT1
  obtain ⟨p, hp, hpl⟩ := plan_run (cfg := s.cfg) hJ hr (by omega)
  rw [hc, Nat.add_sub_cancel] at hpl
  cases hw : weekInEffect T with
  | none =>
    have hno : ¬ offInHour (c.units i) T := fun ⟨k, hk, _⟩ => by rw [hw] at hk; cases hk
    rw [if_neg hno, plan_none h1 hs hl h _ ?_ p _ hpl]
    · rw [List.getD_eq_getElem?_getD, List.getElem?_map, List.getElem?_eq_getElem (by omega)]
      rfl
    · unfold weekInEffect at hw
      dsimp only at hw
      unfold weekHour
      split at hw
      · cases hw
      · rename_i h0
        rw [if_neg h0]
        split at hw
        · rename_i hr
          have := Nat.mod_lt (168 * ((T - 1) / 168)) (show 8760 > 0 by norm_num)
          omega
        · cases hw
  | some k =>
    have hiff : offInHour (c.units i) T ↔ plannedOut (c.units i) k :=
      ⟨fun ⟨k', e, h⟩ => by rw [hw] at e; cases e; exact h, fun h => ⟨k, hw, h⟩⟩
    have hk : 1 ≤ k ∧ k ≤ 51 ∧ weekHour ((T - 1) / 168) / 168 + 1 = k := by
      unfold weekInEffect at hw
      dsimp only at hw
      unfold weekHour
      split at hw
      · rename_i h0
        have := Option.some.inj hw
        rw [if_pos h0]
        omega
      · rename_i h0
        rw [if_neg h0]
        split at hw
        · cases hw
        · have := Option.some.inj hw
          omega
    have := C62_plan_partial h1 hs hl h _ k hk.1 hk.2.1 hk.2.2 p _ hp hpl i
    rw [this]
    simp only [hiff]

/-- C70, refuted: in every run of every such input, in the first year, a unit whose planned outage begins in calendar
week `K` is still on at every draw of that week, and a unit whose planned outage ended with week `K - 1` is still off
(weeks 2 to 52). -/
theorem C70_weeks_refuted (h1 : OneCard c) (hs : Sensible c) (hl : NoLone c) (h : setup sl fuel c = .ok s)
    (hJ : StepOK s.hour.JSTEP) (JSEED : ℤ) {log : List Ev} {st st' : St _} {ev : Ev}
    (hr : Reach s.cfg (s.start JSEED) log st) (hst : step s.cfg st = .ok (.next ev st')) (T : ℕ) (hT : ev.time = T)
    (K : ℕ) (hK : T ≤ 168 * K ∧ 168 * (K - 1) < T) (hK2 : 2 ≤ K ∧ K ≤ 52) (i : Fin m) :
    (plannedOut (c.units i) K → ¬ plannedOut (c.units i) (K - 1) → st.PLNDST.getD i 0 = 1) ∧
    (¬ plannedOut (c.units i) K → plannedOut (c.units i) (K - 1) → st.PLNDST.getD i 0 = 0) := by
  have hq : (T - 1) / 168 = K - 1 := by omega
  have hw : weekInEffect T = some (K - 1) := by
    unfold weekInEffect
    have hm : 168 * (K - 1) % 8760 = 168 * (K - 1) := Nat.mod_eq_of_lt (by omega)
    simp only [hq, hm]
    rw [if_neg (by omega), if_neg (by omega)]
    congr 1
    omega
  have hiff : offInHour (c.units i) T ↔ plannedOut (c.units i) (K - 1) :=
    ⟨fun ⟨k', e, h⟩ => by rw [hw] at e; cases e; exact h, fun h => ⟨_, hw, h⟩⟩
  rw [C70_weeks_partial h1 hs hl h hJ JSEED hr hst T hT (by omega) i]
  simp only [hiff]
  exact ⟨fun _ h => if_neg h, fun _ h => if_pos h⟩

/-! ## C69: the capacity of an area in a draw, from the cards -/

theorem rd_four (f : Fin 4 → ℚ) {q : ℤ} (hq : 0 ≤ q ∧ q < 4) : rd (List.ofFn f) q = .ok (f ⟨q.toNat, by omega⟩) := by
  obtain ⟨a, b⟩ := hq
  unfold rd pyIdx
  rw [List.length_ofFn]
  interval_cases q <;> simp [Except.map]

theorem rates_column {i : Fin m} {q : ℤ} (hq : 0 ≤ q ∧ q < 4) {R : List ℚ}
    (h : (List.ofFn fun i => List.ofFn (c.units i).cap).mapM (fun row => rd row q) = .ok R) :
    R.getD i 0 = (c.units i).cap ⟨q.toNat, by omega⟩ := by
  have hf := (mapM_ok_iff _ _ _).1 h
  have hlen : R.length = m := by rw [← hf.length_eq]; simp
  have := List.Forall₂.get hf (i := i) (by simp) (by omega)
  simp only [List.get_eq_getElem, List.getElem_ofFn] at this
  rw [List.getD_eq_getElem?_getD, List.getElem?_eq_getElem (by omega), Option.getD_some]
  have e := rd_four (c.units i).cap hq
  have e' : Except.ok (ε := PyErr) (R[(i : ℕ)]) = .ok ((c.units i).cap ⟨q.toNat, by omega⟩) := by
    rw [← e, ← this]
  exact Except.ok.inj e'

/-- C69 (what happens). For every accepted sensible input in which no area has exactly one unit, in every run, at
every draw (hour `T` of year `y`, counted from 1): the capacity available to an area is the sum over the units that
the cards place there, each with the fraction given by its random number and the outage rates of its card, with the
rating of its card for the season *after* the current one (cyclically), and without the units whose cards have a
planned outage in the week `weekInEffect` (if any). -/
theorem C69_capacity_partial (h1 : OneCard c) (hs : Sensible c) (hl : NoLone c) (h : setup sl fuel c = .ok s)
    (hJ : StepOK s.hour.JSTEP) (JSEED : ℤ) {log : List Ev} {st st' : St _} {ev : Ev}
    (hr : Reach s.cfg (s.start JSEED) log st) (hst : step s.cfg st = .ok (.next ev st')) (hk : ev.kind = 1)
    (y T : ℕ) (hT : ev.time = ((8760 * y + T : ℕ) : ℚ)) (hT1 : 1 ≤ T) (hT2 : T ≤ 8760)
    (day : ℕ) (j : Fin (n + 1)) :
    ∃ season : Fin 4, ((season : ℕ) : ℤ) = (seasonOf T + 1) % 4 ∧
    let d := hourDraw s.hour day (fun i => st.RATING.getD i 0) (fun i => st.PLNDST.getD i 0) st.world.h
    d.1.SYSCON j = ∑ i ∈ unitsIn c j, outcome (c.units i) (variate (d.2.IGSEED i)) * (c.units i).cap season *
      (if offInHour (c.units i) (8760 * y + T) then 0 else 1) := by
  have hy1 : 8760 * (y : ℚ) < ev.time := by
    rw [hT]; push_cast; have : (1 : ℚ) ≤ T := by exact_mod_cast hT1
    linarith
  have hy2 : ev.time ≤ 8760 * ((y : ℚ) + 1) := by
    rw [hT]; push_cast; have : (T : ℚ) ≤ 8760 := by exact_mod_cast hT2
    linarith
  obtain ⟨hIQ, hR, _⟩ := C09_season_column_partial (cfg := s.cfg) hJ hr hst hk y hy1 hy2
  have hq : ev.time - 8760 * y = T := by rw [hT]; push_cast; ring
  rw [hq] at hIQ
  have hb : 0 ≤ st.IQ ∧ st.IQ < 4 := by rw [hIQ]; omega
  refine ⟨⟨st.IQ.toNat, by omega⟩, by show ((st.IQ.toNat : ℕ) : ℤ) = _; rw [← hIQ]; omega, ?_⟩
  intro d
  have hd : d.1.SYSCON j = _ := (C64_units h1 h day (fun i => st.RATING.getD i 0) (fun i => st.PLNDST.getD i 0)
    st.world.h j).1
  rw [hd]
  refine Finset.sum_congr rfl fun i _ => ?_
  have hp := C70_weeks_partial h1 hs hl h hJ JSEED hr hst (8760 * y + T) hT (by omega) i
  have hrate : st.RATING.getD i 0 = (c.units i).cap ⟨st.IQ.toNat, by omega⟩ := by
    obtain ⟨_, _, _, _, _, _, _, _, _, _, rfl⟩ := setup_ok h
    exact rates_column hb hR
  rw [hp, hrate]

/-! ## A concrete input -/

/-- Sections for two areas, constant loads. -/
def flatBlocks : List Block :=
  [⟨'1', [], List.replicate 730 (List.replicate 12 5)⟩, ⟨'2', [], List.replicate 730 (List.replicate 12 7)⟩]

theorem flat_get (x : ℚ) {h : ℕ} (hh : h < 8760) :
    ((List.replicate 730 (List.replicate 12 x)).getD (h / 12) []).getD (h % 12) 0 = x := by
  have e : (List.replicate 730 (List.replicate 12 x)).getD (h / 12) [] = List.replicate 12 x := by
    rw [List.getD_eq_getElem?_getD, List.getElem?_replicate, if_pos (by omega), Option.getD_some]
  rw [e, List.getD_eq_getElem?_getD, List.getElem?_replicate, if_pos (by omega), Option.getD_some]

theorem flat_read : ∃ raw, leeiRead 2 (flatBlocks.flatMap Block.lines) = .ok raw ∧
    (∀ h < 8760, raw 0 h = 5) ∧ ∀ h < 8760, raw 1 h = 7 := by
  obtain ⟨H, h1, h2⟩ := C20_read_partial 2 flatBlocks (fun b => if b.c = '1' then 1 else 2)
    (by
      intro b hb
      simp only [flatBlocks, List.mem_cons, List.not_mem_nil, or_false] at hb
      rcases hb with rfl | rfl <;> decide)
    (by decide)
    (by
      intro b hb
      simp only [flatBlocks, List.mem_cons, List.not_mem_nil, or_false] at hb
      rcases hb with rfl | rfl <;>
        exact ⟨List.length_replicate, fun r hr => by rw [List.eq_of_mem_replicate hr]; rfl⟩)
  refine ⟨H, h1, fun h hh => ?_, fun h hh => ?_⟩
  · have := h2 _ List.mem_cons_self h hh
    rw [if_pos rfl] at this
    exact this.trans (flat_get 5 hh)
  · have := h2 _ (List.mem_cons_of_mem _ List.mem_cons_self) h hh
    rw [if_neg (by decide)] at this
    exact this.trans (flat_get 7 hh)

/-- Area cards `A` (peak 100 MW) and `B` (peak 101 MW), unit cards `P`, `Q` in `A` and `R`, `S` in `B`, one line
from `A` to `B` with the number `num`, with parameters `adm`, `cap` in all states. Unit `P` is out in weeks 10 and 11. -/
def demoCards (num : ℤ) (adm cap : ℚ) : Cards 1 4 1 where
  areas := ![⟨2, ['A'], 100, 0, fun _ => 0, 1000⟩, ⟨1, ['B'], 101, 0, fun _ => 0, 1000⟩]
  units := ![⟨1, ['P'], ['A'], fun _ => 100, 0, 0, 0, ⟨1, 10, 2, 0, 0⟩⟩, ⟨2, ['Q'], ['A'], fun _ => 100, 0, 0, 0, ⟨1, 0, 0, 0, 0⟩⟩,
    ⟨3, ['R'], ['B'], fun _ => 60, 0, 0, 0, ⟨1, 0, 0, 0, 0⟩⟩, ⟨4, ['S'], ['B'], fun _ => 40, 0, 0, 0, ⟨1, 0, 0, 0, 0⟩⟩]
  lines := ![⟨1, num, ['A'], ['B'], fun _ => adm, fun _ => cap, fun _ => cap, ![1, 0, 0, 0, 0, 0]⟩]
  contracts := []
  owns := []
  misc := { JSEED := 1, NLS := 1, IW := ![13, 26, 39], KWHERE := 1, KVWHEN := 1, KVSTAT := 1, KVTYPE := 1, KVLOC := 1,
            CVTEST := 1 / 20, FINISH := 10, JSTEP := 1, JFREQ := 1, MAXEUE := 1000, IOI := 0, IOJ := 0, INTV := 1 }
  leei := flatBlocks.flatMap Block.lines

theorem demo_one (num : ℤ) (adm cap : ℚ) : OneCard (demoCards num adm cap) := by
  constructor
  · intro a b; fin_cases a <;> fin_cases b <;> simp [demoCards]
  · intro a b; fin_cases a <;> fin_cases b <;> simp [demoCards]

theorem demo_known (num : ℤ) (adm cap : ℚ) : AllKnown (demoCards num adm cap) := by
  constructor
  · intro i; fin_cases i <;> simp [demoCards]
  · intro i; exact ⟨0, by fin_cases i; rfl⟩
  · intro i; exact ⟨1, by fin_cases i; rfl⟩
  · intro x hx; cases hx
  · intro x hx; cases hx
  · intro x hx; cases hx

theorem demo_sensible (num : ℤ) (adm cap : ℚ) : Sensible (demoCards num adm cap) := by
  constructor
  · intro i k; fin_cases i <;> simp [demoCards]
  · intro i; fin_cases i <;> simp [demoCards]
  · intro i k; fin_cases i <;> simp [demoCards, covers]

theorem demo_lone (num : ℤ) (adm cap : ℚ) : NoLone (demoCards num adm cap) := by
  intro i
  fin_cases i
  exacts [⟨1, by decide, rfl⟩, ⟨0, by decide, rfl⟩, ⟨3, by decide, rfl⟩, ⟨2, by decide, rfl⟩]

theorem NoLone.once {c : Cards n m l} (h : NoLone c) : LoneOnce c := fun i => .inr (.inr (h i))

/-- Non-vacuity of C64, C69, C70: this input is accepted. -/
theorem demo_ok (sl : ℕ → ℚ → ℚ) (fuel : ℕ) (num : ℤ) (adm cap : ℚ) :
    ∃ s, setup sl fuel (demoCards num adm cap) = .ok s := by
  obtain ⟨raw, h, _⟩ := flat_read
  exact C64_accepted sl fuel (demo_one num adm cap) (by norm_num) (demo_known num adm cap) (demo_sensible num adm cap)
    (demo_lone num adm cap).once ⟨raw, h⟩ rfl rfl

theorem setup_wiring {c : Cards n m l} {s : Setup n m l} (h1 : OneCard c) (h : setup sl fuel c = .ok s) :
    ∃ w H, WiredAs c w ∧ s.hour = setupHour c w fuel H ∧ s.net = setupNet c := by
  obtain ⟨w, raw, T, ITAB, ID', hw, _, _, _, _, rfl⟩ := setup_ok h
  exact ⟨w, _, (wiring_iff h1 (wiring_pos hw)).2 w hw, rfl, rfl⟩

/-! ## C66: lines out of service -/

/-- 200 MW of capacity for 100 MW of load in the first area, 100 MW for 101 MW in the second. -/
def deadT : TransIn 2 1 :=
  { IFLAG := 0, LNSTAT := fun _ => 1, TRNSFR := fun _ => 0, TRNSFJ := fun _ => 0, SYSCON := ![200, 100]
    CAPREQ := ![100, 101] }

theorem dead_result : vis (transm noRedispatch twoLP (fun k => dataxBLPA ((demoCards 1 0 0).lines k)) 0 1 deadT
    (setupNet (demoCards 1 0 0))) = some (1, [1], [-99, 0]) := by
  decide +kernel

/-- C66, refuted: the only line between the two areas has admittance and capacities 0 in every state, but the
program replaces zeros, so that 1 MW is carried to the second area and its shortage of 1 MW is not recorded. -/
theorem C66_out_of_service_refuted (sl : ℕ → ℚ → ℚ) (fuel : ℕ) : ∃ s, setup sl fuel (demoCards 1 0 0) = .ok s ∧
    (∀ k t, ((demoCards 1 0 0).lines k).adm t = 0 ∧ ((demoCards 1 0 0).lines k).cap t = 0 ∧
      ((demoCards 1 0 0).lines k).capr t = 0) ∧
    deadT.SYSCON 1 < deadT.CAPREQ 1 ∧
    ∃ S net, s.hour.transm deadT s.net = .ok ((1, S), net) ∧ ∀ a, S a ≤ 0 := by
  obtain ⟨s, hs⟩ := demo_ok sl fuel 1 0 0
  refine ⟨s, hs, fun k t => by fin_cases k; exact ⟨rfl, rfl, rfl⟩, by norm_num [deadT], ?_⟩
  obtain ⟨w, H, hw, e1, e2⟩ := setup_wiring (demo_one 1 0 0) hs
  have hLP : w.LP = twoLP := by
    funext k
    have a := hw.src k
    have b := hw.dst k
    fin_cases k
    have a' : (w.LP 0).1 = 0 := (demo_one 1 0 0).areas (by exact a)
    have b' : (w.LP 0).2 = 1 := (demo_one 1 0 0).areas (by exact b)
    exact Prod.ext a' b'
  have hnum : ∀ k, w.number k < 1 := fun k => by
    rw [hw.number k]; fin_cases k; norm_num [demoCards]
  obtain ⟨o, net, h, hJ, _, hS⟩ := vis_ok dead_result
  have h' := transm_mono (lp := redispatch fuel (demoCards 1 0 0).misc.IOI) (fun x o h => by cases h) h
  have hS' : o.SADJ 0 = -99 ∧ o.SADJ 1 = 0 := by simpa [List.finRange_succ] using hS
  refine ⟨o.SADJ, net, ?_, fun a => ?_⟩
  · rw [e1, e2]
    show netCall (dataxLINENO w.LP w.number) fuel _ w.LP _ 0 1 deadT _ = _
    unfold netCall
    rw [helpCheck_small (lineno_bound w.LP (by exact_mod_cast hnum)), hLP]
    show hourTransm _ _ _ _ _ _ _ = _
    unfold hourTransm
    rw [h']
    simp [Except.map, hJ]
  · fin_cases a
    · show o.SADJ 0 ≤ 0; rw [hS'.1]; norm_num
    · show o.SADJ 1 ≤ 0; rw [hS'.2]

/-! ## C67: serial numbers -/

/-- The same cards with other serial numbers. -/
def reSerial (c : Cards n m l) (fa : Fin (n + 1) → ℤ) (fu : Fin m → ℤ) (fl : Fin l → ℤ) : Cards n m l :=
  { c with
    areas := fun j => { c.areas j with sn := fa j }
    units := fun i => { c.units i with sn := fu i }
    lines := fun k => { c.lines k with sn := fl k } }

/-- C67, refuted: for every input the serial numbers have no effect at all, so that the cards are used in the order in
which they are written, not in the order of their serial numbers: section 1 of the load file belongs to the first
card whatever its serial number. In the example the first section goes to `A` (serial number 2), the second to `B`
(serial number 1). -/
theorem C67_serial_refuted (sl : ℕ → ℚ → ℚ) (fuel : ℕ) :
    (∀ (n m l : ℕ) (c : Cards n m l) (fa : Fin (n + 1) → ℤ) (fu : Fin m → ℤ) (fl : Fin l → ℤ),
      setup sl fuel (reSerial c fa fu fl) = setup sl fuel c) ∧
    ∃ s, setup sl fuel (demoCards 1 (-100) 50) = .ok s ∧
      ((demoCards 1 (-100) 50).areas 1).sn < ((demoCards 1 (-100) 50).areas 0).sn ∧
      (∃ raw, leeiRead 2 (demoCards 1 (-100) 50).leei = .ok raw ∧ (∀ h < 8760, raw 0 h = 5) ∧ ∀ h < 8760, raw 1 h = 7) ∧
      ∀ h < 8760, s.hour.HRLOAD 0 h = 100 ∧ s.hour.HRLOAD 1 h = 101 := by
  constructor
  · intro n m l c fa fu fl
    rfl
  · obtain ⟨s, hs⟩ := demo_ok sl fuel 1 (-100) 50
    obtain ⟨raw, hr, r0, r1⟩ := flat_read
    refine ⟨s, hs, by norm_num [demoCards], ⟨raw, hr, r0, r1⟩, fun h hh => ?_⟩
    obtain ⟨raw', hr', hl, _⟩ := C64_loads hs
    have : raw' = raw := by
      have : Except.ok (ε := PyErr) raw' = .ok raw := by rw [← hr', ← hr]; rfl
      exact Except.ok.inj this
    subst this
    obtain ⟨⟨h0, hh0, a1⟩, _, a3⟩ := hl 0 (by norm_num [demoCards]) ⟨0, by norm_num, by rw [show ((0 : Fin 2) : ℕ) = 0 from rfl, r0 0 (by norm_num)]; norm_num⟩
    obtain ⟨⟨h0', hh0', b1⟩, _, b3⟩ := hl 1 (by norm_num [demoCards]) ⟨0, by norm_num, by rw [show ((1 : Fin 2) : ℕ) = 1 from rfl, r1 0 (by norm_num)]; norm_num⟩
    have a := a3 h h0
    have b := b3 h h0'
    rw [show ((0 : Fin 2) : ℕ) = 0 from rfl, r0 _ hh, r0 _ hh0, a1] at a
    rw [show ((1 : Fin 2) : ℕ) = 1 from rfl, r1 _ hh, r1 _ hh0', b1] at b
    have pa : ((demoCards 1 (-100) 50).areas 0).peak = 100 := rfl
    have pb : ((demoCards 1 (-100) 50).areas 1).peak = 101 := rfl
    rw [pa] at a
    rw [pb] at b
    constructor <;> linarith

/-! ## C68: line numbers -/

/-- The same cards with other line numbers. -/
def reNumber (c : Cards n m l) (f : Fin l → ℤ) : Cards n m l :=
  { c with lines := fun k => { c.lines k with number := f k } }

/-- C68 (what holds). As long as no line number exceeds the number of lines, line numbers are mere labels: the
simulation is the same for every numbering. -/
theorem C68_numbers_partial (h1 : OneCard c) (h : setup sl fuel c = .ok s) (hn : ∀ k, (c.lines k).number ≤ l)
    (f : Fin l → ℤ) (hf : ∀ k, f k ≤ l) : setup sl fuel (reNumber c f) = .ok s := by
  have h1' : OneCard (reNumber c f) := ⟨h1.areas, h1.units⟩
  obtain ⟨w, raw, T, ITAB, ID', hw, e1, e2, hraw, hS, rfl⟩ := setup_ok h
  have hm := wiring_pos hw
  have hk := (wiring_iff h1 hm).1.2 ⟨w, hw⟩
  have hk' : AllKnown (reNumber c f) := ⟨hk.loc, hk.src, hk.dst, hk.csrc, hk.cdst, hk.own⟩
  obtain ⟨w', hw'⟩ := (wiring_iff h1' hm).1.1 hk'
  have a := (wiring_iff h1 hm).2 w hw
  have a' := (wiring_iff h1' hm).2 w' hw'
  have q1 : w'.NAT = w.NAT := funext fun i => by rw [a.unit, a'.unit]
  have q2 : w'.NAR = w.NAR := funext fun i => h1.areas ((a'.loc i).trans (a.loc i).symm)
  have q3 : w'.LP = w.LP := funext fun k =>
    Prod.ext (h1.areas ((a'.src k).trans (a.src k).symm)) (h1.areas ((a'.dst k).trans (a.dst k).symm))
  have t1 : ∀ L : Fin (n + 1) → Fin (n + 1) → ℤ, (∀ a b, L a b < l) → ∀ (BLPA : Fin l → Fin 6 → LnPar),
      netCall L fuel c.misc.IOI w.LP BLPA 0 c.misc.NLS =
        hourTransm (redispatch fuel c.misc.IOI) w.LP BLPA 0 c.misc.NLS := by
    intro L hL BLPA
    funext t x
    unfold netCall
    rw [helpCheck_small hL]
    rfl
  have b1 : ∀ x y, dataxLINENO w.LP w.number x y < l :=
    lineno_bound w.LP fun k => by rw [a.number k]; have := hn k; omega
  have b2 : ∀ x y, dataxLINENO w.LP w'.number x y < l :=
    lineno_bound w.LP fun k => by rw [a'.number k]; have := hf k; show f k - 1 < _; omega
  have hhour : ∀ H, setupHour (reNumber c f) w' fuel H = setupHour c w fuel H := by
    intro H
    have e : netCall (dataxLINENO w.LP w'.number) fuel c.misc.IOI w.LP (fun k => dataxBLPA (c.lines k)) 0 c.misc.NLS =
        netCall (dataxLINENO w.LP w.number) fuel c.misc.IOI w.LP (fun k => dataxBLPA (c.lines k)) 0 c.misc.NLS := by
      rw [t1 _ b1, t1 _ b2]
    unfold setupHour
    rw [q1, q2, q3]
    exact congrArg (fun tr => ({ setupHour c w fuel H with transm := tr } : HourIn (n + 1) m l (NetSt n l))) e
  have hsus : ∀ H, setupSus (reNumber c f) w' H = setupSus c w H := by
    intro H
    unfold setupSus
    rw [q1, q2]
    rfl
  have hid : setupID (reNumber c f) w' = setupID c w := by
    unfold setupID
    rw [q1, q2]
    rfl
  have hce : cardErrors (reNumber c f) = .ok () := by
    unfold cardErrors
    rw [if_neg (not_not.2 (by exact e1)), if_neg (not_not.2 (by exact e2))]
  have hraw' : leeiRead (n + 1) (reNumber c f).leei = .ok raw := hraw
  have hS' : smaint (n + 1) (setupID (reNumber c f) w') 6 (maxCap (reNumber c f)) sl = .ok (T, ITAB, ID') := by
    rw [hid]; exact hS
  unfold setup xldnew
  rw [hw', hraw']
  dsimp only [bind, Except.bind]
  rw [hce]
  dsimp only [Except.map]
  rw [hS', hhour, hsus]
  rfl

/-- C68, refuted: one line with the number 2 instead of 1. The input is accepted, but as soon as exactly one area is
short of capacity (100 MW for 101 MW) while the other has a surplus, the run fails with an IndexError; with the number 1 the surplus
is sent. -/
theorem C68_numbers_refuted (sl : ℕ → ℚ → ℚ) (fuel : ℕ) :
    ∃ s s', setup sl fuel (demoCards 2 0 0) = .ok s ∧ setup sl fuel (demoCards 1 0 0) = .ok s' ∧
      demoCards 1 0 0 = reNumber (demoCards 2 0 0) (fun _ => 1) ∧
      s.hour.transm deadT s.net = .error .indexError ∧
      ∃ S net, s'.hour.transm deadT s'.net = .ok ((1, S), net) := by
  obtain ⟨s, hs⟩ := demo_ok sl fuel 2 0 0
  obtain ⟨s', hs', _, _, S, net, h, _⟩ := C66_out_of_service_refuted sl fuel
  refine ⟨s, s', hs, hs', ?_, ?_, S, net, h⟩
  · unfold reNumber demoCards
    simp only [Cards.mk.injEq, true_and, and_true]
    funext k
    fin_cases k
    rfl
  · obtain ⟨w, H, hw, e1, e2⟩ := setup_wiring (demo_one 2 0 0) hs
    have hLP : w.LP = twoLP := by
      funext k
      have a := hw.src k
      have b := hw.dst k
      fin_cases k
      have a' : (w.LP 0).1 = 0 := (demo_one 2 0 0).areas (by exact a)
      have b' : (w.LP 0).2 = 1 := (demo_one 2 0 0).areas (by exact b)
      exact Prod.ext a' b'
    have hnum : w.number = fun _ => 1 := by
      funext k
      rw [hw.number k]
      fin_cases k
      rfl
    rw [e1, e2]
    show netCall (dataxLINENO w.LP w.number) fuel _ w.LP _ 0 1 deadT _ = _
    unfold netCall
    rw [hLP, hnum]
    have : helpCheck (l := 1) (dataxLINENO twoLP fun _ => 1) (marginInt fun j => deadT.SYSCON j - deadT.CAPREQ j) =
        .error .indexError := by
      decide +kernel
    rw [this]
    rfl

end Narp.Props
