import Verif.Props.AsWritten
import Verif.Props.CardEnergy
import Verif.Props.CardReport
import Verif.Props.Compare
import Verif.Props.ConlsRun
import Verif.Props.Converge
import Verif.Props.Frequency
import Verif.Props.LoadFlow
import Verif.Props.RedispatchHour
import Verif.Props.Sharing
import Verif.Props.Streams

/-!
# Concrete cases that meet the hypotheses of further theorems

Each `example` applies a theorem to a concrete network, input or run, so that all its hypotheses are discharged.
-/

namespace Narp.Props
open Narp Spec BigOperators Matrix

/-! ### The two-area network -/

theorem two_proper : Proper twoLP := by unfold Proper; decide

/-- `C35_kirchhoff`: 30 MW from the first area to the second over one line of admittance -100. -/
example : let r := flo twoLP (fun _ => -100) (thetac (theta (!![-1/100, 0; 0, 0] : NMat 1) ![30, -30]) (admitrLT id 1))
    (∀ i, netOut twoLP r.2 (admitrLT id 1 i) = ![30, -30] i) ∧ ∑ a, r.1 a = 0 := by
  have h := C35_kirchhoff two_proper (NR := 1) (b := fun _ => -100) (ZB := !![-1/100, 0; 0, 0]) (by decide +kernel)
    (by decide +kernel) ![30, -30] (by decide +kernel)
  exact ⟨h.1, h.2.2.1⟩

/-- `C35_sampled`: the admittance has fallen from 100 to 50 since the inverse was computed. -/
example : ∃ o, tm1 twoLP (fun _ => -100) 1 = .ok o ∧
    let Z := (lineUpdates twoLP (fun _ => -50) o.BLP0 (ieq o.LT 1) 1 (o.BB, o.ZB)).2
    let r := flo twoLP (fun _ => -50) (thetac (theta Z ![30, -30]) o.LT)
    ∀ i, netOut twoLP r.2 (o.LT i) = ![30, -30] i := by
  have hr : Reaches twoLP 1 := by
    intro a
    fin_cases a
    · exact Relation.ReflTransGen.single ⟨0, Or.inr ⟨rfl, rfl⟩⟩
    · exact Relation.ReflTransGen.refl
  obtain ⟨o, ho⟩ := (C51_connected (by decide) two_proper (b := fun _ => -100) (.inl fun _ => by norm_num) 1).2 hr
  exact ⟨o, ho, C35_sampled two_proper (.inl fun _ => by norm_num) (fun _ => by norm_num) (fun _ => by norm_num) hr ho
    ![30, -30] (by decide +kernel)⟩

/-- Import and export limits of 40 MW; 30 MW to be moved to the second area. -/
def nvBN : BNcols 1 := { c1 := ![200, 100], c2 := ![30, -30], c3 := fun _ => 40, c4 := fun _ => 40 }

/-- A line of 50 MW in both directions. -/
def nvBLP : Fin 1 → LnPar := fun _ => ⟨-100, 50, 50⟩

theorem nv_load : ∃ o, tm2 noRedispatch nvBN twoLP nvBLP (fun _ => -100) !![-100, 0; 0, 0] !![-1/100, 0; 0, 0]
    (admitrLT id 1) 1 1 = .ok o ∧ o.INDIC ≠ 1 := by
  have h : (tm2 noRedispatch nvBN twoLP nvBLP (fun _ => -100) !![-100, 0; 0, 0] !![-1/100, 0; 0, 0]
      (admitrLT id 1) 1 1).map (fun o => decide (o.INDIC ≠ 1)) = .ok true := by decide +kernel
  cases ho : tm2 noRedispatch nvBN twoLP nvBLP (fun _ => -100) !![-100, 0; 0, 0] !![-1/100, 0; 0, 0]
      (admitrLT id 1) 1 1 with
  | error e => rw [ho] at h; cases h
  | ok o => rw [ho] at h; exact ⟨o, rfl, of_decide_eq_true (Except.ok.inj h)⟩

/-- `C38_accepted`, `C38_converse` and `C39_unchanged_partial` apply to this network. -/
example : ∃ o, tm2 noRedispatch nvBN twoLP nvBLP (fun _ => -100) !![-100, 0; 0, 0] !![-1/100, 0; 0, 0]
    (admitrLT id 1) 1 1 = .ok o ∧ (∀ i, -50 ≤ o.FLOW i ∧ o.FLOW i ≤ 50) ∧ o.ZB = !![-1/100, 0; 0, 0] := by
  obtain ⟨o, ho, hacc⟩ := nv_load
  refine ⟨o, ho, (C38_accepted (fun _ => by norm_num [nvBLP]) (fun _ => by norm_num [nvBN]) ho hacc).1,
    (C39_unchanged_partial two_proper ho hacc).2.1⟩

example : ∃ o, tm2 noRedispatch nvBN twoLP nvBLP (fun _ => -100) !![-100, 0; 0, 0] !![-1/100, 0; 0, 0]
    (admitrLT id 1) 1 1 = .ok o ∧ o.INDIC ≠ 1 :=
  C38_converse (fun _ => by norm_num [nvBLP]) (fun _ => by norm_num [nvBN]) (by decide +kernel)

/-- `C111_evaluation`: nothing is scheduled, the first area has 300 MW to spare, the second lacks 300 MW, and 300 MW more when the pool
is short. -/
example : ∃ out w', transm noRedispatch twoLP twoBLPA 0 1 { twoT with TRNSFR := fun _ => 0, CAPREQ := ![300, 700] } (twoW 300) =
    .ok (out, w') ∧ ByNeed twoT.SYSCON ![300, 700] out.SADJ := by
  obtain ⟨o, w', h, hJ, -⟩ := vis_ok (J := 1) (F := [300]) (S := [0, 100])
    (r := transm noRedispatch twoLP twoBLPA 0 1 { twoT with TRNSFR := fun _ => 0, CAPREQ := ![300, 700] } (twoW 300))
    (by decide +kernel)
  exact ⟨o, w', h, (C111_evaluation (k := fun _ => 1) two_grid (.inl (by decide)) (fun _ => rfl) (by intro h; cases h)
    (fun _ => by simp [twoT]) h (by rw [hJ]; decide)).1 (by decide)⟩

/-! ### The linear programs -/

/-- `C55_feasible`, `C55_complete`, `C55_sound`, `C92_no_worse`, `connls_unit` and `conls_unit` apply to `duoX`. -/
example : ∃ y, Spec.LpFeasible (connlsProb duoX).A (connlsRhs duoX) y ∧ (∃ θ p : Fin 2 → ℚ,
    IsDispatch duoX.LP (fun _ => -100) (fun _ => 50) (fun _ => 50) 0 ![1000, 1000] ![1000, 1000] duoX.INJB θ p ∧
    Spec.lpCost ((connlsProb duoX).XOBI 1) y = ∑ a, unserved duoX.INJB p a) := by
  obtain ⟨y, hy, ha, _⟩ := C55_complete duo_ok _ _ (C55_feasible duo_ok.toLpShape)
  obtain ⟨θ, p, _, _, hd, hc⟩ := C55_sound duo_ok y hy ha
  exact ⟨y, hy, θ, p, hd, hc⟩

example : ∃ g s : Fin 2 → ℚ, IsSharing duoX.LP (fun _ => -100) (fun _ => 50) (fun _ => 50) 0 ![1000, 1000] ![1000, 1000]
    duoX.LOD (fun a => duoX.LOD a + duoX.INJB a) (fun _ => 0) g s ∧ ∑ a, s a = ∑ a, unserved duoX.INJB (fun _ => 0) a :=
  C92_no_worse share_ok (C55_feasible duo_ok.toLpShape) (by funext a; fin_cases a <;> rfl)

example : (connlsProb duoX).A 2 (connlsBasis 1 1 3) = 0 ∧ (conlsProb duoX).A 2 (conlsBasis 1 1 2) = 1 :=
  ⟨connls_unit duo_ok.toLpShape 2 3, conls_unit share_ok 2 2⟩

/-- `C42_net` and `C42_versions`: a basis of three different columns out of eight. -/
example : net (fun i => 10 * i) (![6, 2, 4] : Fin 3 → Fin 8) ![1, 2, 3] 8 2 = 2 ∧
    net (fun i => 10 * i) (![6, 2, 4] : Fin 3 → Fin 8) ![1, 2, 3] 8 6 = 9 := by
  have hi : Function.Injective (![6, 2, 4] : Fin 3 → Fin 8) := by decide
  obtain ⟨h1, _, h3⟩ := C42_net (fun i => 10 * i) (![6, 2, 4] : Fin 3 → Fin 8) ![1, 2, 3] hi 8 (by decide)
  refine ⟨(h1 2 (by decide)).trans (by decide +kernel), ?_⟩
  have := h3 1 (by decide) (by decide)
  refine this.trans (by decide +kernel)

/-! ### The random numbers -/

/-- `C105_unit_frequency`: 1 % derated, 4 % out. -/
example {K : ℕ} (hK : K = 8388608) :
    AsOftenAs (howOften 0 K fun j => unitState (1/100) (4/100) (number (stream 123456 3 j)) = .out) K (4/100) 2 :=
  (C105_unit_frequency 3 0 (dfor := 1/100) (fout := 4/100) (by norm_num) (by norm_num) (by norm_num) hK).2.2

/-- `C73_no_repeat_partial`. -/
example : stream 123456 3 (5 + 1000) ≠ stream 123456 3 5 :=
  C73_no_repeat_partial 3 5 1000 (by norm_num) (by norm_num)

/-! ### The year end -/

/-- `C29_histograms_count_years` and `C29_one_entry_per_year`: two years, with 10 and 4 loss-of-load hours. -/
example : ∃ y, yearRun demoYear [demoEnd 0 10, demoEnd 1 4] (YearSt.init 1 Unit 100 0) = .ok y ∧
    ∑ k, y.hist.HLOLE 0 k = 2 ∧ ∑ k, y.hist.EUES 0 k = 2 := by
  have hk : (yearRun demoYear [demoEnd 0 10, demoEnd 1 4] (YearSt.init 1 Unit 100 0)).map (fun y => y.hist.HLOLE 0 10)
      = .ok 1 := by decide +kernel
  cases h : yearRun demoYear [demoEnd 0 10, demoEnd 1 4] (YearSt.init 1 Unit 100 0) with
  | error e => rw [h] at hk; cases hk
  | ok y =>
    have hw : ∀ e ∈ [demoEnd 0 10, demoEnd 1 4], WholeCnt e.H ∧ WholeCnt e.P := by
      intro e he
      simp only [List.mem_cons, List.not_mem_nil, or_false] at he
      rcases he with rfl | rfl
      · exact ⟨demoCnt_whole 10, demoCnt_whole 2⟩
      · exact ⟨demoCnt_whole 4, demoCnt_whole 2⟩
    have := C29_one_entry_per_year demoYear (by decide) (by decide) _ hw 100 0 y h 0
    exact ⟨y, rfl, by rw [this.1]; norm_num, by rw [this.2.2]; norm_num⟩

/-- `C30_counters_zeroed_partial`: the hourly counters of the first year are zero in the second. -/
example : ∃ r, yearBody demoYear 4 initfl () (fun _ => 0) (demoCnt 10) (demoCnt 2) (YearSt.init 1 Unit 100 0) = .ok r ∧
    (demoCnt 10 : Cnt 1).LOLGP 0 = 10 ∧ r.1.1.LOLGP 0 = 0 := by
  have hk : (yearBody demoYear 4 initfl () (fun _ => 0) (demoCnt 10) (demoCnt 2) (YearSt.init 1 Unit 100 0)).map (fun _ => true)
      = .ok true := by decide +kernel
  cases h : yearBody demoYear 4 initfl () (fun _ => 0) (demoCnt 10) (demoCnt 2) (YearSt.init 1 Unit 100 0) with
  | error e => rw [h] at hk; cases hk
  | ok r => exact ⟨r, rfl, by decide +kernel, ((C30_counters_zeroed_partial h).1 0 (by decide)).1.2.1⟩

/-! ### The cards -/

/-- `C64_limits_run`, `C69_capacity_partial`, `C62_plan_partial`, `setup_cap`, `C64_units`, `C64_required` apply to `scarceCards`;
its run reaches the first hour of week 10. -/
example (sl : ℕ → ℚ → ℚ) (fuel : ℕ) (J : ℤ) : ∃ s, setup sl fuel scarceCards = .ok s ∧
    ∃ (log : List Ev) (st st' : St _) (ev : Ev), Reach s.cfg (s.start J) log st ∧
      step s.cfg st = .ok (.next ev st') ∧
      (∀ j, st.world.h.net.BN.c3 j = (scarceCards.areas j).flowLimit) ∧
      (∃ season : Fin 4, ((season : ℕ) : ℤ) = (seasonOf 1513 + 1) % 4 ∧
        (hourDraw s.hour 63 (fun i => st.RATING.getD i 0) (fun i => st.PLNDST.getD i 0) st.world.h).1.SYSCON 0 =
        ∑ i ∈ unitsIn scarceCards 0, outcome (scarceCards.units i)
          (variate ((hourDraw s.hour 63 (fun i => st.RATING.getD i 0) (fun i => st.PLNDST.getD i 0) st.world.h).2.IGSEED i)) *
          (scarceCards.units i).cap season * (if offInHour (scarceCards.units i) (8760 * 0 + 1513) then 0 else 1)) ∧
      ∃ h0, IsFirstMax (s.hour.HRLOAD 0) 0 8760 h0 := by
  obtain ⟨s, hs, -, -, ⟨log, st, st', ev, hr, hst, hk, ht, -⟩, -⟩ := C70_concrete_refuted sl fuel J
  have hJ : StepOK s.hour.JSTEP := .inl (by rw [C64_step hs]; show (((1 : ℤ)) : ℚ) = 1; norm_num)
  obtain ⟨season, h1, h2⟩ := C69_capacity_partial scarce_one scarce_sensible scarce_lone hs hJ J hr hst hk 0 1513
    (by rw [ht]) (by norm_num) (by norm_num) 63 0
  obtain ⟨h0, hm, -⟩ := setup_cap scarce_one hs (by simp [scarceCards, demoCards]) 0
  exact ⟨s, hs, log, st, st', ev, hr, hst, fun j => (C64_limits_run hs hJ J hr j).1, ⟨season, h1, h2⟩, h0, hm⟩

/-- `C62_plan_partial`: the plan of week 10, when unit 1 is in maintenance. -/
example (sl : ℕ → ℚ → ℚ) (fuel : ℕ) : ∃ s p, setup sl fuel scarceCards = .ok s ∧
    weekPlan s.JPLOUT (9 * 168) [1, 1, 1, 1] = .ok p ∧ p.getD 0 0 = 0 := by
  obtain ⟨s, hs, -⟩ := scarce_ok sl fuel
  obtain ⟨p, hp⟩ := weekPlan_ok (p := [1, 1, 1, 1]) (setup_planOK scarce_one scarce_sensible scarce_lone hs)
    (J := 9 * 168) (by norm_num)
  refine ⟨s, p, hs, hp, ?_⟩
  have h := C62_plan_partial scarce_one scarce_sensible scarce_lone hs (9 * 168) 10 (by norm_num) (by norm_num) (by norm_num)
    _ _ rfl hp 0
  rw [if_pos (by decide +kernel)] at h
  exact h

/-- `C108_units_partial`: at the very start of any two runs of `scarceCards` (seeded differently in `contrl`) the units' numbers agree. -/
example (sl : ℕ → ℚ → ℚ) (fuel : ℕ) (J J' : ℤ) : ∃ s, setup sl fuel scarceCards = .ok s ∧ ∀ i,
    (s.start J').world.h.IGSEED i = (s.start J).world.h.IGSEED i := by
  obtain ⟨s, hs, -⟩ := scarce_ok sl fuel
  exact ⟨s, hs, fun i => C108_units_partial hs hs (.inl rfl) (.inl rfl) le_rfl .start .start rfl i⟩

end Narp.Props
