import Verif.Props.Linp

/-!
# The linear programming solver on runs that stay clear of its tolerances (C41, C87)

The solver treats reduced costs above `-1e-7`, column entries up to `1e-7` and levels below `1e-13` as 0. On a run in
which no number that is not 0 falls into these gaps, it is the exact simplex method: no tolerance is left in what is
proved about its results.
-/

namespace Narp.Props
open Narp Matrix

/-- In no state of the run does a negative reduced cost, a positive column entry or a positive level fall below the
tolerance the solver uses for it. -/
structure Crisp {m q : ℕ} (p : LpProb m q) (IBAS : Fin (m + 1) → Fin q) (b : Fin (m + 1) → ℚ) : Prop where
  cost : ∀ s, LpReach p IBAS b s → ∀ j : Fin q, j.val < p.N1 → 0 ≤ redCost p s j ∨ redCost p s j ≤ -(1 / 10000000)
  column : ∀ s, LpReach p IBAS b s → ∀ j : Fin q, j.val < p.N1 → ∀ i,
    lpColumn p s j i ≤ 0 ∨ 1 / 10000000 < lpColumn p s j i
  level : ∀ s, LpReach p IBAS b s → ∀ i, s.BS i ≤ 0 ∨ 1 / 10000000000000 ≤ s.BS i

/-- The costs are bounded below on the solutions, in both phases. -/
def LpBounded {m q : ℕ} (p : LpProb m q) (b : Fin (m + 1) → ℚ) : Prop :=
  (∃ B, ∀ y, Spec.LpFeasible p.A b y → B ≤ Spec.lpCost (p.XOBI 0) y) ∧
  ∃ B, ∀ y, Spec.LpFeasible p.A b y →
    B ≤ Spec.lpCost (fun j => if j.val < p.N1 then p.XOBI 1 j else p.XOBI 0 j) y

/-- Costs that are not negative are bounded. -/
theorem lpBounded_of_nonneg {m q : ℕ} {p : LpProb m q} (b : Fin (m + 1) → ℚ) (h0 : ∀ j, 0 ≤ p.XOBI 0 j)
    (h1 : ∀ j, 0 ≤ p.XOBI 1 j) : LpBounded p b := by
  refine ⟨⟨0, fun y hy => ?_⟩, 0, fun y hy => ?_⟩
  · exact Finset.sum_nonneg fun j _ => mul_nonneg (h0 j) (hy.2 j)
  · refine Finset.sum_nonneg fun j _ => mul_nonneg ?_ (hy.2 j)
    dsimp only
    split
    · exact h1 j
    · exact h0 j

/-- Going along a column: the rows stay satisfied. -/
theorem ray_rows {m q : ℕ} (p : LpProb m q) (b : Fin (m + 1) → ℚ) (s : LpSt m q) (h : LpInv p b s) (j : Fin q) (u : ℚ) :
    p.A *ᵥ (fun c => Spec.basicSol s.IBAS (fun k => s.BS k - u * lpColumn p s j k) c + if c = j then u else 0) = b := by
  have h2 : basisOf p s.IBAS * s.TAB = 1 := mul_eq_one_comm.1 h.inv
  have h3 : basisOf p s.IBAS *ᵥ (fun k => s.BS k - u * lpColumn p s j k) = b - u • fun r => p.A r j := by
    have e1 : (fun k => s.BS k - u * lpColumn p s j k) = s.TAB *ᵥ b - u • (s.TAB *ᵥ fun r => p.A r j) := by
      funext k
      rw [h.bs]; rfl
    rw [e1, Matrix.mulVec_sub, Matrix.mulVec_smul, Matrix.mulVec_mulVec, Matrix.mulVec_mulVec, h2, Matrix.one_mulVec,
      Matrix.one_mulVec]
  funext r
  have h4 : (p.A *ᵥ Spec.basicSol s.IBAS (fun k => s.BS k - u * lpColumn p s j k)) r =
      (b - u • fun r => p.A r j) r := by
    rw [← h3]; exact basic_cost (fun c => p.A r c) s.IBAS _
  have h5 : (p.A *ᵥ fun c => if c = j then u else 0) r = p.A r j * u := by
    change ∑ c, p.A r c * (if c = j then u else 0) = _
    simp
  have e : (fun c => Spec.basicSol s.IBAS (fun k => s.BS k - u * lpColumn p s j k) c + if c = j then u else 0) =
      Spec.basicSol s.IBAS (fun k => s.BS k - u * lpColumn p s j k) + fun c => if c = j then u else 0 := rfl
  rw [e, Matrix.mulVec_add, Pi.add_apply, h4, h5, Pi.sub_apply, Pi.smul_apply, smul_eq_mul]
  ring

theorem basicSol_nonneg {m q : ℕ} {col : Fin m → Fin q} {val : Fin m → ℚ} (h : ∀ k, 0 ≤ val k) (j : Fin q) :
    0 ≤ Spec.basicSol col val j :=
  Finset.sum_nonneg fun k _ => by split; exacts [h k, le_rfl]

/-- If the entering column has no positive entry the costs are not bounded. -/
theorem entry_exists {m q : ℕ} (p : LpProb m q) (b : Fin (m + 1) → ℚ) (s : LpSt m q) (h : LpInv p b s)
    (hbd : LpBounded p b) (h0 : ∀ i, 0 ≤ s.BS i) (j : Fin q) (hj : redCost p s j < 0) :
    ∃ i, 0 < lpColumn p s j i := by
  by_contra hne
  push Not at hne
  have hB : ∃ B, ∀ y, Spec.LpFeasible p.A b y → B ≤ Spec.lpCost s.XOB y := by
    rcases h.phase with ⟨_, e⟩ | ⟨_, e⟩
    · rw [e]; exact hbd.1
    · rw [e]; exact hbd.2
  obtain ⟨B, hB⟩ := hB
  let V := Spec.lpCost s.XOB (Spec.basicSol s.IBAS s.BS)
  let u : ℚ := max 0 ((V - B + 1) / (-redCost p s j))
  have hu0 : 0 ≤ u := le_max_left _ _
  let y : Fin q → ℚ := fun c => Spec.basicSol s.IBAS (fun k => s.BS k - u * lpColumn p s j k) c + if c = j then u else 0
  have hy : p.A *ᵥ y = b := ray_rows p b s h j u
  have hyn : ∀ c, 0 ≤ y c := by
    intro c
    refine add_nonneg (basicSol_nonneg (fun k => ?_) c) ?_
    · have := mul_nonneg hu0 (neg_nonneg.2 (hne k))
      have := h0 k
      linarith
    · split
      · exact hu0
      · exact le_rfl
  have hc := lp_cost_diff p b s h y hy
  have hs : ∑ c, redCost p s c * y c = redCost p s j * u := by
    have e1 : ∀ c, redCost p s c * y c =
        redCost p s c * Spec.basicSol s.IBAS (fun k => s.BS k - u * lpColumn p s j k) c +
          redCost p s c * (if c = j then u else 0) := fun c => by ring
    rw [Finset.sum_congr rfl fun c _ => e1 c, Finset.sum_add_distrib]
    have e2 : ∑ c, redCost p s c * Spec.basicSol s.IBAS (fun k => s.BS k - u * lpColumn p s j k) c =
        ∑ k, redCost p s (s.IBAS k) * (s.BS k - u * lpColumn p s j k) := basic_cost _ _ _
    rw [e2, Finset.sum_eq_zero fun k _ => by rw [redCost_basic p b s h, zero_mul], zero_add]
    simp
  have hlow := hB y ⟨hy, hyn⟩
  have hge : (V - B + 1) / (-redCost p s j) ≤ u := le_max_right _ _
  have hneg : 0 < -redCost p s j := by linarith
  rw [div_le_iff₀ hneg] at hge
  have : Spec.lpCost s.XOB y = V + redCost p s j * u := by rw [hc, hs]
  linarith

theorem crisp_step {m q : ℕ} {p : LpProb m q} {IBAS : Fin (m + 1) → Fin q} {b : Fin (m + 1) → ℚ}
    (hu : ∀ r k, p.A r (IBAS k) = if r = k then 1 else 0) (hbd : LpBounded p b) (hcr : Crisp p IBAS b) {s : LpSt m q}
    (hr : LpReach p IBAS b s) (h0 : ∀ i, 0 ≤ s.BS i) {IND : Fin q} (hN : IND.val < p.N1) (hc : redCost p s IND < 0)
    {r : Fin (m + 1)} (hrt : lpRatio s (lpColumn p s IND) = some r) :
    1 / 10000000 < lpColumn p s IND r ∧ ∀ i, 0 ≤ (lpExchange s (lpColumn p s IND) IND r).BS i := by
  have h := lpReach_inv p IBAS b hu s hr
  have hex : ∃ i, 1 / 10000000 < lpColumn p s IND i := by
    obtain ⟨i, hi⟩ := entry_exists p b s h hbd h0 IND hc
    rcases hcr.column s hr IND hN i with h1 | h1
    · exact absurd hi (not_lt.2 h1)
    · exact ⟨i, h1⟩
  obtain ⟨hPr, hmin⟩ := lpRatio_min s h0 _ r hrt hex
  refine ⟨hPr, fun i => ?_⟩
  have hcol := hcr.column s hr IND hN i
  generalize lpColumn p s IND = P at *
  have hP0 : 0 < P r := by linarith
  have hL : ∀ k, lpLevel s k = s.BS k := by
    intro k; unfold lpLevel
    rcases hcr.level s hr k with hk | hk
    · rw [le_antisymm hk (h0 k)]; split <;> rfl
    · rw [if_pos]; rw [abs_of_nonneg (h0 k)]; exact hk
  rw [exch_BS]
  split
  · exact div_nonneg (h0 r) hP0.le
  · rw [sub_nonneg, div_le_iff₀ hP0]
    rcases hcol with c1 | c2
    · exact le_trans (mul_nonpos_of_nonneg_of_nonpos (h0 r) c1) (mul_nonneg (h0 i) hP0.le)
    · have hm := hmin i c2
      rw [hL, hL, div_le_div_iff₀ hP0 (by linarith)] at hm
      exact hm

theorem crisp_nonneg {m q : ℕ} {p : LpProb m q} {IBAS : Fin (m + 1) → Fin q} {b : Fin (m + 1) → ℚ}
    (hu : ∀ r k, p.A r (IBAS k) = if r = k then 1 else 0) (hb : ∀ i, 0 ≤ b i) (hbd : LpBounded p b)
    (hcr : Crisp p IBAS b) (s : LpSt m q) (hr : LpReach p IBAS b s) : ∀ i, 0 ≤ s.BS i := by
  induction hr with
  | start => exact hb
  | @step s s' hr hs ih =>
    have h := lpReach_inv p IBAS b hu s hr
    rcases lpStep_cases p b s h _ hs with ⟨s'', IND, r, e, g1, g2, g3, g4, g5, g6⟩ | ⟨hn, e⟩
    · cases e
      rw [g6]
      exact (crisp_step hu hbd hcr hr ih g1 g3 g4).2
    · obtain ⟨_, _, _, _, e2, _⟩ := lpPhaseEnd_next p b _ s' (h.withIR 1) e.symm
      rw [e2]
      exact ih

theorem crisp_noEntry {m q : ℕ} {p : LpProb m q} {b : Fin (m + 1) → ℚ} {s : LpSt m q} (h : LpInv p b s)
    (hc : ∀ j : Fin q, j.val < p.N1 → 0 ≤ redCost p s j ∨ redCost p s j ≤ -(1 / 10000000)) (hn : NoEntry p s)
    (j : Fin q) (hj : j.val < p.N1) : 0 ≤ redCost p s j := by
  rcases hc j hj with h1 | h1
  · exact h1
  · exact absurd (noEntry_all p b s h hn j hj) (not_lt.2 h1)

/-- **C41 (feasibility).** On a run that stays clear of the tolerances no level is ever negative. -/
theorem C41_exact_feasible {m q : ℕ} (p : LpProb m q) (IBAS : Fin (m + 1) → Fin q) (b : Fin (m + 1) → ℚ)
    (hu : ∀ r k, p.A r (IBAS k) = if r = k then 1 else 0) (hb : ∀ i, 0 ≤ b i) (hbd : LpBounded p b)
    (hcr : Crisp p IBAS b) (s : LpSt m q) (hr : LpReach p IBAS b s) :
    Spec.LpFeasible p.A b (Spec.basicSol s.IBAS s.BS) :=
  ⟨basic_rows p b s (lpReach_inv p IBAS b hu s hr), basicSol_nonneg (crisp_nonneg hu hb hbd hcr s hr)⟩

theorem ratio_some {m q : ℕ} (s : LpSt m q) (h0 : ∀ i, 0 ≤ s.BS i) (P : Fin (m + 1) → ℚ)
    (hex : ∃ i, 1 / 10000000 < P i) : ∃ r, lpRatio s P = some r := by
  obtain ⟨h1, _⟩ := ratio_fold s h0 P (List.finRange (m + 1)) (none, s.IPIV) (Or.inl rfl)
  obtain ⟨i, hi⟩ := hex
  rcases h1 with ⟨_, h⟩ | ⟨k, hk, e⟩
  · exact absurd hi (not_lt.2 (h i (List.mem_finRange _) rfl))
  · exact ⟨k, by unfold lpRatio; rw [show List.foldl (ratioStep s P) (none, s.IPIV) (List.finRange (m + 1)) = _ from e]⟩

/-- **C41 (no exception).** On such a run the solver never raises. -/
theorem C41_exact_no_error {m q : ℕ} (p : LpProb m q) (IBAS : Fin (m + 1) → Fin q) (b : Fin (m + 1) → ℚ)
    (hu : ∀ r k, p.A r (IBAS k) = if r = k then 1 else 0) (hb : ∀ i, 0 ≤ b i) (hbd : LpBounded p b)
    (hcr : Crisp p IBAS b) (fuel : ℕ) (e : PyErr) : linp p IBAS b fuel ≠ some (.error e) := by
  have one : ∀ s, LpReach p IBAS b s → ∃ t, lpStep p b s = .ok t := by
    intro s hr
    have h := lpReach_inv p IBAS b hu s hr
    have h0 := crisp_nonneg hu hb hbd hcr s hr
    unfold lpStep
    rcases lpScan_spec p s with ⟨h1, h2⟩ | ⟨i, h1, h2, h3, h4, _⟩
    · rw [h1]
      dsimp only
      unfold lpNone
      split
      · exact ⟨_, rfl⟩
      · rw [lpReinvert_eq p b s h]
        dsimp only
        unfold lpRescan
        have : lpScan p { s with IR := 1 } = (0, none) := h1
        rw [this]
        exact ⟨_, rfl⟩
    · rw [h1]
      dsimp only
      rw [if_pos h2]
      have hex : ∃ k, 1 / 10000000 < lpColumn p s i k := by
        obtain ⟨k, hk⟩ := entry_exists p b s h hbd h0 i h2
        rcases hcr.column s hr i h3 k with c | c
        · exact absurd hk (not_lt.2 c)
        · exact ⟨k, c⟩
      obtain ⟨r, hrt⟩ := ratio_some s h0 _ hex
      have hP := (crisp_step hu hbd hcr hr h0 h3 h2 hrt).1
      unfold lpPivot
      dsimp only
      rw [hrt]
      dsimp only
      rw [if_neg (by intro h0; rw [h0] at hP; norm_num at hP)]
      exact ⟨_, rfl⟩
  have loop : ∀ fuel s, LpReach p IBAS b s → lpLoop p b fuel s ≠ some (.error e) := by
    intro fuel
    induction fuel with
    | zero => intro s _ h; cases h
    | succ f ih =>
      intro s hr hh
      obtain ⟨t, ht⟩ := one s hr
      unfold lpLoop at hh
      rw [ht] at hh
      cases t with
      | exit t => cases hh
      | next t => exact ih t (.step hr ht) hh
  exact loop fuel _ .start

/-- **C41 (optimality).** On such a run the result is a solution, and no solution without artificial columns is
cheaper. -/
theorem C41_exact_optimal {m q : ℕ} (p : LpProb m q) (IBAS : Fin (m + 1) → Fin q) (b : Fin (m + 1) → ℚ)
    (hu : ∀ r k, p.A r (IBAS k) = if r = k then 1 else 0) (hb : ∀ i, 0 ≤ b i) (hbd : LpBounded p b)
    (hcr : Crisp p IBAS b) (fuel : ℕ) (t : LpSt m q) (ht : linp p IBAS b fuel = some (.ok t)) :
    Spec.LpFeasible p.A b (Spec.basicSol t.IBAS t.BS) ∧
    ∀ y, Spec.LpFeasible p.A b y → (∀ j : Fin q, p.N1 ≤ j.val → y j = 0) →
      Spec.lpCost (fun j => if j.val < p.N1 then p.XOBI 1 j else p.XOBI 0 j) (Spec.basicSol t.IBAS t.BS) ≤
        Spec.lpCost (p.XOBI 1) y := by
  obtain ⟨s, hs, he⟩ := lpLoop_reach p IBAS b fuel _ t .start ht
  have h := lpReach_inv p IBAS b hu s hs
  rcases lpStep_cases p b s h _ he with ⟨s'', IND, r, e, _⟩ | ⟨hn, e⟩
  · cases e
  unfold lpPhaseEnd at e
  split at e
  swap
  · cases e
  rename_i hph
  cases e
  refine ⟨C41_exact_feasible p IBAS b hu hb hbd hcr s hs, fun y hy h0 => ?_⟩
  have hX : s.XOB = cost2 p := by
    rcases h.phase with ⟨e, _⟩ | ⟨_, e⟩
    · change s.IPH = 2 at hph; rw [hph] at e; exact absurd e (by norm_num)
    · exact e
  have e1 := lp_cost_diff p b s h y hy.1
  have e2 : 0 ≤ ∑ j, redCost p s j * y j := by
    refine Finset.sum_nonneg fun j _ => ?_
    by_cases hj : j.val < p.N1
    · exact mul_nonneg (crisp_noEntry h (hcr.cost s hs) hn j hj) (hy.2 j)
    · rw [h0 j (not_lt.1 hj), mul_zero]
  have e3 : Spec.lpCost (p.XOBI 1) y = Spec.lpCost (cost2 p) y := by
    refine lpCost_congr fun j hj => ?_
    unfold cost2
    by_cases hj' : j.val < p.N1
    · rw [if_pos hj']
    · exact absurd (h0 j (not_lt.1 hj')) hj
  rw [hX] at e1
  rw [e3, e1]
  change Spec.lpCost (cost2 p) _ ≤ _
  linarith

/-- The costs of phase 1: 0 for the columns of the program, positive for the artificial ones. -/
def Phase1Costs {m q : ℕ} (p : LpProb m q) : Prop :=
  ∀ j : Fin q, if j.val < p.N1 then p.XOBI 0 j = 0 else 0 < p.XOBI 0 j

/-- The program has a solution in which all its columns are positive and the artificial ones 0. -/
def Slater {m q : ℕ} (p : LpProb m q) (b : Fin (m + 1) → ℚ) : Prop :=
  ∃ y : Fin q → ℚ, p.A *ᵥ y = b ∧ ∀ j, if j.val < p.N1 then 0 < y j else y j = 0

/-- No combination of the rows vanishes on the columns of the program. -/
def RealRank {m q : ℕ} (p : LpProb m q) : Prop :=
  ∀ π : Fin (m + 1) → ℚ, (∀ j : Fin q, j.val < p.N1 → π ⬝ᵥ (fun r => p.A r j) = 0) → π = 0

/-- At the end of phase 1 no artificial column is in the basis. -/
theorem phase1_clean {m q : ℕ} {p : LpProb m q} {IBAS : Fin (m + 1) → Fin q} {b : Fin (m + 1) → ℚ}
    (hu : ∀ r k, p.A r (IBAS k) = if r = k then 1 else 0) (hb : ∀ i, 0 ≤ b i) (hbd : LpBounded p b)
    (hcr : Crisp p IBAS b) (hc : Phase1Costs p) (hsl : Slater p b) (hrk : RealRank p) {s : LpSt m q}
    (hr : LpReach p IBAS b s) (h1 : s.IPH = 1) (hn : NoEntry p s) (k : Fin (m + 1)) : (s.IBAS k).val < p.N1 := by
  have h := lpReach_inv p IBAS b hu s hr
  have h0 := crisp_nonneg hu hb hbd hcr s hr
  have hX : s.XOB = p.XOBI 0 := by
    rcases h.phase with ⟨_, e⟩ | ⟨e, _⟩
    · exact e
    · rw [h1] at e; exact absurd e (by norm_num)
  obtain ⟨y, hy, hyp⟩ := hsl
  have hy0 : ∀ j, 0 ≤ y j := by
    intro j; have := hyp j
    split at this
    · exact this.le
    · exact this.ge
  have hXn : ∀ j, 0 ≤ s.XOB j := by
    intro j; rw [hX]; have := hc j
    split at this
    · exact this.ge
    · exact this.le
  have hcy : Spec.lpCost s.XOB y = 0 := by
    refine Finset.sum_eq_zero fun j _ => ?_
    have h2 := hyp j
    have h3 := hc j
    rw [hX]
    by_cases hj : j.val < p.N1
    · rw [if_pos hj] at h3; rw [h3, zero_mul]
    · rw [if_neg hj] at h2; rw [h2, mul_zero]
  have hcb : 0 ≤ Spec.lpCost s.XOB (Spec.basicSol s.IBAS s.BS) :=
    Finset.sum_nonneg fun j _ => mul_nonneg (hXn j) (basicSol_nonneg h0 j)
  have hnn : ∀ j, 0 ≤ redCost p s j * y j := by
    intro j
    by_cases hj : j.val < p.N1
    · exact mul_nonneg (crisp_noEntry h (hcr.cost s hr) hn j hj) (hy0 j)
    · have := hyp j
      rw [if_neg hj] at this; rw [this, mul_zero]
  have e1 := lp_cost_diff p b s h y hy
  rw [hcy] at e1
  have hsum : ∑ j, redCost p s j * y j = 0 := by
    have := Finset.sum_nonneg fun j (_ : j ∈ Finset.univ) => hnn j
    linarith
  have hz : ∀ j : Fin q, j.val < p.N1 → redCost p s j = 0 := by
    intro j hj
    have := (Finset.sum_eq_zero_iff_of_nonneg fun j _ => hnn j).1 hsum j (Finset.mem_univ _)
    have hp := hyp j
    rw [if_pos hj] at hp
    exact (mul_eq_zero.1 this).resolve_right hp.ne'
  have hpi := hrk (s.CB ᵥ* s.TAB) (fun j hj => by
    have e := hz j hj
    have h3 := hc j
    rw [if_pos hj] at h3
    unfold redCost at e
    rw [hX, h3] at e
    linarith)
  have hCB : s.CB k = 0 := by
    have : ((s.CB ᵥ* s.TAB) ⬝ᵥ fun r => p.A r (s.IBAS k)) = s.CB k := by
      change ((s.CB ᵥ* s.TAB) ᵥ* basisOf p s.IBAS) k = _
      rw [Matrix.vecMul_vecMul, h.inv, Matrix.vecMul_one]
    rw [← this, hpi, zero_dotProduct]
  by_contra hk
  have h3 := hc (s.IBAS k)
  rw [if_neg hk, ← hX] at h3
  rw [h.cb] at hCB
  dsimp only at hCB
  linarith

/-- In phase 2 no artificial column is in the basis. -/
theorem phase2_clean {m q : ℕ} {p : LpProb m q} {IBAS : Fin (m + 1) → Fin q} {b : Fin (m + 1) → ℚ}
    (hu : ∀ r k, p.A r (IBAS k) = if r = k then 1 else 0) (hb : ∀ i, 0 ≤ b i) (hbd : LpBounded p b)
    (hcr : Crisp p IBAS b) (hc : Phase1Costs p) (hsl : Slater p b) (hrk : RealRank p) {s : LpSt m q}
    (hr : LpReach p IBAS b s) : s.IPH = 2 → ∀ k : Fin (m + 1), (s.IBAS k).val < p.N1 := by
  induction hr with
  | start => intro h; cases h
  | @step s s' hr hs ih =>
    intro h2 k
    have h := lpReach_inv p IBAS b hu s hr
    rcases lpStep_cases p b s h _ hs with ⟨s'', IND, r, e, g1, g2, g3, g4, g5, g6⟩ | ⟨hn, e⟩
    · cases e
      have hp : s'.IPH = s.IPH := by rw [g6]; rfl
      have eI : s'.IBAS = Function.update s.IBAS r IND := by rw [g6]; rfl
      rw [eI]
      by_cases hk : k = r
      · subst hk; rw [Function.update_self]; exact g1
      · rw [Function.update_of_ne hk]; exact ih (hp ▸ h2) k
    · obtain ⟨_, e0, _, e1, _, _⟩ := lpPhaseEnd_next p b _ s' (h.withIR 1) e.symm
      rw [e1]
      exact phase1_clean hu hb hbd hcr hc hsl hrk hr e0 hn k

/-- **C41 (exact).** On a run that stays clear of the tolerances, for a program with a positive solution and
independent rows, the result is a solution without artificial columns, and a cheapest one. -/
theorem C41_exact {m q : ℕ} (p : LpProb m q) (IBAS : Fin (m + 1) → Fin q) (b : Fin (m + 1) → ℚ)
    (hu : ∀ r k, p.A r (IBAS k) = if r = k then 1 else 0) (hb : ∀ i, 0 ≤ b i) (hbd : LpBounded p b)
    (hcr : Crisp p IBAS b) (hc : Phase1Costs p) (hsl : Slater p b) (hrk : RealRank p) (fuel : ℕ) (t : LpSt m q)
    (ht : linp p IBAS b fuel = some (.ok t)) :
    Spec.LpFeasible p.A b (Spec.basicSol t.IBAS t.BS) ∧
    (∀ j : Fin q, p.N1 ≤ j.val → Spec.basicSol t.IBAS t.BS j = 0) ∧
    (∀ k, (t.IBAS k).val < p.N1) ∧ (∀ k, 0 ≤ t.BS k) ∧
    ∀ y, Spec.LpFeasible p.A b y → (∀ j : Fin q, p.N1 ≤ j.val → y j = 0) →
      Spec.lpCost (p.XOBI 1) (Spec.basicSol t.IBAS t.BS) ≤ Spec.lpCost (p.XOBI 1) y := by
  obtain ⟨h1, h2⟩ := C41_exact_optimal p IBAS b hu hb hbd hcr fuel t ht
  obtain ⟨s, hs, he⟩ := lpLoop_reach p IBAS b fuel _ t .start ht
  have h := lpReach_inv p IBAS b hu s hs
  have hst : t = { s with IR := 1 } ∧ s.IPH = 2 := by
    rcases lpStep_cases p b s h _ he with ⟨s'', IND, r, e, _⟩ | ⟨hn, e⟩
    · cases e
    · unfold lpPhaseEnd at e
      split at e
      · rename_i hp; cases e; exact ⟨rfl, hp⟩
      · cases e
  obtain ⟨rfl, hp⟩ := hst
  have hreal := phase2_clean hu hb hbd hcr hc hsl hrk hs hp
  have hart : ∀ j : Fin q, p.N1 ≤ j.val → Spec.basicSol s.IBAS s.BS j = 0 := by
    intro j hj
    refine Finset.sum_eq_zero fun k _ => ?_
    split
    · rename_i e; have := hreal k; rw [e] at this; omega
    · rfl
  refine ⟨h1, hart, hreal, crisp_nonneg hu hb hbd hcr s hs, fun y hy hy0 => ?_⟩
  have := h2 y hy hy0
  refine le_trans (le_of_eq ?_) this
  refine lpCost_congr fun j hj => ?_
  by_cases hj' : j.val < p.N1
  · rw [if_pos hj']
  · exact absurd (hart j (not_lt.1 hj')) hj

/-! ### A condition on the data alone -/

/-- `u` is a whole number. -/
def Whole (u : ℚ) : Prop := ∃ z : ℤ, (z : ℚ) = u

theorem Whole.add {u v : ℚ} (hu : Whole u) (hv : Whole v) : Whole (u + v) := by
  obtain ⟨a, rfl⟩ := hu; obtain ⟨c, rfl⟩ := hv; exact ⟨a + c, by push_cast; ring⟩

theorem Whole.sub {u v : ℚ} (hu : Whole u) (hv : Whole v) : Whole (u - v) := by
  obtain ⟨a, rfl⟩ := hu; obtain ⟨c, rfl⟩ := hv; exact ⟨a - c, by push_cast; ring⟩

theorem Whole.mul {u v : ℚ} (hu : Whole u) (hv : Whole v) : Whole (u * v) := by
  obtain ⟨a, rfl⟩ := hu; obtain ⟨c, rfl⟩ := hv; exact ⟨a * c, by push_cast; ring⟩

theorem Whole.sum {ι : Type} (s : Finset ι) {f : ι → ℚ} (h : ∀ i, Whole (f i)) : Whole (∑ i ∈ s, f i) := by
  choose g hg using h
  exact ⟨∑ i ∈ s, g i, by push_cast; exact Finset.sum_congr rfl fun i _ => hg i⟩

/-- All coefficients are whole numbers, and so are right hand side and costs. -/
structure WholeData {m q : ℕ} (p : LpProb m q) (b : Fin (m + 1) → ℚ) : Prop where
  A : ∀ r j, Whole (p.A r j)
  b : ∀ r, Whole (b r)
  c : ∀ k j, Whole (p.XOBI k j)

/-- Every determinant of `m + 1` columns is less than `10^7`. -/
def SmallMinors {m q : ℕ} (p : LpProb m q) : Prop := ∀ I : Fin (m + 1) → Fin q, |(basisOf p I).det| < 10000000

theorem det_whole {n : ℕ} {B : SqM n} (h : ∀ i j, Whole (B i j)) :
    Whole B.det ∧ ∀ i j, Whole (B.adjugate i j) := by
  choose B' hB using h
  have e : B = (Matrix.of B').map (Int.castRingHom ℚ) := by
    ext i j; exact (hB i j).symm
  constructor
  · refine ⟨(Matrix.of B').det, ?_⟩
    rw [e]
    exact RingHom.map_det (Int.castRingHom ℚ) (Matrix.of B')
  · intro i j
    refine ⟨(Matrix.of B').adjugate i j, ?_⟩
    have := RingHom.map_adjugate (Int.castRingHom ℚ) (Matrix.of B')
    have h2 := congrFun (congrFun this i) j
    rw [e]
    exact h2

theorem gap_of_whole {u d : ℚ} (hd : d ≠ 0) (hs : |d| < 10000000) (h : Whole (u * d)) : u = 0 ∨ 1 / 10000000 < |u| := by
  obtain ⟨z, hz⟩ := h
  by_cases h0 : z = 0
  · left
    rw [h0, Int.cast_zero] at hz
    exact (mul_eq_zero.1 hz.symm).resolve_right hd
  · right
    have h1 : (1 : ℚ) ≤ |u| * |d| := by
      rw [← abs_mul, ← hz]
      have : 1 ≤ |z| := Int.one_le_abs h0
      exact_mod_cast this
    have hu : 0 < |u| := by
      rcases (abs_nonneg u).eq_or_lt with e | e
      · rw [← e, zero_mul] at h1; exact absurd h1 (by norm_num)
      · exact e
    have : |u| * |d| < |u| * 10000000 := mul_lt_mul_of_pos_left hs hu
    linarith

/-- **C41 (data).** Whole numbers whose determinants stay below `10^7` keep the solver clear of its tolerances. -/
theorem C41_crisp_whole {m q : ℕ} (p : LpProb m q) (IBAS : Fin (m + 1) → Fin q) (b : Fin (m + 1) → ℚ)
    (hu : ∀ r k, p.A r (IBAS k) = if r = k then 1 else 0) (hw : WholeData p b) (hm : SmallMinors p) :
    Crisp p IBAS b := by
  have key : ∀ s, LpReach p IBAS b s → ∃ d : ℚ, d ≠ 0 ∧ |d| < 10000000 ∧ Whole d ∧
      (∀ i j, Whole (s.TAB i j * d)) ∧ (∀ j, Whole (s.XOB j)) ∧ LpInv p b s := by
    intro s hr
    have h := lpReach_inv p IBAS b hu s hr
    have hB : ∀ i k, Whole (basisOf p s.IBAS i k) := fun i k => hw.A i _
    obtain ⟨hd, ha⟩ := det_whole hB
    refine ⟨(basisOf p s.IBAS).det, ?_, hm _, hd, fun i j => ?_, fun j => ?_, h⟩
    · intro h0
      have := congrArg Matrix.det h.inv
      rw [Matrix.det_mul, h0, mul_zero, Matrix.det_one] at this
      exact absurd this (by norm_num)
    · have e : (basisOf p s.IBAS).adjugate = (basisOf p s.IBAS).det • s.TAB := by
        calc (basisOf p s.IBAS).adjugate = (s.TAB * basisOf p s.IBAS) * (basisOf p s.IBAS).adjugate := by
              rw [h.inv, Matrix.one_mul]
          _ = (basisOf p s.IBAS).det • s.TAB := by
              rw [Matrix.mul_assoc, Matrix.mul_adjugate, Matrix.mul_smul, Matrix.mul_one]
      have := ha i j
      rw [e] at this
      change Whole ((basisOf p s.IBAS).det * s.TAB i j) at this
      rw [mul_comm]; exact this
    · rcases h.phase with ⟨_, e⟩ | ⟨_, e⟩
      · rw [e]; exact hw.c 0 j
      · rw [e]; unfold cost2; split
        · exact hw.c 1 j
        · exact hw.c 0 j
  refine ⟨fun s hr j _ => ?_, fun s hr j _ i => ?_, fun s hr i => ?_⟩
  · obtain ⟨d, hd, hs, hdw, ht, hx, h⟩ := key s hr
    have hw' : Whole (redCost p s j * d) := by
      unfold redCost
      rw [sub_mul]
      refine (hx j).mul hdw |>.sub ?_
      change Whole ((∑ r, (∑ k, s.CB k * s.TAB k r) * p.A r j) * d)
      rw [Finset.sum_mul]
      refine Whole.sum _ fun r => ?_
      have : (∑ k, s.CB k * s.TAB k r) * p.A r j * d = (∑ k, s.CB k * (s.TAB k r * d)) * p.A r j := by
        rw [mul_right_comm, Finset.sum_mul]
        congr 1
        exact Finset.sum_congr rfl fun k _ => by ring
      rw [this]
      refine (Whole.sum _ fun k => ?_).mul (hw.A r j)
      rw [h.cb]
      exact (hx _).mul (ht k r)
    rcases gap_of_whole hd hs hw' with h0 | h0
    · exact Or.inl h0.ge
    · rcases le_or_gt 0 (redCost p s j) with h1 | h1
      · exact Or.inl h1
      · rw [abs_of_neg h1] at h0
        exact Or.inr (by linarith)
  · obtain ⟨d, hd, hs, hdw, ht, hx, h⟩ := key s hr
    have hw' : Whole (lpColumn p s j i * d) := by
      change Whole ((∑ r, s.TAB i r * p.A r j) * d)
      rw [Finset.sum_mul]
      refine Whole.sum _ fun r => ?_
      rw [mul_right_comm]
      exact (ht i r).mul (hw.A r j)
    rcases gap_of_whole hd hs hw' with h0 | h0
    · exact Or.inl h0.le
    · rcases le_or_gt (lpColumn p s j i) 0 with h1 | h1
      · exact Or.inl h1
      · rw [abs_of_pos h1] at h0
        exact Or.inr h0
  · obtain ⟨d, hd, hs, hdw, ht, hx, h⟩ := key s hr
    have hw' : Whole (s.BS i * d) := by
      rw [h.bs]
      change Whole ((∑ r, s.TAB i r * b r) * d)
      rw [Finset.sum_mul]
      refine Whole.sum _ fun r => ?_
      rw [mul_right_comm]
      exact (ht i r).mul (hw.b r)
    rcases gap_of_whole hd hs hw' with h0 | h0
    · exact Or.inl h0.le
    · rcases le_or_gt (s.BS i) 0 with h1 | h1
      · exact Or.inl h1
      · rw [abs_of_pos h1] at h0
        exact Or.inr (by linarith)

/-- No basic solution has a level of 0. -/
def NonDegenerate {m q : ℕ} (p : LpProb m q) (b : Fin (m + 1) → ℚ) : Prop :=
  ∀ I : Fin (m + 1) → Fin q, ∀ T : SqM (m + 1), T * basisOf p I = 1 → ∀ i, (T *ᵥ b) i ≠ 0

/-- **C41, C87 (total correctness).** For every program with whole coefficients, determinants below `10^7`, bounded
costs and no degenerate basic solution, the solver terminates, raises no exception, and returns a solution than which
no solution without artificial columns is cheaper. All hypotheses are on the data. -/
theorem C41_total {m q : ℕ} (p : LpProb m q) (IBAS : Fin (m + 1) → Fin q) (b : Fin (m + 1) → ℚ)
    (hu : ∀ r k, p.A r (IBAS k) = if r = k then 1 else 0) (hb : ∀ i, 0 ≤ b i) (hbd : LpBounded p b)
    (hw : WholeData p b) (hm : SmallMinors p) (hnd : NonDegenerate p b) :
    ∃ fuel t, linp p IBAS b fuel = some (.ok t) ∧ Spec.LpFeasible p.A b (Spec.basicSol t.IBAS t.BS) ∧
    ∀ y, Spec.LpFeasible p.A b y → (∀ j : Fin q, p.N1 ≤ j.val → y j = 0) →
      Spec.lpCost (fun j => if j.val < p.N1 then p.XOBI 1 j else p.XOBI 0 j) (Spec.basicSol t.IBAS t.BS) ≤
        Spec.lpCost (p.XOBI 1) y := by
  have hcr := C41_crisp_whole p IBAS b hu hw hm
  have hterm := C41_terminates_partial p IBAS b hu (fun s s' hr hs r _ => by
    have h' := lpReach_inv p IBAS b hu s' (.step hr hs)
    have h0 := crisp_nonneg hu hb hbd hcr s' (.step hr hs) r
    refine lt_of_le_of_ne h0 (Ne.symm ?_)
    rw [h'.bs]
    exact hnd _ _ h'.inv r)
  obtain ⟨fuel, hf⟩ := hterm
  cases hl : linp p IBAS b fuel with
  | none => exact absurd hl hf
  | some r =>
    cases r with
    | error e => exact absurd hl (C41_exact_no_error p IBAS b hu hb hbd hcr fuel e)
    | ok t => exact ⟨fuel, t, hl, C41_exact_optimal p IBAS b hu hb hbd hcr fuel t hl⟩

/-! ### Examples -/

theorem whole_ofInt (z : ℤ) : Whole (z : ℚ) := ⟨z, rfl⟩

/-- The hypotheses of `C41_total` are met by the program `lpEx`. -/
example : (∀ r k, lpEx.A r (![0, 1] k) = if r = k then 1 else 0) ∧ (∀ i, (0 : ℚ) ≤ ![3, 4] i) ∧
    LpBounded lpEx ![3, 4] ∧ WholeData lpEx ![3, 4] ∧ SmallMinors lpEx ∧ NonDegenerate lpEx ![3, 4] := by
  refine ⟨by decide +kernel, by decide +kernel, ⟨⟨0, fun y hy => ?_⟩, -2, fun y hy => ?_⟩, ⟨fun r j => ?_, fun r => ?_,
    fun k j => ?_⟩, ?_, ?_⟩
  · unfold Spec.lpCost; simp [lpEx]
  · have h1 := congrFun hy.1 1
    have := hy.2 1
    simp [Matrix.mulVec, dotProduct, lpEx, Fin.sum_univ_succ] at h1
    simp [Spec.lpCost, lpEx, Fin.sum_univ_succ]
    linarith
  · have : ∀ (r : Fin 2) (j : Fin 3), (((lpEx.A r j : ℚ).num : ℤ) : ℚ) - (lpEx.A r j : ℚ) = 0 := by decide +kernel
    exact ⟨_, sub_eq_zero.1 (this r j)⟩
  · have : ∀ r, (![3, 4] : Fin 2 → ℚ) r = (((![3, 4] : Fin 2 → ℚ) r).num : ℚ) := by decide +kernel
    rw [this]; exact whole_ofInt _
  · have : ∀ k j, lpEx.XOBI k j = ((lpEx.XOBI k j).num : ℚ) := by decide +kernel
    rw [this]; exact whole_ofInt _
  · intro I
    rw [Matrix.det_fin_two]
    have : ∀ a c : Fin 3, |lpEx.A 0 a * lpEx.A 1 c - lpEx.A 0 c * lpEx.A 1 a| < 10000000 := by decide +kernel
    exact this (I 0) (I 1)
  · intro I T hT i hi
    have h2 : basisOf lpEx I * T = 1 := mul_eq_one_comm.1 hT
    have h3 : basisOf lpEx I *ᵥ (T *ᵥ ![3, 4]) = ![3, 4] := by rw [Matrix.mulVec_mulVec, h2, Matrix.one_mulVec]
    have r0 := congrFun h3 0
    have r1 := congrFun h3 1
    have e0 : lpEx.A 0 (I 0) * (T *ᵥ ![3, 4]) 0 + lpEx.A 0 (I 1) * (T *ᵥ ![3, 4]) 1 = 3 := by
      rw [← Fin.sum_univ_two fun k => lpEx.A 0 (I k) * (T *ᵥ ![3, 4]) k]; exact r0
    have e1 : lpEx.A 1 (I 0) * (T *ᵥ ![3, 4]) 0 + lpEx.A 1 (I 1) * (T *ᵥ ![3, 4]) 1 = 4 := by
      rw [← Fin.sum_univ_two fun k => lpEx.A 1 (I k) * (T *ᵥ ![3, 4]) k]; exact r1
    -- with one level 0 the other column would be a multiple of the right hand side
    have h4 : ∀ j : Fin 3, lpEx.A 0 j * 4 ≠ lpEx.A 1 j * 3 := by decide +kernel
    fin_cases i
    · rw [show (T *ᵥ ![3, 4]) 0 = 0 from hi] at e0 e1
      refine h4 (I 1) ?_
      have hne : (T *ᵥ ![3, 4]) 1 ≠ 0 := by intro h; rw [h] at e0; norm_num at e0
      refine mul_right_cancel₀ hne ?_
      linarith
    · rw [show (T *ᵥ ![3, 4]) 1 = 0 from hi] at e0 e1
      refine h4 (I 0) ?_
      have hne : (T *ᵥ ![3, 4]) 0 ≠ 0 := by intro h; rw [h] at e0; norm_num at e0
      refine mul_right_cancel₀ hne ?_
      linarith

/-- The hypotheses of `C41_exact` are met by `lpEx1`, where phase 1 has an artificial column to remove. -/
example : ∃ t, linp lpEx1 ![1] ![2] 6 = some (.ok t) ∧ Crisp lpEx1 ![1] ![2] ∧ LpBounded lpEx1 ![2] ∧
    Phase1Costs lpEx1 ∧ Slater lpEx1 ![2] ∧ RealRank lpEx1 := by
  have h : (match linp lpEx1 ![1] ![2] 6 with
      | some (.ok _) => true
      | _ => false) = true := by decide +kernel
  have hu : ∀ r k, lpEx1.A r ((![1] : Fin 1 → Fin 2) k) = if r = k then 1 else 0 := by decide +kernel
  obtain ⟨t, ht⟩ : ∃ t, linp lpEx1 ![1] ![2] 6 = some (.ok t) := by
    split at h
    · rename_i t ht; exact ⟨t, ht⟩
    · cases h
  refine ⟨t, ht, C41_crisp_whole _ _ _ hu ⟨fun r j => ?_, fun r => ?_, fun k j => ?_⟩ ?_, ?_, ?_, ?_, ?_⟩
  · have : ∀ (r : Fin 1) (j : Fin 2), (((lpEx1.A r j : ℚ).num : ℤ) : ℚ) - (lpEx1.A r j : ℚ) = 0 := by decide +kernel
    exact ⟨_, sub_eq_zero.1 (this r j)⟩
  · have : ∀ r, (![2] : Fin 1 → ℚ) r = (((![2] : Fin 1 → ℚ) r).num : ℚ) := by decide +kernel
    rw [this]; exact whole_ofInt _
  · have : ∀ k j, lpEx1.XOBI k j = ((lpEx1.XOBI k j).num : ℚ) := by decide +kernel
    rw [this]; exact whole_ofInt _
  · intro I
    rw [Matrix.det_fin_one]
    have : ∀ a : Fin 2, |lpEx1.A 0 a| < 10000000 := by decide +kernel
    exact this (I 0)
  · exact lpBounded_of_nonneg _ (by decide +kernel) (by decide +kernel)
  · unfold Phase1Costs; decide +kernel
  · exact ⟨![2, 0], by decide +kernel, by decide +kernel⟩
  · intro π hπ
    funext i
    have := hπ 0 (by decide)
    simp [dotProduct, lpEx1] at this
    fin_cases i; exact this

end Narp.Props
