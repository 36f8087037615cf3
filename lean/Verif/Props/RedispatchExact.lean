import Verif.Props.LinpExact
import Verif.Props.RedispatchRun
import Verif.Props.LoadFlow

/-!
# The re-dispatch on runs that stay clear of the solver's tolerances (C56)
-/

namespace Narp.Props
open Narp Spec BigOperators Matrix

variable {n l : ℕ}

/-- The cost of phase 1. -/
theorem connls_phase1 (x : LpIn n l) : Phase1Costs (connlsProb x) := by
  intro j
  change if j.val < lpN1 n l then _ else _
  by_cases hj : j.val < lpN1 n l
  · rw [if_pos hj]
    change (if lpN1 n l ≤ j.val then (1 : ℚ) else 0) = 0
    rw [if_neg (by omega)]
  · rw [if_neg hj]
    change (0 : ℚ) < if lpN1 n l ≤ j.val then 1 else 0
    rw [if_pos (by omega)]; norm_num

theorem connls_bounded (x : LpIn n l) : LpBounded (connlsProb x) (connlsRhs x) := by
  refine lpBounded_of_nonneg _ (fun j => ?_) fun j => ?_
  · change (0 : ℚ) ≤ if lpN1 n l ≤ j.val then 1 else 0
    split <;> norm_num
  · change (0 : ℚ) ≤ if j.val < lpN1 n l then cCost x j.val else 0
    unfold cCost
    split
    · split <;> norm_num
    · norm_num

theorem connls_rhs_nonneg (x : LpIn n l) (i : Fin (4 * n + 3 + 2 * l + 1)) : 0 ≤ connlsRhs x i := abs_nonneg _

/-- The columns other than the artificial ones have full rank. -/
theorem connls_rank {x : LpIn n l} (h : LpShape x) : RealRank (connlsProb x) := by
  intro π hπ
  have hN1 : lpN1 n l = 6 * n + 4 + 2 * l := rfl
  have h1 : ∀ k : Fin (4 * n + 3 + 2 * l + 1), k.val < 3 * n + 3 + 2 * l → π k = 0 := by
    intro k hk
    have := hπ (connlsBasis n l k) (by
      change 3 * n + 1 + k.val < lpN1 n l
      omega)
    have e : (fun r => (connlsProb x).A r (connlsBasis n l k)) = fun r => if r = k then 1 else 0 :=
      funext fun r => connls_unit h r k
    rw [e] at this
    simpa [dotProduct] using this
  funext k
  by_cases hk : k.val < 3 * n + 3 + 2 * l
  · exact h1 k hk
  · have hlt := k.isLt
    have hi : k.val - (3 * n + 3 + 2 * l) < n + 1 := by omega
    have := hπ ⟨2 * n + (k.val - (3 * n + 3 + 2 * l)), by unfold lpN; omega⟩ (by
      change 2 * n + (k.val - (3 * n + 3 + 2 * l)) < lpN1 n l
      omega)
    rw [dotProduct, Finset.sum_eq_single k] at this
    · have hA : (connlsProb x).A k ⟨2 * n + (k.val - (3 * n + 3 + 2 * l)), by unfold lpN; omega⟩ ≠ 0 := by
        change cSigned x (cOrder n l k.val) (2 * n + (k.val - (3 * n + 3 + 2 * l))) ≠ 0
        have hO : cOrder n l k.val = k.val - (3 * n + 3 + 2 * l) := by
          unfold cOrder lpM
          rw [if_neg (by omega)]; omega
        have hA1 : cArea x (k.val - (3 * n + 3 + 2 * l)) (2 * n + (k.val - (3 * n + 3 + 2 * l))) = -1 := by
          unfold cArea
          rw [if_neg (by omega), if_neg (by omega)]
          have := cLine_low h ⟨k.val - (3 * n + 3 + 2 * l), hi⟩ (2 * n + (k.val - (3 * n + 3 + 2 * l)))
          dsimp only at this
          rw [this, if_pos rfl]
          unfold pairF
          rw [if_neg (by omega), zero_add]
        unfold cSigned
        rw [hO, if_neg (by omega), hA1]
        split <;> norm_num
      exact (mul_eq_zero.1 this).resolve_right hA
    · intro r _ hr
      by_cases hr1 : r.val < 3 * n + 3 + 2 * l
      · rw [h1 r hr1, zero_mul]
      · have hrlt := r.isLt
        have hri : r.val - (3 * n + 3 + 2 * l) < n + 1 := by omega
        have hne : r.val ≠ k.val := fun e => hr (Fin.ext e)
        have : (connlsProb x).A r ⟨2 * n + (k.val - (3 * n + 3 + 2 * l)), by unfold lpN; omega⟩ = 0 := by
          change cSigned x (cOrder n l r.val) (2 * n + (k.val - (3 * n + 3 + 2 * l))) = 0
          have hO : cOrder n l r.val = r.val - (3 * n + 3 + 2 * l) := by
            unfold cOrder lpM
            rw [if_neg (by omega)]; omega
          have hA1 : cArea x (r.val - (3 * n + 3 + 2 * l)) (2 * n + (k.val - (3 * n + 3 + 2 * l))) = 0 := by
            unfold cArea
            rw [if_neg (by omega), if_neg (by omega)]
            have := cLine_low h ⟨r.val - (3 * n + 3 + 2 * l), hri⟩ (2 * n + (k.val - (3 * n + 3 + 2 * l)))
            dsimp only at this
            rw [this, if_neg (by omega)]
            unfold pairF
            rw [if_neg (by omega), zero_add]
          unfold cSigned
          rw [hO, if_neg (by omega), hA1, neg_zero, ite_self]
        rw [this, mul_zero]
    · intro hh; exact absurd (Finset.mem_univ _) hh

/-- Both columns of every angle raised by 1. -/
def raised (X : ℕ → ℚ) (n : ℕ) (c : ℕ) : ℚ := X c + if c < 2 * n then 1 else 0

theorem raised_angle (x : LpIn n l) (X : ℕ → ℚ) : lpAngle x (raised X n) = lpAngle x X := by
  unfold lpAngle
  congr 1
  funext j
  have := j.isLt
  unfold raised
  rw [if_pos (by omega), if_pos (by omega)]; ring

theorem raised_off (X : ℕ → ℚ) (c : ℕ) (h : 2 * n ≤ c) : raised X n c = X c := by
  unfold raised; rw [if_neg (by omega), add_zero]

theorem raised_sys {x : LpIn n l} {X : ℕ → ℚ} (h : LpSys x X) : LpSys x (raised X n) := by
  have hf : lpFlow x (raised X n) = lpFlow x X := by unfold lpFlow; rw [raised_angle]
  refine ⟨fun i => ?_, fun i => ?_, fun k => ?_, fun k => ?_, fun i => ?_, fun i => ?_⟩
  · rw [hf, raised_off _ _ (by omega), raised_off _ _ (by unfold lpN1; omega)]; exact h.bal i
  · rw [raised_off _ _ (by omega), raised_off _ _ (by omega)]; exact h.lim i
  · rw [hf, raised_off _ _ (by omega)]; exact h.fwd k
  · rw [hf, raised_off _ _ (by omega)]; exact h.bwd k
  · rw [hf, raised_off _ _ (by omega)]; exact h.exp i
  · rw [hf, raised_off _ _ (by omega)]; exact h.imp i

theorem nth_pos {k : ℕ} {v : Fin k → ℚ} (h : ∀ i, 0 < v i) {i : ℕ} (hi : i < k) : 0 < nth v i := by
  unfold nth; rw [dif_pos hi]; exact h _

/-- A dispatch with room to spare is a solution of the program with all columns positive. -/
theorem connls_slater {x : LpIn n l} (h : LpInOk x) {θ p : Fin (n + 1) → ℚ}
    (hd : IsStrictDispatch x.LP (fun k => (x.BLP k).adm) (fun k => (x.BLP k).fwd) (fun k => (x.BLP k).bwd) x.NR x.BN.c3
      x.BN.c4 x.INJB θ p) : Slater (connlsProb x) (connlsRhs x) := by
  have hX : ∀ c, c < lpN n l → nth (fun j : Fin (lpN n l) => raised (lpVec x θ p) n j.val) c =
      raised (lpVec x θ p) n c := fun c hc => nth_val _ _ hc
  have hX0 : ∀ c, c < lpN n l → nth (fun j : Fin (lpN n l) => lpVec x θ p j.val) c = lpVec x θ p c :=
    fun c hc => nth_val _ _ hc
  have hd' : IsDispatch x.LP (fun k => (x.BLP k).adm) (fun k => (x.BLP k).fwd) (fun k => (x.BLP k).bwd) x.NR x.BN.c3
      x.BN.c4 x.INJB θ p :=
    ⟨hd.ref, hd.balance, fun a => ⟨(hd.range a).1.le, (hd.range a).2.le⟩,
      fun k => ⟨(hd.lines k).1.le, (hd.lines k).2.le⟩, fun a => ⟨(hd.areas a).1.le, (hd.areas a).2.le⟩⟩
  have hN : lpN n l = 7 * n + 5 + 2 * l := rfl
  have hN1 : lpN1 n l = 6 * n + 4 + 2 * l := rfl
  have hang := lpAngle_vec h.toLpShape θ p hd.ref _ hX0
  have hflow0 : lpFlow x (nth fun j : Fin (lpN n l) => lpVec x θ p j.val) =
      dcFlow x.LP (fun i => (x.BLP i).adm) θ := by
    unfold lpFlow; rw [hang]
  have hsys : LpSys x (nth fun j : Fin (lpN n l) => lpVec x θ p j.val) := by
    refine ⟨fun i => ?_, fun i => ?_, fun k => ?_, fun k => ?_, fun i => ?_, fun i => ?_⟩
    · have := i.isLt
      rw [hflow0, hd.balance, hX0 _ (by omega), hX0 _ (by omega), lpVec_z, lpVec_art x θ p _ (by omega)]; ring
    · have := i.isLt
      rw [hX0 _ (by omega), hX0 _ (by omega), lpVec_z, lpVec_w, abs_split]
      ring
    · have := k.isLt
      rw [hflow0, hX0 _ (by omega), lpVec_f]; ring
    · have := k.isLt
      rw [hflow0, hX0 _ (by omega), lpVec_b]; ring
    · have := i.isLt
      rw [hflow0, hd.balance, hX0 _ (by omega), lpVec_e]; ring
    · have := i.isLt
      rw [hflow0, hd.balance, hX0 _ (by omega), lpVec_i]; ring
  have hsys' := raised_sys hsys
  refine ⟨fun j => raised (lpVec x θ p) n j.val, (lp_sys_iff h _).2 ?_, fun j => ?_⟩
  · have e : (nth fun j : Fin (lpN n l) => raised (lpVec x θ p) n j.val) =
        raised (nth fun j : Fin (lpN n l) => lpVec x θ p j.val) n := by
      funext c
      by_cases hc : c < lpN n l
      · rw [hX c hc]; unfold raised; rw [hX0 c hc]
      · unfold raised nth
        rw [dif_neg hc, dif_neg hc, if_neg (by omega), add_zero]
    rw [e]; exact hsys'
  · change if j.val < lpN1 n l then _ else _
    have hjlt := j.isLt
    split
    · rename_i hj
      unfold raised
      dsimp only
      by_cases h2 : j.val < 2 * n
      · rw [if_pos h2]
        have : 0 ≤ lpVec x θ p j.val := by
          unfold lpVec
          rw [if_pos h2]
          split <;> exact le_max_right _ _
        linarith
      · rw [if_neg h2, add_zero]
        unfold lpVec
        rw [if_neg h2]
        split_ifs
        · exact nth_pos (fun i => by have := (hd.range (x.LT i)).1; linarith) (by omega)
        · exact nth_pos (fun i => by have := (hd.range (x.LT i)).2; linarith) (by omega)
        · exact nth_pos (fun k => by have := (hd.lines k).2; linarith) (by omega)
        · exact nth_pos (fun k => by have := (hd.lines k).1; linarith) (by omega)
        · exact nth_pos (fun i => by have := (hd.areas (x.LT i)).2; linarith) (by omega)
        · exact nth_pos (fun i => by have := (hd.areas (x.LT i)).1; linarith) (by omega)
    · rename_i hj
      change raised (lpVec x θ p) n j.val = 0
      rw [raised_off _ _ (by omega)]
      exact lpVec_art x θ p _ (by omega)

/-- Any injections that add up to 0 can be transported, up to scale, with room to spare on every line. -/
theorem strict_exists {LP : Fin l → Fin (n + 1) × Fin (n + 1)} (hp : Proper LP) {b fwd bwd : Fin l → ℚ}
    (hb : SameSign b) {NR : Fin (n + 1)} (hr : Reaches LP NR) {imp exp inj : Fin (n + 1) → ℚ}
    (hf : ∀ i, 0 < fwd i) (hw : ∀ i, 0 < bwd i) (hi : ∀ a, 0 < imp a) (he : ∀ a, 0 < exp a)
    (hz : ∀ a, inj a ≠ 0) (hs : ∃ a, 0 < inj a) (hdf : ∃ a, inj a < 0) :
    ∃ θ p, IsStrictDispatch LP b fwd bwd NR imp exp inj θ p := by
  let P := ∑ a, if 0 < inj a then inj a else 0
  let D := ∑ a, if inj a < 0 then -inj a else 0
  have hP : 0 < P := by
    obtain ⟨a, ha⟩ := hs
    refine Finset.sum_pos' (fun c _ => by split <;> linarith) ⟨a, Finset.mem_univ _, by rw [if_pos ha]; exact ha⟩
  have hD : 0 < D := by
    obtain ⟨a, ha⟩ := hdf
    refine Finset.sum_pos' (fun c _ => by split <;> linarith) ⟨a, Finset.mem_univ _, by rw [if_pos ha]; linarith⟩
  let w : Fin (n + 1) → ℚ := fun a => if 0 < inj a then inj a * D else inj a * P
  have hw0 : ∑ a, w a = 0 := by
    have e : ∀ a, w a = (if 0 < inj a then inj a else 0) * D - (if inj a < 0 then -inj a else 0) * P := by
      intro a
      dsimp only [w]
      rcases lt_or_gt_of_ne (hz a) with h | h
      · rw [if_neg (by linarith), if_neg (by linarith), if_pos h]; ring
      · rw [if_pos h, if_pos h, if_neg (by linarith)]; ring
    rw [Finset.sum_congr rfl fun a _ => e a, Finset.sum_sub_distrib, ← Finset.sum_mul, ← Finset.sum_mul]
    change P * D - D * P = 0
    ring
  -- angles for w
  have hdet := reduced_det_ne hp hb hr
  let v : Fin n → ℚ := (reduced LP b NR)⁻¹ *ᵥ fun i => w (NR.succAbove i)
  have hv : reduced LP b NR *ᵥ v = fun i => w (NR.succAbove i) := by
    rw [Matrix.mulVec_mulVec, Matrix.mul_nonsing_inv _ (isUnit_iff_ne_zero.2 hdet), Matrix.one_mulVec]
  let θ := extend NR v
  have hnet : ∀ a, netOut LP (dcFlow LP b θ) a = w a := by
    have hmain : ∀ i : Fin n, netOut LP (dcFlow LP b θ) (NR.succAbove i) = w (NR.succAbove i) := by
      intro i
      rw [dcFlow_flo, netOut_flo LP hp, ← reduced_mulVec, hv]
    intro a
    rcases Fin.eq_self_or_eq_succAbove NR a with e | ⟨i, e⟩
    · have h1 := sum_netOut LP (dcFlow LP b θ)
      rw [Fin.sum_univ_succAbove _ NR] at h1 hw0
      rw [Finset.sum_congr rfl fun i _ => hmain i] at h1
      rw [e]; linarith
    · rw [e]; exact hmain i
  -- a scale small enough for finitely many limits
  have small : ∀ {ι : Type} [Fintype ι] (u c : ι → ℚ), (∀ i, 0 < c i) → ∃ ε : ℚ, 0 < ε ∧ ∀ δ, 0 ≤ δ → δ ≤ ε → ∀ i,
      δ * |u i| < c i := by
    intro ι _ u c hc
    let K := 1 + ∑ i, |u i| / c i
    have hK : 0 < K := by
      have : 0 ≤ ∑ i, |u i| / c i := Finset.sum_nonneg fun i _ => div_nonneg (abs_nonneg _) (hc i).le
      change 0 < 1 + _
      linarith
    refine ⟨1 / K, by positivity, fun δ h0 hδ i => ?_⟩
    have h1 : |u i| / c i < K := by
      have : |u i| / c i ≤ ∑ i, |u i| / c i :=
        Finset.single_le_sum (f := fun i => |u i| / c i) (fun i _ => div_nonneg (abs_nonneg _) (hc i).le)
          (Finset.mem_univ i)
      change _ < 1 + _
      linarith
    have h2 : |u i| < K * c i := (div_lt_iff₀ (hc i)).1 h1
    have h3 : δ * K ≤ 1 := by
      have := mul_le_mul_of_nonneg_right hδ hK.le
      rwa [one_div, inv_mul_cancel₀ hK.ne'] at this
    rcases h0.eq_or_lt with e | e
    · rw [← e, zero_mul]; exact hc i
    · calc δ * |u i| < δ * (K * c i) := mul_lt_mul_of_pos_left h2 e
        _ = (δ * K) * c i := by ring
        _ ≤ 1 * c i := mul_le_mul_of_nonneg_right h3 (hc i).le
        _ = c i := one_mul _
  obtain ⟨e1, he1, g1⟩ := small (dcFlow LP b θ) fwd hf
  obtain ⟨e2, he2, g2⟩ := small (dcFlow LP b θ) bwd hw
  obtain ⟨e3, he3, g3⟩ := small w imp hi
  obtain ⟨e4, he4, g4⟩ := small w exp he
  obtain ⟨e5, he5, g5⟩ := small w (fun a => |inj a|) (fun a => abs_pos.2 (hz a))
  obtain ⟨δ, hδ, d1, d2, d3, d4, d5⟩ : ∃ δ : ℚ, 0 < δ ∧ δ ≤ e1 ∧ δ ≤ e2 ∧ δ ≤ e3 ∧ δ ≤ e4 ∧ δ ≤ e5 := by
    refine ⟨min e1 (min e2 (min e3 (min e4 e5))), by simp [he1, he2, he3, he4, he5], ?_, ?_, ?_, ?_, ?_⟩
    · exact min_le_left _ _
    · exact (min_le_right _ _).trans (min_le_left _ _)
    · exact (min_le_right _ _).trans ((min_le_right _ _).trans (min_le_left _ _))
    · exact (min_le_right _ _).trans ((min_le_right _ _).trans ((min_le_right _ _).trans (min_le_left _ _)))
    · exact (min_le_right _ _).trans ((min_le_right _ _).trans ((min_le_right _ _).trans (min_le_right _ _)))
  have hflow : dcFlow LP b (fun a => δ * θ a) = fun i => δ * dcFlow LP b θ i := by
    funext i; unfold dcFlow; ring
  have lin : ∀ u c : ℚ, δ * |u| < c → -c < δ * u ∧ δ * u < c := by
    intro u c huc
    have : |δ * u| < c := by rw [abs_mul, abs_of_pos hδ]; exact huc
    exact abs_lt.1 this
  refine ⟨fun a => δ * θ a, fun a => δ * w a, ⟨?_, fun a => ?_, fun a => ?_, fun i => ?_, fun a => ?_⟩⟩
  · change δ * extend NR v NR = 0
    rw [extend_ref, mul_zero]
  · rw [hflow, ← hnet a]
    unfold netOut
    rw [mul_sub, Finset.mul_sum, Finset.mul_sum]
    simp only [mul_ite, mul_zero]
  · have h5 := lin _ _ (g5 δ hδ.le d5 a)
    rcases lt_or_gt_of_ne (hz a) with h | h
    · rw [min_eq_left h.le, max_eq_right h.le]
      rw [abs_of_neg h, neg_neg] at h5
      refine ⟨h5.1, ?_⟩
      have : w a < 0 := by
        dsimp only [w]; rw [if_neg (by linarith)]; exact mul_neg_of_neg_of_pos h hP
      exact mul_neg_of_pos_of_neg hδ this
    · rw [min_eq_right h.le, max_eq_left h.le]
      rw [abs_of_pos h] at h5
      refine ⟨?_, h5.2⟩
      have : 0 < w a := by
        dsimp only [w]; rw [if_pos h]; exact mul_pos h hD
      exact mul_pos hδ this
  · rw [hflow]
    exact ⟨(lin _ _ (g2 δ hδ.le d2 i)).1, (lin _ _ (g1 δ hδ.le d1 i)).2⟩
  · exact ⟨(lin _ _ (g3 δ hδ.le d3 a)).1, (lin _ _ (g4 δ hδ.le d4 a)).2⟩

/-- **C57 (what works).** Without loss sharing, without the listing, in a network that fits the fixed tables, on a run
of the solver that stays clear of its tolerances, a re-dispatch raises no exception: it ends with a result, unless the
solver runs on for ever. -/
theorem C57_no_error_partial (fuel : ℕ) (x : LpIn n l) (h : LpShape x) (hN : x.NLS ≠ 0)
    (h1 : 4 * (n + 1) + 2 * l ≤ 200) (h2 : 7 * (n + 1) + 2 * l ≤ 252)
    (hcr : Crisp (connlsProb x) (connlsBasis n l) (connlsRhs x)) :
    (∃ o, redispatch fuel 0 x = .ok o) ∨
      (redispatch fuel 0 x = .error .diverge ∧ linp (connlsProb x) (connlsBasis n l) (connlsRhs x) fuel = none) := by
  unfold redispatch
  rw [if_neg hN, if_neg (by unfold lpM lpN; omega)]
  cases hl : linp (connlsProb x) (connlsBasis n l) (connlsRhs x) fuel with
  | none => exact .inr ⟨rfl, rfl⟩
  | some r =>
    cases r with
    | error e =>
      exact absurd hl (C41_exact_no_error _ _ _ (connls_unit h) (connls_rhs_nonneg x) (connls_bounded x) hcr fuel e)
    | ok t => exact .inl ⟨lpResult x t, by simp⟩

/-- **C56 (exact).** In a connected network with room on every line and in every area, where some area has a surplus,
some area a deficit and none exactly 0, and on a run of the solver that stays clear of its tolerances: the reported
flows follow from angles and respect all limits, the injection and the unserved load of every area but the one at
place 0 are those of a dispatch, and no dispatch at all leaves less load unserved. -/
theorem C56_exact {fuel : ℕ} {IOI : ℤ} {x : LpIn n l} (h : LpInOk x) (hc2 : x.BN.c2 = x.INJB)
    (hsgn : SameSign fun k => (x.BLP k).adm) (hcon : Reaches x.LP x.NR)
    (hf : ∀ k, 0 < (x.BLP k).fwd) (hw : ∀ k, 0 < (x.BLP k).bwd) (hi : ∀ a, 0 < x.BN.c3 a) (he : ∀ a, 0 < x.BN.c4 a)
    (hz : ∀ a, x.INJB a ≠ 0) (hs : ∃ a, 0 < x.INJB a) (hdf : ∃ a, x.INJB a < 0)
    (hcr : Crisp (connlsProb x) (connlsBasis n l) (connlsRhs x)) {c1 c2 F}
    (hr : redispatch fuel IOI x = .ok (c1, c2, F)) :
    ∃ θ p, IsDispatch x.LP (fun k => (x.BLP k).adm) (fun k => (x.BLP k).fwd) (fun k => (x.BLP k).bwd) x.NR x.BN.c3
          x.BN.c4 x.INJB θ p ∧
        F = dcFlow x.LP (fun k => (x.BLP k).adm) θ ∧
        (∀ a, a ≠ x.LT 0 → c1 a = p a ∧ c2 a = unserved x.INJB p a) ∧
        (c1 (x.LT 0) = 2 * min (x.INJB (x.LT 0)) 0 - p (x.LT 0) ∧ c2 (x.LT 0) = 0) ∧
        ∀ θ' p', IsDispatch x.LP (fun k => (x.BLP k).adm) (fun k => (x.BLP k).fwd) (fun k => (x.BLP k).bwd) x.NR x.BN.c3
            x.BN.c4 x.INJB θ' p' →
          ∑ a, unserved x.INJB p a ≤ ∑ a, unserved x.INJB p' a := by
  obtain ⟨θ0, p0, hst⟩ := strict_exists h.proper hsgn hcon hf hw hi he hz hs hdf
  obtain ⟨_, _, t, ht, ho⟩ := redispatch_ok hr
  obtain ⟨hfe, _, hreal, hB, hopt⟩ := C41_exact _ _ _ (connls_unit h.toLpShape) (connls_rhs_nonneg x)
    (connls_bounded x) hcr (connls_phase1 x) (connls_slater h hst) (connls_rank h.toLpShape) _ _ ht
  obtain ⟨θ, p, hd, hF, h1, h2, hcost, _⟩ := dispatch_core h hc2 ht ho hB
    (fun k hk => absurd (hreal k) (not_lt.2 hk))
  refine ⟨θ, p, hd, hF, h1, h2, fun θ' p' hd' => ?_⟩
  obtain ⟨y, hy, hy0, hyc, _⟩ := C55_complete h θ' p' hd'
  rw [← hcost, ← hyc]
  exact hopt y hy hy0

/-! ### A run that stays clear of the tolerances -/

/-- One state is clear of the tolerances. -/
def CrispAt {m q : ℕ} (p : LpProb m q) (s : LpSt m q) : Prop :=
  (∀ j : Fin q, j.val < p.N1 → 0 ≤ redCost p s j ∨ redCost p s j ≤ -(1 / 10000000)) ∧
  (∀ j : Fin q, j.val < p.N1 → ∀ i, lpColumn p s j i ≤ 0 ∨ 1 / 10000000 < lpColumn p s j i) ∧
  ∀ i, s.BS i ≤ 0 ∨ 1 / 10000000000000 ≤ s.BS i

instance {m q : ℕ} (p : LpProb m q) (s : LpSt m q) : Decidable (CrispAt p s) := by
  unfold CrispAt; infer_instance

/-- The passes from the first state of the list lead through the others; the last one leaves the loop. -/
def Trace {m q : ℕ} (p : LpProb m q) : List (LpSt m q) → Prop
  | [] => False
  | [s] => ∃ t, fastExitIs p s t = true
  | s :: t :: l => fastNextIs p s t = true ∧ Trace p (t :: l)

theorem trace_reach {m q : ℕ} {p : LpProb m q} {IBAS : Fin (m + 1) → Fin q} {b : Fin (m + 1) → ℚ}
    (hu : ∀ r k, p.A r (IBAS k) = if r = k then 1 else 0) {l : List (LpSt m q)} (hl : Trace p l)
    (h0 : ∃ s ∈ l, s = lpStart p IBAS b) : ∀ s, LpReach p IBAS b s → s ∈ l := by
  have key : ∀ {l : List (LpSt m q)}, Trace p l → ∀ s ∈ l, LpInv p b s → ∀ t, lpStep p b s = .ok (.next t) → t ∈ l := by
    intro l
    induction l with
    | nil => intro h; exact absurd h id
    | cons a l ih =>
      intro h s hs hi t ht
      rw [lpStep_fast hi] at ht
      cases l with
      | nil =>
        obtain ⟨u, hu⟩ := h
        rw [List.mem_singleton.1 hs] at ht
        rw [fastExitIs_eq hu] at ht; cases ht
      | cons c l =>
        rcases List.mem_cons.1 hs with e | e
        · subst e
          rw [fastNextIs_eq h.1] at ht
          cases ht
          simp
        · exact List.mem_cons_of_mem _ (ih h.2 s e hi t (by rw [lpStep_fast hi]; exact ht))
  intro s hs
  induction hs with
  | start => obtain ⟨s, h1, h2⟩ := h0; rw [← h2]; exact h1
  | step hr hst ih => exact key hl _ ih (lpReach_inv p IBAS b hu _ hr) _ hst

theorem trace_crisp {m q : ℕ} {p : LpProb m q} {IBAS : Fin (m + 1) → Fin q} {b : Fin (m + 1) → ℚ}
    (hu : ∀ r k, p.A r (IBAS k) = if r = k then 1 else 0) {l : List (LpSt m q)} (hl : Trace p l)
    (h0 : ∃ s ∈ l, s = lpStart p IBAS b) (hc : ∀ s ∈ l, CrispAt p s) : Crisp p IBAS b := by
  have h := trace_reach hu hl h0
  exact ⟨fun s hs => (hc s (h s hs)).1, fun s hs => (hc s (h s hs)).2.1, fun s hs => (hc s (h s hs)).2.2⟩

theorem duo_crisp : Crisp duoP (connlsBasis 1 1) (connlsRhs duoX) := by
  refine trace_crisp (connls_unit duo_ok.toLpShape)
    (l := [lpStart duoP (connlsBasis 1 1) (connlsRhs duoX), duo1, duo2, duo3 1 0, duo3 2 1, duoEnd 0]) ?_
    ⟨_, List.mem_cons_self .., rfl⟩ ?_
  · exact ⟨by decide +kernel, by decide +kernel, by decide +kernel, by decide +kernel, by decide +kernel,
      duoEnd 1, by decide +kernel⟩
  · intro s hs
    simp only [List.mem_cons, List.not_mem_nil, or_false] at hs
    rcases hs with rfl | rfl | rfl | rfl | rfl | rfl <;> decide +kernel

/-- The hypotheses of `C56_exact` are met by the network `duoX`. -/
example : ∃ c1 c2 F, redispatch 6 0 duoX = .ok (c1, c2, F) ∧ Crisp duoP (connlsBasis 1 1) (connlsRhs duoX) ∧
    SameSign (fun k => (duoX.BLP k).adm) ∧ Reaches duoX.LP duoX.NR ∧ (∀ a, duoX.INJB a ≠ 0) ∧
    (∃ a, 0 < duoX.INJB a) ∧ ∃ a, duoX.INJB a < 0 := by
  refine ⟨_, _, _, duo_redispatch, duo_crisp, Or.inl (by decide +kernel), fun a => ?_, by decide +kernel, ⟨0, by decide +kernel⟩,
    ⟨1, by decide +kernel⟩⟩
  fin_cases a
  · exact .refl
  · exact .single ⟨0, by unfold joins; decide⟩

end Narp.Props
