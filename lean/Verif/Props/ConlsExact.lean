import Verif.Props.RedispatchExact
import Verif.Props.ConlsRun

/-!
# Loss sharing on runs that stay clear of the solver's tolerances (C92)
-/

namespace Narp.Props
open Narp Spec BigOperators Matrix

variable {n l : ℕ}

theorem conls_cost0 (x : LpIn n l) (j : Fin (shN n l)) :
    (conlsProb x).XOBI 0 j = if shN1 n l ≤ j.val then 1 else 0 := by simp [conlsProb]

theorem conls_cost1 (x : LpIn n l) (j : Fin (shN n l)) :
    (conlsProb x).XOBI 1 j = if 2 * n ≤ j.val ∧ j.val < 3 * n + 1 then 1 else 0 := by simp [conlsProb]

theorem conls_phase1 (x : LpIn n l) : Phase1Costs (conlsProb x) := by
  intro j
  rw [conls_cost0]
  change if j.val < shN1 n l then _ else _
  by_cases hj : j.val < shN1 n l
  · rw [if_pos hj, if_neg (by omega)]
  · rw [if_neg hj, if_pos (by omega)]; norm_num

theorem conls_bounded (x : LpIn n l) : LpBounded (conlsProb x) (conlsRhs x) := by
  refine lpBounded_of_nonneg _ (fun j => ?_) fun j => ?_
  · rw [conls_cost0]
    split <;> norm_num
  · rw [conls_cost1]
    split <;> norm_num

theorem conls_rhs_nonneg (x : LpIn n l) (i : Fin (5 * n + 4 + 2 * l + 1)) : 0 ≤ conlsRhs x i := abs_nonneg _

/-- The columns other than the artificial ones have full rank. -/
theorem conls_rank {x : LpIn n l} (h : ShareOk x) : RealRank (conlsProb x) := by
  intro π hπ
  have hN1 : shN1 n l = 8 * n + 6 + 2 * l := rfl
  have h1 : ∀ k : Fin (5 * n + 4 + 2 * l + 1), k.val < 4 * n + 4 + 2 * l → π k = 0 := by
    intro k hk
    have := hπ (conlsBasis n l k) (by
      change 4 * n + 2 + k.val < shN1 n l
      omega)
    have e : (fun r => (conlsProb x).A r (conlsBasis n l k)) = fun r => if r = k then 1 else 0 :=
      funext fun r => conls_unit h r k
    rw [e] at this
    simpa [dotProduct] using this
  have hent : ∀ k r : Fin (5 * n + 4 + 2 * l + 1), ¬k.val < 4 * n + 4 + 2 * l → ¬r.val < 4 * n + 4 + 2 * l →
      sArea x (sOrder n l r.val) (2 * n + (k.val - (4 * n + 4 + 2 * l))) = (if r = k then -1 else 0) ∧
      sOrder n l r.val < n + 1 := by
    intro k r hk hr
    have hrlt := r.isLt
    have hklt := k.isLt
    have hri : r.val - (4 * n + 4 + 2 * l) < n + 1 := by omega
    have hO : sOrder n l r.val = r.val - (4 * n + 4 + 2 * l) := by
      unfold sOrder shM
      rw [if_neg (by omega)]; omega
    refine ⟨?_, by omega⟩
    rw [hO]
    unfold sArea
    rw [if_neg (by omega), if_neg (by omega)]
    have := sLine_low h.toLpShape ⟨r.val - (4 * n + 4 + 2 * l), hri⟩ (2 * n + (k.val - (4 * n + 4 + 2 * l)))
    dsimp only at this
    rw [this]
    unfold pairF
    rw [if_neg (by omega), zero_add, if_neg (show ¬2 * n + (k.val - (4 * n + 4 + 2 * l)) = 3 * n + 1 + _ by omega), add_zero]
    have hrk : r = k ↔ r.val = k.val := Fin.ext_iff
    by_cases e : r = k
    · rw [if_pos e, if_pos (by have := hrk.1 e; omega)]
    · rw [if_neg e, if_neg (by have := mt hrk.2 e; omega)]
  funext k
  by_cases hk : k.val < 4 * n + 4 + 2 * l
  · exact h1 k hk
  · have hlt := k.isLt
    have := hπ ⟨2 * n + (k.val - (4 * n + 4 + 2 * l)), by unfold shN; omega⟩ (by
      change 2 * n + (k.val - (4 * n + 4 + 2 * l)) < shN1 n l
      omega)
    rw [dotProduct, Finset.sum_eq_single k] at this
    · have hA : (conlsProb x).A k ⟨2 * n + (k.val - (4 * n + 4 + 2 * l)), by unfold shN; omega⟩ ≠ 0 := by
        change sSigned x (sOrder n l k.val) (2 * n + (k.val - (4 * n + 4 + 2 * l))) ≠ 0
        obtain ⟨e1, _⟩ := hent k k hk hk
        unfold sSigned
        rw [if_neg (by omega), e1, if_pos rfl]
        split <;> norm_num
      exact (mul_eq_zero.1 this).resolve_right hA
    · intro r _ hr
      by_cases hr1 : r.val < 4 * n + 4 + 2 * l
      · rw [h1 r hr1, zero_mul]
      · have : (conlsProb x).A r ⟨2 * n + (k.val - (4 * n + 4 + 2 * l)), by unfold shN; omega⟩ = 0 := by
          change sSigned x (sOrder n l r.val) (2 * n + (k.val - (4 * n + 4 + 2 * l))) = 0
          obtain ⟨e1, _⟩ := hent k r hk hr1
          unfold sSigned
          rw [if_neg (by omega), e1, if_neg hr, neg_zero, ite_self]
        rw [this, mul_zero]
    · intro hh; exact absurd (Finset.mem_univ _) hh

theorem raised_share {x : LpIn n l} {X : ℕ → ℚ} (h : ShareSys x X) : ShareSys x (raised X n) := by
  have hf : lpFlow x (raised X n) = lpFlow x X := by unfold lpFlow; rw [raised_angle]
  refine ⟨fun i => ?_, fun i => ?_, fun i => ?_, fun k => ?_, fun k => ?_, fun i => ?_, fun i => ?_⟩
  · rw [hf, raised_off _ _ (by omega), raised_off _ _ (by omega), raised_off _ _ (by unfold shN1; omega)]; exact h.bal i
  · rw [raised_off _ _ (by omega), raised_off _ _ (by omega)]; exact h.lim i
  · rw [raised_off _ _ (by omega), raised_off _ _ (by omega)]; exact h.gen i
  · rw [hf, raised_off _ _ (by omega)]; exact h.fwd k
  · rw [hf, raised_off _ _ (by omega)]; exact h.bwd k
  · rw [hf, raised_off _ _ (by omega)]; exact h.up i
  · rw [hf, raised_off _ _ (by omega)]; exact h.down i

/-- Serving half of what can be served at home leaves room everywhere. -/
theorem conls_slater {x : LpIn n l} (h : ShareOk x) (hl : ∀ a, 0 < x.LOD a) (hg : ∀ a, 0 < x.LOD a + x.INJB a)
    (hf : ∀ k, 0 < (x.BLP k).fwd) (hw : ∀ k, 0 < (x.BLP k).bwd) (hi : ∀ a, 0 < x.BN.c3 a) (he : ∀ a, 0 < x.BN.c4 a) :
    Slater (conlsProb x) (conlsRhs x) := by
  have hh := h.toLpShape
  obtain ⟨g, hg0, hg1, hg2⟩ : ∃ g : Fin (n + 1) → ℚ, (∀ a, 0 < g a) ∧ (∀ a, g a < x.LOD a) ∧
      ∀ a, g a < x.LOD a + x.INJB a := by
    refine ⟨fun a => min (x.LOD a) (x.LOD a + x.INJB a) / 2, fun a => ?_, fun a => ?_, fun a => ?_⟩
    all_goals
      have h1 := lt_min (hl a) (hg a)
      have h2 := min_le_left (x.LOD a) (x.LOD a + x.INJB a)
      have h3 := min_le_right (x.LOD a) (x.LOD a + x.INJB a)
      dsimp only
      linarith
  let s : Fin (n + 1) → ℚ := fun a => x.LOD a - g a
  let θ : Fin (n + 1) → ℚ := fun _ => 0
  have hX0 : ∀ c, c < shN n l → nth (fun j : Fin (shN n l) => shVec x θ g s j.val) c = shVec x θ g s c :=
    fun c hc => nth_val _ _ hc
  have hX : ∀ c, c < shN n l → nth (fun j : Fin (shN n l) => raised (shVec x θ g s) n j.val) c =
      raised (shVec x θ g s) n c := fun c hc => nth_val _ _ hc
  have hang := shAngle_vec (g := g) (s := s) hh (θ := θ) rfl _ hX0
  have hdc : dcFlow x.LP (fun i => (x.BLP i).adm) θ = fun _ => 0 := by funext k; simp [dcFlow, θ]
  have hflow : lpFlow x (nth fun j : Fin (shN n l) => shVec x θ g s j.val) = fun _ => 0 := by
    unfold lpFlow; rw [hang]; exact hdc
  have hout : ∀ a, netOut x.LP (fun _ => 0) a = 0 := by intro a; simp [netOut]
  have hN : shN n l = 9 * n + 7 + 2 * l := rfl
  have hN1 : shN1 n l = 8 * n + 6 + 2 * l := rfl
  have hgs : ∀ a, g a - (x.LOD a - s a) = 0 := fun a => by dsimp only [s]; ring
  have hsys : ShareSys x (nth fun j : Fin (shN n l) => shVec x θ g s j.val) := by
    refine ⟨fun i => ?_, fun i => ?_, fun i => ?_, fun k => ?_, fun k => ?_, fun i => ?_, fun i => ?_⟩
    · have := i.isLt
      rw [hflow, hout, hX0 _ (by omega), hX0 _ (by omega), hX0 _ (by omega), shVec_s, shVec_g,
        shVec_art x θ g s _ (by omega)]
      have := hgs (x.LT i)
      linarith
    · have := i.isLt
      rw [hX0 _ (by omega), hX0 _ (by omega), shVec_s, shVec_ls]; ring
    · have := i.isLt
      rw [hX0 _ (by omega), hX0 _ (by omega), shVec_g, shVec_lg]; ring
    · have := k.isLt
      rw [hflow, hX0 _ (by omega), shVec_f, hdc]; ring
    · have := k.isLt
      rw [hflow, hX0 _ (by omega), shVec_b, hdc]; ring
    · have := i.isLt
      rw [hflow, hout, hX0 _ (by omega), shVec_up, hgs]; ring
    · have := i.isLt
      rw [hflow, hout, hX0 _ (by omega), shVec_down, hgs]; ring
  refine ⟨fun j => raised (shVec x θ g s) n j.val, (share_sys_iff h _).2 ?_, fun j => ?_⟩
  · have e : (nth fun j : Fin (shN n l) => raised (shVec x θ g s) n j.val) =
        raised (nth fun j : Fin (shN n l) => shVec x θ g s j.val) n := by
      funext c
      by_cases hc : c < shN n l
      · rw [hX c hc]; unfold raised; rw [hX0 c hc]
      · unfold raised nth
        rw [dif_neg hc, dif_neg hc, if_neg (by omega), add_zero]
    rw [e]; exact raised_share hsys
  · change if j.val < shN1 n l then _ else _
    have hjlt := j.isLt
    split
    · rename_i hj
      unfold raised
      dsimp only
      by_cases h2 : j.val < 2 * n
      · rw [if_pos h2]
        have : 0 ≤ shVec x θ g s j.val := by
          unfold shVec
          rw [if_pos h2]
          split <;> exact le_max_right _ _
        linarith
      · rw [if_neg h2, add_zero]
        unfold shVec
        rw [if_neg h2, hdc]
        split_ifs
        · exact nth_pos (fun i => sub_pos.2 (hg1 _)) (by omega)
        · exact nth_pos (fun i => hg0 _) (by omega)
        · exact nth_pos (fun i => by have := hg0 (x.LT i); dsimp only [s]; linarith) (by omega)
        · exact nth_pos (fun i => sub_pos.2 (hg2 _)) (by omega)
        · exact nth_pos (fun k => by have := hf k; linarith) (by omega)
        · exact nth_pos (fun k => by have := hw k; linarith) (by omega)
        · exact nth_pos (fun i => by rw [hgs, sub_zero]; exact hi _) (by omega)
        · exact nth_pos (fun i => by rw [hgs, add_zero]; exact he _) (by omega)
    · rename_i hj
      change raised (shVec x θ g s) n j.val = 0
      rw [raised_off _ _ (by omega)]
      exact shVec_art x θ g s _ (by omega)

/-- **C92 (exact).** Where every area has load and generation and every limit is positive, on a run of the solver that
stays clear of its tolerances: the result is a dispatch with loss sharing, and none sheds less load. -/
theorem C92_exact {x : LpIn n l} (h : ShareOk x) (hl : ∀ a, 0 < x.LOD a) (hg : ∀ a, 0 < x.LOD a + x.INJB a)
    (hf : ∀ k, 0 < (x.BLP k).fwd) (hw : ∀ k, 0 < (x.BLP k).bwd) (hi : ∀ a, 0 < x.BN.c3 a) (he : ∀ a, 0 < x.BN.c4 a)
    (hcr : Crisp (conlsProb x) (conlsBasis n l) (conlsRhs x)) {fuel : ℕ} {t}
    (ht : linp (conlsProb x) (conlsBasis n l) (conlsRhs x) fuel = some (.ok t)) :
    ∃ θ g s, IsSharing x.LP (fun k => (x.BLP k).adm) (fun k => (x.BLP k).fwd) (fun k => (x.BLP k).bwd) x.NR x.BN.c4
        x.BN.c3 x.LOD (fun a => x.LOD a + x.INJB a) θ g s ∧
      (∀ i : Fin (n + 1), s (x.LT i) = nth (Spec.basicSol t.IBAS t.BS) (2 * n + i.val)) ∧
      ∀ θ' g' s', IsSharing x.LP (fun k => (x.BLP k).adm) (fun k => (x.BLP k).fwd) (fun k => (x.BLP k).bwd) x.NR
          x.BN.c4 x.BN.c3 x.LOD (fun a => x.LOD a + x.INJB a) θ' g' s' → ∑ a, s a ≤ ∑ a, s' a := by
  obtain ⟨hfe, hart, hreal, hB, hopt⟩ := C41_exact _ _ _ (conls_unit h) (conls_rhs_nonneg x)
    (conls_bounded x) hcr (conls_phase1 x) (conls_slater h hl hg hf hw hi he) (conls_rank h) _ _ ht
  obtain ⟨θ, g, s, _, hsg, hd, hcost⟩ := C92_sound h _ hfe hart
  refine ⟨θ, g, s, hd, fun i => (hsg i).1, fun θ' g' s' hd' => ?_⟩
  obtain ⟨y, hy, hy0, _, hyc, _⟩ := C92_complete h hd'
  rw [← hcost, ← hyc]
  exact hopt y hy hy0

theorem share_crisp : Crisp shareP (conlsBasis 1 1) (conlsRhs duoX) := by
  refine trace_crisp (conls_unit share_ok) (l := [lpStart shareP (conlsBasis 1 1) (conlsRhs duoX), share1, share2,
    share3, share4, share5, share6, share7, share8, share9]) ?_ ⟨_, List.mem_cons_self .., rfl⟩ ?_
  · exact ⟨by decide +kernel, by decide +kernel, by decide +kernel, by decide +kernel, by decide +kernel,
      by decide +kernel, by decide +kernel, by decide +kernel, by decide +kernel, share10, by decide +kernel⟩
  · intro s hs
    simp only [List.mem_cons, List.not_mem_nil, or_false] at hs
    rcases hs with rfl | rfl | rfl | rfl | rfl | rfl | rfl | rfl | rfl | rfl <;> decide +kernel

/-- The hypotheses of `C92_exact` are met: no sharing sheds less than 50 MW in the network `duoX`. -/
example : ∃ θ g s, IsSharing duoX.LP (fun _ => -100) (fun _ => 50) (fun _ => 50) 0 ![1000, 1000] ![1000, 1000]
    ![300, 200] (fun a => duoX.LOD a + duoX.INJB a) θ g s ∧
    ∀ θ' g' s', IsSharing duoX.LP (fun _ => -100) (fun _ => 50) (fun _ => 50) 0 ![1000, 1000] ![1000, 1000]
      ![300, 200] (fun a => duoX.LOD a + duoX.INJB a) θ' g' s' → ∑ a, s a ≤ ∑ a, s' a := by
  obtain ⟨θ, g, s, hd, _, ho⟩ := C92_exact share_ok (by decide +kernel) (by decide +kernel) (by decide +kernel)
    (by decide +kernel) (by decide +kernel) (by decide +kernel) share_crisp share_linp
  exact ⟨θ, g, s, hd, ho⟩

/-- **C92 (size).** The program is set up, or an `IndexError` raised: the latter exactly for networks with
`5 * areas + 2 * lines > 200` or `9 * areas + 2 * lines > 252`. -/
theorem C92_size (x : LpIn n l) : ((∃ r, conls x = .ok r) ↔ 5 * (n + 1) + 2 * l ≤ 200 ∧ 9 * (n + 1) + 2 * l ≤ 252) ∧
    ∀ r, conls x = .ok r → r = (conlsProb x, conlsBasis n l, conlsRhs x) := by
  unfold conls shM shN
  split_ifs with h
  · simp only [reduceCtorEq, exists_false, false_iff, IsEmpty.forall_iff, implies_true, and_true]
    omega
  · refine ⟨⟨fun _ => by omega, fun _ => ⟨_, rfl⟩⟩, fun r hr => ?_⟩
    exact (Except.ok.inj hr).symm

end Narp.Props
