import Verif.Props.RedispatchExact
import Verif.Props.RedispatchHour

/-!
# Shortages of an hour, on runs that stay clear of the solver's tolerances (C58)
-/

namespace Narp.Props
open Narp Spec BigOperators Matrix

variable {n m : ℕ}

/-- Conditions on the data and on the run under which no unclean end is possible. -/
theorem crisp_clean {x : LpIn n m} (h : LpInOk x) (hsgn : SameSign fun k => (x.BLP k).adm) (hcon : Reaches x.LP x.NR)
    (hf : ∀ k, 0 < (x.BLP k).fwd) (hw : ∀ k, 0 < (x.BLP k).bwd) (hi : ∀ a, 0 < x.BN.c3 a) (he : ∀ a, 0 < x.BN.c4 a)
    (hz : ∀ a, x.INJB a ≠ 0) (hs : ∃ a, 0 < x.INJB a) (hdf : ∃ a, x.INJB a < 0)
    (hcr : Crisp (connlsProb x) (connlsBasis n m) (connlsRhs x)) (fuel : ℕ) : CleanEnd fuel x := by
  intro t ht
  obtain ⟨θ0, p0, hst⟩ := strict_exists h.proper hsgn hcon hf hw hi he hz hs hdf
  obtain ⟨_, _, hreal, hB, _⟩ := C41_exact _ _ _ (connls_unit h.toLpShape) (connls_rhs_nonneg x)
    (connls_bounded x) hcr (connls_phase1 x) (connls_slater h hst) (connls_rank h.toLpShape) _ _ ht
  exact ⟨hB, fun k hk => absurd (hreal k) (not_lt.2 hk)⟩

/-- The admittances of the second evaluation are those of the sampled states. -/
theorem second_adm (LP : LEnds n m) (BLP : Fin m → LnPar) (NR : Fin (n + 1)) (NLS : ℤ) (t : TransIn (n + 1) m)
    (FLOW : Fin m → ℚ) (w : NetSt n m) :
    (fun k => ((secondIn LP BLP NR NLS t FLOW w).BLP k).adm) = fun k => (BLP k).adm := by
  funext k
  change ((second LP BLP NLS t FLOW w.BN).2.1 k).adm = _
  unfold second; split <;> rfl

theorem secondIn_ok {LP : LEnds n m} {BLPA : Fin m → Fin 6 → LnPar} {NR : Fin (n + 1)}
    (hg : Grid LP BLPA NR) (hn : 0 < n) {BLP : Fin m → LnPar} {NLS : ℤ} {t : TransIn (n + 1) m} {FLOW : Fin m → ℚ}
    {w : NetSt n m} (hw : Intact LP BLPA NR w) (hf : ∀ i, 0 ≤ (BLP i).fwd ∧ 0 ≤ (BLP i).bwd)
    (haway : ChangesAway LP NR (fun i => (BLP i).adm) fun i => (BLPA i 0).adm)
    (ha : ∀ a, 0 ≤ (secondIn LP BLP NR NLS t FLOW w).BN.c3 a ∧ 0 ≤ (secondIn LP BLP NR NLS t FLOW w).BN.c4 a) :
    LpInOk (secondIn LP BLP NR NLS t FLOW w) := by
  have hfx : ∀ i, 0 ≤ ((second LP BLP NLS t FLOW w.BN).2.1 i).fwd ∧ 0 ≤ ((second LP BLP NLS t FLOW w.BN).2.1 i).bwd := by
    intro i
    unfold second; split
    · exact ⟨le_max_right _ _, le_max_right _ _⟩
    · exact hf i
  have hB : blk w.BB = reduced LP w.BLP0 NR := by
    rw [hw.BB, hw.BLP0]; funext a c; exact (C37_reduced _ _).1 a c
  have hadm := second_adm LP BLP NR NLS t FLOW w
  have := tm2In_ok (BN := (second LP BLP NLS t FLOW w.BN).2.2) (BLP := (second LP BLP NLS t FLOW w.BN).2.1)
    (BLP0 := w.BLP0) (BB := w.BB) (ZB := w.ZB) (NLS := NLS) hn hg.proper hfx ha hB (by
      rw [hw.BLP0]; exact hadm ▸ haway)
  rw [← hw.LT] at this
  exact this

/-- **C58 (exact).** In an hour whose second evaluation re-dispatches, where the lines and areas have room left after
the scheduled flows, some area has a surplus, some a deficit and none exactly 0, and on a run of the solver that stays
clear of its tolerances: the shortages reported for all areas but the one at place 0 are those of a dispatch that
leaves the least possible load unserved, and the area at place 0 has none. -/
theorem C58_exact {LP : LEnds n m} {BLPA : Fin m → Fin 6 → LnPar} {NR : Fin (n + 1)}
    (hg : Grid LP BLPA NR) (hn : 0 < n) {BLP : Fin m → LnPar} {NLS : ℤ} {t : TransIn (n + 1) m} {FLOW : Fin m → ℚ}
    {w w' : NetSt n m} {out : TransOut n m} {fuel : ℕ} {IOI : ℤ} (hw : Intact LP BLPA NR w)
    (hf : ∀ i, 0 ≤ (BLP i).fwd ∧ 0 ≤ (BLP i).bwd) (hneg : ∀ i, (BLP i).adm < 0)
    (haway : ChangesAway LP NR (fun i => (BLP i).adm) fun i => (BLPA i 0).adm)
    (hl : ∀ k, 0 < ((secondIn LP BLP NR NLS t FLOW w).BLP k).fwd ∧ 0 < ((secondIn LP BLP NR NLS t FLOW w).BLP k).bwd)
    (ha : ∀ a, 0 < (secondIn LP BLP NR NLS t FLOW w).BN.c3 a ∧ 0 < (secondIn LP BLP NR NLS t FLOW w).BN.c4 a)
    (hz : ∀ a, (secondIn LP BLP NR NLS t FLOW w).INJB a ≠ 0)
    (hs : ∃ a, 0 < (secondIn LP BLP NR NLS t FLOW w).INJB a) (hdf : ∃ a, (secondIn LP BLP NR NLS t FLOW w).INJB a < 0)
    (hb : SecondBinds LP BLP NR NLS t FLOW w)
    (hcr : Crisp (connlsProb (secondIn LP BLP NR NLS t FLOW w)) (connlsBasis n m)
      (connlsRhs (secondIn LP BLP NR NLS t FLOW w)))
    (h : transm2 (redispatch fuel IOI) LP BLP NR NLS t FLOW w = .ok (out, w')) :
    let x := secondIn LP BLP NR NLS t FLOW w
    ∃ θ p, IsDispatch LP (fun k => (BLP k).adm) (fun k => (x.BLP k).fwd) (fun k => (x.BLP k).bwd) NR x.BN.c3 x.BN.c4
        x.INJB θ p ∧
      out.FLOW = dcFlow LP (fun k => (BLP k).adm) θ ∧
      (∀ a, a ≠ w.LT 0 → max 0 (out.SADJ a) = unserved x.INJB p a) ∧
      max 0 (out.SADJ (w.LT 0)) = 0 ∧
      ∀ θ' p', IsDispatch LP (fun k => (BLP k).adm) (fun k => (x.BLP k).fwd) (fun k => (x.BLP k).bwd) NR x.BN.c3
          x.BN.c4 x.INJB θ' p' →
        ∑ a, unserved x.INJB p a ≤ ∑ a, unserved x.INJB p' a := by
  intro x
  have hok := secondIn_ok hg hn hw hf haway fun a => ⟨(ha a).1.le, (ha a).2.le⟩
  have hadm := second_adm LP BLP NR NLS t FLOW w
  have hsgn : SameSign fun k => (x.BLP k).adm := Or.inl fun k => by
    have := congrFun hadm k
    change (x.BLP k).adm < 0
    rw [show (x.BLP k).adm = (BLP k).adm from this]; exact hneg k
  have hcl : CleanEnd fuel x := crisp_clean hok hsgn hg.reaches (fun k => (hl k).1) (fun k => (hl k).2)
    (fun a => (ha a).1) (fun a => (ha a).2) hz hs hdf hcr fuel
  obtain ⟨c1, c2, hlp, hS⟩ := transm2_binds hb h
  obtain ⟨θ, p, h1, h2, h3, _, h5⟩ := C56_exact hok rfl hsgn hg.reaches (fun k => (hl k).1) (fun k => (hl k).2)
    (fun a => (ha a).1) (fun a => (ha a).2) hz hs hdf hcr hlp
  rw [hadm] at h1 h2 h5
  refine ⟨θ, p, h1, h2, fun a ha => ?_, ?_, h5⟩
  · rw [hS a, (h3 a ha).1]
    rfl
  · exact max_eq_left (C58_first_area_refuted hn hg.proper hw.LT hf (fun a => ⟨(ha a).1.le, (ha a).2.le⟩) hb hcl h)

/-- The hypotheses of `C58_exact` are met for the two areas of `C58_missed_shortage_refuted`. -/
example : ∃ out w', transm2 (redispatch 6 0) twoLP (sampledBLP duoBLPA fun _ => 0) 0 1 duoT (fun _ => 0) duoW =
      .ok (out, w') ∧ max 0 (out.SADJ 0) = 0 ∧ max 0 (out.SADJ 1) = 0 := by
  have hv : vis (transm2 duoLp twoLP (sampledBLP duoBLPA fun _ => 0) 0 1 duoT (fun _ => 0) duoW) =
      some (1, [50], [-50, -50]) := by decide +kernel
  obtain ⟨o, w', h, _⟩ := vis_ok hv
  have h' := transm2_mono duoLp_le h
  have hg : Grid twoLP duoBLPA 0 := by
    refine ⟨by unfold Proper; decide, fun a => ?_, fun i s => ?_, fun i s => ?_⟩
    · fin_cases a
      · exact Relation.ReflTransGen.refl
      · exact Relation.ReflTransGen.single ⟨0, Or.inl ⟨rfl, rfl⟩⟩
    · unfold duoBLPA; norm_num
    · unfold duoBLPA; norm_num
  have hI : Intact twoLP duoBLPA 0 duoW := by
    refine ⟨rfl, rfl, by decide +kernel, by decide +kernel, by decide +kernel⟩
  have hb : SecondBinds twoLP (sampledBLP duoBLPA fun _ => 0) 0 1 duoT (fun _ => 0) duoW := by
    unfold SecondBinds Binds tm2
    dsimp only
    rw [if_neg (by decide +kernel)]
    rfl
  obtain ⟨θ, p, hd, _, h3, h4, _⟩ := C58_exact (BLP := sampledBLP duoBLPA fun _ => 0) hg (by decide) hI (fun i => hg.cap i 0) (by decide +kernel)
    (fun i hi => absurd rfl hi) (by decide +kernel) (by decide +kernel) (by decide +kernel) ⟨0, by decide +kernel⟩
    ⟨1, by decide +kernel⟩ hb (by rw [duo_second]; exact duo_crisp) h'
  have hlt : duoW.LT 0 = 1 := by decide +kernel
  refine ⟨o, w', h', ?_, by rw [hlt] at h4; exact h4⟩
  rw [h3 0 (by rw [hlt]; decide)]
  have := (hd.range 0).2
  rw [duo_second] at this ⊢
  have e : duoX.INJB 0 = 100 := rfl
  rw [e] at this
  unfold unserved
  rw [e, max_eq_left]
  have : p 0 ≤ 100 := by simpa using this
  linarith

end Narp.Props
