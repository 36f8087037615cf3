import Verif.Props.Transm

/-!
# C61: scheduled interchange and jointly owned units in the transmission evaluation
-/

namespace Narp.Props
open Narp.Spec BigOperators

variable {n m : ℕ}

theorem min_neg_neg' (x y : ℚ) : min (-x) (-y) = -max x y := by
  rcases le_total x y with h | h
  · rw [max_eq_right h, min_eq_right (neg_le_neg h)]
  · rw [max_eq_left h, min_eq_left (neg_le_neg h)]

theorem max_neg_neg' (x y : ℚ) : max (-x) (-y) = -min x y := by
  rcases le_total x y with h | h
  · rw [min_eq_left h, max_eq_left (neg_le_neg h)]
  · rw [min_eq_right h, max_eq_right (neg_le_neg h)]

/-- C61. Let `TRNSFR + TRNSFJ` be the scheduled net exports of the areas (contracts and ownership shares), which
balance over the pool. In every evaluation in which no limit binds there are flows `F` within the capacities of
the sampled states under which an area that has to import gets its schedule, but no more than it is short of, and
an area that has to export exports at most its schedule; if no area is scheduled to import more than it is short
of, every area exports exactly its schedule. If these flows leave every area able to serve its load, they are the
reported ones; otherwise, without loss sharing, the reported flows come on top of them. -/
theorem C61_contracts {LP : LEnds n m} {BLPA : Fin m → Fin 6 → LnPar} {NR : Fin (n + 1)} {NLS : ℤ}
    {t : TransIn (n + 1) m} {w w' : NetSt n m} {out : TransOut n m} {k : Fin m → Fin 6}
    (hg : Grid LP BLPA NR) (hI : t.IFLAG ≠ 1 ∨ Intact LP BLPA NR w) (hk : ∀ i, t.LNSTAT i = ((k i : ℕ) : ℤ) + 1)
    (hload : NLS = 0 → (∀ a, 0 ≤ t.CAPREQ a) ∧ 0 < ∑ a, t.CAPREQ a)
    (hbal : ∑ a, (t.TRNSFR a + t.TRNSFJ a) = 0)
    (h : transm noRedispatch LP BLPA NR NLS t w = .ok (out, w')) :
    ∃ F : Fin m → ℚ, (∀ i, -(BLPA i (k i)).bwd ≤ F i ∧ F i ≤ (BLPA i (k i)).fwd) ∧
      (∀ a, t.TRNSFR a + t.TRNSFJ a ≤ 0 →
        -netOut LP F a = min (-(t.TRNSFR a + t.TRNSFJ a)) (max 0 (t.CAPREQ a - t.SYSCON a))) ∧
      (∀ a, 0 ≤ t.TRNSFR a + t.TRNSFJ a → 0 ≤ netOut LP F a ∧ netOut LP F a ≤ t.TRNSFR a + t.TRNSFJ a) ∧
      ((∀ a, -(t.TRNSFR a + t.TRNSFJ a) ≤ max 0 (t.CAPREQ a - t.SYSCON a)) →
        ∀ a, netOut LP F a = t.TRNSFR a + t.TRNSFJ a) ∧
      (out.JFLAG = 0 → F = out.FLOW) ∧
      (out.JFLAG ≠ 0 → NLS = 1 → ∀ a, netOut LP F a + netOut LP out.FLOW a = t.SYSCON a - t.CAPREQ a + out.SADJ a) := by
  obtain ⟨w1, w2, F1, hi1, _, _, hc2, hi2, _, _, ha1, hcase⟩ := transm_split hg hI hk hload h
  have hb1 : Function.Bijective w1.LT := by rw [hi1.LT]; exact LT_bij NR
  have hb : Function.Bijective w2.LT := by rw [hi2.LT]; exact LT_bij NR
  have hsch : ∀ a, t.TRNSFR a + t.TRNSFJ a ≤ scheduled t a := fun a => le_max_left _ _
  have hpos : ∀ a, 0 ≤ t.TRNSFR a + t.TRNSFJ a → scheduled t a = t.TRNSFR a + t.TRNSFJ a := fun a ha =>
    max_eq_left (le_trans (min_le_right _ _) ha)
  have hneg : ∀ a, t.TRNSFR a + t.TRNSFJ a ≤ 0 → scheduled t a ≤ 0 := fun a ha => max_le ha (min_le_right _ _)
  obtain ⟨b1, b2, b3, b4, b5⟩ := C40_assign (INJ := fun i => w1.BN.c2 (w1.LT i)) (LOD := w1.BN.c1) (NLS := 1) hb1
    (by intro h; cases h)
  have hsum : ∑ i, w1.BN.c2 (w1.LT i) = ∑ a, scheduled t a := by rw [← sum_LT hb1, hc2]
  have hge : 0 ≤ ∑ a, scheduled t a := by rw [← hbal]; exact Finset.sum_le_sum fun a _ => hsch a
  rw [hsum, max_eq_left (by linarith)] at b3
  have hz : ∀ a, (assign (fun i => w1.BN.c2 (w1.LT i)) w1.BN.c1 w1.LT 1).2 a = 0 := fun a =>
    (Finset.sum_eq_zero_iff_of_nonneg fun j _ => b2 j).1 b3 a (Finset.mem_univ a)
  have h1 : ∀ a, scheduled t a ≤ 0 → netOut LP F1 a = scheduled t a := fun a ha => by
    obtain ⟨i, rfl⟩ := hb1.2 a
    rw [ha1.kcl i, b4 i (by rw [hc2]; exact ha), hz, add_zero, hc2]
  have h2 : ∀ a, 0 ≤ scheduled t a → 0 ≤ netOut LP F1 a ∧ netOut LP F1 a ≤ scheduled t a := fun a ha => by
    obtain ⟨i, rfl⟩ := hb1.2 a
    have := b5 i (by rw [hc2]; exact ha)
    rw [ha1.kcl i, ← hc2]
    rw [hz, add_zero] at this
    exact this
  have hsum0 : ∑ a, netOut LP F1 a = 0 := by
    rw [sum_LT hb1, Finset.sum_congr rfl fun i _ => ha1.kcl i]; exact b1
  refine ⟨F1, ha1.line, fun a ha => ?_, fun a ha => ?_, fun hall a => ?_, fun hJ => ?_, fun hJ hN a => ?_⟩
  · rw [h1 a (hneg a ha)]
    unfold scheduled
    rw [← min_neg_neg']
    congr 1
    rw [← max_neg_neg', neg_zero, neg_sub, max_comm]
  · have := h2 a (by rw [hpos a ha]; exact ha)
    rw [hpos a ha] at this
    exact this
  · have heq : ∀ a, scheduled t a = t.TRNSFR a + t.TRNSFJ a := fun a => by
      refine max_eq_left ?_
      have := hall a
      rcases le_total 0 (t.CAPREQ a - t.SYSCON a) with hx | hx
      · rw [max_eq_right hx] at this
        exact le_trans (min_le_left _ _) (by linarith)
      · rw [max_eq_left hx] at this
        exact le_trans (min_le_right _ _) (by linarith)
    have hle : ∀ a, netOut LP F1 a ≤ scheduled t a := fun a => by
      rcases le_total (scheduled t a) 0 with hx | hx
      · exact (h1 a hx).le
      · exact (h2 a hx).2
    have hd : ∑ a, (scheduled t a - netOut LP F1 a) = 0 := by
      rw [Finset.sum_sub_distrib, hsum0, Finset.sum_congr rfl fun a _ => heq a, hbal, sub_zero]
    have := (Finset.sum_eq_zero_iff_of_nonneg fun a _ => sub_nonneg.2 (hle a)).1 hd a (Finset.mem_univ a)
    rw [← heq a]; linarith
  · rcases hcase with ⟨_, hF, _⟩ | ⟨hJ1, _⟩
    · exact hF.symm
    · rw [hJ1] at hJ; cases hJ
  · subst hN
    rcases hcase with ⟨hJ0, _⟩ | ⟨_, _, w3, ha, _, hS⟩
    · exact absurd hJ0 hJ
    have hk1 : netOut LP F1 a = w2.BN.c1 a := by
      obtain ⟨i, rfl⟩ := hb1.2 a
      rw [ha1.kcl i, ha1.c1 i]
    have hk2 : netOut LP out.FLOW a = w3.BN.c1 a := by
      obtain ⟨i, rfl⟩ := hb.2 a
      rw [ha.kcl i, ha.c1 i]
    rw [hk1, hk2, hS]; push_cast; ring

/-- Non-vacuity: 80 MW scheduled and delivered, alone and with further assistance. -/
example : ∑ a, (twoT.TRNSFR a + twoT.TRNSFJ a) = 0 ∧
    vis (transm noRedispatch twoLP twoBLPA 0 1 { twoT with CAPREQ := ![300, 380] } (twoW 1000)) =
      some (0, [80], [220, 0]) ∧
    vis (transm noRedispatch twoLP twoBLPA 0 1 twoT (twoW 1000)) = some (1, [120], [-100, 0]) := by
  decide +kernel

end Narp.Props
