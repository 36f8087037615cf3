import Verif.Props.Transm
import Verif.Spec.Sharing

/-!
# C111: who bears what the pool lacks (one evaluation)
-/

namespace Narp.Props
open Narp Spec BigOperators

variable {n m : ℕ}

/-- C111 for one evaluation without contracts in which no limit binds. -/
theorem C111_evaluation {LP : LEnds n m} {BLPA : Fin m → Fin 6 → LnPar} {NR : Fin (n + 1)} {NLS : ℤ}
    {t : TransIn (n + 1) m} {w w' : NetSt n m} {out : TransOut n m} {k : Fin m → Fin 6}
    (hg : Grid LP BLPA NR) (hI : t.IFLAG ≠ 1 ∨ Intact LP BLPA NR w) (hk : ∀ i, t.LNSTAT i = ((k i : ℕ) : ℤ) + 1)
    (hload : NLS = 0 → (∀ a, 0 ≤ t.CAPREQ a) ∧ 0 < ∑ a, t.CAPREQ a) (ht : ∀ a, t.TRNSFR a + t.TRNSFJ a = 0)
    (h : transm noRedispatch LP BLPA NR NLS t w = .ok (out, w')) (hJ : out.JFLAG ≠ 0) :
    (NLS ≠ 0 → ByNeed t.SYSCON t.CAPREQ out.SADJ) ∧ (NLS = 0 → ByLoad t.SYSCON t.CAPREQ out.SADJ) := by
  obtain ⟨w1, w2, F1, hi1, _, _, hs, hi2, _, _, ha1, hcase⟩ := transm_split hg hI hk hload h
  rcases hcase with ⟨hJ0, _⟩ | ⟨_, _, w3, ha, _, hS⟩
  · exact absurd hJ0 hJ
  obtain ⟨_, hc⟩ := first_zero (fun i => hg.adm i _) hi1 hs ht ha1
  have hb : Function.Bijective w2.LT := by rw [hi2.LT]; exact LT_bij NR
  have hL : NLS = 0 → (∀ a, 0 ≤ (second LP (sampledBLP BLPA k) NLS t F1 w2.BN).2.2.c1 a) ∧
      0 < ∑ a, (second LP (sampledBLP BLPA k) NLS t F1 w2.BN).2.2.c1 a := by
    rw [second_c1]; exact hload
  have hc1 := ha.c1
  simp only [second_c1, second_c2, hc, zero_mul, sub_zero] at hc1
  have hS' : ∀ i, out.SADJ (w2.LT i) = (assign (fun i => t.SYSCON (w2.LT i) - t.CAPREQ (w2.LT i)) t.CAPREQ w2.LT NLS).1 i -
      (t.SYSCON (w2.LT i) - t.CAPREQ (w2.LT i)) := fun i => by
    rw [hS, hc1 i, hc]; ring
  set INJ : Fin (n + 1) → ℚ := fun i => t.SYSCON (w2.LT i) - t.CAPREQ (w2.LT i) with hINJ
  have hmax : ∀ i, max 0 (out.SADJ (w2.LT i)) = (assign INJ t.CAPREQ w2.LT NLS).2 (w2.LT i) := fun i => by
    rw [hS' i]; exact assign_excess hb hload i
  have hdef : deficits INJ = ∑ a, ownShort t.SYSCON t.CAPREQ a := by
    rw [sum_LT hb]
    unfold deficits ownShort
    refine Finset.sum_congr rfl fun i _ => ?_
    rw [hINJ]; simp only [neg_sub]
  have hlack : allShort t.SYSCON t.CAPREQ = max 0 (deficits INJ - surpluses INJ) := by
    unfold allShort
    have : ∑ a, t.CAPREQ a - ∑ a, t.SYSCON a = -∑ i, INJ i := by
      rw [sum_LT hb t.CAPREQ, sum_LT hb t.SYSCON, hINJ, Finset.sum_sub_distrib]; ring
    rw [this, sum_split INJ]
    congr 1; ring
  rcases le_or_gt (deficits INJ) (surpluses INJ) with hd | hd
  · have h0 : ∀ a, max 0 (out.SADJ a) = 0 := fun a => by
      obtain ⟨i, rfl⟩ := hb.2 a
      rw [hmax, assign_enough hd]
    rw [max_eq_left (by linarith)] at hlack
    exact ⟨fun _ a => by rw [h0, hlack, zero_div, mul_zero], fun _ a => by rw [h0, hlack, zero_div, mul_zero]⟩
  · rw [max_eq_right (by linarith)] at hlack
    refine ⟨fun hN a => ?_, fun hN a => ?_⟩
    · obtain ⟨i, rfl⟩ := hb.2 a
      rw [hmax, (assign_noshare hb hd hN).2 i, hlack, ← hdef]
      unfold ownShort
      by_cases hi : INJ i ≤ 0
      · rw [if_pos hi, max_eq_right (by rw [hINJ] at hi; simp only at hi; linarith)]
        rw [hINJ]; ring
      · rw [if_neg hi, max_eq_left (by rw [hINJ] at hi; simp only at hi; linarith), zero_mul]
    · subst hN
      obtain ⟨i, rfl⟩ := hb.2 a
      rw [hmax, (assign_share hb hd).1, hlack]
      ring

/-- If every area is at least 1 MW short, recording what each lacks itself is sharing by need. -/
theorem own_need {cap load : Fin n → ℚ} (h : ∀ j, 1 ≤ load j - cap j) : ByNeed cap load fun j => load j - cap j := by
  intro j
  have e : ∀ i, ownShort cap load i = load i - cap i := fun i => max_eq_right (by linarith [h i])
  have hs : allShort cap load = ∑ i, (load i - cap i) := by
    unfold allShort
    rw [← Finset.sum_sub_distrib]
    exact max_eq_right (Finset.sum_nonneg fun i _ => by linarith [h i])
  have hp : 0 < ∑ i, (load i - cap i) := Finset.sum_pos (fun i _ => by linarith [h i]) ⟨j, Finset.mem_univ _⟩
  simp only [e, hs]
  rw [div_self hp.ne', mul_one]
  exact max_eq_right (by linarith [h j])

/-- The same with the rule of the study. -/
theorem own_shared (rule : ℤ) {cap load : Fin n → ℚ} (h : ∀ j, 1 ≤ load j - cap j) :
    SharedBy rule cap load fun j => load j - cap j :=
  ⟨fun _ => own_need h, fun _ => .inr ⟨h, fun _ => rfl⟩⟩

end Narp.Props
