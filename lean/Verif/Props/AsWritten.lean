import Verif.Props.FloatLoad
import Verif.Props.Datax
import Verif.Props.CardRun

/-!
# What holds of C97 and C66

C97: how near the loads used are to those of the file when the card's peak is the largest load of the file, and when they are
equal. C66: the refutation for every input.
-/

namespace Narp.Props
open Narp Narp.Spec

/-- C97 (part). Let the largest load of the file be the peak of the card. Then the hours with the largest load are used as
written, every load is used up to a relative error of 2^-51 (and an absolute one of 2^-1074 per MW of the peak), and if the
peak is a power of two, every load of the file (a binary64 number that is a multiple of 2^(p-1074)) is used as written. -/
theorem C97_close_partial (PKLOAD : ℕ → ℚ) (H : ℕ → ℕ → ℚ) (j : ℕ) (hP : IsF64 (PKLOAD j)) (g : ℕ) (hg : g < 8760)
    (hpk : H j g = PKLOAD j) (hmax : ∀ h < 8760, H j h ≤ PKLOAD j) (h0 : f64 (1/1000) ≤ PKLOAD j) :
    (∀ h, H j h = PKLOAD j → leeiScaleF PKLOAD H j h = H j h) ∧
    (∀ h, |leeiScaleF PKLOAD H j h - H j h| ≤ |H j h| / 2 ^ 51 + (PKLOAD j + 1) * 2 ^ (-1074 : ℤ)) ∧
    ∀ p : ℕ, PKLOAD j = 2 ^ p → ∀ h, (∃ a k : ℤ, |a| ≤ 2 ^ 53 ∧ (p : ℤ) - 1074 ≤ k ∧ H j h = a * (2 : ℚ) ^ k) →
      leeiScaleF PKLOAD H j h = H j h := by
  have hpos : 0 < PKLOAD j := lt_of_lt_of_le f64_milli.2 h0
  have hM : rawPeakF H j = PKLOAD j := by
    refine le_antisymm ?_ (hpk ▸ le_rawPeakF H j hg)
    obtain ⟨h, hh, e⟩ := rawPeakF_mem H j ⟨g, hg, hpk ▸ h0⟩
    exact e ▸ hmax h hh
  have e : ∀ h, leeiScaleF PKLOAD H j h = f64 (f64 (H j h / PKLOAD j) * PKLOAD j) := fun h => by
    have : leeiScaleF PKLOAD H j h = f64 (f64 (H j h / rawPeakF H j) * PKLOAD j) := rfl
    rw [this, hM]
  refine ⟨fun h hh => ?_, fun h => ?_, ?_⟩
  · rw [e, hh, div_self hpos.ne', f64_of_isF64 isF64_one, one_mul, f64_of_isF64 hP]
  · have := two_roundings (H j h / PKLOAD j) hpos.le
    rw [div_mul_cancel₀ _ hpos.ne'] at this
    rw [e]; exact this
  · rintro p hp h ⟨a, k, ha, hk, hh⟩
    have h2 : (2 : ℚ) ^ p = (2 : ℚ) ^ (p : ℤ) := (zpow_natCast _ _).symm
    have hq : H j h / PKLOAD j = a * (2 : ℚ) ^ (k - p) := by
      rw [hh, hp, h2, zpow_sub₀ (by norm_num), mul_div_assoc]
    have f1 : IsF64 (H j h / PKLOAD j) := ⟨a, k - p, ha, by omega, hq⟩
    have f2 : IsF64 (H j h) := ⟨a, k, ha, by omega, hh⟩
    rw [e, f64_of_isF64 f1, div_mul_cancel₀ _ hpos.ne', f64_of_isF64 f2]

/-- The hypotheses are met by the file of `C97_as_written_refuted`, and with a peak of 2^7 MW by a file with loads of 128 and
29 MW, which is used as written. -/
example : (IsF64 ((fun _ => 100 : ℕ → ℚ) 0) ∧ hundred 0 0 = 100 ∧ (∀ h < 8760, hundred 0 h ≤ 100) ∧ f64 (1/1000) ≤ 100) ∧
    leeiScaleF (fun _ => 128) (fun _ h => if h = 1 then 29 else 128) 0 1 = 29 := by
  refine ⟨⟨isF64_int (m := 100) (by norm_num), by norm_num [hundred], fun h _ => by unfold hundred; split <;> norm_num, milli_le⟩, ?_⟩
  have := (C97_close_partial (fun _ => 128) (fun _ h => if h = 1 then 29 else 128) 0 (isF64_int (m := 128) (by norm_num)) 0 (by norm_num)
    (by norm_num) (fun h _ => by split <;> norm_num) (le_trans milli_le (by norm_num))).2.2 7 (by norm_num) 1
    ⟨29, 0, by norm_num, by norm_num, by norm_num⟩
  simpa using this

/-- C66, refuted for every input: in the network of the simulation no line has admittance or capacity 0 in any state,
whatever the cards say; a zero admittance counts as -0.5 and a zero capacity as 1 MW. -/
theorem C66_never_out_refuted {n m l : ℕ} {sl : ℕ → ℚ → ℚ} {fuel : ℕ} {c : Cards n m l} {s : Setup n m l} (h1 : OneCard c)
    (h : setup sl fuel c = .ok s) (hnum : ∀ k, (c.lines k).number ≤ l) :
    ∃ (LP : LEnds n l) (BLPA : Fin l → Fin 6 → LnPar),
      s.hour.transm = hourTransm (redispatch fuel c.misc.IOI) LP BLPA 0 c.misc.NLS ∧
      (∀ k, (c.areas (LP k).1).name = (c.lines k).src ∧ (c.areas (LP k).2).name = (c.lines k).dst) ∧
      (∀ k t, (BLPA k t).adm ≠ 0 ∧ (BLPA k t).fwd ≠ 0 ∧ (BLPA k t).bwd ≠ 0) ∧
      ∀ k t, ((c.lines k).adm t = 0 → (BLPA k t).adm = -1 / 2) ∧ ((c.lines k).cap t = 0 → (BLPA k t).fwd = 1) ∧
        ((c.lines k).capr t = 0 → (BLPA k t).bwd = 1) := by
  obtain ⟨wr, raw, T, ITAB, ID', hw, _, _, _, _, rfl⟩ := setup_ok h
  have hwa := (wiring_iff h1 (wiring_pos hw)).2 wr hw
  refine ⟨wr.LP, fun k => dataxBLPA (c.lines k), ?_, fun k => ⟨hwa.src k, hwa.dst k⟩, fun k t => ?_, fun k t => ?_⟩
  · have hb : ∀ a b, dataxLINENO wr.LP wr.number a b < l :=
      lineno_bound wr.LP fun k => by rw [hwa.number k]; have := hnum k; omega
    show netCall (dataxLINENO wr.LP wr.number) fuel c.misc.IOI wr.LP (fun k => dataxBLPA (c.lines k)) 0 c.misc.NLS = _
    funext t w
    unfold netCall
    rw [helpCheck_small hb]
    rfl
  · unfold dataxBLPA
    refine ⟨?_, ?_, ?_⟩ <;> dsimp only <;> split_ifs with hz <;> first | exact hz | norm_num
  · exact ⟨fun h => if_pos h, fun h => if_pos h, fun h => if_pos h⟩

/-- The hypotheses are met by cards whose only line has zeros in every state. -/
example (sl : ℕ → ℚ → ℚ) (fuel : ℕ) : OneCard (demoCards 1 0 0) ∧ (∃ s, setup sl fuel (demoCards 1 0 0) = .ok s) ∧
    (∀ k, ((demoCards 1 0 0).lines k).number ≤ 1) ∧ ∀ k t, ((demoCards 1 0 0).lines k).cap t = 0 :=
  ⟨demo_one 1 0 0, demo_ok sl fuel 1 0 0, fun k => by fin_cases k; exact le_refl _, fun k t => by fin_cases k; rfl⟩

end Narp.Props
