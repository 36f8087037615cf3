import Verif.Props.PeakRefuted
import Verif.Props.BetterArea

/-!
# C115 fails in daily mode: a lower peak elsewhere is worse for an area
-/

namespace Narp.Props
open Narp Narp.Spec BigOperators

theorem peak_units' (p : ℚ) : unitsIn (peakCards p) 1 = {2, 3} := by
  ext i
  simp only [unitsIn, Finset.mem_filter, Finset.mem_univ, true_and]
  fin_cases i <;> simp [peakCards]

/-- What the two areas bear at a draw, by the half of the day that is evaluated. -/
theorem peak_share {raw : ℕ → ℕ → ℚ} (r0 : ∀ h < 8760, raw 0 h = if h / 12 % 2 = 0 then 5 else 15)
    (r1 : ∀ h < 8760, raw 1 h = if h / 12 % 2 = 0 then 15 else 4) {p : ℚ} {load : Fin 2 → ℕ → ℚ}
    (hload : ∀ j : Fin 2, Scaled (raw j) ((peakCards p).areas j).peak (load j)) {H : ℕ → ℕ}
    (hH : ∀ d, 1 ≤ d → d ≤ 8760 / 24 → Evaluated 24 load (24 * d) (H d)) (t : Fin 5) (y : ℕ) {d : ℕ} (h1 : 1 ≤ d) (h2 : d ≤ 365) :
    (100 + p * (4 / 15) < p → ∀ j, yearShare (peakCards p) 24 load H t j y d =
      borne 1 ![10, 220] ![50 * forecast 20 t, p] j) ∧
    (p < 100 + p * (4 / 15) → ∀ j, yearShare (peakCards p) 24 load H t j y d =
      borne 1 ![10, 220] ![150 * forecast 20 t, p * (4 / 15)] j) := by
  obtain ⟨hst, hmax⟩ := hH d h1 h2
  have hstands : ∀ h, standsFor 24 (24 * d) h ↔ h / 24 = (24 * d - 1) / 24 := fun h => by
    unfold standsFor; rw [if_pos rfl]
  rw [hstands] at hst
  have hHlt : H d < 8760 := by omega
  obtain ⟨l0, l1⟩ := peak_loads r0 r1 hload hHlt
  have hoff : ∀ i, ¬ offInHour ((peakCards p).units i) (8760 * y + 24 * d) := by
    rintro i ⟨k, _, h⟩
    revert h
    fin_cases i <;> simp [peakCards, plannedOut, covers]
  have ho : ∀ i, outcome ((peakCards p).units i) (number (stream 123456 i (8760 / 24 * y + d))) = 1 := by
    intro i
    have hz : ((peakCards p).units i).dfor = 0 ∧ ((peakCards p).units i).fout = 0 := by
      fin_cases i <;> simp [peakCards]
    unfold outcome
    rw [hz.1, hz.2, if_pos (by have := number_lt_one i (8760 / 24 * y + d); linarith)]
  have hcap : areaCap (peakCards p) (fun d => ratingSeason (24 * d)) (fun i y d => offInHour ((peakCards p).units i) (8760 * y + 24 * d))
      (8760 / 24) y d = ![10, 220] := by
    funext j
    unfold areaCap
    rw [Finset.sum_congr rfl (fun i _ => by rw [ho, if_neg (hoff i), one_mul, mul_one])]
    fin_cases j
    · show ∑ i ∈ unitsIn (peakCards p) 0, _ = _
      rw [peak_units, Finset.sum_pair (by decide)]
      simp [peakCards]; norm_num
    · show ∑ i ∈ unitsIn (peakCards p) 1, _ = _
      rw [peak_units', Finset.sum_pair (by decide)]
      simp [peakCards]; norm_num
  have hneed : (fun j => load j (H d) * forecast ((peakCards p).areas j).lfu t) = ![load 0 (H d) * forecast 20 t, load 1 (H d)] := by
    funext j
    fin_cases j
    · rfl
    · show load 1 (H d) * forecast ((peakCards p).areas 1).lfu t = load 1 (H d)
      have : forecast ((peakCards p).areas 1).lfu t = 1 := by simp [peakCards, forecast]
      rw [this, mul_one]
  have hshare : ∀ j, yearShare (peakCards p) 24 load H t j y d = borne 1 ![10, 220] ![load 0 (H d) * forecast 20 t, load 1 (H d)] j := by
    intro j
    unfold yearShare areaLack
    rw [hcap, hneed]
    rfl
  have hcmp : ∀ h, h / 24 = (24 * d - 1) / 24 → load 0 h + load 1 h ≤ load 0 (H d) + load 1 (H d) := by
    intro h hh
    have := (hmax h ((hstands h).2 hh)).1
    rwa [Fin.sum_univ_two, Fin.sum_univ_two] at this
  constructor
  · intro hp j
    have hev : H d / 12 % 2 = 0 := by
      by_contra hodd
      have h3 := hcmp (24 * (d - 1)) (by omega)
      obtain ⟨k0, k1⟩ := peak_loads r0 r1 hload (x := 24 * (d - 1)) (by omega)
      rw [k0, k1, l0, l1, if_pos (by omega), if_pos (by omega), if_neg hodd, if_neg hodd] at h3
      linarith
    rw [hshare, l0, l1, if_pos hev, if_pos hev]
  · intro hp j
    have hodd : ¬ H d / 12 % 2 = 0 := by
      intro hev
      have h3 := hcmp (24 * (d - 1) + 12) (by omega)
      obtain ⟨k0, k1⟩ := peak_loads r0 r1 hload (x := 24 * (d - 1) + 12) (by omega)
      rw [k0, k1, l0, l1, if_neg (by omega), if_neg (by omega), if_pos hev, if_pos hev] at h3
      linarith
    rw [hshare, l0, l1, if_neg hodd, if_neg hodd]

/-- C115 (what fails in daily mode). The two studies of `C107_daily_refuted`, without loss sharing, no limit ever binding,
the second at least as good as the first area by area (only the peak of area `B` is lower). In the first, area `A` never has
a loss of load; in the second, in the highest forecast tier, it has one on all 365 days of every year, with 31 MWh each. -/
theorem C115_daily_refuted (sl : ℕ → ℚ → ℚ) (fuel : ℕ) : ∃ (s s' : Setup 1 4 1) (raw : ℕ → ℕ → ℚ),
    AmpleStudy sl fuel (peakCards 150) s 24 raw ∧ AmpleStudy sl fuel (peakCards 135) s' 24 raw ∧
    BetterByArea (peakCards 150) (peakCards 135) le_rfl ∧ (peakCards 150).misc.NLS ≠ 0 ∧ (peakCards 135).misc.NLS ≠ 0 ∧
    (∀ JSEED log st evs, Ends s.hour s.year s.JPLOUT s.RATES snapNet (s.start JSEED) log st evs →
      ∀ (y : ℕ) e, evs[y]? = some e → e.H.LOLTA 0 0 + e.H.LOLGA 0 0 = 0 ∧ e.H.MGNTA 0 0 + e.H.MGNGA 0 0 = 0) ∧
    (∀ JSEED log st evs, Ends s'.hour s'.year s'.JPLOUT s'.RATES snapNet (s'.start JSEED) log st evs →
      ∀ (y : ℕ) e, evs[y]? = some e → e.H.LOLTA 0 0 + e.H.LOLGA 0 0 = 365 ∧ e.H.MGNTA 0 0 + e.H.MGNGA 0 0 = 365 * 31) := by
  obtain ⟨raw, r0, r1, hst⟩ := peak_study sl fuel
  obtain ⟨s, hs⟩ := hst 150 (by norm_num) (by norm_num)
  obtain ⟨s', hs'⟩ := hst 135 (by norm_num) (by norm_num)
  have htiers : ∀ p, tiersOf (peakCards p) = 5 := by
    intro p
    unfold tiersOf
    rw [if_pos ⟨0, by simp [peakCards]⟩]
  have hd : 8760 / 24 = 365 := by norm_num
  -- the books of area `A` when it bears the same at every draw
  have books : ∀ {p : ℚ} {s : Setup 1 4 1} (hs : AmpleStudy sl fuel (peakCards p) s 24 raw) (x : ℚ),
      (∀ (load : Fin 2 → ℕ → ℚ) (H : ℕ → ℕ), (∀ j : Fin 2, Scaled (raw j) ((peakCards p).areas j).peak (load j)) →
        (∀ d, 1 ≤ d → d ≤ 8760 / 24 → Evaluated 24 load (24 * d) (H d)) → ∀ y d, 1 ≤ d → d ≤ 365 →
        yearShare (peakCards p) 24 load H 0 0 y d = x) →
      ∀ JSEED log st evs, Ends s.hour s.year s.JPLOUT s.RATES snapNet (s.start JSEED) log st evs →
      ∀ (y : ℕ) e, evs[y]? = some e → e.H.LOLTA 0 0 + e.H.LOLGA 0 0 = (if 1 ≤ x then 365 else 0) ∧
        e.H.MGNTA 0 0 + e.H.MGNGA 0 0 = 365 * (⌊x⌋₊ : ℚ) := by
    intro p s hs x hx JSEED log st evs hE y e he
    obtain ⟨load, H, hl, hH, main⟩ := C112_year_partial (C110_calm hs JSEED) (fun _ i => (hs.derating i).2)
    have ht : s.hour.NFCST = 5 := by rw [(setup_tiers hs.accepted).1, htiers]
    obtain ⟨m1, m2⟩ := main log st evs hE y e he 0 (by rw [ht]; decide) 0
    have hfirst : (if (0 : Fin 2).val < s.hour.NFCST ∧ (0 : Fin 5).val < 1 + 1 then y else 0) = y := by
      rw [if_pos (by rw [ht]; decide)]
    rw [hfirst, Nat.Ico_succ_singleton, Finset.sum_singleton, hd] at m1 m2
    have hz : ∀ d ∈ Finset.range 365, yearShare (peakCards p) 24 load H 0 0 y (d + 1) = x := fun d hd' =>
      hx load H hl hH y (d + 1) (by omega) (by have := Finset.mem_range.1 hd'; omega)
    constructor
    · rw [m2]
      unfold lossHours
      rw [Finset.sum_congr rfl fun d hd' => by rw [hz d hd'], Finset.sum_const, Finset.card_range]
      split_ifs <;> norm_num
    · rw [m1]
      unfold wholeMWh
      rw [Finset.sum_congr rfl fun d hd' => by rw [hz d hd'], Finset.sum_const, Finset.card_range, nsmul_eq_mul]
      norm_num
  have f0 : forecast 20 0 = 3 / 2 := by simp [forecast]; norm_num
  refine ⟨s, s', raw, hs, hs', ?_, by simp [peakCards, demoCards], by simp [peakCards, demoCards], ?_, ?_⟩
  · refine ⟨⟨rfl, ?_, ?_, fun _ _ => le_rfl, fun _ => le_rfl, fun _ => le_rfl, fun _ => le_rfl, fun _ _ h => h⟩, ?_, fun _ => rfl⟩
    · intro j; fin_cases j <;> rfl
    · intro j; fin_cases j <;> simp [peakCards]; norm_num
    · intro j; fin_cases j <;> rfl
  · intro JSEED log st evs hE y e he
    have := books hs 0 (fun load H hl hH y d h1 h2 => by
      rw [(peak_share r0 r1 hl hH 0 y h1 h2).1 (by norm_num) 0, f0]
      unfold borne
      rw [if_pos (by norm_num)]
      unfold ownShort allShort
      simp [Fin.sum_univ_two]
      norm_num) JSEED log st evs hE y e he
    rw [if_neg (by norm_num)] at this
    simpa using this
  · intro JSEED log st evs hE y e he
    have := books hs' 31 (fun load H hl hH y d h1 h2 => by
      rw [(peak_share r0 r1 hl hH 0 y h1 h2).2 (by norm_num) 0, f0]
      unfold borne
      rw [if_pos (by norm_num)]
      unfold ownShort allShort
      simp [Fin.sum_univ_two]
      norm_num) JSEED log st evs hE y e he
    rw [if_pos (by norm_num)] at this
    norm_num at this
    norm_num
    exact this

/-- Both studies of `C115_daily_refuted` have runs with a year end. -/
example (sl : ℕ → ℚ → ℚ) (fuel : ℕ) (JSEED : ℤ) : ∃ (raw : ℕ → ℕ → ℚ), ∀ p : ℚ, 0 < p → p ≤ 500 → ∃ s : Setup 1 4 1,
    AmpleStudy sl fuel (peakCards p) s 24 raw ∧
    ∃ log st evs e, Ends s.hour s.year s.JPLOUT s.RATES snapNet (s.start JSEED) log st evs ∧ evs[0]? = some e := by
  obtain ⟨raw, _, _, hst⟩ := peak_study sl fuel
  refine ⟨raw, fun p h0 h1 => ?_⟩
  obtain ⟨s, hs⟩ := hst p h0 h1
  exact ⟨s, hs, first_year_end hs (.inr rfl) (by simp [peakCards, demoCards]; norm_num) (by simp [peakCards, demoCards])
    (by simp [peakCards, demoCards]) (a := 0) ⟨rfl, rfl⟩ JSEED⟩

end Narp.Props
