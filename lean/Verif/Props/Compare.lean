import Verif.Props.Annual

/-!
# C107, C108: comparing two studies
-/

namespace Narp.Props
open Narp Narp.Spec BigOperators

variable {n m l m' l' : ℕ} {sl : ℕ → ℚ → ℚ} {fuel : ℕ}

theorem outcome_bounds {g : GenCard} (hd : 0 ≤ g.der ∧ g.der ≤ 100) (u : ℚ) : 0 ≤ outcome g u ∧ outcome g u ≤ 1 := by
  unfold outcome
  split_ifs
  · norm_num
  · constructor <;> linarith
  · norm_num

theorem outcome_mono {g g' : GenCard} (hd : 0 ≤ g.der ∧ g.der ≤ 100) (hd' : 0 ≤ g'.der ∧ g'.der ≤ 100) (h1 : g'.fout ≤ g.fout)
    (h2 : g'.fout + g'.dfor ≤ g.fout + g.dfor) (h3 : g'.der ≤ g.der) (u : ℚ) : outcome g u ≤ outcome g' u := by
  unfold outcome
  split_ifs <;> linarith

theorem offInHour_mono {g g' : GenCard} (h : ∀ k, plannedOut g' k → plannedOut g k) (T : ℕ) (ho : offInHour g' T) :
    offInHour g T := by
  obtain ⟨k, hk, hp⟩ := ho
  exact ⟨k, hk, h k hp⟩

/-- What the pool lacks is not more for the better system. -/
theorem lack_mono {c : Cards n m l} {c' : Cards n m' l'} {hm : m ≤ m'} (hg : AtLeastAsGood c c' hm)
    (hd : ∀ i, 0 ≤ (c.units i).der ∧ (c.units i).der ≤ 100) (hd' : ∀ i, 0 ≤ (c'.units i).der ∧ (c'.units i).der ≤ 100)
    (hs : Sensible c) (hs' : Sensible c')
    (step : ℕ) (load load' : Fin (n + 1) → ℕ → ℚ) (H H' : ℕ → ℕ) (t : Fin 5) (y d : ℕ)
    (hload : ∑ j, load' j (H' d) * forecast (c.areas j).lfu t ≤ ∑ j, load j (H d) * forecast (c.areas j).lfu t) :
    yearLack c' step load' H' t y d ≤ yearLack c step load H t y d := by
  unfold yearLack poolLack
  refine max_le_max le_rfl (sub_le_sub ?_ ?_)
  · simp only [hg.lfu]
    exact hload
  · set f : Fin m' → ℚ := fun i => outcome (c'.units i) (number (stream 123456 i (8760 / step * y + d))) *
      (c'.units i).cap (ratingSeason (step * d)) * (if offInHour (c'.units i) (8760 * y + step * d) then 0 else 1)
    have h0 : ∀ i, 0 ≤ f i := fun i => by
      have := outcome_bounds (hd' i) (number (stream 123456 i (8760 / step * y + d)))
      refine mul_nonneg (mul_nonneg this.1 (hs'.cap i _)) ?_
      split_ifs <;> norm_num
    have h1 : ∑ i : Fin m, f (Fin.castLE hm i) ≤ ∑ i, f i := by
      have e := Finset.sum_map Finset.univ (⟨Fin.castLE hm, Fin.castLE_injective hm⟩ : Fin m ↪ Fin m') f
      have e' : ∑ i : Fin m, f (Fin.castLE hm i) =
          ∑ x ∈ Finset.map (⟨Fin.castLE hm, Fin.castLE_injective hm⟩ : Fin m ↪ Fin m') Finset.univ, f x := e.symm
      rw [e']
      exact Finset.sum_le_univ_sum_of_nonneg h0
    refine le_trans (Finset.sum_le_sum fun i _ => ?_) h1
    have ho := outcome_mono (hd i) (hd' (Fin.castLE hm i)) (hg.out i) (hg.reduced i) (hg.der i)
      (number (stream 123456 i (8760 / step * y + d)))
    have hc := hg.cap i (ratingSeason (step * d))
    have b := outcome_bounds (hd i) (number (stream 123456 i (8760 / step * y + d)))
    show _ ≤ outcome (c'.units (Fin.castLE hm i)) (number (stream 123456 i (8760 / step * y + d))) *
      (c'.units (Fin.castLE hm i)).cap (ratingSeason (step * d)) *
      (if offInHour (c'.units (Fin.castLE hm i)) (8760 * y + step * d) then 0 else 1)
    have hprod := mul_le_mul ho hc (hs.cap i _) (le_trans b.1 ho)
    have hpos := mul_nonneg b.1 (hs.cap i (ratingSeason (step * d)))
    by_cases e' : offInHour (c'.units (Fin.castLE hm i)) (8760 * y + step * d)
    · rw [if_pos e', if_pos (offInHour_mono (hg.plan i) _ e')]; simp
    · rw [if_neg e', mul_one]
      split_ifs
      · rw [mul_zero]; linarith
      · rw [mul_one]; exact hprod

/-- If all peaks are changed by the same factor, so is the load of the pool in every hour. -/
theorem pool_factor {raw : ℕ → ℕ → ℚ} {peak peak' : Fin (n + 1) → ℚ} (h0 : ∀ j, 0 < peak j) (h0' : ∀ j, 0 < peak' j)
    (hq : ∃ q : ℚ, ∀ j, peak' j = q * peak j) {load load' : Fin (n + 1) → ℕ → ℚ}
    (hl : ∀ j : Fin (n + 1), Scaled (raw j) (peak j) (load j)) (hl' : ∀ j : Fin (n + 1), Scaled (raw j) (peak' j) (load' j)) :
    ∃ q : ℚ, 0 < q ∧ ∀ x, ∑ a, load' a x = q * ∑ a, load a x := by
  obtain ⟨q, e⟩ := hq
  have hq0 : 0 < q := by
    have h := h0' 0
    rw [e] at h
    exact pos_of_mul_pos_left h (h0 0).le
  refine ⟨q, hq0, fun x => ?_⟩
  rw [Finset.mul_sum]
  refine Finset.sum_congr rfl fun a _ => ?_
  obtain ⟨y, hy, hy0, hmax, e1⟩ := hl a
  obtain ⟨y', hy', hy0', hmax', e1'⟩ := hl' a
  have : raw a y = raw a y' := le_antisymm (hmax' y hy) (hmax y' hy')
  rw [e1, e1', this, e]
  ring

/-- The loads at the draws of the better system, in hourly mode or if all peaks are lower by the same factor. -/
theorem better_load {c : Cards n m l} {c' : Cards n m' l'} {s : Setup n m l} {step : ℕ}
    {raw : ℕ → ℕ → ℚ} {J : ℤ} (hc : Calm sl fuel c s step raw J) (hp' : ∀ j, 0 < (c'.areas j).peak) {hm : m ≤ m'}
    (hg : AtLeastAsGood c c' hm) (hmode : step = 1 ∨ ∃ q : ℚ, ∀ j, (c'.areas j).peak = q * (c.areas j).peak)
    {load load' : Fin (n + 1) → ℕ → ℚ} {H H' : ℕ → ℕ}
    (hl : ∀ j : Fin (n + 1), Scaled (raw j) (c.areas j).peak (load j)) (hl' : ∀ j : Fin (n + 1), Scaled (raw j) (c'.areas j).peak (load' j))
    (hH : ∀ d, 1 ≤ d → d ≤ 8760 / step → Evaluated step load (step * d) (H d))
    (hH' : ∀ d, 1 ≤ d → d ≤ 8760 / step → Evaluated step load' (step * d) (H' d)) :
    ∀ d, 1 ≤ d → d ≤ 8760 / step → ∀ j, load' j (H' d) ≤ load j (H d) := by
  intro d h1 h2 j
  have hst := (hH d h1 h2).1
  have hst' := (hH' d h1 h2).1
  have hHH : H' d = H d := by
    rcases hmode with e | e
    · subst e
      unfold standsFor at hst hst'
      rw [if_neg (by norm_num)] at hst hst'
      omega
    · obtain ⟨q, hq, hsum⟩ := pool_factor hc.peak hp' e hl hl'
      refine evaluated_unique ⟨hst', fun x hx => ?_⟩ (hH d h1 h2)
      have hx' := (hH' d h1 h2).2 x hx
      simp only [hsum] at hx'
      exact ⟨le_of_mul_le_mul_left hx'.1 hq, fun hlt => lt_of_mul_lt_mul_left (hx'.2 hlt) hq.le⟩
  rw [hHH]
  obtain ⟨x, hx, hx0, hmax, e1⟩ := hl j
  obtain ⟨x', hx', hx0', hmax', e1'⟩ := hl' j
  have : raw j x = raw j x' := le_antisymm (hmax' x hx) (hmax x' hx')
  rw [e1, e1', this]
  have hlt : H d < 8760 := by
    unfold standsFor at hst
    rcases hc.mode with e | e
    · subst e
      rw [if_neg (by norm_num)] at hst
      omega
    · subst e
      rw [if_pos (by norm_num)] at hst
      omega
  have hr := (hc.pos j (H d) hlt).le
  have hp := hg.peak j
  gcongr

/-- The load of the pool of the better system: besides, whatever the peaks, if all areas have the same forecast uncertainty. -/
theorem better_pool {c : Cards n m l} {c' : Cards n m' l'} {s : Setup n m l} {step : ℕ}
    {raw : ℕ → ℕ → ℚ} {J : ℤ} (hc : Calm sl fuel c s step raw J) (hp' : ∀ j, 0 < (c'.areas j).peak) {hm : m ≤ m'}
    (hg : AtLeastAsGood c c' hm) (hmode : step = 1 ∨ (∃ q : ℚ, ∀ j, (c'.areas j).peak = q * (c.areas j).peak) ∨
      ∃ f, ∀ j, (c.areas j).lfu = f)
    {load load' : Fin (n + 1) → ℕ → ℚ} {H H' : ℕ → ℕ}
    (hl : ∀ j : Fin (n + 1), Scaled (raw j) (c.areas j).peak (load j)) (hl' : ∀ j : Fin (n + 1), Scaled (raw j) (c'.areas j).peak (load' j))
    (hH : ∀ d, 1 ≤ d → d ≤ 8760 / step → Evaluated step load (step * d) (H d))
    (hH' : ∀ d, 1 ≤ d → d ≤ 8760 / step → Evaluated step load' (step * d) (H' d)) (t : Fin 5) :
    ∀ d, 1 ≤ d → d ≤ 8760 / step →
      ∑ j, load' j (H' d) * forecast (c.areas j).lfu t ≤ ∑ j, load j (H d) * forecast (c.areas j).lfu t := by
  intro d h1 h2
  have hfc : ∀ j, 0 ≤ forecast (c.areas j).lfu t := by
    intro j
    have := hc.lfu j
    unfold forecast
    fin_cases t <;> simp <;> linarith
  have hterm : (step = 1 ∨ ∃ q : ℚ, ∀ j, (c'.areas j).peak = q * (c.areas j).peak) →
      ∑ j, load' j (H' d) * forecast (c.areas j).lfu t ≤ ∑ j, load j (H d) * forecast (c.areas j).lfu t := fun hm' =>
    Finset.sum_le_sum fun j _ => mul_le_mul_of_nonneg_right (better_load hc hp' hg hm' hl hl' hH hH' d h1 h2 j) (hfc j)
  rcases hmode with e | e | ⟨f, hf⟩
  · exact hterm (.inl e)
  · exact hterm (.inr e)
  · simp only [hf, ← Finset.sum_mul]
    refine mul_le_mul_of_nonneg_right ?_ (by have := hfc 0; rwa [hf] at this)
    have hst' := (hH' d h1 h2).1
    have hlt : H' d < 8760 := by
      unfold standsFor at hst'
      rcases hc.mode with e | e
      · subst e
        rw [if_neg (by norm_num)] at hst'
        omega
      · subst e
        rw [if_pos (by norm_num)] at hst'
        omega
    refine le_trans (Finset.sum_le_sum fun j _ => ?_) ((hH d h1 h2).2 (H' d) hst').1
    obtain ⟨x, hx, hx0, hmax, e1⟩ := hl j
    obtain ⟨x', hx', hx0', hmax', e1'⟩ := hl' j
    have : raw j x = raw j x' := le_antisymm (hmax' x hx) (hmax x' hx')
    rw [e1, e1', this]
    have hr := (hc.pos j (H' d) hlt).le
    have hp := hg.peak j
    gcongr

/-- **C107 (what holds).** Two studies in which no limit binds, in hourly mode (or in daily mode if all peaks are changed by the
same factor, or if all areas have the same load forecast uncertainty), the
second at least as good as the first. Let `lack t y d` be what the pool of the first study lacks at draw
`d` of year `y` in tier `t`. In every year `y` that both complete and every tier, the energy not served recorded for
the pool of the second is at most that of the first plus 1 MWh per area for every draw with `lack t y d > 0` (the
rounding); and the second has at most as many loss-of-load draws as the first has draws with `lack t y d ≥ 1`, while those
with `lack t y d` of at least 1 MW per area are counted for the first. -/
theorem C107_better_partial {c : Cards n m l} {c' : Cards n m' l'} {s : Setup n m l} {s' : Setup n m' l'} {step : ℕ}
    {raw : ℕ → ℕ → ℚ} {J J' : ℤ} (hc : Calm sl fuel c s step raw J) (hc' : Calm sl fuel c' s' step raw J')
    (hd : ∀ i, 0 ≤ (c.units i).der ∧ (c.units i).der ≤ 100) (hd' : ∀ i, 0 ≤ (c'.units i).der ∧ (c'.units i).der ≤ 100)
    {hm : m ≤ m'} (hg : AtLeastAsGood c c' hm)
    (hmode : step = 1 ∨ (∃ q : ℚ, ∀ j, (c'.areas j).peak = q * (c.areas j).peak) ∨ ∃ f, ∀ j, (c.areas j).lfu = f) :
    ∃ (load : Fin (n + 1) → ℕ → ℚ) (H : ℕ → ℕ), (∀ j : Fin (n + 1), Scaled (raw j) (c.areas j).peak (load j)) ∧
    (∀ d, 1 ≤ d → d ≤ 8760 / step → Evaluated step load (step * d) (H d)) ∧
    let lack := yearLack c step load H
    ∀ log st evs log' st' evs',
    Ends s.hour s.year s.JPLOUT s.RATES snapNet (s.start J) log st evs →
    Ends s'.hour s'.year s'.JPLOUT s'.RATES snapNet (s'.start J') log' st' evs' →
    ∀ y e e', evs[y]? = some e → evs'[y]? = some e' → ∀ t : Fin 5, t.val < s.hour.NFCST →
    (e'.H.MGNTP t + e'.H.MGNGP t ≤ e.H.MGNTP t + e.H.MGNGP t +
      ((n + 1 : ℕ) : ℚ) * ((Finset.filter (fun d => 0 < lack t y (d + 1)) (Finset.range (8760 / step))).card : ℚ)) ∧
    e'.H.LOLTP t + e'.H.LOLGP t ≤
      ((Finset.filter (fun d => 1 ≤ lack t y (d + 1)) (Finset.range (8760 / step))).card : ℚ) ∧
    ((Finset.filter (fun d => ((n + 1 : ℕ) : ℚ) ≤ lack t y (d + 1)) (Finset.range (8760 / step))).card : ℚ) ≤
      e.H.LOLTP t + e.H.LOLGP t := by
  obtain ⟨load, H, hl, hH, main⟩ := C106_year_partial hc
  obtain ⟨load', H', hl', hH', main'⟩ := C106_year_partial hc'
  have hNF : s'.hour.NFCST = s.hour.NFCST := by
    rw [(setup_tiers hc.accepted).1, (setup_tiers hc'.accepted).1]
    unfold tiersOf
    simp only [hg.lfu]
  have hld := fun t => better_pool hc hc'.peak hg hmode hl hl' hH hH' t
  refine ⟨load, H, hl, hH, ?_⟩
  intro lack log st evs log' st' evs' hE hE' y e e' he he' t ht
  have hb := main log st evs hE y e he t ht
  have hb' := main' log' st' evs' hE' y e' he' t (by rw [hNF]; exact ht)
  have hle : ∀ d ∈ Finset.range (8760 / step), yearLack c' step load' H' t y (d + 1) ≤ yearLack c step load H t y (d + 1) := by
    intro d hdm
    rw [Finset.mem_range] at hdm
    exact lack_mono hg hd hd' hc.sensible hc'.sensible step load load' H H' t y (d + 1)
      (hld t (d + 1) (by omega) (by omega))
  refine ⟨?_, ?_, hb.atLeast⟩
  · refine hb'.most.trans ((Finset.sum_le_sum hle).trans ?_)
    have h1 : ∑ d ∈ Finset.range (8760 / step), yearLack c step load H t y (d + 1) ≤
        ∑ d ∈ Finset.range (8760 / step), (max 0 (yearLack c step load H t y (d + 1) - (n + 1 : ℕ)) +
          if 0 < yearLack c step load H t y (d + 1) then ((n + 1 : ℕ) : ℚ) else 0) := by
      refine Finset.sum_le_sum fun d _ => ?_
      split_ifs with hp
      · have := le_max_right 0 (yearLack c step load H t y (d + 1) - (n + 1 : ℕ))
        linarith
      · have := le_max_left 0 (yearLack c step load H t y (d + 1) - (n + 1 : ℕ))
        linarith
    refine h1.trans ?_
    rw [Finset.sum_add_distrib, ← Finset.sum_filter, Finset.sum_const, nsmul_eq_mul]
    have := hb.least
    rw [mul_comm]
    linarith
  · refine hb'.atMost.trans ?_
    have hsub : (Finset.filter (fun d => 1 ≤ yearLack c' step load' H' t y (d + 1)) (Finset.range (8760 / step))) ⊆
        (Finset.filter (fun d => 1 ≤ yearLack c step load H t y (d + 1)) (Finset.range (8760 / step))) := by
      intro d
      rw [Finset.mem_filter, Finset.mem_filter]
      exact fun ⟨a, b⟩ => ⟨a, le_trans b (hle d a)⟩
    exact_mod_cast Finset.card_le_card hsub

/-! ## The claim of C107 is not empty -/

/-- An input in which every area is always short, in hourly mode, has no binding limit in any run. -/
theorem calm_of_scarce {c : Cards n m l} {s : Setup n m l} (h1 : OneCard c) (hs : Sensible c) (hlo : NoLone c)
    (hnw : SoundNetwork c) (hd : ∀ i, 0 ≤ (c.units i).der ∧ (c.units i).der ≤ 100) (h : setup sl fuel c = .ok s)
    (hstep : c.misc.JSTEP = 1) (hfreq : c.misc.JFREQ = 1) (hnum : ∀ k, (c.lines k).number ≤ l)
    (hlfu : ∀ j, 0 ≤ (c.areas j).lfu ∧ (c.areas j).lfu < 40) {raw : ℕ → ℕ → ℚ} (hread : leeiRead (n + 1) c.leei = .ok raw)
    (hpk : ∀ j, 0 < (c.areas j).peak) (hraw : ∀ j : Fin (n + 1), ∀ h < 8760, 1 ≤ raw j h)
    {LP : LEnds n l} (hLP : ∀ k, (c.areas (LP k).1).name = (c.lines k).src ∧ (c.areas (LP k).2).name = (c.lines k).dst)
    (hsc : Scarce c s.hour.HRLOAD) (JSEED : ℤ) : Calm sl fuel c s 1 raw JSEED := by
  have hJs : s.hour.JSTEP = 1 := by
    rw [C64_step h, hstep]
    norm_num
  have hJ : StepOK s.hour.JSTEP := .inl hJs
  have hJF : s.hour.JFREQ = 1 := by
    obtain ⟨wr, raw, T, ITAB, ID', hw, _, _, _, _, rfl⟩ := setup_ok h
    exact hfreq
  obtain ⟨_, _, _, hld, _, _, hmx⟩ := C64_loads h
  refine ⟨h1, hs, hlo, hnw, h, by rw [hstep]; norm_num, .inl rfl, hfreq, hnum, hlfu, hread, hpk,
    fun j x hx => by have := hraw j x hx; linarith,
    fun j => ⟨0, by norm_num, by have := hraw j 0 (by norm_num); linarith⟩, LP, hLP, ?_⟩
  intro log st ev st' hr _ _
  refine hourBody_all_short
    { s.hour with transm := (hourTransm noRedispatch LP (fun k => dataxBLPA (c.lines k)) 0 c.misc.NLS) }
    (Nat.succ_pos n) hJF
    (fun d hd => by have := (hmx d).2.1; show s.hour.MXPLHR d < 8760; omega)
    ev.time (fun i => st.RATING.getD i 0) (fun i => st.PLNDST.getD i 0) st.world.h ?_
  intro day hr' hh t j
  obtain ⟨season, hcap⟩ := capacity_le h1 hs hd h hJ JSEED hr day
  have a := hcap j
  have b := hsc j t hr' hh season
  rw [← hld j t hr'] at b
  change (hourDraw s.hour day _ _ st.world.h).1.SYSCON j - findld t hr' s.hour.HRLOAD s.hour.FCTERR j ≤ -1
  linarith

/-- The input of `scarceCards` with a larger unit `S` (70 instead of 40 MW), no maintenance of unit `P`, a fifth unit `T` of
50 MW in area `B`, and a peak of 950 instead of 1000 MW in area `A`. -/
def betterCards : Cards 1 5 1 where
  areas := ![⟨1, ['A'], 950, 0, fun _ => 0, 1000⟩, ⟨2, ['B'], 900, 0, fun _ => 0, 1000⟩]
  units := ![⟨1, ['P'], ['A'], fun _ => 100, 0, 0, 0, ⟨1, 0, 0, 0, 0⟩⟩, ⟨2, ['Q'], ['A'], fun _ => 100, 0, 0, 0, ⟨1, 0, 0, 0, 0⟩⟩,
    ⟨3, ['R'], ['B'], fun _ => 60, 0, 0, 0, ⟨1, 0, 0, 0, 0⟩⟩, ⟨4, ['S'], ['B'], fun _ => 70, 0, 0, 0, ⟨1, 0, 0, 0, 0⟩⟩,
    ⟨5, ['T'], ['B'], fun _ => 50, 0, 0, 0, ⟨1, 0, 0, 0, 0⟩⟩]
  lines := scarceCards.lines
  contracts := []
  owns := []
  misc := scarceCards.misc
  leei := scarceCards.leei

theorem better_good : AtLeastAsGood scarceCards betterCards (by norm_num) := by
  constructor
  · rfl
  · intro j; fin_cases j <;> simp [scarceCards, betterCards]
  · intro j; fin_cases j <;> simp [scarceCards, betterCards]; norm_num
  · intro i k; fin_cases i <;> simp [scarceCards, demoCards, betterCards, Fin.castLE] <;> norm_num
  · intro i; fin_cases i <;> simp [scarceCards, demoCards, betterCards, Fin.castLE]
  · intro i; fin_cases i <;> simp [scarceCards, demoCards, betterCards, Fin.castLE]
  · intro i; fin_cases i <;> simp [scarceCards, demoCards, betterCards, Fin.castLE]
  · intro i k; fin_cases i <;> simp [scarceCards, demoCards, betterCards, Fin.castLE, plannedOut, covers]

theorem better_one : OneCard betterCards := by
  constructor
  · intro a b; fin_cases a <;> fin_cases b <;> simp [betterCards]
  · intro a b; fin_cases a <;> fin_cases b <;> simp [betterCards]

theorem better_sensible : Sensible betterCards := by
  constructor
  · intro i k; fin_cases i <;> simp [betterCards]
  · intro i; fin_cases i <;> simp [betterCards]
  · intro i k; fin_cases i <;> simp [betterCards, covers]

theorem better_lone : NoLone betterCards := by
  intro i
  fin_cases i
  exacts [⟨1, by decide, rfl⟩, ⟨0, by decide, rfl⟩, ⟨3, by decide, rfl⟩, ⟨2, by decide, rfl⟩, ⟨2, by decide, rfl⟩]

theorem better_derating (i : Fin 5) : 0 ≤ (betterCards.units i).der ∧ (betterCards.units i).der ≤ 100 := by
  fin_cases i <;> simp [betterCards]

theorem better_network : SoundNetwork betterCards := by
  constructor
  · intro k; fin_cases k; simp [scarceCards, demoCards, betterCards]
  · intro a
    fin_cases a
    · exact .refl
    · exact .single ⟨0, .inl ⟨rfl, rfl⟩⟩
  · intro k t; fin_cases k; simp [scarceCards, demoCards, betterCards]
  · intro k t; fin_cases k; simp [scarceCards, demoCards, betterCards]

theorem better_known : AllKnown betterCards := by
  constructor
  · intro i; fin_cases i <;> simp [betterCards]
  · intro i; exact ⟨0, by fin_cases i; rfl⟩
  · intro i; exact ⟨1, by fin_cases i; rfl⟩
  · intro x hx; cases hx
  · intro x hx; cases hx
  · intro x hx; cases hx

/-- C107 applies: `betterCards` is accepted, is at least as good as `scarceCards`, and no limit binds in any
run of either. -/
theorem C107_applies (sl : ℕ → ℚ → ℚ) (fuel : ℕ) (J J' : ℤ) : ∃ (s : Setup 1 4 1) (s' : Setup 1 5 1) (raw : ℕ → ℕ → ℚ),
    Calm sl fuel scarceCards s 1 raw J ∧ Calm sl fuel betterCards s' 1 raw J' ∧
    AtLeastAsGood scarceCards betterCards (by norm_num) ∧ Scarce scarceCards s.hour.HRLOAD ∧ Scarce betterCards s'.hour.HRLOAD := by
  obtain ⟨raw, h, r0, r1⟩ := flat_read
  have hflat : ∀ j : Fin 2, ∀ h < 8760, 5 ≤ raw j h ∧ ∀ h' < 8760, raw j h = raw j h' := by
    intro j h hh
    fin_cases j
    · refine ⟨?_, fun h' hh' => ?_⟩
      · show 5 ≤ raw 0 h; rw [r0 h hh]
      · show raw 0 h = raw 0 h'; rw [r0 h hh, r0 h' hh']
    · refine ⟨?_, fun h' hh' => ?_⟩
      · show 5 ≤ raw 1 h; rw [r1 h hh]; norm_num
      · show raw 1 h = raw 1 h'; rw [r1 h hh, r1 h' hh']
  obtain ⟨s, hs, hsc⟩ := scarce_ok sl fuel
  obtain ⟨s', hs'⟩ := C64_accepted (c := betterCards) sl fuel better_one (by norm_num) better_known better_sensible
    better_lone.once ⟨raw, h⟩ rfl rfl
  have hread : leeiRead (1 + 1) betterCards.leei = .ok raw := h
  have hpk : ∀ j, 0 < (betterCards.areas j).peak := by
    intro j; fin_cases j <;> simp [betterCards]
  have hsc' : Scarce betterCards s'.hour.HRLOAD := by
    intro j t h hh season
    obtain ⟨x, hx, hx0, _, hv⟩ := loads_scaled hs' hread j (hpk j) (fun h hh => by have := (hflat j h hh).1; linarith)
      ⟨0, by norm_num, by have := (hflat j 0 (by norm_num)).1; linarith⟩
    have hload : s'.hour.HRLOAD j h = (betterCards.areas j).peak := by
      rw [hv, (hflat j h hh).2 x hx]
      field_simp
    have hsum : ∑ i ∈ unitsIn betterCards j, (betterCards.units i).cap (season i) ≤ 500 := by
      have hcap : ∀ i, 0 ≤ (betterCards.units i).cap (season i) ∧ (betterCards.units i).cap (season i) ≤ 100 := by
        intro i; fin_cases i <;> simp [betterCards] <;> norm_num
      calc _ ≤ ∑ i, (betterCards.units i).cap (season i) :=
            Finset.sum_le_univ_sum_of_nonneg fun i => (hcap i).1
        _ ≤ ∑ _i : Fin 5, (100 : ℚ) := Finset.sum_le_sum fun i _ => (hcap i).2
        _ = 500 := by simp; norm_num
    have hf : forecast (betterCards.areas j).lfu t = 1 := by
      fin_cases j <;> simp [betterCards, forecast]
    have hp : 900 ≤ (betterCards.areas j).peak := by
      fin_cases j <;> simp [betterCards]; norm_num
    rw [hload, hf]
    linarith
  refine ⟨s, s', raw, scarce_calm sl fuel J hs hsc h (fun j x hx => (hflat j x hx).1), ?_, better_good, hsc, hsc'⟩
  exact calm_of_scarce better_one better_sensible better_lone better_network better_derating hs' rfl rfl
    (by intro k; fin_cases k; simp [scarceCards, demoCards, betterCards]) (by intro j; fin_cases j <;> simp [betterCards])
    hread hpk (fun j x hx => by have := (hflat j x hx).1; linarith) (LP := twoLP)
    (by intro k; fin_cases k; exact ⟨rfl, rfl⟩) hsc' J'

/-! ## C108: the same random numbers -/

/-- **C108 (what holds).** Two accepted inputs of which the second has further units, whatever else
is different: after the same number of draws every unit of the first is in both runs at the same state of its stream. -/
theorem C108_units_partial {c : Cards n m l} {s : Setup n m l} {n' : ℕ} {c' : Cards n' m' l'} {s' : Setup n' m' l'}
    {sl' : ℕ → ℚ → ℚ} {fuel' : ℕ} (h : setup sl fuel c = .ok s) (h' : setup sl' fuel' c' = .ok s')
    (hstep : c.misc.JSTEP = 1 ∨ c.misc.JSTEP = 24) (hstep' : c'.misc.JSTEP = 1 ∨ c'.misc.JSTEP = 24) (hm : m ≤ m')
    {J J' : ℤ} {log log' : List Ev} {st : St _} {st' : St _} (hr : Reach s.cfg (s.start J) log st)
    (hr' : Reach s'.cfg (s'.start J') log' st') (he : draws log' = draws log) (i : Fin m) :
    st'.world.h.IGSEED (Fin.castLE hm i) = st.world.h.IGSEED i := by
  rw [(C73_streams h hstep J hr).1, (C73_streams h' hstep' J' hr').1, he]
  rfl

theorem stream_next_ne (i k : ℕ) : stream 123456 (i + 1) k ≠ stream 123456 i k := by
  intro h
  unfold stream at h
  have e : (2 : ℤ) ^ 31 = 2147483648 := by norm_num
  rw [e] at h
  have h1 : (2147483648 : ℤ) ∣ 123456 * 9649598 * (9649599 ^ (i + 1) * 65539 ^ k) := by
    have := Int.ModEq.dvd (Int.ModEq.symm h)
    have e' : (123456 : ℤ) * 9649599 ^ (i + 1 + 1) * 65539 ^ k - 123456 * 9649599 ^ (i + 1) * 65539 ^ k =
      123456 * 9649598 * (9649599 ^ (i + 1) * 65539 ^ k) := by ring
    rwa [e'] at this
  have h2 : (256 : ℤ) ∣ 123456 * 9649598 * (9649599 ^ (i + 1) * 65539 ^ k) := Dvd.dvd.trans (by norm_num) h1
  have h3 : (256 : ℤ) = 128 * 2 := by norm_num
  have h4 : (123456 : ℤ) * 9649598 * (9649599 ^ (i + 1) * 65539 ^ k) = 128 * (9307037271 * (9649599 ^ (i + 1) * 65539 ^ k)) := by
    ring
  rw [h3, h4] at h2
  have h5 := Int.dvd_of_mul_dvd_mul_left (by norm_num) h2
  have o1 : Odd ((9307037271 : ℤ) * (9649599 ^ (i + 1) * 65539 ^ k)) :=
    Odd.mul (by decide) ((Odd.pow (by decide)).mul (Odd.pow (by decide)))
  exact (Int.not_even_iff_odd.2 o1) (even_iff_two_dvd.2 h5)

/-- **C108 (what fails).** If the second input has exactly one unit more and otherwise anything, then after the same number of
draws every line is at a different state of its stream: with one unit added, all lines get new random numbers at every
draw of the run. -/
theorem C108_lines_refuted {c : Cards n m l} {s : Setup n m l} {n' : ℕ} {c' : Cards n' (m + 1) l} {s' : Setup n' (m + 1) l}
    {sl' : ℕ → ℚ → ℚ} {fuel' : ℕ} (h : setup sl fuel c = .ok s) (h' : setup sl' fuel' c' = .ok s')
    (hstep : c.misc.JSTEP = 1 ∨ c.misc.JSTEP = 24) (hstep' : c'.misc.JSTEP = 1 ∨ c'.misc.JSTEP = 24)
    {J J' : ℤ} {log log' : List Ev} {st : St _} {st' : St _} (hr : Reach s.cfg (s.start J) log st)
    (hr' : Reach s'.cfg (s'.start J') log' st') (he : draws log' = draws log) (j : Fin l) :
    number (st'.world.h.ILSEED j) ≠ number (st.world.h.ILSEED j) := by
  rw [(C73_streams h hstep J hr).2.1, (C73_streams h' hstep' J' hr').2.1, he]
  have := stream_next_ne (m + j) (draws log)
  rw [show m + 1 + j.val = m + j.val + 1 by omega]
  unfold number
  intro hv
  apply this
  have h2 := mul_right_cancel₀ (by norm_num) hv
  exact_mod_cast h2

end Narp.Props
