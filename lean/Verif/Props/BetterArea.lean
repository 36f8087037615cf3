import Verif.Props.FinalReport

/-!
# C115: a better system is worse for nobody
-/

namespace Narp.Props
open Narp Narp.Spec BigOperators

variable {n m l m' l' : ℕ} {sl : ℕ → ℚ → ℚ} {fuel : ℕ}

/-- Without loss sharing what an area bears depends on the needs only. -/
theorem borne_need {k : ℕ} {rule : ℤ} (hr : rule ≠ 0) (cap load : Fin k → ℚ) (j : Fin k) :
    borne rule cap load j = borne rule (fun _ => 0) (fun i => load i - cap i) j := by
  unfold borne ownShort allShort
  simp only [if_pos hr, sub_zero, Finset.sum_sub_distrib, Finset.sum_const_zero]

/-- Without loss sharing nobody bears more if nobody needs more. -/
theorem borne_need_mono {k : ℕ} {rule : ℤ} (hr : rule ≠ 0) {cap load cap' load' : Fin k → ℚ}
    (h : ∀ j, load' j - cap' j ≤ load j - cap j) (j : Fin k) : borne rule cap' load' j ≤ borne rule cap load j := by
  rw [borne_need hr, borne_need hr cap]
  unfold borne
  rw [if_pos hr, if_pos hr]
  refine mul_le_mul (max_le_max le_rfl (by simpa using h j)) (need_ratio h) ?_ (ownShort_nonneg _ _ _)
  exact div_nonneg (allShort_nonneg _ _) (Finset.sum_nonneg fun i _ => ownShort_nonneg _ _ _)

/-- The units of every area deliver at least as much in the better system. -/
theorem areaCap_mono {c : Cards n m l} {c' : Cards n m' l'} {hm : m ≤ m'} (hg : BetterByArea c c' hm)
    (hd : ∀ i, 0 ≤ (c.units i).der ∧ (c.units i).der ≤ 100) (hd' : ∀ i, 0 ≤ (c'.units i).der ∧ (c'.units i).der ≤ 100)
    (hs : Sensible c) (hs' : Sensible c') (season : ℕ → Fin 4) (step per y d : ℕ) (j : Fin (n + 1)) :
    areaCap c season (fun i y d => offInHour (c.units i) (8760 * y + step * d)) per y d j ≤
      areaCap c' season (fun i y d => offInHour (c'.units i) (8760 * y + step * d)) per y d j := by
  unfold areaCap
  set f : Fin m' → ℚ := fun i => outcome (c'.units i) (number (stream 123456 i (per * y + d))) *
    (c'.units i).cap (season d) * (if offInHour (c'.units i) (8760 * y + step * d) then 0 else 1)
  have h0 : ∀ i, 0 ≤ f i := fun i => by
    have := outcome_bounds (hd' i) (number (stream 123456 i (per * y + d)))
    refine mul_nonneg (mul_nonneg this.1 (hs'.cap i _)) ?_
    split_ifs <;> norm_num
  have h1 : ∑ i ∈ unitsIn c j, f (Fin.castLE hm i) ≤ ∑ i ∈ unitsIn c' j, f i := by
    have e := Finset.sum_map (unitsIn c j) (⟨Fin.castLE hm, Fin.castLE_injective hm⟩ : Fin m ↪ Fin m') f
    have e' : ∑ i ∈ unitsIn c j, f (Fin.castLE hm i) =
        ∑ x ∈ Finset.map (⟨Fin.castLE hm, Fin.castLE_injective hm⟩ : Fin m ↪ Fin m') (unitsIn c j), f x := e.symm
    rw [e']
    refine Finset.sum_le_sum_of_subset_of_nonneg ?_ fun i _ _ => h0 i
    intro x hx
    obtain ⟨i, hi, rfl⟩ := Finset.mem_map.1 hx
    unfold unitsIn at hi ⊢
    simp only [Finset.mem_filter, Finset.mem_univ, true_and] at hi ⊢
    show (c'.units (Fin.castLE hm i)).loc = (c'.areas j).name
    rw [hg.loc i, hg.name j, hi]
  refine le_trans (Finset.sum_le_sum fun i _ => ?_) h1
  have ho := outcome_mono (hd i) (hd' (Fin.castLE hm i)) (hg.out i) (hg.reduced i) (hg.der i)
    (number (stream 123456 i (per * y + d)))
  have hc := hg.cap i (season d)
  have b := outcome_bounds (hd i) (number (stream 123456 i (per * y + d)))
  show _ ≤ outcome (c'.units (Fin.castLE hm i)) (number (stream 123456 i (per * y + d))) *
    (c'.units (Fin.castLE hm i)).cap (season d) *
    (if offInHour (c'.units (Fin.castLE hm i)) (8760 * y + step * d) then 0 else 1)
  have hprod := mul_le_mul ho hc (hs.cap i _) (le_trans b.1 ho)
  have hpos := mul_nonneg b.1 (hs.cap i (season d))
  by_cases e' : offInHour (c'.units (Fin.castLE hm i)) (8760 * y + step * d)
  · rw [if_pos e', if_pos (offInHour_mono (hg.plan i) _ e')]; simp
  · rw [if_neg e', mul_one]
    split_ifs
    · rw [mul_zero]; linarith
    · rw [mul_one]; exact hprod

/-- Without loss sharing no area bears more in the better system, at no draw. -/
theorem share_mono {c : Cards n m l} {c' : Cards n m' l'} {hm : m ≤ m'} (hg : BetterByArea c c' hm)
    (hd : ∀ i, 0 ≤ (c.units i).der ∧ (c.units i).der ≤ 100) (hd' : ∀ i, 0 ≤ (c'.units i).der ∧ (c'.units i).der ≤ 100)
    (hs : Sensible c) (hs' : Sensible c') (hlfu : ∀ j, 0 ≤ (c.areas j).lfu ∧ (c.areas j).lfu < 40)
    (hN : c.misc.NLS ≠ 0) (hN' : c'.misc.NLS = c.misc.NLS)
    (step : ℕ) (load load' : Fin (n + 1) → ℕ → ℚ) (H H' : ℕ → ℕ) (t : Fin 5) (j : Fin (n + 1)) (y d : ℕ)
    (hload : ∀ j, load' j (H' d) ≤ load j (H d)) :
    yearShare c' step load' H' t j y d ≤ yearShare c step load H t j y d := by
  unfold yearShare areaLack
  rw [hN']
  refine borne_need_mono hN (fun j => sub_le_sub ?_ (areaCap_mono hg hd hd' hs hs' _ _ _ _ _ _)) j
  rw [hg.lfu]
  refine mul_le_mul_of_nonneg_right (hload j) ?_
  have := hlfu j
  unfold forecast
  fin_cases t <;> simp <;> linarith

theorem wholeMWh_le {f g : ℕ → ℚ} {k : ℕ} (h : ∀ d < k, f (d + 1) ≤ g (d + 1)) : wholeMWh f k ≤ wholeMWh g k :=
  Finset.sum_le_sum fun d hd => by exact_mod_cast Nat.floor_le_floor (h d (Finset.mem_range.1 hd))

theorem lossHours_le {f g : ℕ → ℚ} {k : ℕ} (h : ∀ d < k, f (d + 1) ≤ g (d + 1)) : lossHours f k ≤ lossHours g k := by
  refine Finset.sum_le_sum fun d hd => ?_
  have := h d (Finset.mem_range.1 hd)
  split_ifs
  · exact le_rfl
  · linarith
  · norm_num
  · exact le_rfl

theorem lossDays_le {f g : ℕ → ℚ} {peak : ℕ → Prop} {k : ℕ} (h : ∀ d < k, f (d + 1) ≤ g (d + 1)) :
    lossDays f peak k ≤ lossDays g peak k := by
  classical
  refine Finset.sum_le_sum fun d hd => ?_
  have := h d (Finset.mem_range.1 hd)
  by_cases hf : peak (d + 1) ∧ 1 ≤ f (d + 1)
  · rw [if_pos hf, if_pos ⟨hf.1, hf.2.trans this⟩]
  · rw [if_neg hf]; split_ifs <;> norm_num

theorem poolLossHours_le {k' : ℕ} {f g : Fin k' → ℕ → ℚ} {k : ℕ} (h : ∀ j, ∀ d < k, f j (d + 1) ≤ g j (d + 1)) :
    poolLossHours f k ≤ poolLossHours g k := by
  refine Finset.sum_le_sum fun d hd => ?_
  by_cases hf : ∃ j, 1 ≤ f j (d + 1)
  · have : ∃ j, 1 ≤ g j (d + 1) := by
      obtain ⟨j, hj⟩ := hf
      exact ⟨j, hj.trans (h j d (Finset.mem_range.1 hd))⟩
    rw [if_pos hf, if_pos this]
  · rw [if_neg hf]; split_ifs <;> norm_num

theorem poolLossDays_le {k' : ℕ} {f g : Fin k' → ℕ → ℚ} {peak : ℕ → Prop} {k : ℕ} (h : ∀ j, ∀ d < k, f j (d + 1) ≤ g j (d + 1)) :
    poolLossDays f peak k ≤ poolLossDays g peak k := by
  classical
  refine Finset.sum_le_sum fun d hd => ?_
  by_cases hf : peak (d + 1) ∧ ∃ j, 1 ≤ f j (d + 1)
  · have : peak (d + 1) ∧ ∃ j, 1 ≤ g j (d + 1) := by
      obtain ⟨hp, j, hj⟩ := hf
      exact ⟨hp, j, hj.trans (h j d (Finset.mem_range.1 hd))⟩
    rw [if_pos hf, if_pos this]
  · rw [if_neg hf]; split_ifs <;> norm_num

theorem withCarry_le {carried : Prop} [Decidable carried] {f g : ℕ → ℚ} (h : ∀ y, f y ≤ g y) (y : ℕ) :
    withCarry carried f y ≤ withCarry carried g y := Finset.sum_le_sum fun y _ => h y

theorem weight_nonneg (tiers t : ℕ) : 0 ≤ weight tiers t := by
  unfold weight
  split_ifs
  · norm_num
  · rcases t with _ | _ | _ | _ | _ | t <;> simp <;> norm_num

theorem weighted_le {tiers : ℕ} {f g : Fin 5 → ℚ} (h : ∀ t, f t ≤ g t) : weighted tiers f ≤ weighted tiers g := by
  unfold weighted
  exact List.sum_le_sum fun t _ => mul_le_mul_of_nonneg_left (h t) (weight_nonneg _ _)

theorem figures_mean_le {tiers Y : ℕ} {carried : Fin 5 → Prop} [∀ t, Decidable (carried t)] {f g : Fin 5 → ℕ → ℚ}
    (h : ∀ t y, withCarry (carried t) (f t) y ≤ withCarry (carried t) (g t) y) :
    mean (figures tiers Y carried f) ≤ mean (figures tiers Y carried g) := by
  unfold mean figures
  rw [List.length_map, List.length_map]
  refine div_le_div_of_nonneg_right (List.sum_le_sum fun y _ => weighted_le fun t => h t y) (Nat.cast_nonneg _)

section Pair
variable {c : Cards n m l} {c' : Cards n m' l'} {s : Setup n m l} {s' : Setup n m' l'} {step : ℕ} {raw : ℕ → ℕ → ℚ} {J J' : ℤ}

/-- Then the draws that count for their day are the same. -/
theorem peakDraw_factor {load load' : Fin (n + 1) → ℕ → ℚ} {q : ℚ} (hq : 0 < q) (h : ∀ x, ∑ a, load' a x = q * ∑ a, load a x)
    (step T : ℕ) : PeakDraw step load' T ↔ PeakDraw step load T := by
  unfold PeakDraw IsFirstMax
  simp only [h, mul_le_mul_iff_of_pos_left hq, mul_lt_mul_iff_of_pos_left hq]

/-- C115: two studies in which no limit binds, without loss sharing, the second at least as good as the first area by area (in
hourly mode, or if all peaks are changed by the same factor). In every year that both complete, in every forecast tier, the books of the second
show at most the loss-of-load hours and the energy not served of the first, for every area and for the pool, exactly;
if all peaks are changed by the same factor also at most the loss-of-load days. -/
theorem C115_books_partial (hc : Calm sl fuel c s step raw J) (hc' : Calm sl fuel c' s' step raw J')
    (hd : ∀ i, 0 ≤ (c.units i).der ∧ (c.units i).der ≤ 100) (hd' : ∀ i, 0 ≤ (c'.units i).der ∧ (c'.units i).der ≤ 100)
    {hm : m ≤ m'} (hg : BetterByArea c c' hm) (hN : c.misc.NLS ≠ 0) (hN' : c'.misc.NLS = c.misc.NLS)
    (hmode : step = 1 ∨ ∃ q : ℚ, ∀ j, (c'.areas j).peak = q * (c.areas j).peak) {log log' : List Ev} {st : St _} {st' : St _}
    {evs : List (YearEnd (n + 1) _)} {evs' : List (YearEnd (n + 1) _)}
    (hE : Ends s.hour s.year s.JPLOUT s.RATES snapNet (s.start J) log st evs)
    (hE' : Ends s'.hour s'.year s'.JPLOUT s'.RATES snapNet (s'.start J') log' st' evs')
    {y : ℕ} {e : YearEnd (n + 1) _} {e' : YearEnd (n + 1) _} (he : evs[y]? = some e) (he' : evs'[y]? = some e')
    (t : Fin 5) (ht : t.val < s.hour.NFCST) :
    e'.H.LOLTP t + e'.H.LOLGP t ≤ e.H.LOLTP t + e.H.LOLGP t ∧ e'.H.MGNTP t + e'.H.MGNGP t ≤ e.H.MGNTP t + e.H.MGNGP t ∧
    (∀ j, e'.H.LOLTA j t + e'.H.LOLGA j t ≤ e.H.LOLTA j t + e.H.LOLGA j t ∧
      e'.H.MGNTA j t + e'.H.MGNGA j t ≤ e.H.MGNTA j t + e.H.MGNGA j t) ∧
    ((∃ q : ℚ, ∀ j, (c'.areas j).peak = q * (c.areas j).peak) → e'.P.LOLTP t + e'.P.LOLGP t ≤ e.P.LOLTP t + e.P.LOLGP t ∧
      ∀ j, e'.P.LOLTA j t + e'.P.LOLGA j t ≤ e.P.LOLTA j t + e.P.LOLGA j t) := by
  obtain ⟨load, H, hl, hH, main⟩ := C114_year_partial hc fun e => absurd e hN
  obtain ⟨load', H', hl', hH', main'⟩ := C114_year_partial hc' fun e => absurd (hN'.symm.trans e) hN
  have hNF : s'.hour.NFCST = s.hour.NFCST := by
    rw [(setup_tiers hc.accepted).1, (setup_tiers hc'.accepted).1]
    unfold tiersOf
    simp only [hg.lfu]
  have hld := better_load hc hc'.peak hg.toAtLeastAsGood hmode hl hl' hH hH'
  have hsh : ∀ j y, ∀ d < 8760 / step, yearShare c' step load' H' t j y (d + 1) ≤ yearShare c step load H t j y (d + 1) :=
    fun j y d hdl => share_mono hg hd hd' hc.sensible hc'.sensible hc.lfu hN hN' step load load' H H' t j y (d + 1)
      (hld (d + 1) (by omega) (by omega))
  obtain ⟨p1, p2, p3, pa⟩ := main log st evs hE y e he t ht
  obtain ⟨q1, q2, q3, qa⟩ := main' log' st' evs' hE' y e' he' t (by rw [hNF]; exact ht)
  rw [hNF] at qa
  refine ⟨?_, ?_, fun j => ⟨?_, ?_⟩, fun hp => ⟨?_, fun j => ?_⟩⟩
  · rw [p1, q1]; exact poolLossHours_le fun j => hsh j y
  · rw [p2, q2]; exact Finset.sum_le_sum fun j _ => wholeMWh_le (hsh j y)
  · rw [(pa j).1, (qa j).1]; exact withCarry_le (fun y => lossHours_le (hsh j y)) y
  · rw [(pa j).2.1, (qa j).2.1]; exact withCarry_le (fun y => wholeMWh_le (hsh j y)) y
  · obtain ⟨q, hq, hsum⟩ := pool_factor hc.peak hc'.peak hp hl hl'
    rw [p3, q3, show (fun d => PeakDraw step load' (step * d)) = fun d => PeakDraw step load (step * d) from
      funext fun d => propext (peakDraw_factor hq hsum _ _)]
    exact poolLossDays_le fun j => hsh j y
  · obtain ⟨q, hq, hsum⟩ := pool_factor hc.peak hc'.peak hp hl hl'
    rw [(pa j).2.2, (qa j).2.2, show (fun d => PeakDraw step load' (step * d)) = fun d => PeakDraw step load (step * d) from
      funext fun d => propext (peakDraw_factor hq hsum _ _)]
    exact withCarry_le (fun y => lossDays_le (hsh j y)) y

/-- A line of a report shows nothing worse than another line: neither the mean loss-of-load hours nor the mean energy not
served nor, if `days`, the mean loss-of-load days are higher. -/
structure NotWorse (hourly days : Prop) (q q' : SumRow) : Prop where
  days : days → q'.lole.1 ≤ q.lole.1
  hours : hourly → ∃ a b a' b', q.hourly = some (a, b) ∧ q'.hourly = some (a', b') ∧ a'.1 ≤ a.1 ∧ b'.1 ≤ b.1

/-- Two reports of which the second is made of shares that are nowhere higher. -/
theorem figures_notWorse {Y per : ℕ} {hourly same : Prop} {share share' : Fin 5 → Fin (n + 1) → ℕ → ℕ → ℚ} {pk pk' : ℕ → Prop}
    {R R' : Report (n + 1)} (f : ReportFigures c hourly Y share pk per R) (f' : ReportFigures c' hourly Y share' pk' per R')
    (hT : tiersOf c' = tiersOf c) (hname : ∀ j, (c'.areas j).name = (c.areas j).name)
    (hpeak : ∀ j, (c'.areas j).peak ≤ (c.areas j).peak) (hsh : ∀ t j y, ∀ d < per, share' t j y (d + 1) ≤ share t j y (d + 1))
    (hpk : same → pk' = pk) (k : ℕ) (hk : k < n + 2) : ∃ q q', R.summary[k]? = some q ∧ R'.summary[k]? = some q' ∧
        q'.name = q.name ∧ q'.peak ≤ q.peak ∧ NotWorse hourly same q q' := by
  by_cases hkn : k < n + 1
  · obtain ⟨q, hq, n1, k1, L⟩ := f.areas ⟨k, hkn⟩
    obtain ⟨q', hq', n1', k1', L'⟩ := f'.areas ⟨k, hkn⟩
    refine ⟨q, q', hq, hq', by rw [n1, n1', hname], by rw [k1, k1']; exact hpeak _, ⟨fun hp => ?_, fun hh => ?_⟩⟩
    · rw [L.days.1, L'.days.1, hT, hpk hp]
      exact figures_mean_le fun t y => withCarry_le (fun y => lossDays_le (hsh t _ y)) y
    · obtain ⟨a, b, e1, e2, _, e3, _⟩ := L.some hh
      obtain ⟨a', b', e1', e2', _, e3', _⟩ := L'.some hh
      refine ⟨a, b, a', b', e1, e1', ?_, ?_⟩
      · rw [e2, e2', hT]
        exact figures_mean_le fun t y => withCarry_le (fun y => lossHours_le (hsh t _ y)) y
      · rw [e3, e3', hT]
        exact figures_mean_le fun t y => withCarry_le (fun y => wholeMWh_le (hsh t _ y)) y
  · have hkk : k = n + 1 := by omega
    subst hkk
    obtain ⟨q, hq, n1, k1, l1, L⟩ := f.pool
    obtain ⟨q', hq', n1', k1', l1', L'⟩ := f'.pool
    refine ⟨q, q', hq, hq', by rw [n1, n1'], by rw [k1, k1']; exact Finset.sum_le_sum fun j _ => hpeak j, ⟨fun hp => ?_, fun hh => ?_⟩⟩
    · rw [l1, l1', hT, hpk hp]
      exact div_le_div_of_nonneg_right (weighted_le fun t => poolLossDays_le fun j => hsh t j _) (Nat.cast_nonneg _)
    · obtain ⟨a, b, e1, e2, e3⟩ := L hh
      obtain ⟨a', b', e1', e2', e3'⟩ := L' hh
      refine ⟨a, b, a', b', e1, e1', ?_, ?_⟩
      · rw [e2, e2', hT]
        exact div_le_div_of_nonneg_right (weighted_le fun t => poolLossHours_le fun j => hsh t j _) (Nat.cast_nonneg _)
      · rw [e3, e3', hT]
        exact div_le_div_of_nonneg_right (weighted_le fun t => Finset.sum_le_sum fun j _ => wholeMWh_le (hsh t j _))
          (Nat.cast_nonneg _)

/-- C115 in the final report: if both studies run to their ends after the same number of years, no line of the report of the
better one, neither of an area nor of the pool, shows anything worse. -/
theorem C115_report_partial (hc : Calm sl fuel c s step raw J) (hc' : Calm sl fuel c' s' step raw J')
    (hd : ∀ i, 0 ≤ (c.units i).der ∧ (c.units i).der ≤ 100) (hd' : ∀ i, 0 ≤ (c'.units i).der ∧ (c'.units i).der ≤ 100)
    {hm : m ≤ m'} (hg : BetterByArea c c' hm) (hN : c.misc.NLS ≠ 0) (hN' : c'.misc.NLS = c.misc.NLS)
    (hmode : step = 1 ∨ ∃ q : ℚ, ∀ j, (c'.areas j).peak = q * (c.areas j).peak) (hF : 1 ≤ c.misc.FINISH) (hE : 20 ≤ c.misc.MAXEUE)
    (hF' : 1 ≤ c'.misc.FINISH) (hE' : 20 ≤ c'.misc.MAXEUE) {log log' : List Ev} {st : St _} {st' : St _} {e e' : Exit}
    (hr : Reach s.cfg (s.start J) log st) (hx : Narp.step s.cfg st = .ok (.exit e))
    (hr' : Reach s'.cfg (s'.start J') log' st') (hx' : Narp.step s'.cfg st' = .ok (.exit e'))
    (hY : log'.countP (fun e => e.kind = 4) = log.countP (fun e => e.kind = 4)) :
    ∃ r r', st.world.y.rep = some r ∧ st'.world.y.rep = some r' ∧ ∀ ITAB ITAB', ∃ R R', s.report ITAB r = .ok R ∧
      s'.report ITAB' r' = .ok R' ∧ R'.years = R.years ∧ R.summary.length = n + 2 ∧ R'.summary.length = n + 2 ∧
      ∀ k < n + 2, ∃ q q', R.summary[k]? = some q ∧ R'.summary[k]? = some q' ∧
        q'.name = q.name ∧ q'.peak ≤ q.peak ∧ NotWorse (step ≠ 24) (∃ q : ℚ, ∀ j, (c'.areas j).peak = q * (c.areas j).peak) q q' := by
  obtain ⟨load, H, hl, hH, main⟩ := C114_report_partial hc (fun e => absurd e hN) hF hE
  obtain ⟨load', H', hl', hH', main'⟩ := C114_report_partial hc' (fun e => absurd (hN'.symm.trans e) hN) hF' hE'
  obtain ⟨Y, r, hY0, hYc, hrep, hR⟩ := main log st e hr hx
  obtain ⟨Y', r', _, hYc', hrep', hR'⟩ := main' log' st' e' hr' hx'
  have hYY : Y' = Y := by rw [hYc, hYc', hY]
  rw [hYY] at hR'
  have hT : tiersOf c' = tiersOf c := by
    unfold tiersOf
    simp only [hg.lfu]
  have hld := better_load hc hc'.peak hg.toAtLeastAsGood hmode hl hl' hH hH'
  have hsh : ∀ t j y, ∀ d < 8760 / step, yearShare c' step load' H' t j y (d + 1) ≤ yearShare c step load H t j y (d + 1) :=
    fun t j y d hdl => share_mono hg hd hd' hc.sensible hc'.sensible hc.lfu hN hN' step load load' H H' t j y (d + 1)
      (hld (d + 1) (by omega) (by omega))
  refine ⟨r, r', hrep, hrep', fun ITAB ITAB' => ?_⟩
  obtain ⟨R, hRe, f⟩ := hR ITAB
  obtain ⟨R', hRe', f'⟩ := hR' ITAB'
  refine ⟨R, R', hRe, hRe', f'.years.trans f.years.symm, f.lines, f'.lines, ?_⟩
  refine figures_notWorse f f' hT hg.name hg.peak hsh fun hp => ?_
  obtain ⟨q, hq, hsum⟩ := pool_factor hc.peak hc'.peak hp hl hl'
  exact funext fun d => propext (peakDraw_factor hq hsum _ _)

end Pair

/-- A study in which every area is always short, in hourly mode with one tier and `scarceCards`' settings, ends after five years. -/
theorem scarce_five {c : Cards 1 m l} {s : Setup 1 m l} (h1 : OneCard c) (hs : Sensible c) (hl : NoLone c)
    (hd : ∀ i, 0 ≤ (c.units i).der ∧ (c.units i).der ≤ 100) (h : setup sl fuel c = .ok s) (hm : c.misc = scarceCards.misc)
    (hlfu : ∀ j, (c.areas j).lfu = 0) (hsc : Scarce c s.hour.HRLOAD) (J : ℤ) :
    ∃ (log : List Ev) (st : St _) (e : Exit), Reach s.cfg (s.start J) log st ∧ Narp.step s.cfg st = .ok (.exit e) ∧
      log.countP (fun e => e.kind = 4) = 5 := by
  have h1t : tiersOf c = 1 := by
    unfold tiersOf
    rw [if_neg (by simpa using hlfu)]
  have hJs : s.hour.JSTEP = 1 := by
    have := (C72_settings h J).1
    rw [this, hm]
    show (((1 : ℤ)) : ℚ) = 1
    norm_num
  have hJ : StepOK s.hour.JSTEP := .inl hJs
  have hstep : c.misc.JSTEP = 1 ∨ c.misc.JSTEP = 24 := by rw [hm]; exact .inl rfl
  obtain ⟨log, st, e, hr, he, _⟩ := C43_cards_partial h1 hs hl hd h hstep
    (by rw [hm]; rfl) (.inl (by rw [hm]; rfl)) (by rw [hm]; simp [scarceCards, demoCards]; norm_num)
    (by rw [hm]; simp [scarceCards, demoCards]) hsc J
  refine ⟨log, st, e, hr, he, ?_⟩
  obtain ⟨years', cur', hh', hfirst, hexit, _⟩ := C33_cards h hstep (by rw [hm]; rfl) (by rw [hm]; simp [scarceCards, demoCards])
    (some 0) (by unfold Chooses; rw [hm]; exact ⟨rfl, rfl⟩) (.inl rfl) J hr
  rw [← (history_full hJ hh').1.1]
  have hall := (history_scarce h1 hs hd h hJ hsc h1t J hh').1
  have hL : ∀ ds ∈ years', (ds.length : ℚ) = 8760 := by
    intro ds hds
    have := (history_full hJ hh').2 ds hds
    rw [hJs] at this
    linarith
  have hch : chosenYears c (some 0) years' = List.replicate years'.length 8760 := by
    have := annual_scarce years' hall 8760 hL 0
    simp only [if_true] at this
    rw [List.map_const', List.length_range] at this
    rw [← this]
    unfold chosenYears annualC
    refine List.map_congr_left fun y _ => ?_
    have hst : ∀ t, chosenStat c (some 0) t = hoursIn 0 t := fun t => by
      funext ds
      unfold chosenStat
      rw [hm]
      rfl
    dsimp only
    rw [if_pos (by rw [hm]; rfl), h1t]
    congr 1
    funext t
    rw [hst]
    have hiff : CarriedBy c (some 0) t ↔ Carried (1 + 1) 1 0 t := by
      show Carried (1 + 1) (tiersOf c) 0 t ↔ _
      rw [h1t]
    unfold yearValue
    by_cases hcar : Carried (1 + 1) 1 0 t
    · rw [if_pos hcar, if_pos (hiff.2 hcar)]
    · rw [if_neg hcar, if_neg fun x => hcar (hiff.1 x)]
  obtain ⟨_, hne', hx⟩ := hexit e he
  have hge : 5 ≤ years'.length := by
    rcases hx with hx | hx
    · rw [hm] at hx
      have : (10 : ℤ) = years'.length := hx
      omega
    · rw [hch] at hx
      simpa using hx.1
  by_contra hne5
  have := (hfirst 5 (by norm_num) (by omega)).2
  rw [chosen_take, hch, List.take_replicate, Nat.min_eq_left hge, hm] at this
  exact this (converged_const (by simp [scarceCards, demoCards]) (by norm_num) le_rfl)

/-- C115 applies: `betterCards` is better than `scarceCards` area by area, no limit binds in either, and both studies run to their
ends after the same number of years. -/
example (sl : ℕ → ℚ → ℚ) (fuel : ℕ) (J J' : ℤ) : ∃ (s : Setup 1 4 1) (s' : Setup 1 5 1) (raw : ℕ → ℕ → ℚ),
    Calm sl fuel scarceCards s 1 raw J ∧ Calm sl fuel betterCards s' 1 raw J' ∧
    BetterByArea scarceCards betterCards (by norm_num) ∧ scarceCards.misc.NLS ≠ 0 ∧
    betterCards.misc.NLS = scarceCards.misc.NLS ∧ ∃ (log log' : List Ev) (st : St _) (st' : St _) (e e' : Exit),
      Reach s.cfg (s.start J) log st ∧ Narp.step s.cfg st = .ok (.exit e) ∧
      Reach s'.cfg (s'.start J') log' st' ∧ Narp.step s'.cfg st' = .ok (.exit e') ∧
      log'.countP (fun e => e.kind = 4) = log.countP (fun e => e.kind = 4) := by
  obtain ⟨s, s', raw, h, h', hg, hsc, hsc'⟩ := C107_applies sl fuel J J'
  obtain ⟨log, st, e, a1, a2, a3⟩ := scarce_five scarce_one scarce_sensible scarce_lone scarce_derating h.accepted rfl
    (by intro j; fin_cases j <;> rfl) hsc J
  obtain ⟨log', st', e', b1, b2, b3⟩ := scarce_five better_one better_sensible better_lone better_derating h'.accepted rfl
    (by intro j; fin_cases j <;> rfl) hsc' J'
  refine ⟨s, s', raw, h, h', ⟨hg, ?_, ?_⟩, by simp [scarceCards, demoCards], rfl, log, log', st, st', e, e', a1, a2, b1, b2, by rw [a3, b3]⟩
  · intro j; fin_cases j <;> simp [scarceCards, betterCards]
  · intro i; fin_cases i <;> simp [scarceCards, demoCards, betterCards, Fin.castLE]

end Narp.Props
