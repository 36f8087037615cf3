import Verif.Props.History
import Verif.Props.CardWhole

/-!
# C72: the final report, from the cards and the draws
-/

namespace Narp.Props
open Narp Narp.Spec BigOperators

variable {n m l : ℕ} {sl : ℕ → ℚ → ℚ} {fuel : ℕ} {c : Cards n m l} {s : Setup n m l}

/-! ## What the cards fix -/

theorem areaLabel_eq (a b : ℕ) (core : Name) (h1 : core.head? ≠ some '\'') (h2 : core.getLast? ≠ some '\'') :
    areaLabel (List.replicate a '\'' ++ core ++ List.replicate b '\'') = String.ofList (core ++ [' ', ' ']) := by
  unfold areaLabel
  simp only
  congr 2
  have drop : ∀ (k : ℕ) (x : Name), (List.replicate k '\'' ++ x).dropWhile (· = '\'') = x.dropWhile (· = '\'') := by
    intro k x
    induction k with
    | zero => simp
    | succ k ih => rw [List.replicate_succ, List.cons_append, List.dropWhile_cons_of_pos (by simp), ih]
  have keep : ∀ x : Name, x.head? ≠ some '\'' → x.dropWhile (· = '\'') = x := by
    intro x hx
    cases x with
    | nil => rfl
    | cons y ys =>
      rw [List.dropWhile_cons_of_neg]
      simpa using hx
  cases core with
  | nil =>
    have : ∀ k, (List.replicate k '\'').dropWhile (· = '\'') = ([] : Name) := by
      intro k; simp
    simp [this]
  | cons y ys =>
    rw [List.append_assoc, drop, keep ((y :: ys) ++ List.replicate b '\'') (by simpa using h1), List.reverse_append, List.reverse_replicate, drop,
      keep _ (by rw [List.head?_reverse]; exact h2), List.reverse_reverse]

/-- The settings of the cards reach the simulation. -/
theorem C72_settings (h : setup sl fuel c = .ok s) (JSEED : ℤ) :
    s.hour.JSTEP = c.misc.JSTEP ∧ s.year.FINISH = 8760 * (c.misc.FINISH : ℚ) ∧ s.year.CVTEST = c.misc.CVTEST ∧
    s.year.KWHERE = c.misc.KWHERE ∧ s.year.KVWHEN = c.misc.KVWHEN ∧ s.year.KVSTAT = c.misc.KVSTAT ∧
    s.year.KVTYPE = c.misc.KVTYPE ∧ s.year.KVLOC = c.misc.KVLOC - 1 ∧ s.year.INTV = c.misc.INTV ∧
    s.year.IOJ = c.misc.IOJ ∧ (s.year.INDX = 1 ↔ c.misc.JSTEP = 24) ∧ s.year.LSTEP = ⌊c.misc.MAXEUE / 20⌋ ∧
    (∀ j, s.NAMA j = areaLabel (c.areas j).name) ∧ (∀ j, s.SUSTAT.area j 0 = (c.areas j).peak) ∧
    s.SUSTAT.pool 0 = 0 ∧ s.SUSTAT.pool 1 = 0 ∧
    (s.start JSEED).world.y.INTVT = c.misc.INTV ∧
    (∀ i, (s.start JSEED).world.h.IGSEED i = (programSeeds JSEED m l).1 i) ∧
    ∀ k, (s.start JSEED).world.h.ILSEED k = (programSeeds JSEED m l).2 k := by
  obtain ⟨wr, raw, T, ITAB, ID', hw, _, _, _, _, rfl⟩ := setup_ok h
  refine ⟨rfl, ?_, rfl, rfl, rfl, rfl, rfl, rfl, rfl, rfl, ?_, rfl, fun _ => rfl, fun _ => rfl, rfl, rfl, rfl,
    fun _ => rfl, fun _ => rfl⟩
  · show (c.misc.FINISH : ℚ) * 8760 = _
    ring
  · show (if c.misc.JSTEP = 24 then (1 : ℤ) else 0) = 1 ↔ _
    split_ifs with e <;> simp [e]

/-- The capacity that the summary of the final report shows for an area: that of the units which the cards place there,
in the season of the day with the highest load of the area, as the program determines it (`d` counts from 0): season
`k` is left when the day is beyond its last week by at least one day, and the fourth season is taken for the first. -/
theorem setup_cap (h1 : OneCard c) (h : setup sl fuel c = .ok s) (hw : c.misc.IW 0 ≤ c.misc.IW 1 ∧ c.misc.IW 1 ≤ c.misc.IW 2)
    (j : Fin (n + 1)) : ∃ h0, IsFirstMax (s.hour.HRLOAD j) 0 8760 h0 ∧
      let d : ℤ := ((h0 / 24 : ℕ) : ℤ)
      s.SUSTAT.area j 1 = ∑ i ∈ unitsIn c j, (c.units i).cap
        (if 7 * c.misc.IW 2 < d then 0 else if 7 * c.misc.IW 1 < d then 2 else if 7 * c.misc.IW 0 < d then 1 else 0) := by
  obtain ⟨wr, raw, T, ITAB, ID', hwi, _, _, hr, _, rfl⟩ := setup_ok h
  have hwa := (wiring_iff h1 (wiring_pos hwi)).2 wr hwi
  have hN : wr.NAT = fun i => i := funext hwa.unit
  have hin : ∀ i, wr.NAR i = j ↔ (c.units i).loc = (c.areas j).name := by
    intro i
    constructor
    · rintro rfl; exact (hwa.loc i).symm
    · intro e; exact h1.areas ((hwa.loc i).trans e)
  set H : Fin (n + 1) → ℕ → ℚ := fun j h => leeiScale c.peaks raw j h with hH
  have hx : xporta (fun _ _ => -1) (fun _ _ => 0) H = H := by
    funext a h; rw [xporta_eq]; simp [findtn_eq]
  have hpk := C18_daily_peaks 24 365 (by norm_num) (by norm_num) H j
  have hmd : (loadSteps (fun _ _ => -1) (fun _ _ => 0) H).2.1.2.2 j = (dpeak 24 365 H).2.2 j := by
    rw [(C18_input_steps _ _ _).2.1, hx]
  set D := (dpeak 24 365 H).2.2 j with hD
  obtain ⟨hday, hmax⟩ := hpk
  have hload : (setupHour c wr fuel H).HRLOAD = H := by
    show (loadSteps (fun _ _ => -1) (fun _ _ => 0) H).1 = H
    exact (C18_input_steps _ _ _).1
  obtain ⟨p1, p2, p3⟩ := (hday D).1
  obtain ⟨_, m2, m3⟩ := hmax
  refine ⟨(dpeak 24 365 H).1 j D, ?_, ?_⟩
  · show IsFirstMax ((setupHour c wr fuel H).HRLOAD j) 0 8760 _
    rw [hload]
    refine ⟨Nat.zero_le _, by omega, fun k _ hk => ?_⟩
    obtain ⟨⟨q1, q2, q3⟩, q4⟩ := hday (k / 24)
    have a := q3 k (by omega) (by omega)
    have b := m3 (k / 24) (Nat.zero_le _) (by omega)
    rw [q4, (hday D).2] at b
    refine ⟨le_trans a.1 b.1, fun hlt => ?_⟩
    by_cases e : k / 24 = D
    · exact (p3 k (by omega) (by omega)).2 hlt
    · exact lt_of_le_of_lt a.1 (b.2 (by omega))
  · have hd : (dpeak 24 365 H).1 j D / 24 = D := by omega
    simp only [hd]
    show resca (fun _ => 0) (loadSteps (fun _ _ => -1) (fun _ _ => 0) H).2.1.2.2 (dataxQTR c.misc.IW)
      (dataxCAPOWN wr.NAR wr.NAT) (fun i s => if h : s < 4 then (c.units i).cap ⟨s, h⟩ else 0)
      (fun _ _ => -1) (fun _ _ => 0) j = _
    rw [(resca_eq _ _ _ _ _ _ _ _).1, hmd, hN]
    have hq : ∀ k, dataxQTR c.misc.IW k < (D : ℚ) * 24 ↔ 7 * c.misc.IW k < (D : ℤ) := by
      intro k
      unfold dataxQTR
      constructor
      · intro h
        by_contra hle
        have : ((D : ℤ) : ℚ) ≤ ((7 * c.misc.IW k : ℤ) : ℚ) := by exact_mod_cast not_lt.1 hle
        push_cast at this
        linarith
      · intro h
        have : ((7 * c.misc.IW k + 1 : ℤ) : ℚ) ≤ ((D : ℤ) : ℚ) := by exact_mod_cast h
        push_cast at this
        linarith
    have hne : ∀ k, dataxQTR c.misc.IW k ≠ (D : ℚ) * 24 := by
      intro k e
      unfold dataxQTR at e
      have : ((2 * (c.misc.IW k * 168) + 1 : ℤ) : ℚ) = ((2 * (D * 24) : ℤ) : ℚ) := by push_cast; linarith
      have := Int.cast_injective this
      omega
    have h01 : dataxQTR c.misc.IW 0 ≤ dataxQTR c.misc.IW 1 := by
      have : (c.misc.IW 0 : ℚ) ≤ c.misc.IW 1 := by exact_mod_cast hw.1
      unfold dataxQTR; linarith
    have h12 : dataxQTR c.misc.IW 1 ≤ dataxQTR c.misc.IW 2 := by
      have : (c.misc.IW 1 : ℚ) ≤ c.misc.IW 2 := by exact_mod_cast hw.2
      unfold dataxQTR; linarith
    have hidx : (if 7 * c.misc.IW 2 < (D : ℤ) then 0 else seasonIndex (dataxQTR c.misc.IW) ((D : ℚ) * 24)) =
        ((if 7 * c.misc.IW 2 < (D : ℤ) then 0 else if 7 * c.misc.IW 1 < (D : ℤ) then 2 else
          if 7 * c.misc.IW 0 < (D : ℤ) then 1 else 0 : Fin 4) : ℕ) := by
      unfold seasonIndex
      simp only [hq]
      obtain ⟨w1, w2⟩ := hw
      split_ifs <;> first | rfl | omega
    have hiper : rescaIPER (dataxQTR c.misc.IW) D =
        ((if 7 * c.misc.IW 2 < (D : ℤ) then 0 else if 7 * c.misc.IW 1 < (D : ℤ) then 2 else
          if 7 * c.misc.IW 0 < (D : ℤ) then 1 else 0 : Fin 4) : ℕ) := by
      rw [rescaIPER_eq _ h01 h12 D hne, ← hidx]
      simp only [hq]
    rw [hiper]
    simp only [capown_id, ite_mul, one_mul, zero_mul]
    rw [findtn_eq]
    unfold unitsIn
    rw [Finset.sum_filter]
    have : ∀ i, (if (c.units i).loc = (c.areas j).name then (c.units i).cap
        (if 7 * c.misc.IW 2 < (D : ℤ) then 0 else if 7 * c.misc.IW 1 < (D : ℤ) then 2 else
          if 7 * c.misc.IW 0 < (D : ℤ) then 1 else 0) else 0) =
        if j = wr.NAR i then (c.units i).cap (if 7 * c.misc.IW 2 < (D : ℤ) then 0 else if 7 * c.misc.IW 1 < (D : ℤ) then 2
          else if 7 * c.misc.IW 0 < (D : ℤ) then 1 else 0) else 0 := by
      intro i
      by_cases e : wr.NAR i = j
      · rw [if_pos ((hin i).1 e), if_pos e.symm]
      · rw [if_neg fun e' => e ((hin i).2 e'), if_neg (Ne.symm e)]
    simp only [this]
    simp

/-! ## The report -/

/-- Number of forecast tiers. -/
def tiersOf (c : Cards n m l) : ℕ := if ∃ j, (c.areas j).lfu ≠ 0 then 5 else 1

/-- The tier of the mean forecast. -/
def meanTier (c : Cards n m l) : Fin 5 := if ∃ j, (c.areas j).lfu ≠ 0 then 2 else 0

/-- A summary line with the annual values `days`, `hours`, `energy`. -/
structure Line (hourly : Prop) (days hours energy : List ℚ) (q : SumRow) : Prop where
  days : q.lole.1 = mean days ∧ q.lole.2.pct = wantSd days
  none : ¬ hourly → q.hourly = none
  some : hourly → ∃ a b, q.hourly = some (a, b) ∧ a.1 = mean hours ∧ a.2.pct = wantSd hours ∧
    b.1 = mean energy ∧ b.2.pct = wantSd energy

/-- The annual values of the pool, averaged over the tiers. -/
def annualP (tiers : ℕ) {k : ℕ} (f : Fin 5 → List (DrawLog k) → ℚ) (years : List (List (DrawLog k))) : List ℚ :=
  years.map fun ds => weighted tiers fun t => f t ds

/-- What the program prints as the pool's deviation in percent: the mean of the squares of the annual values `xs` is taken
over all years, the mean is replaced by the last value over the number of years. -/
noncomputable def lastPct (xs : List ℚ) (x : ℚ) : ℝ :=
  if 0 < x / xs.length then
    Real.sqrt ((((xs.map fun v => v ^ 2).sum / xs.length - (x / xs.length) ^ 2) / xs.length : ℚ) : ℝ) / ((x / xs.length : ℚ) : ℝ) * 100
  else 0

/-- It is a number. -/
theorem poolSd_pct {xs : List ℚ} {x : ℚ} (hx : x ∈ xs) : (poolSd xs x).pct = some (lastPct xs x) := by
  unfold Sd.pct poolSd lastPct
  dsimp only
  by_cases h : 0 < x / xs.length
  · rw [if_pos h, if_pos h, if_pos]
    have hl : (1 : ℚ) ≤ xs.length := by exact_mod_cast List.length_pos_of_mem hx
    have hs : x ^ 2 ≤ (xs.map fun v => v ^ 2).sum :=
      List.single_le_sum (fun v hv => by obtain ⟨w, _, rfl⟩ := List.mem_map.mp hv; positivity) _ (List.mem_map.mpr ⟨x, hx, rfl⟩)
    have h2 : (x / xs.length) ^ 2 ≤ (xs.map fun v => v ^ 2).sum / xs.length := by
      rw [div_pow, div_le_div_iff₀ (by positivity) (by positivity)]
      have : x ^ 2 * (xs.length : ℚ) ≤ (xs.map fun v => v ^ 2).sum * (xs.length : ℚ) := mul_le_mul_of_nonneg_right hs (by positivity)
      have h0 : 0 ≤ (xs.map fun v => v ^ 2).sum := (by positivity : (0 : ℚ) ≤ x ^ 2).trans hs
      nlinarith [mul_nonneg (mul_nonneg h0 (by positivity : (0 : ℚ) ≤ xs.length)) (sub_nonneg.mpr hl)]
    exact div_nonneg (sub_nonneg.mpr h2) (by positivity)
  · rw [if_neg h, if_neg h]

/-- What the final report shows for the simulated `years`, with the cards `c`. -/
structure Shows (c : Cards n m l) (s : Setup n m l) (years : List (List (DrawLog (n + 1)))) (R : Report (n + 1)) : Prop where
  count : R.years = years.length
  lines : R.summary.length = n + 2
  areas : ∀ j : Fin (n + 1), ∃ q, R.summary[j.val]? = some q ∧ q.name = some (areaLabel (c.areas j).name) ∧
    q.peak = (c.areas j).peak ∧ q.cap = s.SUSTAT.area j 1 ∧
    (0 < (c.areas j).peak → q.res = reservePct q.cap q.peak) ∧
    Line (c.misc.JSTEP ≠ 24) (annualC (tiersOf c) daysIn years j) (annualC (tiersOf c) hoursIn years j)
      (annualC (tiersOf c) energyIn years j) q
  pool : ∃ q last, R.summary[n + 1]? = some q ∧ years.getLast? = some last ∧ q.name = none ∧
    q.peak = ∑ j, (c.areas j).peak ∧ q.cap = ∑ j, s.SUSTAT.area j 1 ∧
    q.lole.1 = weighted (tiersOf c) (fun t => poolDaysIn t last) / years.length ∧
    (c.misc.JSTEP ≠ 24 → ∃ a b, q.hourly = some (a, b) ∧
      a.1 = weighted (tiersOf c) (fun t => poolHoursIn t last) / years.length ∧
      b.1 = weighted (tiersOf c) (fun t => poolEnergyIn t last) / years.length)
  dist : ∀ (j : Fin (n + 1)) (k : Fin 22), ∃ d, (R.dist j)[k.val]? = some d ∧ d.cls = k.val ∧
    d.limit = k.val * ⌊c.misc.MAXEUE / 20⌋ ∧
    d.dp = ((List.range years.length).countP fun y => cls 1
      (yearValue (Carried (n + 1) (tiersOf c) j (meanTier c)) (daysIn j (meanTier c)) years y) = k.val : ℕ) ∧
    d.hl = ((List.range years.length).countP fun y => cls 1
      (yearValue (Carried (n + 1) (tiersOf c) j (meanTier c)) (hoursIn j (meanTier c)) years y) = k.val : ℕ) ∧
    d.eue = ((List.range years.length).countP fun y => cls ⌊c.misc.MAXEUE / 20⌋
      (yearValue (Carried (n + 1) (tiersOf c) j (meanTier c)) (energyIn j (meanTier c)) years y) = k.val : ℕ) ∧
    d.pdp = d.dp / years.length ∧ d.phl = d.hl / years.length ∧ d.peue = d.eue / years.length
  poolErr : ∃ q last, R.summary[n + 1]? = some q ∧ years.getLast? = some last ∧
    q.lole.2.pct = some (lastPct (annualP (tiersOf c) poolDaysIn years) (weighted (tiersOf c) fun t => poolDaysIn t last)) ∧
    (c.misc.JSTEP ≠ 24 → ∃ a b, q.hourly = some (a, b) ∧
      a.2.pct = some (lastPct (annualP (tiersOf c) poolHoursIn years) (weighted (tiersOf c) fun t => poolHoursIn t last)) ∧
      b.2.pct = some (lastPct (annualP (tiersOf c) poolEnergyIn years) (weighted (tiersOf c) fun t => poolEnergyIn t last)))

theorem setup_tiers (h : setup sl fuel c = .ok s) : s.hour.NFCST = tiersOf c ∧ s.year.NFCST = tiersOf c ∧
    s.year.NORR = meanTier c := by
  obtain ⟨wr, raw, T, ITAB, ID', hw, _, _, _, _, rfl⟩ := setup_ok h
  simp only [setupHour, setupYear, dataxTiers, tiersOf, meanTier]
  by_cases e : ∃ j, (c.areas j).lfu ≠ 0
  · simp only [if_pos e, and_self]
  · simp only [if_neg e, and_self]

theorem countP_get {α β : Type} (xs : List α) (f : α → β) (g : ℕ → β) (hfg : ∀ y x, xs[y]? = some x → f x = g y)
    (p : β → Bool) : (xs.countP fun x => p (f x)) = (List.range xs.length).countP fun y => p (g y) := by
  have : xs.map f = (List.range xs.length).map g := by
    apply List.ext_getElem
    · simp
    · intro y h1 h2
      simp only [List.getElem_map, List.getElem_range]
      exact hfg y _ (List.getElem?_eq_getElem (by simpa using h1))
  have e1 : (xs.countP fun x => p (f x)) = (xs.map f).countP p := by rw [List.countP_map]; rfl
  rw [e1, this, List.countP_map]; rfl

/-- C72 (what holds). Every run of an accepted input (every hour evaluated, a horizon of at least a year) that comes to
its end has simulated full years, and the final report is printed, without an error, and shows their statistics: for
every area the mean over the years of the days, hours and energy short, averaged over the forecast tiers, with the
standard error; the peaks of the cards; the distributions of the annual values. (`_partial`: annual values of an area
may contain those of earlier years, `Carried`; the averages of the pool are those of the last year alone.) -/
theorem C72_report_partial (h : setup sl fuel c = .ok s) (hstep : c.misc.JSTEP = 1 ∨ c.misc.JSTEP = 24)
    (hfreq : c.misc.JFREQ = 1) (hF : 1 ≤ c.misc.FINISH) (hE : 20 ≤ c.misc.MAXEUE) (JSEED : ℤ) {log : List Ev} {st : St _}
    (hr : Reach s.cfg (s.start JSEED) log st) {e : Exit} (he : step s.cfg st = .ok (.exit e)) :
    ∃ years r, History s.hour s.year s.JPLOUT s.RATES snapNet (s.start JSEED) log st years [] ∧ years ≠ [] ∧
      (∀ ds ∈ years, (ds.length : ℚ) * c.misc.JSTEP = 8760) ∧ st.world.y.rep = some r ∧
      ∀ ITAB, ∃ R, s.report ITAB r = .ok R ∧ Shows c s years R := by
  have hJs : s.hour.JSTEP = c.misc.JSTEP := (C72_settings h JSEED).1
  have hJ : StepOK s.hour.JSTEP := by
    rw [hJs]
    rcases hstep with e | e <;> rw [e]
    · left; norm_num
    · right; norm_num
  have hJF : s.hour.JFREQ = 1 := by
    obtain ⟨wr, raw, T, ITAB, ID', hw, _, _, _, _, rfl⟩ := setup_ok h
    exact hfreq
  obtain ⟨_, hFin, _, _, _, _, _, _, _, _, hIX, hLS, hNA, hPK, hP0, hP1, _⟩ := C72_settings h JSEED
  obtain ⟨_, hNF, hNR⟩ := setup_tiers h
  obtain ⟨raw, hraw, _, hld, _, _, hmx⟩ := C64_loads h
  obtain ⟨evs, hE1⟩ := ends_of_reach hr
  have hR := exit_flag (Y := c.misc.FINISH.toNat) hJ (by omega) (by
    rw [hFin]
    have : ((c.misc.FINISH.toNat : ℤ) : ℚ) = c.misc.FINISH := by rw [Int.toNat_of_nonneg (by omega)]
    rw [← this]; push_cast; rfl) hE1 he
  obtain ⟨evs0, ev, r, hev, hrun, hrep⟩ := ends_report hJ hE1 hR
  obtain ⟨_, hclk, _, hwh, _, _⟩ := ends_inv hJ hE1
  obtain ⟨done, cur, hh, hlen, _, hold, _, _⟩ := ends_history hJ hJF (fun _ d hd => by have := (hmx d).2.1; omega) hE1
  obtain ⟨_, hcur⟩ := history_cur hJ hh
  have hcur := hcur hR
  subst hcur
  have hfull := (history_full hJ hh).2
  obtain ⟨aH, aE, aD, _, _, _⟩ := ends_annual hlen hold
  subst hev
  have hN5 : s.year.NFCST ≤ 5 := by rw [hNF]; unfold tiersOf; split_ifs <;> norm_num
  have hNN : s.year.NORR.val < s.year.NFCST := by
    rw [hNF, hNR]; unfold tiersOf meanTier; split_ifs <;> norm_num
  have hL : 0 < s.year.LSTEP := by
    rw [hLS, Int.lt_iff_add_one_le, zero_add, Int.le_floor]
    push_cast
    rw [le_div_iff₀ (by norm_num)]
    linarith
  have hne : done ≠ [] := by
    intro e; rw [e] at hlen; simp at hlen
  have hlast : (evs0 ++ [ev])[evs0.length]? = some ev := by simp
  have hdl : done.length = evs0.length + 1 := by simpa using hlen
  have hget : done.getLast? = some (done.getD evs0.length []) := by
    rw [List.getLast?_eq_getElem?, hdl, Nat.add_sub_cancel, List.getD_eq_getElem?_getD,
      List.getElem?_eq_getElem (by omega)]
    rfl
  refine ⟨done, r, hh, hne, by rw [← hJs]; exact hfull, hrep, fun ITAB => ?_⟩
  obtain ⟨R, hRep⟩ := C63_no_error s.year.NFCST s.year.INDX s.year.LSTEP ITAB s.NAMA r s.SUSTAT (Nat.succ_pos n)
  refine ⟨R, hRep, ?_⟩
  obtain ⟨hY, _⟩ := C63_rows s.year hN5 _ _ evs0 ev hwh hclk r hrun ITAB s.NAMA s.SUSTAT R hRep
  obtain ⟨hsl, hsum⟩ := C63_summary_areas s.year hN5 _ _ evs0 ev hwh hclk r hrun ITAB s.NAMA s.SUSTAT R hRep
  obtain ⟨q, q1, q2, q3, q4, _, q5, _, q6⟩ := C63_summary_pool_partial s.year hN5 _ _ evs0 ev hwh hclk r hrun ITAB s.NAMA
    s.SUSTAT ⟨hP0, hP1⟩ R hRep
  have hdist := C63_distributions s.year hNN hL _ _ evs0 ev hwh hclk r hrun ITAB s.NAMA s.SUSTAT R hRep
  have hk : ((evs0 ++ [ev]).length : ℚ) = done.length := by rw [hlen]
  constructor
  · rw [hY, hlen]
  · exact hsl
  · intro j
    obtain ⟨q, e1, e2, e3, e4, e5, e6, e7, e8, e9⟩ := hsum j
    refine ⟨q, e1, by rw [e2, hNA], by rw [e3, hPK], e4, ?_, ?_⟩
    · rw [e3, e4]; rw [hPK] at e5 ⊢; exact e5
    rw [hNF] at aH aE aD e6 e7 e9
    constructor
    · rw [e6, e7, aD]; exact ⟨rfl, rfl⟩
    · intro hn; exact e8 (hIX.2 (not_not.1 hn))
    · intro hn
      obtain ⟨a, b, f1, f2, f3, f4, f5⟩ := e9 fun e => hn (hIX.1 e)
      rw [aH] at f2 f3
      rw [aE] at f4 f5
      exact ⟨a, b, f1, f2, f3, f4, f5⟩
  · obtain ⟨oH, oP⟩ := hold _ _ hlast
    refine ⟨q, _, q1, hget, q2, ?_, q4, ?_, ?_⟩
    · rw [q3]; exact Finset.sum_congr rfl fun j _ => hPK j
    · rw [q5, hk]
      show weighted _ _ / _ = _
      rw [weighted_congr fun t ht => oP.lp t ht, hNF]
    · intro hn
      refine ⟨_, _, q6 fun e => hn (hIX.1 e), ?_, ?_⟩
      · show weighted _ _ / _ = _
        rw [hk, weighted_congr fun t ht => oH.lp t ht, hNF]
      · show weighted _ _ / _ = _
        rw [hk, weighted_congr fun t ht => oH.ep t ht, hNF]
  · intro j k
    obtain ⟨_, hd, _⟩ := hdist j
    obtain ⟨d, d1, d2, d3, d4, d5, d6, d7, d8, d9⟩ := hd k
    rw [hk] at d7 d8 d9
    rw [hLS] at d3 d6
    refine ⟨d, d1, d2, d3, ?_, ?_, ?_, d7, d8, d9⟩
    · rw [d4, hlen]
      unfold yearsInClass
      rw [countP_get (evs0 ++ [ev]) (fun e => totLole e.P j s.year.NORR) _ (fun y x hx => ((hold y x hx).2.lole j _))
        (fun v => decide (cls 1 v = k.val)), hNF, hNR]
      rfl
    · rw [d5, hlen]
      unfold yearsInClass
      rw [countP_get (evs0 ++ [ev]) (fun e => totLole e.H j s.year.NORR) _ (fun y x hx => ((hold y x hx).1.lole j _))
        (fun v => decide (cls 1 v = k.val)), hNF, hNR]
      rfl
    · rw [d6, hlen]
      unfold yearsInClass
      rw [countP_get (evs0 ++ [ev]) (fun e => totEue e.H j s.year.NORR) _ (fun y x hx => ((hold y x hx).1.eue j _))
        (fun v => decide (cls _ v = k.val)), hNF, hNR]
      rfl
  · have ev2 : ∀ (f : YearEnd (n + 1) _ → Fin 5 → ℚ) (g : Fin 5 → List (DrawLog (n + 1)) → ℚ),
        (∀ y e, (evs0 ++ [ev])[y]? = some e → ∀ t : Fin 5, t.val < s.year.NFCST → f e t = g t (done.getD y [])) →
        (poolSd ((evs0 ++ [ev]).map fun e => weighted s.year.NFCST (f e)) (weighted s.year.NFCST (f ev))).pct =
          some (lastPct (annualP (tiersOf c) g done) (weighted (tiersOf c) fun t => g t (done.getD evs0.length []))) := by
      intro f g hfg
      have hl : weighted s.year.NFCST (f ev) = weighted (tiersOf c) fun t => g t (done.getD evs0.length []) := by
        rw [weighted_congr fun t ht => hfg _ _ hlast t ht, hNF]
      have hm : ((evs0 ++ [ev]).map fun e => weighted s.year.NFCST (f e)) = annualP (tiersOf c) g done := by
        apply List.ext_getElem
        · simp [annualP, hdl]
        · intro y h1 h2
          have hy : y < (evs0 ++ [ev]).length := by simpa using h1
          have hy' : y < done.length := by rw [hlen]; exact hy
          rw [List.getElem_map]
          rw [weighted_congr fun t ht => hfg y _ (List.getElem?_eq_getElem hy) t ht, hNF]
          have : done.getD y [] = done[y] := by rw [List.getD_eq_getElem?_getD, List.getElem?_eq_getElem hy']; rfl
          rw [this]
          exact (List.getElem_map (fun ds => weighted (tiersOf c) fun t => g t ds)).symm
      rw [poolSd_pct (List.mem_map.mpr ⟨ev, by simp, rfl⟩), hm, hl]
    refine ⟨q, _, q1, hget, ?_, ?_⟩
    · rw [q5]
      exact ev2 (fun e t => e.P.LOLTP t + e.P.LOLGP t) poolDaysIn fun y e he t ht => (hold y e he).2.lp t ht
    · intro hn
      refine ⟨_, _, q6 fun e => hn (hIX.1 e), ?_, ?_⟩
      · exact ev2 (fun e t => e.H.LOLTP t + e.H.LOLGP t) poolHoursIn fun y e he t ht => (hold y e he).1.lp t ht
      · exact ev2 (fun e t => e.H.MGNTP t + e.H.MGNGP t) poolEnergyIn fun y e he t ht => (hold y e he).1.ep t ht

end Narp.Props
