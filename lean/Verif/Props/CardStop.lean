import Verif.Props.CardReport

/-!
# C33 and C72 from the cards: when a run stops, and what an always short system is reported to be
-/

namespace Narp.Props
open Narp Narp.Spec BigOperators

section Runs

variable {n m l : ℕ} {ν α : Type} {hc : HourIn n m l ν} {yc : YearIn} {T : List (List ℤ)} {R : List (List ℚ)} {snap : ν → α}
  {g0 : Fin m → ℤ} {l0 : Fin l → ℤ} {net : ν} {I A : ℤ} {s s' : St (World n m l ν α)} {log : List Ev}
  {evs : List (YearEnd n α)} {ev : Ev}

/-- No earlier year end had a reason to stop. -/
theorem ends_first (hJ : StepOK hc.JSTEP) (hN : yc.NFCST ≤ 5) (hR : yc.NORR.val < yc.NFCST)
    (a : Option (Fin n)) (ha : Selects yc a) (hp : a.isSome ∨ yc.KVTYPE ≠ 1)
    (h : Ends hc yc T R snap (narpInit hc.JSTEP m (worldInit g0 l0 net I A)) log s evs) :
    ∀ k, 1 ≤ k → k < evs.length → 8760 * (k : ℚ) < yc.FINISH ∧
      ¬ Converged yc.CVTEST ((evs.take k).map (annualStat yc a)) := by
  induction h with
  | start => intro k _ h2; simp at h2
  | @year log s evs ev s' he hs hk ih =>
    intro k k1 k2
    have k2' : k < evs.length + 1 := by simpa using k2
    rw [List.take_append_of_le_length (by omega)]
    rcases Nat.lt_or_ge k evs.length with hlt | hge
    · exact ih k k1 hlt
    · have e : k = evs.length := by omega
      subst e
      rw [List.take_length]
      exact (C33_exit hJ hN hR a ha hp he).2 ev s' hs (fun h0 => by rw [h0] at k1; simp at k1)
  | @other log s evs ev s' he hs hk ih => exact ih

end Runs

variable {n m l : ℕ} {sl : ℕ → ℚ → ℚ} {fuel : ℕ} {c : Cards n m l} {s : Setup n m l}

/-- The statistic that the cards choose for the convergence test: hourly or daily peaks, hours (days) or energy, of an
area or of the pool, in tier `t` of the draws `ds`. -/
def chosenStat (c : Cards n m l) (a : Option (Fin (n + 1))) (t : Fin 5) (ds : List (DrawLog (n + 1))) : ℚ :=
  match a with
  | some j =>
    if c.misc.KVWHEN = 1 then (if c.misc.KVSTAT = 1 then hoursIn j t ds else energyIn j t ds)
    else (if c.misc.KVSTAT = 1 then daysIn j t ds else peakEnergyIn j t ds)
  | none =>
    if c.misc.KVWHEN = 1 then (if c.misc.KVSTAT = 1 then poolHoursIn t ds else poolEnergyIn t ds)
    else (if c.misc.KVSTAT = 1 then poolDaysIn t ds else poolPeakEnergyIn t ds)

/-- Whether the values of an area or of the pool carry those of the earlier years. -/
def CarriedBy (c : Cards n m l) (a : Option (Fin (n + 1))) (t : Fin 5) : Prop :=
  match a with
  | some j => Carried (n + 1) (tiersOf c) j t
  | none => False

instance (c : Cards n m l) (a : Option (Fin (n + 1))) (t : Fin 5) : Decidable (CarriedBy c a t) := by
  unfold CarriedBy; cases a <;> infer_instance

/-- Its annual values: averaged over the forecast tiers, or of the mean forecast. -/
def chosenYears (c : Cards n m l) (a : Option (Fin (n + 1))) (years : List (List (DrawLog (n + 1)))) : List ℚ :=
  (List.range years.length).map fun y =>
    let x : Fin 5 → ℚ := fun t => yearValue (CarriedBy c a t) (chosenStat c a t) years y
    if c.misc.KVTYPE = 1 then weighted (tiersOf c) x else x (meanTier c)

/-- What the cards choose: the area with number `KVLOC` (from 1), or the pool. -/
def Chooses (c : Cards n m l) : Option (Fin (n + 1)) → Prop
  | some j => c.misc.KWHERE = 1 ∧ c.misc.KVLOC = (j.val : ℤ) + 1
  | none => c.misc.KWHERE ≠ 1

theorem chosen_take (a : Option (Fin (n + 1))) (years : List (List (DrawLog (n + 1)))) (k : ℕ) :
    chosenYears c a (years.take k) = (chosenYears c a years).take k := by
  unfold chosenYears
  rw [← List.map_take, List.take_range, List.length_take]
  refine List.map_congr_left fun y hy => ?_
  have hy : y < k ∧ y < years.length := by
    have := List.mem_range.1 hy
    omega
  have : ∀ t, yearValue (CarriedBy c a t) (chosenStat c a t) (years.take k) y =
      yearValue (CarriedBy c a t) (chosenStat c a t) years y := by
    intro t
    unfold yearValue
    rw [List.take_take, Nat.min_eq_left (by omega), List.getD_eq_getElem?_getD, List.getD_eq_getElem?_getD,
      List.getElem?_take_of_lt hy.1]
  simp only [this]

theorem ends_chosen (h : setup sl fuel c = .ok s) (a : Option (Fin (n + 1)))
    {evs : List (YearEnd (n + 1) ((Fin (n + 1) → Fin (n + 1)) × NMat n × NMat n))} {done : List (List (DrawLog (n + 1)))}
    (hlen : done.length = evs.length)
    (hold : ∀ y e, evs[y]? = some e → HoldsH s.year.NFCST (done.take y) (done.getD y []) e.H ∧
        HoldsP s.year.NFCST (done.take y) (done.getD y []) e.P) :
    evs.map (annualStat s.year a) = chosenYears c a done := by
  obtain ⟨_, hNF, hNR⟩ := setup_tiers h
  have hset := C72_settings h 0
  obtain ⟨_, _, _, _, hKW, hKS, hKT, _⟩ := hset
  have hN5 : tiersOf c ≤ 5 := by unfold tiersOf; split_ifs <;> norm_num
  have hNN : (meanTier c).val < tiersOf c := by unfold tiersOf meanTier; split_ifs <;> norm_num
  unfold chosenYears
  apply List.ext_getElem
  · simp [hlen]
  · intro y h1 h2
    have hy : y < evs.length := by simpa using h1
    simp only [List.getElem_map, List.getElem_range]
    obtain ⟨oH, oP⟩ := hold y _ (List.getElem?_eq_getElem hy)
    rw [hNF] at oH oP
    generalize evs[y]'hy = e at oH oP ⊢
    clear h1 h2
    unfold annualStat
    rw [hKW, hKS, hKT, hNF, hNR]
    have key : ∀ t : Fin 5, t.val < tiersOf c →
        (match a with
        | some j => if c.misc.KVSTAT = 1 then fun t => (if c.misc.KVWHEN = 1 then e.H else e.P).LOLTA j t + (if c.misc.KVWHEN = 1 then e.H else e.P).LOLGA j t
          else fun t => (if c.misc.KVWHEN = 1 then e.H else e.P).MGNTA j t + (if c.misc.KVWHEN = 1 then e.H else e.P).MGNGA j t
        | none => if c.misc.KVSTAT = 1 then fun t => (if c.misc.KVWHEN = 1 then e.H else e.P).LOLTP t + (if c.misc.KVWHEN = 1 then e.H else e.P).LOLGP t
          else fun t => (if c.misc.KVWHEN = 1 then e.H else e.P).MGNTP t + (if c.misc.KVWHEN = 1 then e.H else e.P).MGNGP t : Fin 5 → ℚ) t =
        yearValue (CarriedBy c a t) (chosenStat c a t) done y := by
      intro t ht
      unfold yearValue
      cases a with
      | some j =>
        have hcs : ∀ ds, chosenStat c (some j) t ds = if c.misc.KVWHEN = 1 then (if c.misc.KVSTAT = 1 then hoursIn j t ds else energyIn j t ds)
          else (if c.misc.KVSTAT = 1 then daysIn j t ds else peakEnergyIn j t ds) := fun _ => rfl
        have hcb : CarriedBy c (some j) t = Carried (n + 1) (tiersOf c) j t := rfl
        by_cases e1 : c.misc.KVWHEN = 1 <;> by_cases e2 : c.misc.KVSTAT = 1 <;>
          simp only [e1, e2, if_true, if_false, hcb] at hcs ⊢
        · rw [oH.lole, hcs, funext hcs]
        · rw [oH.eue, hcs, funext hcs]
        · rw [oP.lole, hcs, funext hcs]
        · rw [oP.eue, hcs, funext hcs]
      | none =>
        have hcs : ∀ ds, chosenStat c none t ds = if c.misc.KVWHEN = 1 then (if c.misc.KVSTAT = 1 then poolHoursIn t ds else poolEnergyIn t ds)
          else (if c.misc.KVSTAT = 1 then poolDaysIn t ds else poolPeakEnergyIn t ds) := fun _ => rfl
        rw [if_neg (show ¬ CarriedBy c none t from id), add_zero, hcs]
        by_cases e1 : c.misc.KVWHEN = 1 <;> by_cases e2 : c.misc.KVSTAT = 1 <;>
          simp only [e1, e2, if_true, if_false]
        · exact oH.lp t ht
        · exact oH.ep t ht
        · exact oP.lp t ht
        · exact oP.ep t ht
    by_cases e3 : c.misc.KVTYPE = 1
    · simp only [e3, if_true]
      refine weighted_congr fun t ht => ?_
      have := key t ht
      cases a <;> exact this
    · simp only [e3, if_false]
      have := key _ hNN
      cases a <;> exact this

/-- C33 (from the cards; for every statistic but the tier average of the pool, C84; annual values of an area may
contain those of earlier years, C30). A run ends after the first year (if any) at which the horizon of the cards is reached
or the statistic that the cards choose has converged to the tolerance of the cards. -/
theorem C33_cards (h : setup sl fuel c = .ok s) (hstep : c.misc.JSTEP = 1 ∨ c.misc.JSTEP = 24)
    (hfreq : c.misc.JFREQ = 1) (hF : 1 ≤ c.misc.FINISH) (a : Option (Fin (n + 1))) (ha : Chooses c a)
    (hp : a.isSome ∨ c.misc.KVTYPE ≠ 1) (JSEED : ℤ) {log : List Ev} {st : St _}
    (hr : Reach s.cfg (s.start JSEED) log st) :
    ∃ years cur, History s.hour s.year s.JPLOUT s.RATES snapNet (s.start JSEED) log st years cur ∧
      (∀ k, 1 ≤ k → k < years.length → (k : ℤ) < c.misc.FINISH ∧
        ¬ Converged c.misc.CVTEST (chosenYears c a (years.take k))) ∧
      (∀ e, step s.cfg st = .ok (.exit e) → cur = [] ∧ years ≠ [] ∧
        (c.misc.FINISH = years.length ∨ Converged c.misc.CVTEST (chosenYears c a years))) ∧
      (∀ ev st', step s.cfg st = .ok (.next ev st') → years ≠ [] → (years.length : ℤ) < c.misc.FINISH ∧
        ¬ Converged c.misc.CVTEST (chosenYears c a years)) := by
  obtain ⟨hJs, hFin, hCV, hKW, _, _, hKT, hKL, _⟩ := C72_settings h JSEED
  have hJ : StepOK s.hour.JSTEP := by
    rw [hJs]
    rcases hstep with e | e <;> rw [e]
    · left; norm_num
    · right; norm_num
  have hJF : s.hour.JFREQ = 1 := by
    obtain ⟨wr, raw, T, ITAB, ID', hw, _, _, _, _, rfl⟩ := setup_ok h
    exact hfreq
  obtain ⟨_, hNF, hNR⟩ := setup_tiers h
  obtain ⟨_, _, _, _, _, _, hmx⟩ := C64_loads h
  have hN5 : s.year.NFCST ≤ 5 := by rw [hNF]; unfold tiersOf; split_ifs <;> norm_num
  have hNN : s.year.NORR.val < s.year.NFCST := by
    rw [hNF, hNR]; unfold tiersOf meanTier; split_ifs <;> norm_num
  have hsel : Selects s.year a := by
    cases a with
    | some j =>
      obtain ⟨a1, a2⟩ := ha
      refine ⟨by rw [hKW, a1], by rw [hKL, a2]; ring⟩
    | none => show s.year.KWHERE ≠ 1; rw [hKW]; exact ha
  have hp' : a.isSome ∨ s.year.KVTYPE ≠ 1 := by rw [hKT]; exact hp
  obtain ⟨evs, hE1⟩ := ends_of_reach hr
  obtain ⟨done, cur, hh, hlen, _, hold, _, _⟩ := ends_history hJ hJF (fun _ d hd => by have := (hmx d).2.1; omega) hE1
  have hch := ends_chosen h a hlen hold
  have hfirst := ends_first hJ hN5 hNN a hsel hp' hE1
  have hc33 := C33_exit hJ hN5 hNN a hsel hp' hE1
  rw [hCV, hFin, hch] at hc33
  have hfin : ∀ k : ℕ, 8760 * (k : ℚ) < 8760 * (c.misc.FINISH : ℚ) ↔ (k : ℤ) < c.misc.FINISH := by
    intro k
    rw [mul_lt_mul_iff_right₀ (by norm_num)]
    exact_mod_cast Iff.rfl
  have hfirst' : ∀ k, 1 ≤ k → k < done.length → (k : ℤ) < c.misc.FINISH ∧
        ¬ Converged c.misc.CVTEST (chosenYears c a (done.take k)) := by
    intro k k1 k2
    have := hfirst k k1 (by omega)
    rw [hCV, hFin, hfin, List.map_take, hch] at this
    rw [chosen_take]
    exact this
  refine ⟨done, cur, hh, hfirst', ?_, ?_⟩
  · intro e he
    have hR := exit_flag (Y := c.misc.FINISH.toNat) hJ (by omega) (by
      rw [hFin]
      have : ((c.misc.FINISH.toNat : ℤ) : ℚ) = c.misc.FINISH := by rw [Int.toNat_of_nonneg (by omega)]
      rw [← this]; push_cast; rfl) hE1 he
    have hf := (rflag_run hJ hN5 hNN a hsel hp' hE1).1 hR
    rw [hCV, hFin, hch] at hf
    obtain ⟨hne, hf⟩ := hf
    have hd : done ≠ [] := by intro e0; rw [e0] at hlen; exact hne (List.eq_nil_of_length_eq_zero hlen.symm)
    refine ⟨(history_cur hJ hh).2 hR, hd, ?_⟩
    rcases hf with hf | hf
    · left
      have h1 : ¬ ((evs.length : ℤ) < c.misc.FINISH) := by
        rw [← hfin]; exact not_lt.2 hf
      rw [hlen]
      by_contra hne'
      have hpos : 0 < done.length := List.length_pos_iff.2 hd
      rcases Nat.lt_or_ge 1 done.length with h2 | h2
      · have := (hfirst' (done.length - 1) (by omega) (by omega)).1
        omega
      · omega
    · exact .inr hf
  · intro ev st' hs hne
    have := hc33.2 ev st' hs (fun h0 => hne (by rw [h0] at hlen; exact List.eq_nil_of_length_eq_zero hlen))
    rw [hfin, ← hlen] at this
    exact this

/-! ## Always short systems -/

theorem tiers_all_short {n : ℕ} {ν : Type} {deficit : Fin 5 → Fin n → ℚ}
    {assist : Bool → Fin 5 → ν → Option (Fin n → ℚ) × ν → Prop} {ts : List (Fin 5)} {first : Bool} {net net' : ν}
    {hist : List (Fin 5 × (Fin n → ℚ))} (h : HourTiers deficit assist ts first net hist net')
    (all : ∀ t ∈ ts, ∀ j, 1 ≤ deficit t j) : hist = ts.map fun t => (t, deficit t) := by
  induction h with
  | done => rfl
  | everybody _ _ ih => rw [ih fun t ht => all t (by simp [ht])]; rfl
  | assisted _ hn => obtain ⟨j, hj⟩ := hn; exact absurd (all _ (by simp) j) (not_le.2 hj)
  | helped _ hn => obtain ⟨j, hj⟩ := hn; exact absurd (all _ (by simp) j) (not_le.2 hj)
  | scheduled _ hn => obtain ⟨j, hj⟩ := hn; exact absurd (all _ (by simp) j) (not_le.2 hj)

/-- What a draw records of an always short system with one forecast tier. -/
def AllShort (ds : List (DrawLog (n + 1))) : Prop :=
  ∀ d ∈ ds, (∀ j, hoursShort d.tiers j 0 = 1) ∧ tierCount d.tiers 0 = 1

theorem history_scarce (h1 : OneCard c) (hs : Sensible c) (hd : ∀ i, 0 ≤ (c.units i).der ∧ (c.units i).der ≤ 100)
    (h : setup sl fuel c = .ok s) (hJ : StepOK s.hour.JSTEP) (hsc : Scarce c s.hour.HRLOAD) (h1t : tiersOf c = 1) (JSEED : ℤ)
    {log : List Ev} {st : St _} {done : List (List (DrawLog (n + 1)))} {cur : List (DrawLog (n + 1))}
    (hh : History s.hour s.year s.JPLOUT s.RATES snapNet (s.start JSEED) log st done cur) :
    (∀ ds ∈ done, AllShort ds) ∧ AllShort cur := by
  obtain ⟨hNF, _⟩ := setup_tiers h
  obtain ⟨_, _, _, hld, _, _, hmx⟩ := C64_loads h
  induction hh with
  | start => exact ⟨by simp, fun d hd => by simp at hd⟩
  | @draw log st done cur ev st' d hh hst hk hdr ih =>
    refine ⟨ih.1, fun d' hd' => ?_⟩
    rcases List.mem_append.1 hd' with h' | h'
    · exact ih.2 d' h'
    simp only [List.mem_singleton] at h'
    subst h'
    obtain ⟨y, k, hk', _, ht, _⟩ := hdr
    obtain ⟨season, hcap⟩ := capacity_le h1 hs hd h hJ JSEED (history_cur hJ hh).1 (hourOf k / 24)
    have hhr : (if s.hour.JSTEP = 24 then s.hour.MXPLHR (hourOf k / 24) else hourOf k) < 8760 := by
      have hb : hourOf k < 8760 := by unfold hourOf; split_ifs <;> omega
      split_ifs
      · have := (hmx (hourOf k / 24)).2.1; omega
      · exact hb
    set hr := (if s.hour.JSTEP = 24 then s.hour.MXPLHR (hourOf k / 24) else hourOf k) with hhrdef
    set dw := (hourDraw s.hour (hourOf k / 24) (fun i => st.RATING.getD i 0)
      (fun i => st.PLNDST.getD i 0) st.world.h).1 with hdw
    have hdef : ∀ t j, 1 ≤ deficit s.hour dw hr t j := by
      intro t j
      have a := hcap j
      have b := hsc j t _ hhr season
      rw [← hld j t] at b
      have e : findld t hr s.hour.HRLOAD s.hour.FCTERR j = s.hour.HRLOAD j hr * s.hour.FCTERR j t := rfl
      unfold deficit
      rw [← e]
      linarith
    have hall := tiers_all_short ht (fun t _ j => hdef t j)
    rw [hNF, h1t] at hall
    have hall' : d'.tiers = [(0, deficit s.hour dw hr 0)] := hall
    rw [hall']
    refine ⟨fun j => ?_, by simp [tierCount]⟩
    simp [hoursShort, hdef 0 j]
  | year _ hst hk ih => exact ⟨fun ds hds => by
      rcases List.mem_append.1 hds with h | h
      · exact ih.1 ds h
      · simp only [List.mem_singleton] at h; subst h; exact ih.2, fun d hd => by simp at hd⟩
  | other _ _ _ _ ih => exact ih

theorem hours_allShort {ds : List (DrawLog (n + 1))} (h : AllShort ds) (j : Fin (n + 1)) :
    hoursIn j 0 ds = ds.length ∧ poolHoursIn 0 ds = ds.length := by
  induction ds with
  | nil => simp [hoursIn, poolHoursIn]
  | cons d ds ih =>
    obtain ⟨i1, i2⟩ := ih fun d' hd' => h d' (by simp [hd'])
    obtain ⟨h1, h2⟩ := h d (by simp)
    simp only [hoursIn, poolHoursIn, List.map_cons, List.sum_cons, List.length_cons, h1 j, h2] at i1 i2 ⊢
    rw [i1, i2]
    push_cast
    constructor <;> ring

theorem weighted_one (x : Fin 5 → ℚ) : weighted 1 x = x 0 := by
  simp [weighted, weight, List.finRange_succ]

theorem mean_const (k : ℕ) (hk : 0 < k) (x : ℚ) : mean (List.replicate k x) = x := by
  unfold mean
  simp
  field_simp

theorem mean_ramp (k : ℕ) (hk : 0 < k) (x : ℚ) :
    mean ((List.range k).map fun y : ℕ => x * ((y : ℚ) + 1)) = x * (k + 1) / 2 := by
  have : ∀ k : ℕ, ((List.range k).map fun y : ℕ => x * ((y : ℚ) + 1)).sum = x * k * (k + 1) / 2 := by
    intro k
    induction k with
    | zero => simp
    | succ k ih => rw [List.range_succ, List.map_append, List.sum_append, ih]; push_cast; simp; ring
  unfold mean
  rw [this]
  have : (k : ℚ) ≠ 0 := by positivity
  simp
  field_simp

/-- The annual hours of an always short system, as the program forms them. -/
theorem annual_scarce (years : List (List (DrawLog (n + 1)))) (hall : ∀ ds ∈ years, AllShort ds) (L : ℚ)
    (hlen : ∀ ds ∈ years, (ds.length : ℚ) = L) (j : Fin (n + 1)) :
    annualC 1 hoursIn years j = (List.range years.length).map fun y : ℕ => if j = 0 then L else L * ((y : ℚ) + 1) := by
  unfold annualC
  refine List.map_congr_left fun y hy => ?_
  have hy : y < years.length := List.mem_range.1 hy
  rw [weighted_one]
  unfold yearValue
  have hmem : years.getD y [] ∈ years := by
    rw [List.getD_eq_getElem?_getD, List.getElem?_eq_getElem hy]; exact List.getElem_mem hy
  have hsum : ((years.take y).map (hoursIn j 0)).sum = L * y := by
    have : (years.take y).map (hoursIn j 0) = List.replicate y L := by
      rw [List.eq_replicate_iff]
      refine ⟨by simp; omega, fun x hx => ?_⟩
      obtain ⟨ds, hds, rfl⟩ := List.mem_map.1 hx
      have hds := List.mem_of_mem_take hds
      rw [(hours_allShort (hall ds hds) j).1, hlen ds hds]
    rw [this]; simp; ring
  rw [(hours_allShort (hall _ hmem) j).1, hlen _ hmem, hsum]
  have hcar : Carried (n + 1) 1 j 0 ↔ j ≠ 0 := by
    unfold Carried
    have h0 : ((0 : Fin 5) : ℕ) = 0 := rfl
    rw [h0, ne_eq, Fin.ext_iff, Fin.val_zero]
    omega
  by_cases e : j = 0
  · rw [if_neg (by rw [hcar]; simpa using e), if_pos e, add_zero]
  · rw [if_pos (hcar.2 e), if_neg e]; ring

/-- C72 (what fails). In a system in which every area is short in every hour (hourly steps, no forecast uncertainty)
each area has 8760 loss-of-load hours in each of the `Y` years. The final report shows 8760 hours per year for the first
area, but `8760 (Y + 1) / 2` for every other area, and `8760 / Y` for the pool. -/
theorem C72_always_short_refuted (h1 : OneCard c) (hs : Sensible c)
    (hd : ∀ i, 0 ≤ (c.units i).der ∧ (c.units i).der ≤ 100) (h : setup sl fuel c = .ok s) (hstep : c.misc.JSTEP = 1)
    (hfreq : c.misc.JFREQ = 1) (hF : 1 ≤ c.misc.FINISH) (hE : 20 ≤ c.misc.MAXEUE) (hsc : Scarce c s.hour.HRLOAD)
    (hlfu : ∀ j, (c.areas j).lfu = 0) (JSEED : ℤ) {log : List Ev} {st : St _}
    (hr : Reach s.cfg (s.start JSEED) log st) {e : Exit} (he : step s.cfg st = .ok (.exit e)) :
    ∃ years r, History s.hour s.year s.JPLOUT s.RATES snapNet (s.start JSEED) log st years [] ∧ years ≠ [] ∧
      (∀ ds ∈ years, ∀ j, hoursIn j 0 ds = 8760 ∧ poolHoursIn 0 ds = 8760) ∧ st.world.y.rep = some r ∧
      ∀ ITAB, ∃ R, s.report ITAB r = .ok R ∧ R.years = years.length ∧
        (∀ j : Fin (n + 1), ∃ q a b, R.summary[j.val]? = some q ∧ q.hourly = some (a, b) ∧
          a.1 = if j = 0 then 8760 else 8760 * ((years.length : ℚ) + 1) / 2) ∧
        ∃ q a b, R.summary[n + 1]? = some q ∧ q.hourly = some (a, b) ∧ a.1 = 8760 / years.length := by
  have hJs : s.hour.JSTEP = c.misc.JSTEP := (C72_settings h JSEED).1
  have hJ : StepOK s.hour.JSTEP := by rw [hJs, hstep]; left; norm_num
  have h1t : tiersOf c = 1 := by
    unfold tiersOf
    rw [if_neg (by simpa using hlfu)]
  obtain ⟨years, r, hh, hne, hfull, hrep, hR⟩ := C72_report_partial h (.inl hstep) hfreq hF hE JSEED hr he
  have hall := (history_scarce h1 hs hd h hJ hsc h1t JSEED hh).1
  have hL : ∀ ds ∈ years, (ds.length : ℚ) = 8760 := by
    intro ds hds
    have := hfull ds hds
    rw [hstep] at this
    simpa using this
  have hpos : 0 < years.length := List.length_pos_iff.2 hne
  refine ⟨years, r, hh, hne, fun ds hds j => ?_, hrep, fun ITAB => ?_⟩
  · have := hours_allShort (hall ds hds) j
    rw [hL ds hds] at this
    exact this
  obtain ⟨R, hR1, hS⟩ := hR ITAB
  refine ⟨R, hR1, hS.count, fun j => ?_, ?_⟩
  · obtain ⟨q, q1, _, _, _, _, q2⟩ := hS.areas j
    obtain ⟨a, b, f1, f2, _⟩ := q2.some (by rw [hstep]; norm_num)
    refine ⟨q, a, b, q1, f1, ?_⟩
    rw [f2, h1t, annual_scarce years hall 8760 hL j]
    by_cases e : j = 0
    · simp only [e, if_true]
      have : ((List.range years.length).map fun _ : ℕ => (8760 : ℚ)) = List.replicate years.length 8760 := by
        simp
      rw [this, mean_const _ hpos]
    · simp only [e, if_false]
      exact mean_ramp _ hpos _
  · obtain ⟨q, last, q1, q2, _, _, _, _, q3⟩ := hS.pool
    obtain ⟨a, b, f1, f2, _⟩ := q3 (by rw [hstep]; norm_num)
    refine ⟨q, a, b, q1, f1, ?_⟩
    have hl : last ∈ years := List.mem_of_getLast? q2
    rw [f2, h1t, weighted_one, (hours_allShort (hall last hl) 0).2, hL last hl]

/-! ## The concrete input -/

theorem converged_const {tol x : ℚ} (ht : 0 < tol) (hx : 0 < x) {k : ℕ} (hk : 5 ≤ k) : Converged tol (List.replicate k x) := by
  have hm := mean_const k (by omega) x
  refine ⟨by simpa using hk, by rw [hm]; exact hx.ne', ?_⟩
  have hv : variance (List.replicate k x) = 0 := by
    unfold variance
    rw [hm]
    simp
  unfold stdErr
  rw [hv, hm, if_neg ht.ne']
  simp only [Rat.cast_zero, zero_div, Real.sqrt_zero]
  exact_mod_cast mul_pos ht hx

/-- C72 (refuted on a concrete input). Two areas A and B, always short: the run ends after five years (A's hours per year
have converged), and the report shows 8760 loss-of-load hours per year for A, 26280 for B (a year has 8760 hours), and 1752
for the pool. -/
theorem C72_concrete_refuted (sl : ℕ → ℚ → ℚ) (fuel : ℕ) (JSEED : ℤ) : ∃ (s : Setup 1 4 1) (log : List Ev) (st : St _)
    (e : Exit) (r : RepIn 2), setup sl fuel scarceCards = .ok s ∧ Reach s.cfg (s.start JSEED) log st ∧
    step s.cfg st = .ok (.exit e) ∧ st.world.y.rep = some r ∧
    ∀ ITAB, ∃ R, s.report ITAB r = .ok R ∧ R.years = 5 ∧
      (∃ q a b, R.summary[0]? = some q ∧ q.hourly = some (a, b) ∧ a.1 = 8760) ∧
      (∃ q a b, R.summary[1]? = some q ∧ q.hourly = some (a, b) ∧ a.1 = 26280) ∧
      (∃ q a b, R.summary[2]? = some q ∧ q.hourly = some (a, b) ∧ a.1 = 1752) := by
  obtain ⟨s, hs, hsc⟩ := scarce_ok sl fuel
  have hlfu : ∀ j, (scarceCards.areas j).lfu = 0 := by intro j; fin_cases j <;> rfl
  have h1t : tiersOf scarceCards = 1 := by
    unfold tiersOf
    rw [if_neg (by simpa using hlfu)]
  have hJs : s.hour.JSTEP = 1 := by
    have := (C72_settings hs JSEED).1
    rw [this]
    show (((1 : ℤ)) : ℚ) = 1
    norm_num
  have hJ : StepOK s.hour.JSTEP := .inl hJs
  have hE : 20 ≤ scarceCards.misc.MAXEUE := by simp [scarceCards, demoCards]; norm_num
  obtain ⟨log, st, e, hr, he, _⟩ := C43_cards_partial scarce_one scarce_sensible scarce_lone scarce_derating hs (.inl rfl)
    rfl (.inl rfl) hE (by simp [scarceCards, demoCards]) hsc JSEED
  obtain ⟨years, r, hh, hne, hhrs, hrep, hR⟩ := C72_always_short_refuted scarce_one scarce_sensible scarce_derating hs rfl rfl
    (by simp [scarceCards, demoCards]) hE hsc hlfu JSEED hr he
  obtain ⟨years', cur', hh', hfirst, hexit, _⟩ := C33_cards hs (.inl rfl) rfl (by simp [scarceCards, demoCards]) (some 0)
    ⟨rfl, rfl⟩ (.inl rfl) JSEED hr
  have hlen : years.length = years'.length := by
    rw [(history_full hJ hh).1.1, (history_full hJ hh').1.1]
  have hall := (history_scarce scarce_one scarce_sensible scarce_derating hs hJ hsc h1t JSEED hh').1
  have hL : ∀ ds ∈ years', (ds.length : ℚ) = 8760 := by
    intro ds hds
    have := (history_full hJ hh').2 ds hds
    rw [hJs] at this
    linarith
  have hch : chosenYears scarceCards (some 0) years' = List.replicate years'.length 8760 := by
    have := annual_scarce years' hall 8760 hL 0
    simp only [if_true] at this
    rw [List.map_const', List.length_range] at this
    rw [← this]
    unfold chosenYears annualC
    refine List.map_congr_left fun y _ => ?_
    simp only [h1t]
    rfl
  have h5 : years'.length = 5 := by
    obtain ⟨_, hne', hx⟩ := hexit e he
    have hge : 5 ≤ years'.length := by
      rcases hx with hx | hx
      · have : (10 : ℤ) = years'.length := hx
        omega
      · rw [hch] at hx
        simpa using hx.1
    by_contra hne5
    have := (hfirst 5 (by norm_num) (by omega)).2
    rw [chosen_take, hch, List.take_replicate, Nat.min_eq_left hge] at this
    exact this (converged_const (by simp [scarceCards, demoCards]) (by norm_num) le_rfl)
  refine ⟨s, log, st, e, r, hs, hr, he, hrep, fun ITAB => ?_⟩
  obtain ⟨R, R1, R2, R3, R4⟩ := hR ITAB
  rw [hlen, h5] at R2 R3 R4
  refine ⟨R, R1, by exact_mod_cast R2, ?_, ?_, ?_⟩
  · simpa using R3 0
  · obtain ⟨q, a, b, q1, q2, q3⟩ := R3 1
    refine ⟨q, a, b, q1, q2, ?_⟩
    rw [q3]; norm_num
  · obtain ⟨q, a, b, q1, q2, q3⟩ := R4
    refine ⟨q, a, b, q1, q2, ?_⟩
    rw [q3]; norm_num

end Narp.Props
