import Verif.Props.Hour
import Verif.Spec.Hour
import Verif.Props.Year

/-!
# C59: what an hour records are the shortages after assistance
-/

namespace Narp.Props
open Narp.Spec BigOperators

variable {n m l : ℕ} {ν : Type}

/-- Load forecast minus available capacity. -/
def deficit (c : HourIn n m l ν) (d : Draw n l) (hr : ℕ) (t : Fin 5) (j : Fin n) : ℚ :=
  c.HRLOAD j hr * c.FCTERR j t - d.SYSCON j

/-- The transmission evaluation of tier `t`: it gets the drawn line states, the scheduled transfers, the available
capacities and the load forecast; `JFLAG` 0 says that every area can serve its schedule. -/
def assist (c : HourIn n m l ν) (d : Draw n l) (hr : ℕ) (first : Bool) (t : Fin 5) (net : ν)
    (r : Option (Fin n → ℚ) × ν) : Prop :=
  ∃ J S, c.transm ⟨if first then 0 else 1, d.LNSTAT, d.TRNSFR, d.TRNSFJ, d.SYSCON,
      fun j => c.HRLOAD j hr * c.FCTERR j t⟩ net = .ok ((J, S), r.2) ∧
    r.1 = if J = 0 then none else some S

theorem pyInt_neg_iff {q : ℚ} : pyInt q < 0 ↔ q ≤ -1 := by
  unfold pyInt
  split
  · rename_i h
    exact ⟨fun h' => absurd (Int.floor_nonneg.2 h) (by omega), fun h' => by linarith⟩
  · rw [show ⌈q⌉ < 0 ↔ ⌈q⌉ ≤ -1 by omega, Int.ceil_le]; push_cast; rfl

theorem tierMargin_neg (c : HourIn n m l ν) (d : Draw n l) (hr : ℕ) (t : Fin 5) (j : Fin n) :
    tierMargin c d hr t j < 0 ↔ 1 ≤ deficit c d hr t j := by
  unfold tierMargin marginInt
  rw [pyInt_neg_iff]
  unfold deficit findld
  constructor <;> intro h <;> linarith

/-- The whole-megawatt margins that are recorded for shortages `S`. -/
theorem marginInt_short (S : Fin n → ℚ) (j : Fin n) :
    shortFlag (fun j => ((marginInt (fun j => -S j) j : ℤ) : ℚ)) j = (if 1 ≤ S j then 1 else 0) ∧
    (shortMW (fun j => ((marginInt (fun j => -S j) j : ℤ) : ℚ)) j : ℤ) = ⌊S j⌋₊ := by
  have h : (((marginInt (fun j => -S j) j : ℤ) : ℚ) < 0) ↔ 1 ≤ S j := by
    unfold marginInt
    rw [Int.cast_lt_zero, pyInt_neg_iff]
    constructor <;> intro h <;> linarith
  unfold shortFlag shortMW
  refine ⟨by simp only [h], ?_⟩
  simp only [h]
  split
  · rename_i h1
    have : marginInt (fun j => -S j) j = -⌊S j⌋ := by
      unfold marginInt pyInt
      rw [if_neg (by linarith), Int.ceil_neg]
    rw [this]
    push_cast
    rw [neg_neg, Int.floor_intCast, ← Int.floor_toNat]
    exact (Int.toNat_of_nonneg (Int.floor_nonneg.2 (by linarith))).symm
  · rename_i h1
    rw [Nat.floor_eq_zero.2 (by linarith)]; rfl

theorem tierBody_spec {c : HourIn n m l ν} {d : Draw n l} {hr : ℕ} {isPeak : Bool} {t : Fin 5} {first : Bool}
    {w : HourSt n m l ν} {r : TierRes n m l ν}
    (h : tierBody c d hr isPeak t (if first then 0 else 1) w = .ok r) :
    (∃ j, 1 ≤ deficit c d hr t j) ∧
    (((∀ j, 1 ≤ deficit c d hr t j) ∧
        r = .next (if first then 0 else 1) (tierStats t (marginInt fun j => -deficit c d hr t j) isPeak w)) ∨
     ((∃ j, deficit c d hr t j < 1) ∧ ∃ o net1, assist c d hr first t w.net (o, net1) ∧
       ((o = none ∧ r = .stop { w with net := net1 }) ∨
        ∃ S, o = some S ∧ ((∀ j, S j < 1) ∧ r = .stop { w with net := net1 } ∨
          (∃ j, 1 ≤ S j) ∧ r = .next 1 (tierStats t (marginInt fun j => -S j) isPeak { w with net := net1 }))))) := by
  unfold tierBody at h
  simp only at h
  split at h
  · cases h
  rename_i hne
  have hex : ∃ j, 1 ≤ deficit c d hr t j := by
    obtain ⟨j, hj⟩ := List.exists_mem_of_ne_nil _ hne
    rw [List.mem_filter] at hj
    exact ⟨j, (tierMargin_neg c d hr t j).1 (by simpa using hj.2)⟩
  refine ⟨hex, ?_⟩
  split at h
  · rename_i h0
    exact absurd (List.length_eq_zero_iff.1 h0) hne
  split at h
  · rename_i hn
    right
    have hna : ∃ j, deficit c d hr t j < 1 := by
      by_contra hc
      push Not at hc
      refine hn ?_
      rw [List.filter_eq_self.2, List.length_finRange]
      intro j _
      exact decide_eq_true ((tierMargin_neg c d hr t j).2 (hc j))
    refine ⟨hna, ?_⟩
    split at h
    · cases h
    · rename_i J S net1 htr
      refine ⟨if J = 0 then none else some S, net1, ⟨J, S, htr, rfl⟩, ?_⟩
      have hsh : ∀ j, (marginInt fun j => -S j) j < 0 ↔ 1 ≤ S j := fun j => by
        unfold marginInt; rw [pyInt_neg_iff]
        constructor <;> intro h <;> linarith
      split at h
      · rename_i hJ
        cases h
        exact .inl ⟨by rw [if_pos hJ], rfl⟩
      · rename_i hJ
        refine .inr ⟨S, by rw [if_neg hJ], ?_⟩
        split at h
        · rename_i hany
          cases h
          rw [List.any_eq_true] at hany
          obtain ⟨j, _, hj⟩ := hany
          exact .inr ⟨⟨j, (hsh j).1 (of_decide_eq_true hj)⟩, rfl⟩
        · rename_i hany
          cases h
          refine .inl ⟨fun j => ?_, rfl⟩
          by_contra hc
          refine hany ?_
          rw [List.any_eq_true]
          exact ⟨j, List.mem_finRange j, decide_eq_true ((hsh j).2 (by linarith))⟩
  · rename_i hn
    left
    have hlen : ((List.finRange n).filter fun j => decide (tierMargin c d hr t j < 0)).length = (List.finRange n).length := by
      rw [List.length_finRange]; exact not_not.1 hn
    have hall := List.length_filter_eq_length_iff.1 hlen
    refine ⟨fun j => (tierMargin_neg c d hr t j).1 (by simpa using hall j (List.mem_finRange j)), ?_⟩
    cases h
    congr 2
    funext j
    unfold tierMargin
    congr 1
    funext j
    unfold deficit findld
    ring

/-- The counters grew by the recorded shortages. -/
structure Recorded (hist : List (Fin 5 × (Fin n → ℚ))) (isPeak : Bool) (w w' : HourSt n m l ν) : Prop where
  areaHours : ∀ j t, w'.H.LOLTA j t + w'.H.LOLGA j t = w.H.LOLTA j t + w.H.LOLGA j t + hoursShort hist j t
  areaMWh : ∀ j t, w'.H.MGNTA j t + w'.H.MGNGA j t = w.H.MGNTA j t + w.H.MGNGA j t + mwShort hist j t
  poolHours : ∀ t, w'.H.LOLTP t + w'.H.LOLGP t = w.H.LOLTP t + w.H.LOLGP t + tierCount hist t
  poolMWh : ∀ t, w'.H.MGNTP t + w'.H.MGNGP t = w.H.MGNTP t + w.H.MGNGP t + ∑ j, (mwShort hist j t : ℚ)
  peakHours : ∀ j t, w'.P.LOLTA j t + w'.P.LOLGA j t =
    w.P.LOLTA j t + w.P.LOLGA j t + if isPeak then (hoursShort hist j t : ℚ) else 0
  peakMWh : ∀ j t, w'.P.MGNTA j t + w'.P.MGNGA j t =
    w.P.MGNTA j t + w.P.MGNGA j t + if isPeak then (mwShort hist j t : ℚ) else 0
  poolPeakHours : ∀ t, w'.P.LOLTP t + w'.P.LOLGP t =
    w.P.LOLTP t + w.P.LOLGP t + if isPeak then (tierCount hist t : ℚ) else 0
  poolPeakMWh : ∀ t, w'.P.MGNTP t + w'.P.MGNGP t =
    w.P.MGNTP t + w.P.MGNGP t + if isPeak then ∑ j, (mwShort hist j t : ℚ) else 0

theorem adds_total {c c' : Cnt n} {t : Fin 5} {M : Fin n → ℚ} {pc ac : Cause} {pe : ℤ} (h : Adds c c' t M pc ac pe) :
    (∀ j t', c'.LOLTA j t' + c'.LOLGA j t' = c.LOLTA j t' + c.LOLGA j t' + if t' = t then shortFlag M j else 0) ∧
    (∀ j t', c'.MGNTA j t' + c'.MGNGA j t' = c.MGNTA j t' + c.MGNGA j t' + if t' = t then (shortMW M j : ℚ) else 0) ∧
    (∀ t', c'.LOLTP t' + c'.LOLGP t' = c.LOLTP t' + c.LOLGP t' + if t' = t then 1 else 0) ∧
    (∀ t', c'.MGNTP t' + c'.MGNGP t' = c.MGNTP t' + c.MGNGP t' + if t' = t then (pe : ℚ) else 0) := by
  refine ⟨fun j t' => ?_, fun j t' => ?_, fun t' => ?_, fun t' => ?_⟩
  · rw [h.lolTA, h.lolGA]; cases ac <;> simp <;> ring
  · rw [h.mgnTA, h.mgnGA]; cases ac <;> simp <;> ring
  · rw [h.lolTP, h.lolGP]; cases pc <;> simp <;> ring
  · rw [h.mgnTP, h.mgnGP]; cases ac <;> simp <;> ring

theorem recorded_nil {w : HourSt n m l ν} {isPeak : Bool} (net : ν) : Recorded [] isPeak w { w with net := net } := by
  constructor <;> intros <;> simp [hoursShort, mwShort, tierCount]

theorem hoursShort_cons (e : Fin 5 × (Fin n → ℚ)) (hist : List (Fin 5 × (Fin n → ℚ))) (j : Fin n) (t : Fin 5) :
    (hoursShort (e :: hist) j t : ℚ) = (if t = e.1 then (if 1 ≤ e.2 j then 1 else 0) else 0) + hoursShort hist j t := by
  unfold hoursShort
  rw [List.countP_cons]
  by_cases h1 : e.1 = t <;> by_cases h2 : 1 ≤ e.2 j <;> simp [h1, h2, Ne.symm, eq_comm, add_comm]

theorem mwShort_cons (e : Fin 5 × (Fin n → ℚ)) (hist : List (Fin 5 × (Fin n → ℚ))) (j : Fin n) (t : Fin 5) :
    (mwShort (e :: hist) j t : ℚ) = (if t = e.1 then (⌊e.2 j⌋₊ : ℚ) else 0) + mwShort hist j t := by
  unfold mwShort
  by_cases h1 : e.1 = t <;> simp [h1, eq_comm]

theorem tierCount_cons (e : Fin 5 × (Fin n → ℚ)) (hist : List (Fin 5 × (Fin n → ℚ))) (t : Fin 5) :
    (tierCount (e :: hist) t : ℚ) = (if t = e.1 then 1 else 0) + tierCount hist t := by
  unfold tierCount
  rw [List.countP_cons]
  by_cases h1 : e.1 = t
  · simp [h1, add_comm]
  · simp [h1]; exact fun h => h1 h.symm

theorem recorded_cons {hist : List (Fin 5 × (Fin n → ℚ))} {isPeak : Bool} {w w' : HourSt n m l ν} {net : ν}
    {t : Fin 5} {S : Fin n → ℚ}
    (h : Recorded hist isPeak (tierStats t (marginInt fun j => -S j) isPeak { w with net := net }) w') :
    Recorded ((t, S) :: hist) isPeak w w' := by
  obtain ⟨a1, a2, a3, a4⟩ := adds_total (C26_hrstat t (fun j => ((marginInt (fun j => -S j) j : ℤ) : ℚ)) w.LSFLG w.H).2
  obtain ⟨p1, p2, p3, p4⟩ := adds_total (C26_pkstat t (marginInt fun j => -S j) w.P)
  have f1 : ∀ j, shortFlag (fun j => ((marginInt (fun j => -S j) j : ℤ) : ℚ)) j = (if 1 ≤ S j then 1 else 0) :=
    fun j => (marginInt_short S j).1
  have f2 : ∀ j, (shortMW (fun j => ((marginInt (fun j => -S j) j : ℤ) : ℚ)) j : ℤ) = ⌊S j⌋₊ :=
    fun j => (marginInt_short S j).2
  simp only [f1, f2] at a1 a2 a3 a4 p1 p2 p3 p4
  push_cast at a2 a4 p2 p4
  have hH : (tierStats t (marginInt fun j => -S j) isPeak { w with net := net }).H =
    (hrstat t (fun j => ((marginInt (fun j => -S j) j : ℤ) : ℚ)) (w.LSFLG, w.H)).2 := rfl
  have hP : (tierStats t (marginInt fun j => -S j) isPeak { w with net := net }).P =
    if isPeak then pkstat t (fun j => ((marginInt (fun j => -S j) j : ℤ) : ℚ)) w.P else w.P := rfl
  constructor
  · intro j t'; rw [h.areaHours, hH, a1, hoursShort_cons]; ring
  · intro j t'; rw [h.areaMWh, hH, a2, mwShort_cons]; ring
  · intro t'; rw [h.poolHours, hH, a3, tierCount_cons]; ring
  · intro t'
    rw [h.poolMWh, hH, a4, Finset.sum_congr rfl fun j _ => mwShort_cons _ _ _ _, Finset.sum_add_distrib]
    by_cases e : t' = t <;> simp [e] <;> ring
  · intro j t'
    rw [h.peakHours, hP, hoursShort_cons]
    cases isPeak
    · simp
    · simp only [if_true]; rw [p1]; ring
  · intro j t'
    rw [h.peakMWh, hP, mwShort_cons]
    cases isPeak
    · simp
    · simp only [if_true]; rw [p2]; ring
  · intro t'
    rw [h.poolPeakHours, hP, tierCount_cons]
    cases isPeak
    · simp
    · simp only [if_true]; rw [p3]; ring
  · intro t'
    rw [h.poolPeakMWh, hP, Finset.sum_congr rfl fun j _ => mwShort_cons _ _ _ _, Finset.sum_add_distrib]
    cases isPeak
    · simp
    · simp only [if_true]; rw [p4]
      by_cases e : t' = t <;> simp [e] <;> ring

theorem tierLoop_spec {c : HourIn n m l ν} {d : Draw n l} {hr : ℕ} {isPeak : Bool} :
    ∀ (ts : List (Fin 5)) (first : Bool) (w w' : HourSt n m l ν),
      tierLoop c d hr isPeak ts (if first then 0 else 1) w = .ok w' →
      ∃ hist, HourTiers (deficit c d hr) (assist c d hr) ts first w.net hist w'.net ∧ Recorded hist isPeak w w' := by
  intro ts
  induction ts with
  | nil =>
    intro first w w' h
    cases h
    exact ⟨[], .done, recorded_nil _⟩
  | cons t ts ih =>
    intro first w w' h
    unfold tierLoop at h
    split at h
    · cases h
    · rename_i hb
      cases h
      obtain ⟨hs, ⟨_, e⟩ | ⟨hna, o, net1, ha, ⟨ho, e⟩ | ⟨S, ho, ⟨hS, e⟩ | ⟨_, e⟩⟩⟩⟩ := tierBody_spec hb
      · cases e
      · cases e; subst ho; exact ⟨[], .scheduled hs hna ha, recorded_nil _⟩
      · cases e; subst ho; exact ⟨[], .helped hs hna ha hS, recorded_nil _⟩
      · cases e
    · rename_i f2 w2 hb
      obtain ⟨hs, ⟨hall, e⟩ | ⟨hna, o, net1, ha, ⟨ho, e⟩ | ⟨S, ho, ⟨hS, e⟩ | ⟨hS, e⟩⟩⟩⟩ := tierBody_spec hb
      · cases e
        obtain ⟨hist, h1, h2⟩ := ih first _ _ h
        exact ⟨_, .everybody hall h1, recorded_cons (net := w.net) h2⟩
      · cases e
      · cases e
      · cases e; subst ho
        obtain ⟨hist, h1, h2⟩ := ih false _ _ h
        exact ⟨_, .assisted hs hna ha hS h1, recorded_cons h2⟩

/-- C59. In every hourly event that returns, the areas' and the pool's loss-of-load hours and unserved energy grow,
tier by tier, by exactly the shortages of at least 1 MW that remain after assistance, in whole megawatts, and the
peak counters likewise in peak hours. -/
theorem C59_recorded_shortages (c : HourIn n m l ν) (hs : c.JSTEP ≠ 24) (hf : c.JFREQ = 1) (y k : ℕ) (hk : k < 8760)
    (R P : Fin m → ℚ) (w w' : HourSt n m l ν) (h : hourBody c (8760 * y + k) R P w = .ok w') :
    ∃ hist, HourTiers (deficit c (hourDraw c (hourOf k / 24) R P w).1 (hourOf k))
        (assist c (hourDraw c (hourOf k / 24) R P w).1 (hourOf k)) ((List.finRange 5).take c.NFCST) true w.net hist w'.net ∧
      Recorded hist (decide ((k : ℤ) - 1 = c.MXPLHR (hourOf k / 24))) w w' := by
  rw [hourBody_hourly c hs hf y k hk] at h
  obtain ⟨hist, h1, h2⟩ := tierLoop_spec _ true _ _ h
  exact ⟨hist, h1, h2.1, h2.2, h2.3, h2.4, h2.5, h2.6, h2.7, h2.8⟩

/-- C59, daily mode: the hour is the pool's peak hour of the day, and the peak counters always grow as well. -/
theorem C59_recorded_shortages_daily (c : HourIn n m l ν) (hs : c.JSTEP = 24) (hf : c.JFREQ = 1) (y k : ℕ)
    (hk : k < 8760) (hp : ∀ d < 365, c.MXPLHR d < 8760)
    (R P : Fin m → ℚ) (w w' : HourSt n m l ν) (h : hourBody c (8760 * y + k) R P w = .ok w') :
    ∃ hist, HourTiers (deficit c (hourDraw c (hourOf k / 24) R P w).1 (c.MXPLHR (hourOf k / 24)))
        (assist c (hourDraw c (hourOf k / 24) R P w).1 (c.MXPLHR (hourOf k / 24))) ((List.finRange 5).take c.NFCST)
        true w.net hist w'.net ∧ Recorded hist true w w' := by
  rw [hourBody_daily c hs hf y k hk hp] at h
  obtain ⟨hist, h1, h2⟩ := tierLoop_spec _ true _ _ h
  exact ⟨hist, h1, h2.1, h2.2, h2.3, h2.4, h2.5, h2.6, h2.7, h2.8⟩

/-- C59, both modes at once. -/
theorem C59_recorded_used (c : HourIn n m l ν) (hf : c.JFREQ = 1) (y k : ℕ)
    (hk : k < 8760) (hp : ∀ d < 365, c.MXPLHR d < 8760)
    (R P : Fin m → ℚ) (w w' : HourSt n m l ν) (h : hourBody c (8760 * y + k) R P w = .ok w') :
    ∃ hist, HourTiers (deficit c (hourDraw c (hourOf k / 24) R P w).1 (hourUsed c k))
        (assist c (hourDraw c (hourOf k / 24) R P w).1 (hourUsed c k)) ((List.finRange 5).take c.NFCST)
        true w.net hist w'.net ∧
      ∃ isPeak, (isPeak = true ↔ c.JSTEP = 24 ∨ (k : ℤ) - 1 = c.MXPLHR (hourOf k / 24)) ∧ Recorded hist isPeak w w' := by
  unfold hourUsed
  by_cases hs : c.JSTEP = 24
  · rw [if_pos hs]
    obtain ⟨hist, h1, h2⟩ := C59_recorded_shortages_daily c hs hf y k hk hp R P w w' h
    exact ⟨hist, h1, true, by simp [hs], h2⟩
  · rw [if_neg hs]
    obtain ⟨hist, h1, h2⟩ := C59_recorded_shortages c hs hf y k hk R P w w' h
    exact ⟨hist, h1, _, by simp [hs], h2⟩

/-- Two areas with units of 100 MW, loads of 150 MW and 50 MW; assistance of 30 MW. -/
def twoAreas : HourIn 2 2 0 Unit where
  JSTEP := 1
  JFREQ := 1
  MXPLHR := fun d => 24 * d + 18
  PROBG := fun _ _ => 1
  DERATE := fun _ => 1
  CAPOWN := fun a i => if a.val = i.val then 1 else 0
  CAPCON := fun i => i
  PROBL := fun _ _ => 1
  JENT := fun _ _ => -1
  INTCH := fun _ _ => 0
  NFCST := 2
  HRLOAD := fun a _ => if a = 0 then 150 else 50
  FCTERR := fun _ t => if t = 0 then 1 else 1 / 2
  transm := fun t _ => .ok ((1, fun a => t.CAPREQ a - t.SYSCON a + if a = 0 then -30 else 30), ())

/-- see `twoAreas` -/
def twoAreasSt : HourSt 2 2 0 Unit := ⟨fun _ => 1, fun _ => 1, fun _ => 0, Cnt.zero 2, Cnt.zero 2, ()⟩

/-- Non-vacuity: the first tier records 20 MW in the first area; the second tier is not short, and raises (C43), so
with one tier the hour returns. -/
example : ((hourBody { twoAreas with NFCST := 1 } 5 (fun _ => 100) (fun _ => 1) twoAreasSt).map fun w =>
      (w.H.LOLTA 0 0 + w.H.LOLGA 0 0, w.H.MGNTA 0 0 + w.H.MGNGA 0 0, w.H.LOLTA 1 0 + w.H.LOLGA 1 0)) =
      .ok (1, 20, 0) := by decide +kernel

/-- What has been recorded in a tier that was not all areas' shortage came out of an evaluation. -/
theorem HourTiers_tiers {df : Fin 5 → Fin n → ℚ} {as : Bool → Fin 5 → ν → Option (Fin n → ℚ) × ν → Prop}
    {ts first net hist net'} (h : HourTiers df as ts first net hist net') : hist.map Prod.fst <+: ts := by
  induction h with
  | done => exact List.nil_prefix
  | everybody _ _ ih => exact List.prefix_cons_inj _ |>.2 ih
  | assisted _ _ _ _ _ ih => exact List.prefix_cons_inj _ |>.2 ih
  | helped => exact List.nil_prefix
  | scheduled => exact List.nil_prefix

end Narp.Props
