import Verif.Props.HourShort
import Verif.Props.Transm

/-!
# C60: the unserved energy recorded in an hour is what the pool lacks
-/

namespace Narp.Props
open Narp.Spec BigOperators

variable {n m l : ℕ} {ν : Type}

/-- The shortage of the pool as a whole in tier `t`. -/
def poolShort {N : ℕ} (df : Fin 5 → Fin N → ℚ) (t : Fin 5) : ℚ := max 0 (∑ j, df t j)

/-- Whole megawatts recorded for the pool in tier `t`. -/
def poolMW {N : ℕ} (hist : List (Fin 5 × (Fin N → ℚ))) (t : Fin 5) : ℚ := ∑ j, (mwShort hist j t : ℚ)

theorem floor_sum_bounds {N : ℕ} (hN : 0 < N) (S : Fin N → ℚ) :
    (∑ j, max 0 (S j)) - N < ∑ j, ((⌊S j⌋₊ : ℕ) : ℚ) ∧ ∑ j, ((⌊S j⌋₊ : ℕ) : ℚ) ≤ ∑ j, max 0 (S j) := by
  constructor
  · rw [sub_lt_iff_lt_add]
    have : ∑ j, ((⌊S j⌋₊ : ℕ) : ℚ) + (N : ℚ) = ∑ j : Fin N, (((⌊S j⌋₊ : ℕ) : ℚ) + 1) := by
      rw [Finset.sum_add_distrib]; simp
    rw [this]
    have hne : (Finset.univ : Finset (Fin N)).Nonempty := ⟨⟨0, hN⟩, Finset.mem_univ _⟩
    refine Finset.sum_lt_sum_of_nonempty hne fun j _ => max_lt ?_ (Nat.lt_floor_add_one _)
    exact_mod_cast Nat.succ_pos _
  · refine Finset.sum_le_sum fun j _ => ?_
    rcases le_or_gt 0 (S j) with h | h
    · exact le_trans (Nat.floor_le h) (le_max_right _ _)
    · rw [Nat.floor_of_nonpos h.le]; simp

theorem poolMW_cons {N : ℕ} (e : Fin 5 × (Fin N → ℚ)) (hist : List (Fin 5 × (Fin N → ℚ))) (t : Fin 5) :
    poolMW (e :: hist) t = (if t = e.1 then ∑ j, ((⌊e.2 j⌋₊ : ℕ) : ℚ) else 0) + poolMW hist t := by
  unfold poolMW
  rw [Finset.sum_congr rfl fun j _ => mwShort_cons e hist j t, Finset.sum_add_distrib]
  by_cases h : t = e.1 <;> simp [h]

theorem untouched {N : ℕ} {hist : List (Fin 5 × (Fin N → ℚ))} {t : Fin 5} (h : t ∉ hist.map Prod.fst) :
    poolMW hist t = 0 ∧ tierCount hist t = 0 := by
  have hne : ∀ e ∈ hist, e.1 ≠ t := fun e he h' => h (List.mem_map.2 ⟨e, he, h'⟩)
  constructor
  · unfold poolMW mwShort
    refine Finset.sum_eq_zero fun j _ => ?_
    rw [List.map_congr_left (g := fun _ => 0) fun e he => if_neg (hne e he)]
    simp
  · unfold tierCount
    rw [List.countP_eq_zero]
    intro e he
    simpa using hne e he

theorem tiers_sublist {N : ℕ} {df : Fin 5 → Fin N → ℚ} {as : Bool → Fin 5 → ν → Option (Fin N → ℚ) × ν → Prop}
    {ts : List (Fin 5)} {first : Bool} {net net' : ν} {hist : List (Fin 5 × (Fin N → ℚ))}
    (h : HourTiers df as ts first net hist net') : (hist.map Prod.fst).Sublist ts := by
  induction h with
  | done => exact .slnil
  | everybody _ _ ih => exact ih.cons_cons _
  | assisted _ _ _ _ _ ih => exact ih.cons_cons _
  | helped => exact List.nil_sublist _
  | scheduled => exact List.nil_sublist _

/-- A draw counts at most once in every tier. -/
theorem tiers_once {N : ℕ} {df : Fin 5 → Fin N → ℚ} {as : Bool → Fin 5 → ν → Option (Fin N → ℚ) × ν → Prop}
    {ts : List (Fin 5)} {first : Bool} {net net' : ν} {hist : List (Fin 5 × (Fin N → ℚ))}
    (h : HourTiers df as ts first net hist net') (hts : ts.Nodup) (t : Fin 5) : tierCount hist t ≤ 1 := by
  have e : tierCount hist t = (hist.map Prod.fst).count t := by
    unfold tierCount List.count
    rw [List.countP_map]
    congr 1
  rw [e]
  exact List.nodup_iff_count_le_one.1 (hts.sublist (tiers_sublist h)) t

/-- What tier `t` has to show. -/
def TierFine {N : ℕ} (df : Fin 5 → Fin N → ℚ) (hist : List (Fin 5 × (Fin N → ℚ))) (t : Fin 5) : Prop :=
  (poolShort df t - N < poolMW hist t ∧ poolMW hist t ≤ poolShort df t) ∧
  (poolShort df t < 1 → tierCount hist t = 0) ∧ ((N : ℚ) ≤ poolShort df t → tierCount hist t = 1)

theorem tiers_energy {N : ℕ} (hN : 0 < N) {df : Fin 5 → Fin N → ℚ}
    {as : Bool → Fin 5 → ν → Option (Fin N → ℚ) × ν → Prop} {Good : Bool → ν → Prop}
    (hgood : ∀ {first t net o net1}, Good first net → as first t net (o, net1) → Good false net1 ∧
      (o = none → ∑ j, df t j ≤ 0) ∧ ∀ S, o = some S → ∑ j, max 0 (S j) = poolShort df t) :
    ∀ {ts first net hist net'}, HourTiers df as ts first net hist net' → Good first net →
      ts.Pairwise (fun a b => a ≠ b ∧ poolShort df b ≤ poolShort df a) → ∀ t ∈ ts, TierFine df hist t := by
  have hNq : (0 : ℚ) < N := by exact_mod_cast hN
  -- a tier at which the hour ends, and all later ones
  have hstop : ∀ {t ts}, poolShort df t < N →
      (t :: ts).Pairwise (fun a b => a ≠ b ∧ poolShort df b ≤ poolShort df a) → ∀ u ∈ t :: ts, TierFine df [] u := by
    intro t ts h hp u hu
    have hu' : poolShort df u < N := by
      rcases List.mem_cons.1 hu with rfl | hu
      · exact h
      · exact lt_of_le_of_lt ((List.pairwise_cons.1 hp).1 u hu).2 h
    have h0 : (0 : ℚ) ≤ poolShort df u := le_max_left _ _
    obtain ⟨e1, e2⟩ := untouched (hist := ([] : List (Fin 5 × (Fin N → ℚ)))) (t := u) (by simp)
    exact ⟨⟨by rw [e1]; linarith, by rw [e1]; exact h0⟩, fun _ => e2, fun h => absurd h (not_le.2 hu')⟩
  -- a recorded tier, and the later ones
  have hrec : ∀ {t ts} {S : Fin N → ℚ} {hist : List (Fin 5 × (Fin N → ℚ))},
      ∑ j, max 0 (S j) = poolShort df t → (∃ j, 1 ≤ S j) → hist.map Prod.fst <+: ts →
      (t :: ts).Pairwise (fun a b => a ≠ b ∧ poolShort df b ≤ poolShort df a) →
      (∀ u ∈ ts, TierFine df hist u) → ∀ u ∈ t :: ts, TierFine df ((t, S) :: hist) u := by
    intro t ts S hist hS hex hpre hp ih u hu
    obtain ⟨hp1, _⟩ := List.pairwise_cons.1 hp
    by_cases e : u = t
    · subst e
      obtain ⟨e1, e2⟩ := untouched (hist := hist) (t := u) fun h => (hp1 u (hpre.subset h)).1 rfl
      have e3 : poolMW ((u, S) :: hist) u = ∑ j, ((⌊S j⌋₊ : ℕ) : ℚ) := by
        rw [poolMW_cons, if_pos rfl, e1, add_zero]
      have e4 : tierCount ((u, S) :: hist) u = 1 := by
        unfold tierCount at e2 ⊢
        rw [List.countP_cons, e2]; simp
      obtain ⟨f1, f2⟩ := floor_sum_bounds hN S
      refine ⟨⟨by rw [e3, ← hS]; exact f1, by rw [e3, ← hS]; exact f2⟩, fun h => ?_, fun _ => e4⟩
      exfalso
      obtain ⟨j, hj⟩ := hex
      have : S j ≤ ∑ j, max 0 (S j) := le_trans (le_max_right 0 _)
        (Finset.single_le_sum (f := fun j => max 0 (S j)) (fun i _ => le_max_left _ _) (Finset.mem_univ j))
      rw [hS] at this
      linarith
    · have hu' : u ∈ ts := (List.mem_cons.1 hu).resolve_left e
      obtain ⟨⟨g1, g2⟩, g3, g4⟩ := ih u hu'
      have e3 : poolMW ((t, S) :: hist) u = poolMW hist u := by
        rw [poolMW_cons, if_neg e, zero_add]
      have e4 : tierCount ((t, S) :: hist) u = tierCount hist u := by
        unfold tierCount
        rw [List.countP_cons]; simp; exact fun h => e h.symm
      exact ⟨⟨by rw [e3]; exact g1, by rw [e3]; exact g2⟩, by rw [e4]; exact g3, by rw [e4]; exact g4⟩
  intro ts first net hist net' h
  induction h with
  | done => intro _ _ t ht; cases ht
  | @everybody t ts first net hist net' all rest ih =>
    intro hg hp
    refine hrec ?_ ⟨⟨0, hN⟩, all _⟩ (HourTiers_tiers rest) hp (ih hg (List.pairwise_cons.1 hp).2)
    have : ∀ j, max 0 (df t j) = df t j := fun j => max_eq_right (by linarith [all j])
    rw [Finset.sum_congr rfl fun j _ => this j]
    exact (max_eq_right (Finset.sum_nonneg fun j _ => by linarith [all j])).symm
  | @assisted t ts first net net1 S hist net' _ _ ev still rest ih =>
    intro hg hp
    obtain ⟨g1, _, g3⟩ := hgood hg ev
    exact hrec (g3 S rfl) still (HourTiers_tiers rest) hp (ih g1 (List.pairwise_cons.1 hp).2)
  | @helped t ts first net net1 S _ _ ev gone =>
    intro hg hp
    obtain ⟨_, _, g3⟩ := hgood hg ev
    have : poolShort df t < N := by
      rw [← g3 S rfl]
      have hne : (Finset.univ : Finset (Fin N)).Nonempty := ⟨⟨0, hN⟩, Finset.mem_univ _⟩
      calc ∑ j, max 0 (S j) < ∑ _j : Fin N, (1 : ℚ) :=
            Finset.sum_lt_sum_of_nonempty hne fun j _ => max_lt one_pos (gone j)
        _ = N := by simp
    exact hstop this hp
  | @scheduled t ts first net net1 _ _ ev =>
    intro hg hp
    obtain ⟨_, g2, _⟩ := hgood hg ev
    have : poolShort df t = 0 := max_eq_left (g2 rfl)
    exact hstop (by rw [this]; exact hNq) hp

theorem lineState_idx (p : Fin 6 → ℚ) (u : ℚ) : ∃ k : Fin 6, lineState p u = ((k : ℕ) : ℤ) + 1 := by
  unfold lineState
  split_ifs
  exacts [⟨0, rfl⟩, ⟨1, rfl⟩, ⟨2, rfl⟩, ⟨3, rfl⟩, ⟨4, rfl⟩, ⟨5, rfl⟩]

/-- The evaluations of an hour in which no limit binds keep the matrices and redistribute the pool's margin. -/
theorem assist_good {N M L : ℕ} {c : HourIn (N + 1) M L (NetSt N L)} {LP : LEnds N L} {BLPA : Fin L → Fin 6 → LnPar}
    {NR : Fin (N + 1)} {NLS : ℤ} (hg : Grid LP BLPA NR) (hc : c.transm = hourTransm noRedispatch LP BLPA NR NLS)
    {d : Draw (N + 1) L} (hd : ∀ i, ∃ k : Fin 6, d.LNSTAT i = ((k : ℕ) : ℤ) + 1) {hr : ℕ}
    (hload : ∀ j t, 0 < c.HRLOAD j hr * c.FCTERR j t) {first : Bool} {t : Fin 5} {net net1 : NetSt N L}
    {o : Option (Fin (N + 1) → ℚ)} (hn : (first = false → Intact LP BLPA NR net) ∧ net.BN.c3 = net.BN.c4)
    (ha : assist c d hr first t net (o, net1)) :
    ((false = false → Intact LP BLPA NR net1) ∧ net1.BN.c3 = net1.BN.c4) ∧
    (o = none → ∑ j, deficit c d hr t j ≤ 0) ∧
    ∀ S, o = some S → ∑ j, max 0 (S j) = poolShort (deficit c d hr) t := by
  obtain ⟨J, S0, htr, ho⟩ := ha
  dsimp only at ho
  rw [hc] at htr
  unfold hourTransm at htr
  generalize hti : (⟨if first then 0 else 1, d.LNSTAT, d.TRNSFR, d.TRNSFJ, d.SYSCON,
      fun j => c.HRLOAD j hr * c.FCTERR j t⟩ : TransIn (N + 1) L) = ti at htr
  have tL : ti.LNSTAT = d.LNSTAT := by rw [← hti]
  have tS : ti.SYSCON = d.SYSCON := by rw [← hti]
  have tC : ti.CAPREQ = fun j => c.HRLOAD j hr * c.FCTERR j t := by rw [← hti]
  have tI : ti.IFLAG = if first then 0 else 1 := by rw [← hti]
  choose k hk using hd
  cases hr2 : transm noRedispatch LP BLPA NR NLS ti net with
  | error e => rw [hr2] at htr; cases htr
  | ok r =>
    obtain ⟨out, w'⟩ := r
    rw [hr2] at htr
    cases htr
    have hI : ti.IFLAG ≠ 1 ∨ Intact LP BLPA NR net := by
      rw [tI]
      cases first
      · exact .inr (hn.1 rfl)
      · exact .inl (by decide)
    have hl : NLS = 0 → (∀ a, 0 ≤ ti.CAPREQ a) ∧ 0 < ∑ a, ti.CAPREQ a := fun _ => by
      rw [tC]
      exact ⟨fun a => (hload a t).le, Finset.sum_pos (fun a _ => hload a t) ⟨0, Finset.mem_univ _⟩⟩
    have hk' : ∀ i, ti.LNSTAT i = ((k i : ℕ) : ℤ) + 1 := by rw [tL]; exact hk
    obtain ⟨i1, i2, i3⟩ := C39_evaluation_partial hg hI hk' hl hn.2 hr2
    obtain ⟨b1, b2⟩ := C52_pool_shortage hg hI hk' hl hr2
    refine ⟨⟨fun _ => i1, by rw [i2, i3, hn.2]⟩, fun h => ?_, fun S h => ?_⟩
    · have hJ : out.JFLAG = 0 := by
        by_contra hJ
        rw [ho, if_neg hJ] at h; cases h
      obtain ⟨c1, c2⟩ := b1 hJ
      have h0 : 0 ≤ ∑ a, out.SADJ a := Finset.sum_nonneg fun a _ => c1 a
      rw [c2, tS, tC] at h0
      have : ∑ j, deficit c d hr t j = -∑ a, (d.SYSCON a - c.HRLOAD a hr * c.FCTERR a t) := by
        rw [← Finset.sum_neg_distrib]
        exact Finset.sum_congr rfl fun j _ => by unfold deficit; ring
      rw [this]; linarith
    · by_cases hJ : out.JFLAG = 0
      · rw [ho, if_pos hJ] at h; cases h
      rw [ho, if_neg hJ] at h
      cases h
      rw [(b2 hJ).2, tS, tC]
      unfold poolShort deficit
      rw [Finset.sum_sub_distrib]

/-- C60. In every hour in which no line or area limit binds, in every tier, the unserved energy recorded for the pool
is what the pool as a whole lacks - total load forecast minus total available capacity, at least 0 - up to the
fractions of a megawatt dropped per area; a shortage of the pool of as many megawatts as there are areas is
recorded as a loss-of-load hour, and none under 1 MW is. (Hourly and daily mode: the loads are those of `hourUsed`.) -/
theorem C60_pool_energy {N M L : ℕ} (c : HourIn (N + 1) M L (NetSt N L)) {LP : LEnds N L}
    {BLPA : Fin L → Fin 6 → LnPar} {NR : Fin (N + 1)} {NLS : ℤ} (hg : Grid LP BLPA NR)
    (hc : c.transm = hourTransm noRedispatch LP BLPA NR NLS) (hp : ∀ d < 365, c.MXPLHR d < 8760) (hf : c.JFREQ = 1)
    (FU : Fin (N + 1) → ℚ) (hFU : ∀ j, 0 ≤ FU j ∧ FU j < 40) (hF : ∀ j, c.FCTERR j = dataxFCTERR (FU j))
    (y k : ℕ) (hk : k < 8760) (hL : ∀ j, 0 < c.HRLOAD j (hourUsed c k)) (R P : Fin M → ℚ)
    (w w' : HourSt (N + 1) M L (NetSt N L)) (hlim : w.net.BN.c3 = w.net.BN.c4)
    (h : hourBody c (8760 * y + k) R P w = .ok w') (t : Fin 5) (ht : t.val < c.NFCST) :
    let lack := max 0 (∑ j, (c.HRLOAD j (hourUsed c k) * c.FCTERR j t - (hourDraw c (hourOf k / 24) R P w).1.SYSCON j))
    let mwh := (w'.H.MGNTP t + w'.H.MGNGP t) - (w.H.MGNTP t + w.H.MGNGP t)
    let hours := (w'.H.LOLTP t + w'.H.LOLGP t) - (w.H.LOLTP t + w.H.LOLGP t)
    lack - (N + 1 : ℕ) < mwh ∧ mwh ≤ lack ∧ (lack < 1 → hours = 0) ∧ (((N + 1 : ℕ) : ℚ) ≤ lack → hours = 1) ∧
      (hours = 0 ∨ hours = 1) ∧ 0 ≤ mwh := by
  intro lack mwh hours
  obtain ⟨hist, h1, _, _, h2⟩ := C59_recorded_used c hf y k hk hp R P w w' h
  have hfac : ∀ j t, 0 < c.FCTERR j t := by
    intro j t
    rw [hF]
    have := hFU j
    unfold dataxFCTERR
    fin_cases t <;> simp <;> linarith
  have hle : ∀ j (a b : Fin 5), a ≤ b → c.FCTERR j b ≤ c.FCTERR j a := by
    intro j a b hab
    rw [hF]
    have := (hFU j).1
    revert hab
    unfold dataxFCTERR
    fin_cases a <;> fin_cases b <;> simp [Fin.le_def] <;> linarith
  have hpair : ((List.finRange 5).take c.NFCST).Pairwise (fun a b => a ≠ b ∧
      poolShort (deficit c (hourDraw c (hourOf k / 24) R P w).1 (hourUsed c k)) b ≤
        poolShort (deficit c (hourDraw c (hourOf k / 24) R P w).1 (hourUsed c k)) a) := by
    refine List.Pairwise.sublist (List.take_sublist _ _) ?_
    refine List.Pairwise.imp ?_ (List.pairwise_lt_finRange 5)
    intro a b hab
    refine ⟨ne_of_lt hab, max_le_max le_rfl (Finset.sum_le_sum fun j _ => ?_)⟩
    unfold deficit
    have := mul_le_mul_of_nonneg_left (hle j a b hab.le) (hL j).le
    linarith
  have hmem : t ∈ (List.finRange 5).take c.NFCST := by
    rw [List.mem_take_iff_getElem]
    exact ⟨t.val, by simp [ht], by simp⟩
  have hd : ∀ i, ∃ q : Fin 6, (hourDraw c (hourOf k / 24) R P w).1.LNSTAT i = ((q : ℕ) : ℤ) + 1 := fun i =>
    lineState_idx (fun q => c.PROBL q i) (variate (mul31 65539 (w.ILSEED i)))
  obtain ⟨⟨g1, g2⟩, g3, g4⟩ := tiers_energy (Nat.succ_pos N)
    (Good := fun first net => (first = false → Intact LP BLPA NR net) ∧ net.BN.c3 = net.BN.c4)
    (fun {first t net o net1} hn ha => assist_good hg hc hd (fun j t => mul_pos (hL j) (hfac j t)) hn ha) h1
    ⟨fun h => absurd h (by decide), hlim⟩ hpair t hmem
  have e1 : mwh = poolMW hist t := by
    show _ - _ = _
    rw [h2.poolMWh]; unfold poolMW; ring
  have e2 : hours = tierCount hist t := by
    show _ - _ = _
    rw [h2.poolHours]; ring
  have e3 : lack = poolShort (deficit c (hourDraw c (hourOf k / 24) R P w).1 (hourUsed c k)) t := rfl
  rw [e1, e2, e3]
  refine ⟨g1, g2, fun h => by rw [g3 h]; norm_num, fun h => by rw [g4 h]; norm_num, ?_, ?_⟩
  swap
  · unfold poolMW; positivity
  have := tiers_once h1 (List.Pairwise.imp (fun h => h.1) hpair) t
  interval_cases tierCount hist t <;> simp

/-- Two areas, one line, one unit of 600 MW and one of 300 MW. -/
def pairHour : HourIn 2 2 1 (NetSt 1 1) where
  JSTEP := 1
  JFREQ := 1
  MXPLHR := fun d => 24 * d + 18
  PROBG := fun _ _ => 1
  DERATE := fun _ => 1
  CAPOWN := fun a i => if a.val = i.val then 1 else 0
  CAPCON := fun i => i
  PROBL := fun _ _ => 1
  JENT := fun _ _ => -1
  INTCH := fun _ _ => 0
  NFCST := 1
  HRLOAD := fun a _ => if a = 0 then 300 else 700
  FCTERR := fun _ => dataxFCTERR 0
  transm := hourTransm noRedispatch twoLP twoBLPA 0 1

/-- see `pairHour` -/
def pairSt : HourSt 2 2 1 (NetSt 1 1) :=
  ⟨fun _ => 1, fun _ => 1, fun _ => 0, Cnt.zero 2, Cnt.zero 2, twoW 1000⟩

/-- Non-vacuity: the pool lacks 100 MW, 100 MWh are recorded. -/
example : Grid twoLP twoBLPA 0 ∧ pairSt.net.BN.c3 = pairSt.net.BN.c4 ∧
    ((hourBody pairHour 5 ![600, 300] (fun _ => 1) pairSt).map fun w =>
      (w.H.MGNTP 0 + w.H.MGNGP 0, w.H.LOLTP 0 + w.H.LOLGP 0)) = .ok (100, 1) :=
  ⟨two_grid, rfl, by decide +kernel⟩

/-- Non-vacuity in daily mode. -/
example : hourUsed { pairHour with JSTEP := 24 } 48 = 42 ∧
    ((hourBody { pairHour with JSTEP := 24 } 48 ![600, 300] (fun _ => 1) pairSt).map fun w =>
      (w.H.MGNTP 0 + w.H.MGNGP 0, w.H.LOLTP 0 + w.H.LOLGP 0)) = .ok (100, 1) :=
  ⟨by decide +kernel, by decide +kernel⟩

end Narp.Props
