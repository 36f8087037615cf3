import Verif.Props.SharingRule

/-!
# C112: what an hour records for every area
-/

namespace Narp.Props
open Narp.Spec BigOperators

section Share
variable {k : ℕ}

theorem ownShort_nonneg (cap load : Fin k → ℚ) (j : Fin k) : 0 ≤ ownShort cap load j := le_max_left _ _

theorem allShort_nonneg (cap load : Fin k → ℚ) : 0 ≤ allShort cap load := le_max_left _ _

theorem borne_none {rule : ℤ} {cap load : Fin k → ℚ} (h : ∑ j, (load j - cap j) ≤ 0) (hn : ∃ j, load j - cap j < 1) (j : Fin k) :
    borne rule cap load j = 0 := by
  have h0 : allShort cap load = 0 := by
    unfold allShort
    rw [← Finset.sum_sub_distrib]
    exact max_eq_left h
  unfold borne
  rw [if_neg (c := ∀ i, 1 ≤ load i - cap i) (fun hc => by obtain ⟨i, hi⟩ := hn; linarith [hc i]), h0]
  simp

/-- Smaller loads: the fraction of the deficits that the pool lacks is not larger. -/
theorem need_ratio {cap load load' : Fin k → ℚ} (h : ∀ j, load' j ≤ load j) :
    allShort cap load' / ∑ i, ownShort cap load' i ≤ allShort cap load / ∑ i, ownShort cap load i := by
  have hS : ∀ load : Fin k → ℚ, ∑ j, load j - ∑ j, cap j = ∑ j, ownShort cap load j - ∑ j, max 0 (cap j - load j) := by
    intro load
    rw [← Finset.sum_sub_distrib, ← Finset.sum_sub_distrib]
    refine Finset.sum_congr rfl fun j _ => ?_
    unfold ownShort
    rcases le_total (load j) (cap j) with e | e
    · rw [max_eq_left (by linarith), max_eq_right (by linarith)]; ring
    · rw [max_eq_right (by linarith), max_eq_left (by linarith)]; ring
  have n1 : 0 ≤ ∑ i, ownShort cap load' i := Finset.sum_nonneg fun i _ => ownShort_nonneg _ _ _
  have n2 : 0 ≤ ∑ i, ownShort cap load i := Finset.sum_nonneg fun i _ => ownShort_nonneg _ _ _
  rcases (allShort_nonneg cap load').eq_or_lt with e | e
  · rw [← e, zero_div]; exact div_nonneg (allShort_nonneg _ _) n2
  have o : ∑ i, ownShort cap load' i ≤ ∑ i, ownShort cap load i :=
    Finset.sum_le_sum fun i _ => max_le_max le_rfl (by linarith [h i])
  have su : ∑ j, max 0 (cap j - load j) ≤ ∑ j, max 0 (cap j - load' j) :=
    Finset.sum_le_sum fun i _ => max_le_max le_rfl (by linarith [h i])
  have s0 : 0 ≤ ∑ j, max 0 (cap j - load j) := Finset.sum_nonneg fun i _ => le_max_left _ _
  have e1 : allShort cap load' = ∑ j, ownShort cap load' j - ∑ j, max 0 (cap j - load' j) := by
    unfold allShort at e ⊢
    rw [← hS]
    rcases le_total (∑ j, load' j - ∑ j, cap j) 0 with z | z
    · rw [max_eq_left z] at e; exact absurd e (lt_irrefl _)
    · exact max_eq_right z
  have e2 : ∑ j, ownShort cap load j - ∑ j, max 0 (cap j - load j) ≤ allShort cap load := by
    rw [← hS]; exact le_max_right _ _
  have p1 : 0 < ∑ i, ownShort cap load' i := by
    rw [e1] at e
    linarith
  have p2 : 0 < ∑ i, ownShort cap load i := lt_of_lt_of_le p1 o
  rw [div_le_div_iff₀ p1 p2]
  generalize ∑ i, ownShort cap load' i = A at *
  generalize ∑ i, ownShort cap load i = B at *
  generalize ∑ j, max 0 (cap j - load j) = C at *
  generalize ∑ j, max 0 (cap j - load' j) = D at *
  rw [e1]
  nlinarith [mul_le_mul_of_nonneg_right e2 p1.le, mul_le_mul_of_nonneg_left o s0]

/-- Smaller loads: the fraction of the load that the pool lacks is not larger. -/
theorem load_ratio {cap load load' : Fin k → ℚ} (h : ∀ j, load' j ≤ load j) (hp : 0 < ∑ j, load' j) (hc : 0 ≤ ∑ j, cap j) :
    allShort cap load' / ∑ i, load' i ≤ allShort cap load / ∑ i, load i := by
  have o : ∑ i, load' i ≤ ∑ i, load i := Finset.sum_le_sum fun i _ => h i
  have p2 := lt_of_lt_of_le hp o
  rw [div_le_div_iff₀ hp p2]
  unfold allShort
  generalize ∑ i, load' i = A at *
  generalize ∑ i, load i = B at *
  generalize ∑ i, cap i = C at *
  rcases le_total (A - C) 0 with z | z
  · rw [max_eq_left z, zero_mul]
    exact mul_nonneg (le_max_left _ _) hp.le
  · rw [max_eq_right z, max_eq_right (by linarith)]
    nlinarith

/-- Smaller loads: once not everybody is short, nobody bears more. -/
theorem borne_mono {rule : ℤ} {cap load load' : Fin k → ℚ} (h : ∀ j, load' j ≤ load j) (hp : ∀ j, 0 < load' j)
    (hc : rule = 0 → 0 ≤ ∑ j, cap j) (hn : ∃ j, load j - cap j < 1) (j : Fin k) :
    borne rule cap load' j ≤ borne rule cap load j := by
  unfold borne
  by_cases hr : rule ≠ 0
  · rw [if_pos hr, if_pos hr]
    refine mul_le_mul (max_le_max le_rfl (by linarith [h j])) (need_ratio h) ?_ (ownShort_nonneg _ _ _)
    exact div_nonneg (allShort_nonneg _ _) (Finset.sum_nonneg fun i _ => ownShort_nonneg _ _ _)
  · rw [if_neg hr, if_neg hr]
    obtain ⟨i, hi⟩ := hn
    rw [if_neg (fun hc => by linarith [hc i, h i]), if_neg (fun hc => by linarith [hc i])]
    have hs : 0 < ∑ j, load' j := Finset.sum_pos (fun j _ => hp j) ⟨j, Finset.mem_univ _⟩
    refine mul_le_mul (h j) (load_ratio h hs (hc (not_not.1 hr))) (div_nonneg (allShort_nonneg _ _) hs.le) ?_
    linarith [h j, hp j]

theorem borne_nonneg {rule : ℤ} {cap load : Fin k → ℚ} (hp : ∀ j, 0 ≤ load j) (j : Fin k) : 0 ≤ borne rule cap load j := by
  unfold borne
  split_ifs
  · exact mul_nonneg (ownShort_nonneg _ _ _) (div_nonneg (allShort_nonneg _ _) (Finset.sum_nonneg fun i _ => ownShort_nonneg _ _ _))
  · exact ownShort_nonneg _ _ _
  · exact mul_nonneg (hp j) (div_nonneg (allShort_nonneg _ _) (Finset.sum_nonneg fun i _ => hp i))

end Share

/-- What the books of tier `t` have to show. -/
def TierShares {N : ℕ} (share : Fin 5 → Fin N → ℚ) (hist : List (Fin 5 × (Fin N → ℚ))) (t : Fin 5) : Prop :=
  ∀ j, (mwShort hist j t : ℚ) = ⌊share t j⌋₊ ∧ (hoursShort hist j t : ℚ) = if 1 ≤ share t j then 1 else 0

theorem floor_max (x : ℚ) : ⌊max 0 x⌋₊ = ⌊x⌋₊ := by
  rcases le_total 0 x with h | h
  · rw [max_eq_right h]
  · rw [max_eq_left h, Nat.floor_zero, Nat.floor_of_nonpos h]

variable {ν : Type}

theorem tiers_shares {N : ℕ} {df share : Fin 5 → Fin N → ℚ}
    {as : Bool → Fin 5 → ν → Option (Fin N → ℚ) × ν → Prop} {Good : Bool → ν → Prop}
    (hdf : ∀ t, (∀ j, 1 ≤ df t j) → ∀ j, max 0 (df t j) = share t j)
    (hgood : ∀ {first t net o net1}, Good first net → (∃ j, df t j < 1) → as first t net (o, net1) → Good false net1 ∧
      (o = none → ∀ j, share t j < 1) ∧ ∀ S, o = some S → ∀ j, max 0 (S j) = share t j) :
    ∀ {ts first net hist net'}, HourTiers df as ts first net hist net' → Good first net →
      ts.Pairwise (fun a b => a ≠ b ∧ ((∃ j, df a j < 1) → ∀ j, share b j ≤ share a j)) → ∀ t ∈ ts, TierShares share hist t := by
  have hstop : ∀ {t ts}, (∃ j, df t j < 1) → (∀ j, share t j < 1) →
      (t :: ts).Pairwise (fun a b => a ≠ b ∧ ((∃ j, df a j < 1) → ∀ j, share b j ≤ share a j)) →
      ∀ u ∈ t :: ts, TierShares share [] u := by
    intro t ts he h hp u hu j
    have hu' : share u j < 1 := by
      rcases List.mem_cons.1 hu with rfl | hu
      · exact h j
      · exact lt_of_le_of_lt (((List.pairwise_cons.1 hp).1 u hu).2 he j) (h j)
    rw [Nat.floor_eq_zero.2 hu', if_neg (not_le.2 hu')]
    simp [mwShort, hoursShort]
  have hrec : ∀ {t ts} {S : Fin N → ℚ} {hist : List (Fin 5 × (Fin N → ℚ))},
      (∀ j, max 0 (S j) = share t j) → hist.map Prod.fst <+: ts →
      (t :: ts).Pairwise (fun a b => a ≠ b ∧ ((∃ j, df a j < 1) → ∀ j, share b j ≤ share a j)) →
      (∀ u ∈ ts, TierShares share hist u) → ∀ u ∈ t :: ts, TierShares share ((t, S) :: hist) u := by
    intro t ts S hist hS hpre hp ih u hu j
    obtain ⟨hp1, _⟩ := List.pairwise_cons.1 hp
    rw [mwShort_cons, hoursShort_cons]
    by_cases e : u = t
    · subst e
      have hne : ∀ e ∈ hist, e.1 ≠ u := fun e he h' => (hp1 u (hpre.subset (List.mem_map.2 ⟨e, he, h'⟩))).1 rfl
      have z1 : mwShort hist j u = 0 := by
        unfold mwShort
        rw [List.map_congr_left (g := fun _ => 0) fun e he => if_neg (hne e he)]
        simp
      have z2 : hoursShort hist j u = 0 := by
        unfold hoursShort
        rw [List.countP_eq_zero]
        intro e he
        simp [hne e he]
      rw [if_pos rfl, if_pos rfl, z1, z2, ← hS j, floor_max]
      refine ⟨by simp, ?_⟩
      have : (1 ≤ max 0 (S j)) ↔ 1 ≤ S j := by
        rw [le_max_iff]
        exact ⟨fun h => h.resolve_left (by norm_num), .inr⟩
      simp [this]
    · rw [if_neg e, if_neg e, zero_add, zero_add]
      exact ih u ((List.mem_cons.1 hu).resolve_left e) j
  intro ts first net hist net' h
  induction h with
  | done => intro _ _ t ht; cases ht
  | @everybody t ts first net hist net' all rest ih =>
    intro hg hp
    exact hrec (hdf t all) (HourTiers_tiers rest) hp (ih hg (List.pairwise_cons.1 hp).2)
  | @assisted t ts first net net1 S hist net' _ na ev still rest ih =>
    intro hg hp
    obtain ⟨g1, _, g3⟩ := hgood hg na ev
    exact hrec (g3 S rfl) (HourTiers_tiers rest) hp (ih g1 (List.pairwise_cons.1 hp).2)
  | @helped t ts first net net1 S _ na ev gone =>
    intro hg hp
    obtain ⟨_, _, g3⟩ := hgood hg na ev
    exact hstop na (fun j => by rw [← g3 S rfl j]; exact max_lt one_pos (gone j)) hp
  | @scheduled t ts first net net1 _ na ev =>
    intro hg hp
    obtain ⟨_, g2, _⟩ := hgood hg na ev
    exact hstop na (g2 rfl) hp

variable {N M L : ℕ}

/-- One evaluation without contracts in which no limit binds. -/
theorem assist_shared {c : HourIn (N + 1) M L (NetSt N L)} {LP : LEnds N L} {BLPA : Fin L → Fin 6 → LnPar}
    {NR : Fin (N + 1)} {NLS : ℤ} (hg : Grid LP BLPA NR) (hc : c.transm = hourTransm noRedispatch LP BLPA NR NLS)
    {d : Draw (N + 1) L} (hd : ∀ i, ∃ k : Fin 6, d.LNSTAT i = ((k : ℕ) : ℤ) + 1)
    (hz : ∀ j, d.TRNSFR j + d.TRNSFJ j = 0) {hr : ℕ} (hload : ∀ j t, 0 < c.HRLOAD j hr * c.FCTERR j t)
    {first : Bool} {t : Fin 5} {net net1 : NetSt N L} {o : Option (Fin (N + 1) → ℚ)}
    (hn : (first = false → Intact LP BLPA NR net) ∧ net.BN.c3 = net.BN.c4)
    (na : ∃ j, deficit c d hr t j < 1) (ha : assist c d hr first t net (o, net1)) :
    ((false = false → Intact LP BLPA NR net1) ∧ net1.BN.c3 = net1.BN.c4) ∧
    (o = none → ∀ j, borne NLS d.SYSCON (fun j => c.HRLOAD j hr * c.FCTERR j t) j < 1) ∧
    ∀ S, o = some S → ∀ j, max 0 (S j) = borne NLS d.SYSCON (fun j => c.HRLOAD j hr * c.FCTERR j t) j := by
  obtain ⟨g1, g2, _⟩ := assist_good hg hc hd hload hn ha
  refine ⟨g1, fun e j => ?_, ?_⟩
  · rw [borne_none (g2 e) na]; norm_num
  obtain ⟨J, S0, htr, ho⟩ := ha
  dsimp only at ho
  rw [hc] at htr
  unfold hourTransm at htr
  generalize hti : (⟨if first then 0 else 1, d.LNSTAT, d.TRNSFR, d.TRNSFJ, d.SYSCON,
      fun j => c.HRLOAD j hr * c.FCTERR j t⟩ : TransIn (N + 1) L) = ti at htr
  have tL : ti.LNSTAT = d.LNSTAT := by rw [← hti]
  have tS : ti.SYSCON = d.SYSCON := by rw [← hti]
  have tC : ti.CAPREQ = fun j => c.HRLOAD j hr * c.FCTERR j t := by rw [← hti]
  have tI : ti.IFLAG = if first then 0 else 1 := by rw [← hti]
  have tz : ∀ a, ti.TRNSFR a + ti.TRNSFJ a = 0 := by rw [← hti]; exact hz
  choose q hq using hd
  cases hr2 : transm noRedispatch LP BLPA NR NLS ti net with
  | error e => rw [hr2] at htr; cases htr
  | ok r =>
    obtain ⟨out, w'⟩ := r
    rw [hr2] at htr
    cases htr
    have hI : ti.IFLAG ≠ 1 ∨ Intact LP BLPA NR net := by
      rw [tI]
      cases first
      · exact .inr (hn.1 rfl)
      · exact .inl (by decide)
    have hl : NLS = 0 → (∀ a, 0 ≤ ti.CAPREQ a) ∧ 0 < ∑ a, ti.CAPREQ a := fun _ => by
      rw [tC]
      exact ⟨fun a => (hload a t).le, Finset.sum_pos (fun a _ => hload a t) ⟨0, Finset.mem_univ _⟩⟩
    have hk' : ∀ i, ti.LNSTAT i = ((q i : ℕ) : ℤ) + 1 := by rw [tL]; exact hq
    intro S h
    by_cases hJ : out.JFLAG = 0
    · rw [ho, if_pos hJ] at h; cases h
    rw [ho, if_neg hJ] at h
    cases h
    have share := C111_evaluation hg hI hk' hl tz hr2 hJ
    rw [tS, tC] at share
    intro j
    unfold borne
    by_cases hr : NLS ≠ 0
    · rw [if_pos hr]; exact share.1 hr j
    · rw [if_neg hr, if_neg]
      · exact share.2 (not_not.1 hr) j
      · intro hall
        obtain ⟨i, hi⟩ := na
        unfold deficit at hi
        linarith [hall i]

/-- The shares that the tiers of an hour record. -/
theorem hour_shares (c : HourIn (N + 1) M L (NetSt N L)) {LP : LEnds N L}
    {BLPA : Fin L → Fin 6 → LnPar} {NR : Fin (N + 1)} {NLS : ℤ} (hg : Grid LP BLPA NR)
    (hc : c.transm = hourTransm noRedispatch LP BLPA NR NLS)
    (FU : Fin (N + 1) → ℚ) (hFU : ∀ j, 0 ≤ FU j ∧ FU j < 40) (hF : ∀ j, c.FCTERR j = dataxFCTERR (FU j))
    (day hr : ℕ) (hL : ∀ j, 0 < c.HRLOAD j hr) (R P : Fin M → ℚ)
    (w : HourSt (N + 1) M L (NetSt N L)) (hlim : w.net.BN.c3 = w.net.BN.c4)
    (hz : ∀ j, (hourDraw c day R P w).1.TRNSFR j + (hourDraw c day R P w).1.TRNSFJ j = 0)
    (hcap : NLS = 0 → 0 ≤ ∑ j, (hourDraw c day R P w).1.SYSCON j) {hist : List (Fin 5 × (Fin (N + 1) → ℚ))} {net' : NetSt N L}
    (h1 : HourTiers (deficit c (hourDraw c day R P w).1 hr) (assist c (hourDraw c day R P w).1 hr)
      ((List.finRange 5).take c.NFCST) true w.net hist net') (t : Fin 5) (ht : t.val < c.NFCST) :
    TierShares (fun t j => borne NLS (hourDraw c day R P w).1.SYSCON (fun j => c.HRLOAD j hr * c.FCTERR j t) j) hist t := by
  have hfac : ∀ j t, 0 < c.FCTERR j t := by
    intro j t
    rw [hF]
    have := hFU j
    unfold dataxFCTERR
    fin_cases t <;> simp <;> linarith
  have hle : ∀ j (a b : Fin 5), a ≤ b → c.FCTERR j b ≤ c.FCTERR j a := by
    intro j a b hab
    rw [hF]
    have := (hFU j).1
    revert hab
    unfold dataxFCTERR
    fin_cases a <;> fin_cases b <;> simp [Fin.le_def] <;> linarith
  have hpair : ((List.finRange 5).take c.NFCST).Pairwise (fun a b => a ≠ b ∧
      ((∃ j, deficit c (hourDraw c day R P w).1 hr a j < 1) → ∀ j,
      borne NLS (hourDraw c day R P w).1.SYSCON (fun j => c.HRLOAD j hr * c.FCTERR j b) j ≤
      borne NLS (hourDraw c day R P w).1.SYSCON (fun j => c.HRLOAD j hr * c.FCTERR j a) j)) := by
    refine List.Pairwise.sublist (List.take_sublist _ _) ?_
    refine List.Pairwise.imp ?_ (List.pairwise_lt_finRange 5)
    intro a b hab
    refine ⟨ne_of_lt hab, fun hn j => ?_⟩
    exact borne_mono (fun j => mul_le_mul_of_nonneg_left (hle j a b hab.le) (hL j).le)
      (fun j => mul_pos (hL j) (hfac j b)) hcap hn j
  have hmem : t ∈ (List.finRange 5).take c.NFCST := by
    rw [List.mem_take_iff_getElem]
    exact ⟨t.val, by simp [ht], by simp⟩
  have hd : ∀ i, ∃ q : Fin 6, (hourDraw c day R P w).1.LNSTAT i = ((q : ℕ) : ℤ) + 1 := fun i =>
    lineState_idx (fun q => c.PROBL q i) (variate (mul31 65539 (w.ILSEED i)))
  exact tiers_shares
    (share := fun t j => borne NLS (hourDraw c day R P w).1.SYSCON
      (fun j => c.HRLOAD j hr * c.FCTERR j t) j)
    (Good := fun first net => (first = false → Intact LP BLPA NR net) ∧ net.BN.c3 = net.BN.c4)
    (fun t all j => by
      unfold borne
      by_cases hr' : NLS ≠ 0
      · rw [if_pos hr']
        exact own_need all j
      · exact (by rw [if_neg hr']; exact (if_pos (show ∀ i, 1 ≤ (fun j => c.HRLOAD j hr * c.FCTERR j t) i -
          (hourDraw c day R P w).1.SYSCON i from all)).symm))
    (fun {first t net o net1} hn na ha => assist_shared hg hc hd hz (fun j t => mul_pos (hL j) (hfac j t)) hn na ha) h1
    ⟨fun h => absurd h (by decide), hlim⟩ hpair t hmem

/-- C112 for one hour: in every hour without contracts in which no limit binds, in every tier, what is recorded for an
area is exactly its share in whole megawatts, and a loss-of-load hour if that is at least 1 MW. -/
theorem C112_hour (c : HourIn (N + 1) M L (NetSt N L)) {LP : LEnds N L}
    {BLPA : Fin L → Fin 6 → LnPar} {NR : Fin (N + 1)} {NLS : ℤ} (hg : Grid LP BLPA NR)
    (hc : c.transm = hourTransm noRedispatch LP BLPA NR NLS) (hp : ∀ d < 365, c.MXPLHR d < 8760) (hf : c.JFREQ = 1)
    (FU : Fin (N + 1) → ℚ) (hFU : ∀ j, 0 ≤ FU j ∧ FU j < 40) (hF : ∀ j, c.FCTERR j = dataxFCTERR (FU j))
    (y k : ℕ) (hk : k < 8760) (hL : ∀ j, 0 < c.HRLOAD j (hourUsed c k)) (R P : Fin M → ℚ)
    (w w' : HourSt (N + 1) M L (NetSt N L)) (hlim : w.net.BN.c3 = w.net.BN.c4)
    (hz : ∀ j, (hourDraw c (hourOf k / 24) R P w).1.TRNSFR j + (hourDraw c (hourOf k / 24) R P w).1.TRNSFJ j = 0)
    (hcap : NLS = 0 → 0 ≤ ∑ j, (hourDraw c (hourOf k / 24) R P w).1.SYSCON j)
    (h : hourBody c (8760 * y + k) R P w = .ok w') (t : Fin 5) (ht : t.val < c.NFCST) (j : Fin (N + 1)) :
    let share := borne NLS (hourDraw c (hourOf k / 24) R P w).1.SYSCON (fun j => c.HRLOAD j (hourUsed c k) * c.FCTERR j t) j
    (w'.H.MGNTA j t + w'.H.MGNGA j t) - (w.H.MGNTA j t + w.H.MGNGA j t) = ⌊share⌋₊ ∧
      (w'.H.LOLTA j t + w'.H.LOLGA j t) - (w.H.LOLTA j t + w.H.LOLGA j t) = if 1 ≤ share then 1 else 0 := by
  intro share
  obtain ⟨hist, h1, _, _, h2⟩ := C59_recorded_used c hf y k hk hp R P w w' h
  obtain ⟨e1, e2⟩ := hour_shares c hg hc FU hFU hF (hourOf k / 24) (hourUsed c k) hL R P w hlim hz hcap h1 t ht j
  rw [h2.areaMWh, h2.areaHours, e1, e2]
  exact ⟨by ring, by ring⟩

/-- Non-vacuity of `C112_hour`: the hour of `shareHour` with 110 and 50 MW: each area bears 20 MW. -/
example : (hourBody shareHour (8760 * (0 : ℕ) + (5 : ℕ)) ![110, 50] (fun _ => 1) pairSt).toBool = true ∧
    (∀ j, (hourDraw shareHour (hourOf 5 / 24) ![110, 50] (fun _ => 1) pairSt).1.TRNSFR j +
      (hourDraw shareHour (hourOf 5 / 24) ![110, 50] (fun _ => 1) pairSt).1.TRNSFJ j = 0) ∧
    (hourDraw shareHour (hourOf 5 / 24) ![110, 50] (fun _ => 1) pairSt).1.SYSCON = ![110, 50] ∧
    borne 0 ![110, 50] ![100, 100] 0 = 20 ∧ borne 1 ![110, 50] ![100, 100] 0 = 0 ∧ borne 0 ![90, 50] ![100, 100] 0 = 10 := by
  refine ⟨by decide +kernel, by decide +kernel, by decide +kernel, by decide +kernel, by decide +kernel, by decide +kernel⟩

end Narp.Props
