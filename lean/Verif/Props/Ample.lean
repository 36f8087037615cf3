import Verif.Props.Compare
import Verif.Props.CardWhole

/-!
# Ample networks: C110

When the lines and the areas' limits are at least as large as the load of the pool, no limit can bind.
-/

namespace Narp.Props
open Narp Spec BigOperators

variable {n m l : ℕ}

/-! ## Flows and cuts -/

/-- What a set of areas exports in total. -/
theorem sum_netOut_on {k : ℕ} (LP : Fin m → Fin k × Fin k) (F : Fin m → ℚ) (S : Finset (Fin k)) :
    ∑ a ∈ S, netOut LP F a =
      ∑ i, ((if (LP i).1 ∈ S then F i else 0) - if (LP i).2 ∈ S then F i else 0) := by
  have h := sum_netOut_mul LP F fun a => if a ∈ S then 1 else 0
  simp only [ite_mul, one_mul, zero_mul, sub_mul] at h
  rw [← h, Finset.sum_ite_mem, Finset.univ_inter]

/-- A flow that comes from angles is at most what the exporting areas export together. -/
theorem flow_le_exports {k : ℕ} {LP : Fin m → Fin k × Fin k} {b F : Fin m → ℚ} (hb : ∀ i, b i < 0) {θ : Fin k → ℚ}
    (hF : ∀ i, F i = b i * (θ (LP i).1 - θ (LP i).2)) (i : Fin m) :
    |F i| ≤ ∑ a, max 0 (netOut LP F a) := by
  have key : ∀ i, ∀ S : Finset (Fin k), (∀ j, 0 ≤ (if (LP j).1 ∈ S then F j else 0) - if (LP j).2 ∈ S then F j else 0) →
      (if (LP i).1 ∈ S then F i else 0) - (if (LP i).2 ∈ S then F i else 0) ≤ ∑ a, max 0 (netOut LP F a) := by
    intro i S h
    calc _ ≤ ∑ j, ((if (LP j).1 ∈ S then F j else 0) - if (LP j).2 ∈ S then F j else 0) :=
          Finset.single_le_sum (f := fun j => (if (LP j).1 ∈ S then F j else 0) - if (LP j).2 ∈ S then F j else 0)
            (fun j _ => h j) (Finset.mem_univ i)
      _ = ∑ a ∈ S, netOut LP F a := (sum_netOut_on LP F S).symm
      _ ≤ ∑ a ∈ S, max 0 (netOut LP F a) := Finset.sum_le_sum fun a _ => le_max_right _ _
      _ ≤ _ := Finset.sum_le_univ_sum_of_nonneg fun a => le_max_left _ _
  have hpos : ∀ c : ℚ, ∀ j, 0 ≤ (if (LP j).1 ∈ Finset.univ.filter (fun a => θ a ≤ c) then F j else 0) -
      if (LP j).2 ∈ Finset.univ.filter (fun a => θ a ≤ c) then F j else 0 := by
    intro c j
    simp only [Finset.mem_filter, Finset.mem_univ, true_and]
    rw [hF j]
    by_cases h1 : θ (LP j).1 ≤ c <;> by_cases h2 : θ (LP j).2 ≤ c
    · rw [if_pos h1, if_pos h2, sub_self]
    · rw [if_pos h1, if_neg h2, sub_zero]
      exact (mul_pos_of_neg_of_neg (hb j) (by linarith)).le
    · rw [if_neg h1, if_pos h2, zero_sub]
      have := mul_neg_of_neg_of_pos (hb j) (show 0 < θ (LP j).1 - θ (LP j).2 by linarith)
      linarith
    · rw [if_neg h1, if_neg h2, sub_self]
  rcases lt_trichotomy (θ (LP i).1) (θ (LP i).2) with h | h | h
  · have := key i _ (hpos (θ (LP i).1))
    simp only [Finset.mem_filter, Finset.mem_univ, true_and] at this
    rw [if_pos le_rfl, if_neg (not_le.2 h), sub_zero] at this
    rw [abs_of_pos (by rw [hF i]; exact mul_pos_of_neg_of_neg (hb i) (by linarith))]
    exact this
  · rw [hF i, h, sub_self, mul_zero, abs_zero]
    exact Finset.sum_nonneg fun a _ => le_max_left _ _
  · have := key i _ (hpos (θ (LP i).2))
    simp only [Finset.mem_filter, Finset.mem_univ, true_and] at this
    rw [if_neg (not_le.2 h), if_pos le_rfl, zero_sub] at this
    rw [abs_of_neg (by rw [hF i]; exact mul_neg_of_neg_of_pos (hb i) (by linarith))]
    exact this

/-- In a list of numbers that add up to zero, none exceeds the sum of the positive ones. -/
theorem abs_le_positive {k : ℕ} {x : Fin k → ℚ} (h0 : ∑ a, x a = 0) (a : Fin k) : |x a| ≤ ∑ a, max 0 (x a) := by
  have hp : ∑ a, max 0 (x a) = ∑ a, max 0 (-x a) := by
    have : ∀ a, max 0 (x a) - max 0 (-x a) = x a := fun a => by
      rcases le_total 0 (x a) with h | h
      · rw [max_eq_right h, max_eq_left (by linarith), sub_zero]
      · rw [max_eq_left h, max_eq_right (by linarith)]; ring
    have h := Finset.sum_congr (s₁ := Finset.univ) rfl fun a _ => this a
    rw [Finset.sum_sub_distrib, h0] at h
    linarith
  rcases le_total 0 (x a) with h | h
  · rw [abs_of_nonneg h]
    exact le_trans (le_max_right 0 _) (Finset.single_le_sum (f := fun a => max 0 (x a))
      (fun a _ => le_max_left _ _) (Finset.mem_univ a))
  · rw [abs_of_nonpos h, hp]
    exact le_trans (le_max_right 0 _) (Finset.single_le_sum (f := fun a => max 0 (-x a))
      (fun a _ => le_max_left _ _) (Finset.mem_univ a))

/-- The injections after assignment: the exports are at most the deficits. -/
theorem assign_exports {INJ LOD : Fin (n + 1) → ℚ} {LT : Fin (n + 1) → Fin (n + 1)} {NLS : ℤ}
    (hLT : Function.Bijective LT) (hL : NLS = 0 → (∀ a, 0 ≤ LOD a) ∧ 0 < ∑ a, LOD a) :
    ∑ i, max 0 ((assign INJ LOD LT NLS).1 i) ≤ ∑ i, max 0 (-INJ i) := by
  obtain ⟨h0, h1, h2, h3, h4⟩ := C40_assign (INJ := INJ) hLT hL
  have hp : ∑ i, max 0 ((assign INJ LOD LT NLS).1 i) = ∑ i, max 0 (-(assign INJ LOD LT NLS).1 i) := by
    generalize (assign INJ LOD LT NLS).1 = x at h0
    have : ∀ a, max 0 (x a) - max 0 (-x a) = x a := fun a => by
      rcases le_total 0 (x a) with h | h
      · rw [max_eq_right h, max_eq_left (by linarith), sub_zero]
      · rw [max_eq_left h, max_eq_right (by linarith)]; ring
    have h := Finset.sum_congr (s₁ := Finset.univ) rfl fun a _ => this a
    rw [Finset.sum_sub_distrib, h0] at h
    linarith
  rw [hp]
  refine Finset.sum_le_sum fun i _ => ?_
  rcases le_total (INJ i) 0 with h | h
  · rw [h3 i h]
    exact max_le_max le_rfl (by linarith [h1 (LT i)])
  · rw [max_eq_left (by linarith [(h4 i h).1])]
    exact le_max_left _ _

/-! ## One evaluation -/

/-- A load flow in a network whose limits are at least the total deficit needs no re-dispatch. -/
theorem callTm2_ample {LP : LEnds n m} {BLPA : Fin m → Fin 6 → LnPar} {NR : Fin (n + 1)} (hg : Grid LP BLPA NR)
    {BLP : Fin m → LnPar} (hb : ∀ i, (BLP i).adm < 0) {NLS : ℤ} {w : NetSt n m} (hw : Intact LP BLPA NR w)
    (hL : NLS = 0 → (∀ a, 0 ≤ w.BN.c1 a) ∧ 0 < ∑ a, w.BN.c1 a) {K : ℚ} (hK : ∑ a, max 0 (-w.BN.c2 a) ≤ K)
    (hc : ∀ i, K ≤ (BLP i).fwd ∧ K ≤ (BLP i).bwd) (ha : ∀ a, K ≤ w.BN.c3 a ∧ K ≤ w.BN.c4 a) :
    ∃ r, callTm2 noRedispatch LP BLP NR NLS w = .ok r := by
  have hK0 : 0 ≤ K := le_trans (Finset.sum_nonneg fun a _ => le_max_left _ _) hK
  obtain ⟨hB0, hLT, hBB, hZB, hE⟩ := hw
  have hbij : Function.Bijective w.LT := by rw [hLT]; exact LT_bij NR
  have hz := lineUpdates_Z hg.proper hg.reaches (b := fun i => (BLP i).adm) (b0 := w.BLP0)
    (fun i => by rw [hB0]; exact iff_of_true (hg.adm i 0) (hb i)) (fun i => (hb i).ne)
    (List.finRange m) w.BLP0 (w.BB, w.ZB) (List.nodup_finRange m) (by rw [hB0]; exact Or.inl fun i => hg.adm i 0)
    (fun _ _ => rfl) ⟨by rw [hB0]; exact hZB, hE⟩
  simp only [List.mem_finRange, if_true] at hz
  have hbal := (C40_assign (INJ := fun i => w.BN.c2 (w.LT i)) (LOD := w.BN.c1) (LT := w.LT) (NLS := NLS) hbij hL).1
  have hex := assign_exports (INJ := fun i => w.BN.c2 (w.LT i)) (LOD := w.BN.c1) (LT := w.LT) (NLS := NLS) hbij hL
  have hk := (C35_kirchhoff hg.proper hz.inv hz.last _ hbal).1
  obtain ⟨θ, _, hθ⟩ := (C35_kirchhoff hg.proper hz.inv hz.last _ hbal).2.2.2
  have hex2 : ∑ i, max 0 ((assign (fun i => w.BN.c2 (w.LT i)) w.BN.c1 w.LT NLS).1 i) ≤ K := by
    refine le_trans hex (le_trans (le_of_eq ?_) hK)
    exact (sum_LT hbij fun a => max 0 (-w.BN.c2 a)).symm
  have hlim : let b := fun i => (BLP i).adm
      let Z := (lineUpdates LP b w.BLP0 (ieq w.LT NR) NR (w.BB, w.ZB)).2
      let F := (schedule LP b Z w.LT (fun i => w.BN.c2 (w.LT i)) w.BN.c1 NLS).2.2
      (∀ i, -(BLP i).bwd ≤ F i ∧ F i ≤ (BLP i).fwd) ∧
      ∀ a, -w.BN.c4 a ≤ -netOut LP F a ∧ -netOut LP F a ≤ w.BN.c3 a := by
    intro b Z F
    have hF : F = (flo LP b (thetac (theta Z (assign (fun i => w.BN.c2 (w.LT i)) w.BN.c1 w.LT NLS).1)
        (admitrLT id NR))).2 := by
      rw [← hLT]; rfl
    have hkk : ∀ i, netOut LP F (admitrLT id NR i) = (assign (fun i => w.BN.c2 (w.LT i)) w.BN.c1 w.LT NLS).1 i := by
      intro i; rw [hF]; simpa only [Z, b, hLT, lineUpdates] using hk i
    have hsum : ∑ a, max 0 (netOut LP F a) ≤ K := by
      rw [sum_LT (LT_bij NR)]
      simp only [hkk]
      exact hex2
    have hpot : ∀ i, F i = b i * (θ (LP i).1 - θ (LP i).2) := by
      intro i; rw [hF]; simpa only [Z, b, hLT, lineUpdates] using hθ i
    refine ⟨fun i => ?_, fun a => ?_⟩
    · have := abs_le.1 (le_trans (flow_le_exports hb hpot i) hsum)
      exact ⟨by linarith [(hc i).2], by linarith [(hc i).1]⟩
    · have := abs_le.1 (le_trans (abs_le_positive (sum_netOut LP F) a) hsum)
      exact ⟨by linarith [(ha a).2], by linarith [(ha a).1]⟩
  obtain ⟨o, ho, _⟩ := C38_converse (lp := noRedispatch) (BN := w.BN) (BLP0 := w.BLP0) (BB := w.BB) (ZB := w.ZB)
    (NR := NR) (fun i => ⟨hK0.trans (hc i).1, hK0.trans (hc i).2⟩) (fun a => ⟨hK0.trans (ha a).1, hK0.trans (ha a).2⟩)
    hlim
  unfold callTm2
  rw [ho]
  exact ⟨_, rfl⟩

/-- One evaluation of a network in which nothing is scheduled by contract and all limits are at least the total
load needs no re-dispatch. -/
theorem transm_ample {LP : LEnds n m} {BLPA : Fin m → Fin 6 → LnPar} {NR : Fin (n + 1)} {NLS : ℤ} (hn : 0 < n)
    {t : TransIn (n + 1) m} {w : NetSt n m} {k : Fin m → Fin 6}
    (hg : Grid LP BLPA NR) (hI : t.IFLAG ≠ 1 ∨ Intact LP BLPA NR w) (hk : ∀ i, t.LNSTAT i = ((k i : ℕ) : ℤ) + 1)
    (hload : NLS = 0 → (∀ a, 0 ≤ t.CAPREQ a) ∧ 0 < ∑ a, t.CAPREQ a) (ht : ∀ a, t.TRNSFR a + t.TRNSFJ a = 0)
    {K : ℚ} (hK : ∑ a, max 0 (t.CAPREQ a - t.SYSCON a) ≤ K)
    (hc : ∀ i s, K ≤ (BLPA i s).fwd ∧ K ≤ (BLPA i s).bwd) (ha : ∀ a, K ≤ w.BN.c3 a ∧ K ≤ w.BN.c4 a) :
    ∃ r, transm noRedispatch LP BLPA NR NLS t w = .ok r := by
  have hK0 : 0 ≤ K := le_trans (Finset.sum_nonneg fun a _ => le_max_left _ _) hK
  obtain ⟨w0, h0⟩ : ∃ w0, transmInit LP BLPA NR t.IFLAG w = .ok w0 := by
    unfold transmInit
    split
    · obtain ⟨o, ho⟩ := (C51_connected hn hg.proper (b := fun i => (BLPA i 0).adm) (Or.inl fun i => hg.adm i 0) NR).2
        hg.reaches
      rw [ho]; exact ⟨_, rfl⟩
    · exact ⟨_, rfl⟩
  obtain ⟨hw0, hbn⟩ := transmInit_intact hg hI h0
  have hi1 : Intact LP BLPA NR { w0 with BN := { w0.BN with c2 := scheduled t, c1 := fun _ => 0 } } :=
    ⟨hw0.BLP0, hw0.LT, hw0.BB, hw0.ZB, hw0.edge⟩
  have hsch : ∀ a, scheduled t a = 0 := fun a => by rw [scheduled, ht, max_eq_left (min_le_right _ _)]
  obtain ⟨⟨w2, F1⟩, h1⟩ := callTm2_ample hg (BLP := sampledBLP BLPA k) (fun i => hg.adm i _) (NLS := 1) hi1
    (by intro h; cases h) (K := K) (by simp only [hsch]; simpa using hK0) (fun i => hc i _) (by simp only [hbn]; exact ha)
  have ha1 := callTm2_none hg (BLP := sampledBLP BLPA k) (fun i => hg.adm i _) (fun i => hg.cap i _) hi1
    (by intro h; cases h) h1
  have hi2 : Intact LP BLPA NR w2 := by
    obtain ⟨e1, e2, e3, e4, _⟩ := ha1.rest
    exact ⟨e1.trans hw0.BLP0, e3.trans hw0.LT, e2.trans hw0.BB, by rw [e4]; exact hw0.ZB, by rw [e4]; exact hw0.edge⟩
  obtain ⟨hF, hc1⟩ := first_zero (t := t) (fun i => hg.adm i _) hi1 rfl ht ha1
  have e3 : w2.BN.c3 = w.BN.c3 := by rw [ha1.rest.2.2.2.2.1, ← hbn]
  have e4 : w2.BN.c4 = w.BN.c4 := by rw [ha1.rest.2.2.2.2.2, ← hbn]
  unfold transm
  rw [h0, statesIdx_val hk]
  simp only [bind, Except.bind]
  rw [h1]
  simp only
  unfold transmRest
  simp only
  split
  · exact ⟨_, rfl⟩
  unfold transm2
  have hF' : ∀ i, -F1 i = 0 := fun i => by rw [hF, neg_zero]
  have hlim : (second LP (sampledBLP BLPA k) NLS t F1 w2.BN).2.2.c3 = w.BN.c3 ∧
      (second LP (sampledBLP BLPA k) NLS t F1 w2.BN).2.2.c4 = w.BN.c4 := by
    unfold second
    split
    · simp only [residualBN]
      rw [fancyAdd_zero _ hF', fancyAdd_zero _ hF', fancyAdd_zero _ hF, fancyAdd_zero _ hF]
      exact ⟨e3, e4⟩
    · exact ⟨e3, e4⟩
  have hline : ∀ i, K ≤ ((second LP (sampledBLP BLPA k) NLS t F1 w2.BN).2.1 i).fwd ∧
      K ≤ ((second LP (sampledBLP BLPA k) NLS t F1 w2.BN).2.1 i).bwd := by
    intro i
    unfold second
    split
    · simp only [residualBLP, sampledBLP]
      rw [hF i, sub_zero, add_zero]
      exact ⟨le_max_of_le_left (hc i _).1, le_max_of_le_left (hc i _).2⟩
    · exact hc i _
  have hadm : ∀ i, ((second LP (sampledBLP BLPA k) NLS t F1 w2.BN).2.1 i).adm < 0 := by
    intro i
    unfold second
    split
    · exact hg.adm i _
    · exact hg.adm i _
  have hi3 : Intact LP BLPA NR { w2 with BN := (second LP (sampledBLP BLPA k) NLS t F1 w2.BN).2.2 } :=
    ⟨hi2.BLP0, hi2.LT, hi2.BB, hi2.ZB, hi2.edge⟩
  obtain ⟨r, hr⟩ := callTm2_ample hg hadm (NLS := NLS) hi3 (by
      intro hN; simp only [second_c1]; exact hload hN) (K := K) (by
      simp only [second_c2, hc1, zero_mul, sub_zero, neg_sub]; exact hK) hline (by
      simp only [hlim.1, hlim.2]; exact ha)
  simp only [hr]
  exact ⟨_, rfl⟩

/-! ## One draw -/

/-- The tiers of a draw return if in each of them some area is short of at least 1 MW and the network is ample. -/
theorem tierLoop_ample {LP : LEnds n l} {BLPA : Fin l → Fin 6 → LnPar} {NR : Fin (n + 1)} {NLS : ℤ}
    {c : HourIn (n + 1) m l (NetSt n l)} (hg : Grid LP BLPA NR) (hc : c.transm = hourTransm noRedispatch LP BLPA NR NLS)
    {d : Draw (n + 1) l} (hd : ∀ i, ∃ k : Fin 6, d.LNSTAT i = ((k : ℕ) : ℤ) + 1) {hr : ℕ}
    (hz : ∀ j, d.TRNSFR j + d.TRNSFJ j = 0) (hcap : ∀ j, 0 ≤ d.SYSCON j)
    (hload : ∀ t j, 0 ≤ findld t hr c.HRLOAD c.FCTERR j) {K : ℚ} (hK : ∀ t, ∑ j, findld t hr c.HRLOAD c.FCTERR j ≤ K)
    (hB : ∀ i s, K ≤ (BLPA i s).fwd ∧ K ≤ (BLPA i s).bwd)
    (hs : ∀ t, ∃ j, d.SYSCON j - findld t hr c.HRLOAD c.FCTERR j ≤ -1) (pk : Bool) :
    ∀ (ts : List (Fin 5)) (f : ℤ) (w : HourSt (n + 1) m l (NetSt n l)),
      (f ≠ 1 ∨ Intact LP BLPA NR w.net) → w.net.BN.c3 = w.net.BN.c4 → (∀ a, K ≤ w.net.BN.c3 a) →
      ∃ w', tierLoop c d hr pk ts f w = .ok w' := by
  intro ts
  induction ts with
  | nil => intro f w _ _ _; exact ⟨_, rfl⟩
  | cons t ts ih =>
    intro f w hI h34 h3
    choose k hk using hd
    obtain ⟨j0, hj0⟩ := hs t
    have hneg : tierMargin c d hr t j0 < 0 := by
      unfold tierMargin marginInt pyInt
      rw [if_neg (by linarith)]
      have : d.SYSCON j0 - findld t hr c.HRLOAD c.FCTERR j0 ≤ (((-1 : ℤ)) : ℚ) := by push_cast; linarith
      exact lt_of_le_of_lt (Int.ceil_le.2 this) (by norm_num)
    have hmem : j0 ∈ (List.finRange (n + 1)).filter fun j => decide (tierMargin c d hr t j < 0) := by
      rw [List.mem_filter]; exact ⟨List.mem_finRange _, by simpa using hneg⟩
    have hne := List.ne_nil_of_mem hmem
    have hpos := List.length_pos_of_mem hmem
    unfold tierLoop tierBody
    simp only
    rw [if_neg hne, if_neg (by omega)]
    by_cases hall : ((List.finRange (n + 1)).filter fun j => decide (tierMargin c d hr t j < 0)).length ≠ n + 1
    · rw [if_pos hall]
      have hlen := List.length_filter_le (fun j => decide (tierMargin c d hr t j < 0)) (List.finRange (n + 1))
      rw [List.length_finRange] at hlen
      have hn : 0 < n := by omega
      have hsum : NLS = 0 → (∀ a, 0 ≤ findld t hr c.HRLOAD c.FCTERR a) ∧ 0 < ∑ a, findld t hr c.HRLOAD c.FCTERR a := by
        intro _
        refine ⟨hload t, lt_of_lt_of_le ?_ (Finset.single_le_sum (fun a _ => hload t a) (Finset.mem_univ j0))⟩
        linarith [hcap j0]
      obtain ⟨⟨out, net⟩, hr1⟩ := transm_ample (NLS := NLS) (K := K) hn
        (t := ⟨f, d.LNSTAT, d.TRNSFR, d.TRNSFJ, d.SYSCON, findld t hr c.HRLOAD c.FCTERR⟩) hg hI hk hsum hz
        (le_trans (Finset.sum_le_sum fun a _ => max_le (hload t a) (by linarith [hcap a])) (hK t)) hB
        (fun a => ⟨h3 a, by rw [← h34]; exact h3 a⟩)
      obtain ⟨hi, e3, e4⟩ := C39_evaluation_partial hg (by exact hI) hk hsum h34 hr1
      have hcall : c.transm ⟨f, d.LNSTAT, d.TRNSFR, d.TRNSFJ, d.SYSCON, findld t hr c.HRLOAD c.FCTERR⟩ w.net =
          .ok ((out.JFLAG, out.SADJ), net) := by
        rw [hc]; unfold hourTransm; rw [hr1]; rfl
      rw [hcall]
      simp only
      by_cases hJ : out.JFLAG = 0
      · rw [if_pos hJ]; exact ⟨_, rfl⟩
      rw [if_neg hJ]
      split
      · rename_i e; split at e <;> cases e
      · exact ⟨_, rfl⟩
      · rename_i e
        split at e
        · cases e
          refine ih _ _ (Or.inr ?_) ?_ ?_
          · exact hi
          · show net.BN.c3 = net.BN.c4; rw [e3, e4, h34]
          · intro a; show K ≤ net.BN.c3 a; rw [e3]; exact h3 a
        · cases e
    · rw [if_neg hall]
      exact ih _ _ hI h34 h3

/-- The hourly event returns if its tiers do, for every hour they may be evaluated for. -/
theorem hourBody_returns {n : ℕ} {ν : Type} (c : HourIn n m l ν) (hf : c.JFREQ = 1)
    (hM : ∀ d < 365, c.MXPLHR d < 8760) (C : ℚ) (R P : Fin m → ℚ) (w : HourSt n m l ν)
    (hloop : ∀ day, ∀ hr < 8760, ∀ pk, ∃ w', tierLoop c (hourDraw c day R P w).1 hr pk
      ((List.finRange 5).take c.NFCST) 0 (hourDraw c day R P w).2 = .ok w') :
    ∃ w', hourBody c C R P w = .ok w' := by
  have hmod := pyMod_nonneg C
  have hmod2 : pyMod C 8760 < 8760 := by
    unfold pyMod
    have := Int.lt_floor_add_one (C / 8760)
    have h2 : C = 8760 * (C / 8760) := by field_simp
    linarith
  set z := pyInt (pyMod C 8760) with hz
  have hz0 : 0 ≤ z := by
    rw [hz]; unfold pyInt; rw [if_pos hmod]; exact Int.floor_nonneg.2 hmod
  have hz1 : z < 8760 := by
    rw [hz]; unfold pyInt; rw [if_pos hmod]
    have := Int.floor_le (pyMod C 8760)
    have h3 : ((⌊pyMod C 8760⌋ : ℤ) : ℚ) < ((8760 : ℤ) : ℚ) := by push_cast; linarith
    exact_mod_cast h3
  obtain ⟨day, hday, hd⟩ : ∃ day, pyIdx 365 ((-1 + z) / 24) = .ok day ∧ day < 365 := by
    unfold pyIdx
    by_cases h0 : 0 ≤ (-1 + z) / 24
    · rw [if_pos h0, if_pos (by omega)]; exact ⟨_, rfl, by omega⟩
    · rw [if_neg h0, if_pos (by omega)]; exact ⟨_, rfl, by omega⟩
  have hMd := hM day hd
  obtain ⟨hr, hhr, hh8⟩ : ∃ hr, pyIdx 8760 (if c.JSTEP = 24 then ((c.MXPLHR day : ℕ) : ℤ) else -1 + z) = .ok hr ∧
      hr < 8760 := by
    by_cases h24 : c.JSTEP = 24
    · rw [if_pos h24, pyIdx_ok (by omega) (by omega)]; exact ⟨_, rfl, by omega⟩
    · rw [if_neg h24]
      unfold pyIdx
      by_cases h0 : 0 ≤ -1 + z
      · rw [if_pos h0, if_pos (by omega)]; exact ⟨_, rfl, by omega⟩
      · rw [if_neg h0, if_pos (by omega)]; exact ⟨_, rfl, by omega⟩
  unfold hourBody
  simp only
  rw [← hz, hday]
  simp only [bind, Except.bind, hf]
  rw [if_neg (by norm_num), if_neg (by simp), hhr]
  exact hloop _ _ hh8 _

/-! ## From the cards -/

variable {sl : ℕ → ℚ → ℚ} {fuel : ℕ} {c : Cards n m l} {s : Setup n m l}

/-- In every state of every run the areas' capacities are not negative. -/
theorem capacity_nonneg (h1 : OneCard c) (hs : Sensible c) (hd : ∀ i, 0 ≤ (c.units i).der ∧ (c.units i).der ≤ 100)
    (h : setup sl fuel c = .ok s) (hJ : StepOK s.hour.JSTEP) (JSEED : ℤ) {log : List Ev} {st : St _}
    (hr : Reach s.cfg (s.start JSEED) log st) (day : ℕ) (j : Fin (n + 1)) :
    0 ≤ (hourDraw s.hour day (fun i => st.RATING.getD i 0) (fun i => st.PLNDST.getD i 0) st.world.h).1.SYSCON j := by
  rw [(C64_units h1 h day _ _ st.world.h j).1]
  refine Finset.sum_nonneg fun i _ => mul_nonneg (mul_nonneg (outcome_bounds (hd i) _).1 ?_) ?_
  · have hlen : s.cfg.RATES.length = m := by
      show s.RATES.length = m
      rw [setup_rates h]; simp
    rcases rating_cases (cfg := s.cfg) hJ hr hlen i i.isLt with e | e
    · rw [e]
    · change _ ∈ s.RATES.getD i [] at e
      rw [setup_rates h, List.getD_eq_getElem?_getD, List.getElem?_ofFn, dif_pos i.isLt, Option.getD_some,
        List.mem_ofFn] at e
      obtain ⟨q, hq⟩ := e
      rw [← hq]; exact hs.cap i q
  · rcases plndst_bit (cfg := s.cfg) hJ hr i with e | e <;> rw [e]
    norm_num

theorem forecast_bounds {f : ℚ} (hf : 0 ≤ f ∧ f < 40) (t : Fin 5) : 0 ≤ forecast f t ∧ forecast f t ≤ forecast f 0 := by
  unfold forecast
  fin_cases t <;> simp <;> first | (constructor <;> linarith) | linarith

/-- The data of a study with an ample network: as for `Calm`, but with conditions on the input only. -/
structure AmpleStudy (sl : ℕ → ℚ → ℚ) (fuel : ℕ) (c : Cards n m l) (s : Setup n m l) (step : ℕ) (raw : ℕ → ℕ → ℚ) :
    Prop where
  one : OneCard c
  sensible : Sensible c
  lone : NoLone c
  network : SoundNetwork c
  accepted : setup sl fuel c = .ok s
  steps : c.misc.JSTEP = step
  mode : step = 1 ∨ step = 24
  freq : c.misc.JFREQ = 1
  number : ∀ k, (c.lines k).number ≤ l
  lfu : ∀ j, 0 ≤ (c.areas j).lfu ∧ (c.areas j).lfu < 40
  load : leeiRead (n + 1) c.leei = .ok raw
  peak : ∀ j, 0 < (c.areas j).peak
  pos : ∀ (j : Fin (n + 1)), ∀ h < 8760, 0 < raw j h
  some_load : ∀ j : Fin (n + 1), ∃ h < 8760, 1 / 1000 ≤ raw j h
  derating : ∀ i, 0 ≤ (c.units i).der ∧ (c.units i).der ≤ 100
  ample : Ample c
  needy : ∀ load : Fin (n + 1) → ℕ → ℚ, (∀ j : Fin (n + 1), Scaled (raw j) (c.areas j).peak (load j)) → Needy c load

/-- Every draw of every run of such a study, at whatever time, is evaluated without re-dispatch. -/
theorem ample_free {step : ℕ} {raw : ℕ → ℕ → ℚ} (hc : AmpleStudy sl fuel c s step raw) (JSEED : ℤ) {LP : LEnds n l}
    (hLP : ∀ k, (c.areas (LP k).1).name = (c.lines k).src ∧ (c.areas (LP k).2).name = (c.lines k).dst)
    {log : List Ev} {st : St _} (hr : Reach s.cfg (s.start JSEED) log st) (C : ℚ) : LimitFree c s LP C st := by
  have h := hc.accepted
  have hJs : s.hour.JSTEP = step := by rw [C64_step h, hc.steps]; norm_num
  have hJ : StepOK s.hour.JSTEP := by
    rw [hJs]
    rcases hc.mode with e | e <;> rw [e]
    · left; norm_num
    · right; norm_num
  have hJF : s.hour.JFREQ = 1 := by
    obtain ⟨wr, raw, T, ITAB, ID', hw, _, _, _, _, rfl⟩ := setup_ok h
    exact hc.freq
  have hload : ∀ j : Fin (n + 1), Scaled (raw j) (c.areas j).peak (s.hour.HRLOAD j) := fun j =>
    loads_scaled h hc.load j (hc.peak j) (fun x hx => (hc.pos j x hx).le) (hc.some_load j)
  obtain ⟨_, _, _, hld, _, _, hmx⟩ := C64_loads h
  have hbd : ∀ j, ∀ x < 8760, 0 ≤ s.hour.HRLOAD j x ∧ s.hour.HRLOAD j x ≤ (c.areas j).peak := by
    intro j x hx
    obtain ⟨y, hy, hy0, hmax, e⟩ := hload j
    rw [e]
    refine ⟨div_nonneg (mul_nonneg (hc.peak j).le (hc.pos j x hx).le) hy0.le, ?_⟩
    rw [div_le_iff₀ hy0]
    exact mul_le_mul_of_nonneg_left (hmax x hx) (hc.peak j).le
  have hpp : 0 < poolPeak c := Finset.sum_pos (fun j _ => mul_pos (hc.peak j) (by
    have := hc.lfu j; unfold forecast; simp; linarith)) ⟨0, Finset.mem_univ _⟩
  refine hourBody_returns
    { s.hour with transm := (hourTransm noRedispatch LP (fun k => dataxBLPA (c.lines k)) 0 c.misc.NLS) } hJF
    (fun d hd => by have := (hmx d).2.1; show s.hour.MXPLHR d < 8760; omega) C _ _ st.world.h ?_
  intro day x hx pk
  have hz : ∀ j, (hourDraw s.hour day (fun i => st.RATING.getD i 0) (fun i => st.PLNDST.getD i 0) st.world.h).1.TRNSFR j +
      (hourDraw s.hour day (fun i => st.RATING.getD i 0) (fun i => st.PLNDST.getD i 0) st.world.h).1.TRNSFJ j = 0 := by
    intro j
    obtain ⟨_, a, b, _⟩ := C64_units hc.one h day (fun i => st.RATING.getD i 0) (fun i => st.PLNDST.getD i 0) st.world.h j
    rw [a, b, add_zero]
  obtain ⟨season, hcap⟩ := capacity_le hc.one hc.sensible hc.derating h hJ JSEED hr day
  refine tierLoop_ample (K := poolPeak c) (sound_grid hc.one hc.network hLP) rfl
    (fun i => lineState_idx (fun q => s.hour.PROBL q i) (variate (mul31 65539 (st.world.h.ILSEED i)))) hz
    (capacity_nonneg hc.one hc.sensible hc.derating h hJ JSEED hr day) ?_ ?_ ?_ ?_ pk _ 0 _ (Or.inl (by norm_num)) ?_ ?_
  · intro t j
    show 0 ≤ findld t x s.hour.HRLOAD s.hour.FCTERR j
    rw [hld]
    exact mul_nonneg (hbd j x hx).1 (forecast_bounds (hc.lfu j) t).1
  · intro t
    show ∑ j, findld t x s.hour.HRLOAD s.hour.FCTERR j ≤ _
    refine Finset.sum_le_sum fun j _ => ?_
    rw [hld]
    exact mul_le_mul (hbd j x hx).2 (forecast_bounds (hc.lfu j) t).2 (forecast_bounds (hc.lfu j) t).1 (hc.peak j).le
  · intro k t
    have := hc.ample.lines k t
    simp only [dataxBLPA]
    rw [if_neg (by linarith [this.1]), if_neg (by linarith [this.2])]
    exact this
  · intro t
    obtain ⟨j, hj⟩ := hc.needy _ hload t x hx season
    refine ⟨j, ?_⟩
    show (hourDraw s.hour day _ _ st.world.h).1.SYSCON j - findld t x s.hour.HRLOAD s.hour.FCTERR j ≤ -1
    rw [hld]
    linarith [hcap j]
  · show st.world.h.net.BN.c3 = st.world.h.net.BN.c4
    funext j
    obtain ⟨a, b⟩ := C64_limits_run h hJ JSEED hr j
    rw [a, b]
  · intro j
    show _ ≤ st.world.h.net.BN.c3 j
    rw [(C64_limits_run h hJ JSEED hr j).1]
    exact hc.ample.areas j

/-- The areas the lines join. -/
theorem ends_exist (h1 : OneCard c) (h : setup sl fuel c = .ok s) : ∃ LP : LEnds n l,
    ∀ k, (c.areas (LP k).1).name = (c.lines k).src ∧ (c.areas (LP k).2).name = (c.lines k).dst := by
  obtain ⟨wr, H, hwa, _⟩ := setup_wiring h1 h
  exact ⟨wr.LP, fun k => ⟨hwa.src k, hwa.dst k⟩⟩

/-- C110: if the network is ample, no limit ever binds in any run. -/
theorem C110_calm {step : ℕ} {raw : ℕ → ℕ → ℚ} (hc : AmpleStudy sl fuel c s step raw) (JSEED : ℤ) :
    Calm sl fuel c s step raw JSEED := by
  obtain ⟨LP, hLP⟩ := ends_exist hc.one hc.accepted
  exact ⟨hc.one, hc.sensible, hc.lone, hc.network, hc.accepted, hc.steps, hc.mode, hc.freq, hc.number, hc.lfu, hc.load,
    hc.peak, hc.pos, hc.some_load, LP, hLP, fun log st ev st' hr _ _ => ample_free hc JSEED hLP hr ev.time⟩

/-- A draw that is evaluated without re-dispatch is evaluated by the program with the same result. -/
theorem free_real (h1 : OneCard c) (h : setup sl fuel c = .ok s) (hnum : ∀ k, (c.lines k).number ≤ l) {LP : LEnds n l}
    (hLP : ∀ k, (c.areas (LP k).1).name = (c.lines k).src ∧ (c.areas (LP k).2).name = (c.lines k).dst) {C : ℚ} {st : St _}
    (hf : LimitFree c s LP C st) :
    ∃ w', hourBody s.hour C (fun i => st.RATING.getD i 0) (fun i => st.PLNDST.getD i 0) st.world.h = .ok w' := by
  obtain ⟨w', hw'⟩ := hf
  refine ⟨w', hourBody_mono (c' := { s.hour with transm := hourTransm noRedispatch LP (fun k => dataxBLPA (c.lines k)) 0 c.misc.NLS })
      rfl ?_ hw'⟩
  intro t w r e
  obtain ⟨wr, H, hwa, x1, x2⟩ := setup_wiring h1 h
  have hLP' : wr.LP = LP := funext fun k => Prod.ext (h1.areas ((hwa.src k).trans (hLP k).1.symm))
    (h1.areas ((hwa.dst k).trans (hLP k).2.symm))
  have hb : ∀ a b, dataxLINENO wr.LP wr.number a b < l :=
    lineno_bound wr.LP fun k => by rw [hwa.number k]; have := hnum k; omega
  rw [x1]
  show netCall (dataxLINENO wr.LP wr.number) fuel c.misc.IOI wr.LP (fun k => dataxBLPA (c.lines k)) 0 c.misc.NLS t w = _
  unfold netCall
  rw [helpCheck_small hb, hLP']
  show hourTransm _ _ _ _ _ _ _ = _
  change hourTransm _ _ _ _ _ _ _ = _ at e
  unfold hourTransm at e ⊢
  generalize hx : transm noRedispatch LP (fun k => dataxBLPA (c.lines k)) 0 c.misc.NLS t w = x at e
  cases x with
  | error x => cases e
  | ok x => rw [transm_mono (lp := redispatch fuel c.misc.IOI) (fun x o h => by cases h) hx]; exact e

/-- C110: with legal settings (annual tables not printed, or daily mode) every run of such a study ends regularly. -/
theorem C110_completes {step : ℕ} {raw : ℕ → ℕ → ℚ} (hc : AmpleStudy sl fuel c s step raw) (hIOJ : c.misc.IOJ = 0 ∨ c.misc.JSTEP = 24)
    (hE : 20 ≤ c.misc.MAXEUE) (hK : c.misc.KWHERE = 1 → 1 ≤ c.misc.KVLOC ∧ c.misc.KVLOC ≤ n + 1) (JSEED : ℤ) :
    ∃ (log : List Ev) (st : St _) (e : Exit), Reach s.cfg (s.start JSEED) log st ∧
      Narp.step s.cfg st = .ok (.exit e) ∧ (e = .converged ∨ e = .finished) := by
  have h := hc.accepted
  have hJs : s.hour.JSTEP = step := by rw [C64_step h, hc.steps]; norm_num
  have hJ : StepOK s.hour.JSTEP := by
    rw [hJs]
    rcases hc.mode with e | e <;> rw [e]
    · left; norm_num
    · right; norm_num
  have hyr : s.year = setupYear c := by
    obtain ⟨wr, raw, T, ITAB, ID', hw, _, _, _, _, rfl⟩ := setup_ok h
    rfl
  obtain ⟨_, _, _, _, ⟨hNF, hNR⟩, _, _⟩ := C64_loads h
  obtain ⟨LP, hLP⟩ := ends_exist hc.one h
  obtain ⟨e, st, _, he, log, hre, hx⟩ := C43_run_completes_partial (hc := s.hour) (yc := s.year) (T := s.JPLOUT)
    (R := s.RATES) (snap := snapNet) (g0 := fun i => (programSeeds JSEED m l).1 i)
    (l0 := fun k => (programSeeds JSEED m l).2 k) (net := s.net) (I := s.INTVT) (A := s.ITAB) hJ
    (fun log st hr C => free_real hc.one h hc.number hLP (ample_free hc JSEED hLP hr C))
    (setup_planOK hc.one hc.sensible hc.lone h)
    (by
      intro row hrow
      rw [setup_rates h, List.mem_ofFn] at hrow
      obtain ⟨i, rfl⟩ := hrow
      simp)
    (by
      rcases hNR with ⟨_, a, b⟩ | ⟨_, a, b⟩
      · rw [← hNF, a, b]; norm_num
      · rw [← hNF, a, b]; norm_num)
    (by
      rw [hyr]
      show 0 < ⌊c.misc.MAXEUE / 20⌋
      rw [Int.lt_iff_add_one_le, zero_add, Int.le_floor]
      push_cast
      rw [le_div_iff₀ (by norm_num)]
      linarith)
    (by
      rw [hyr]
      rcases hIOJ with e | e
      · exact .inl e
      · exact .inr ⟨if_pos e, Nat.succ_pos n⟩)
    (by
      rw [hyr]
      intro hk
      have := hK hk
      show 0 ≤ c.misc.KVLOC - 1 ∧ c.misc.KVLOC - 1 < ((n + 1 : ℕ) : ℤ)
      push_cast
      omega)
    (7 * (⌈s.year.FINISH⌉₊ + 2) + 1) (Nat.lt_succ_self _)
  exact ⟨log, st, e, hre, hx, he⟩

theorem books_energy {lack : ℕ → ℚ} {areas k : ℕ} {mwh mwh' hours hours' : ℚ}
    (h : YearBooks lack areas k mwh hours) (h' : YearBooks lack areas k mwh' hours') :
    mwh' ≤ mwh + areas * ((Finset.filter (fun d => 0 < lack (d + 1)) (Finset.range k)).card : ℚ) := by
  refine h'.most.trans ?_
  have h1 : ∑ d ∈ Finset.range k, lack (d + 1) ≤
      ∑ d ∈ Finset.range k, (max 0 (lack (d + 1) - areas) + if 0 < lack (d + 1) then ((areas : ℕ) : ℚ) else 0) := by
    refine Finset.sum_le_sum fun d _ => ?_
    split_ifs with hp
    · have := le_max_right 0 (lack (d + 1) - areas)
      linarith
    · have := le_max_left 0 (lack (d + 1) - areas)
      linarith
  refine h1.trans ?_
  rw [Finset.sum_add_distrib, ← Finset.sum_filter, Finset.sum_const, nsmul_eq_mul, mul_comm (areas : ℚ)]
  linarith [h.least]

/-- C110: the same system with two ample networks. In every year that both studies complete and every tier the energy
not served and the loss-of-load draws of the pool are the same up to the rounding to whole MW: with `lack` what the
pool lacks at a draw, the energies differ by at most 1 MWh per area for every draw with `lack > 0`, and both counts
contain the draws with at least 1 MW per area lacking and no draws with less than 1 MW lacking. -/
theorem C110_networks {l' : ℕ} {c' : Cards n m l'} {s' : Setup n m l'} {step : ℕ} {raw : ℕ → ℕ → ℚ} {sl' : ℕ → ℚ → ℚ}
    {fuel' : ℕ} (hc : AmpleStudy sl fuel c s step raw) (hc' : AmpleStudy sl' fuel' c' s' step raw)
    (hu : c'.units = c.units) (hp : ∀ j, (c'.areas j).peak = (c.areas j).peak)
    (hl : ∀ j, (c'.areas j).lfu = (c.areas j).lfu) (J J' : ℤ) :
    ∃ (load : Fin (n + 1) → ℕ → ℚ) (H : ℕ → ℕ), (∀ j : Fin (n + 1), Scaled (raw j) (c.areas j).peak (load j)) ∧
    (∀ d, 1 ≤ d → d ≤ 8760 / step → Evaluated step load (step * d) (H d)) ∧
    let lack := yearLack c step load H
    ∀ log st evs log' st' evs',
    Ends s.hour s.year s.JPLOUT s.RATES snapNet (s.start J) log st evs →
    Ends s'.hour s'.year s'.JPLOUT s'.RATES snapNet (s'.start J') log' st' evs' →
    ∀ y e e', evs[y]? = some e → evs'[y]? = some e' → ∀ t : Fin 5, t.val < s.hour.NFCST →
    |(e'.H.MGNTP t + e'.H.MGNGP t) - (e.H.MGNTP t + e.H.MGNGP t)| ≤
      ((n + 1 : ℕ) : ℚ) * ((Finset.filter (fun d => 0 < lack t y (d + 1)) (Finset.range (8760 / step))).card : ℚ) ∧
    ∀ x ∈ [e.H.LOLTP t + e.H.LOLGP t, e'.H.LOLTP t + e'.H.LOLGP t],
      ((Finset.filter (fun d => ((n + 1 : ℕ) : ℚ) ≤ lack t y (d + 1)) (Finset.range (8760 / step))).card : ℚ) ≤ x ∧
      x ≤ ((Finset.filter (fun d => 1 ≤ lack t y (d + 1)) (Finset.range (8760 / step))).card : ℚ) := by
  obtain ⟨load, H, hl1, hH, main⟩ := C106_year_partial (C110_calm hc J)
  obtain ⟨load', H', hl1', hH', main'⟩ := C106_year_partial (C110_calm hc' J')
  have hNF : s'.hour.NFCST = s.hour.NFCST := by
    rw [(setup_tiers hc.accepted).1, (setup_tiers hc'.accepted).1]
    unfold tiersOf
    simp only [hl]
  have e1 : load' = load := by
    funext j'
    have := hl1' j'
    rw [hp] at this
    exact scaled_unique this (hl1 j')
  subst e1
  refine ⟨load', H, hl1, hH, ?_⟩
  intro lack log st evs log' st' evs' hE hE' y e e' he he' t ht
  have hb := main log st evs hE y e he t ht
  have hb' := main' log' st' evs' hE' y e' he' t (by rw [hNF]; exact ht)
  have hlack : ∀ d, 1 ≤ d → d ≤ 8760 / step → yearLack c' step load' H' t y d = lack t y d := by
    intro d h1 h2
    show _ = yearLack c step load' H t y d
    unfold yearLack poolLack
    simp only [hu, hl, evaluated_unique (hH' d h1 h2) (hH d h1 h2)]
  have hb2 : YearBooks (lack t y) (n + 1) (8760 / step) (e'.H.MGNTP t + e'.H.MGNGP t) (e'.H.LOLTP t + e'.H.LOLGP t) := by
    have hmem : ∀ d ∈ Finset.range (8760 / step), yearLack c' step load' H' t y (d + 1) = lack t y (d + 1) := fun d hd =>
      hlack (d + 1) (by omega) (by rw [Finset.mem_range] at hd; omega)
    have hfil : ∀ x : ℚ, Finset.filter (fun d => x ≤ yearLack c' step load' H' t y (d + 1)) (Finset.range (8760 / step)) =
        Finset.filter (fun d => x ≤ lack t y (d + 1)) (Finset.range (8760 / step)) := fun x =>
      Finset.filter_congr fun d hd => by rw [hmem d hd]
    obtain ⟨q1, q2, q3, q4⟩ := hb'
    rw [Finset.sum_congr rfl hmem] at q1
    rw [Finset.sum_congr rfl fun d hd => by rw [hmem d hd]] at q2
    rw [hfil] at q3 q4
    exact ⟨q1, q2, q3, q4⟩
  refine ⟨abs_le.2 ⟨?_, ?_⟩, ?_⟩
  · have := books_energy hb2 hb
    linarith
  · have := books_energy hb hb2
    linarith
  · intro x hx
    simp only [List.mem_cons, List.not_mem_nil, or_false] at hx
    rcases hx with rfl | rfl
    · exact ⟨hb.atLeast, hb.atMost⟩
    · exact ⟨hb2.atLeast, hb2.atMost⟩

/-! ## C110 applies -/

/-- The units of `demoCards`; area `A` (200 MW of units) has a peak of 250 MW, area `B` (100 MW of units) one of 10 MW, so that the
pool is short only when a unit is out; `adm` and `cap` of the line and the areas' limit `lim` are free. -/
def ampleCards (adm cap lim : ℚ) : Cards 1 4 1 :=
  { demoCards 1 adm cap with
    areas := ![⟨1, ['A'], 250, 0, fun _ => 0, lim⟩, ⟨2, ['B'], 10, 0, fun _ => 0, lim⟩] }

theorem ample_study (sl : ℕ → ℚ → ℚ) (fuel : ℕ) {adm cap lim : ℚ} (ha : adm ≤ 0) (hc : 260 ≤ cap) (hl : 260 ≤ lim) :
    ∃ (s : Setup 1 4 1) (raw : ℕ → ℕ → ℚ), leeiRead 2 (flatBlocks.flatMap Block.lines) = .ok raw ∧
      AmpleStudy sl fuel (ampleCards adm cap lim) s 1 raw := by
  obtain ⟨raw, h, r0, r1⟩ := flat_read
  have h1 : OneCard (ampleCards adm cap lim) := by
    constructor
    · intro a b; fin_cases a <;> fin_cases b <;> simp [ampleCards]
    · exact (demo_one 1 adm cap).units
  have hk : AllKnown (ampleCards adm cap lim) := by
    constructor
    · intro i; fin_cases i <;> simp [ampleCards, demoCards]
    · intro i; exact ⟨0, by fin_cases i; rfl⟩
    · intro i; exact ⟨1, by fin_cases i; rfl⟩
    · intro x hx; cases hx
    · intro x hx; cases hx
    · intro x hx; cases hx
  have hs : Sensible (ampleCards adm cap lim) :=
    ⟨(demo_sensible 1 adm cap).cap, (demo_sensible 1 adm cap).dur, (demo_sensible 1 adm cap).apart⟩
  have hlo : NoLone (ampleCards adm cap lim) := demo_lone 1 adm cap
  have hread : leeiRead (1 + 1) (ampleCards adm cap lim).leei = .ok raw := h
  obtain ⟨s, hs'⟩ := C64_accepted (c := ampleCards adm cap lim) sl fuel h1 (by norm_num) hk hs hlo.once ⟨raw, h⟩ rfl rfl
  have hraw : ∀ j : Fin 2, ∀ h < 8760, 5 ≤ raw j h := by
    intro j h hh
    fin_cases j
    · show 5 ≤ raw 0 h; rw [r0 h hh]
    · show 5 ≤ raw 1 h; rw [r1 h hh]; norm_num
  have hpp : poolPeak (ampleCards adm cap lim) = 260 := by
    unfold poolPeak
    rw [Fin.sum_univ_two]
    simp [ampleCards, forecast]
    norm_num
  refine ⟨s, raw, h, h1, hs, hlo, ?_, hs', rfl, .inl rfl, rfl, by intro k; fin_cases k; simp [ampleCards, demoCards],
    by intro j; fin_cases j <;> simp [ampleCards], hread, by intro j; fin_cases j <;> simp [ampleCards],
    fun j x hx => by have := hraw j x hx; linarith,
    fun j => ⟨0, by norm_num, by have := hraw j 0 (by norm_num); linarith⟩,
    by intro i; fin_cases i <;> simp [ampleCards, demoCards], ⟨?_, ?_⟩, ?_⟩
  · constructor
    · intro k; fin_cases k; simp [ampleCards, demoCards]
    · intro a
      fin_cases a
      · exact .refl
      · exact .single ⟨0, .inl ⟨rfl, rfl⟩⟩
    · intro k t; fin_cases k; exact ha
    · intro k t; fin_cases k; exact ⟨by show (0 : ℚ) ≤ cap; linarith, by show (0 : ℚ) ≤ cap; linarith⟩
  · rw [hpp]; intro k t; fin_cases k; exact ⟨hc, hc⟩
  · rw [hpp]; intro j; fin_cases j <;> exact hl
  · intro load hload t x hx season
    refine ⟨0, ?_⟩
    have e : load 0 x = 250 := by
      obtain ⟨y, hy, _, _, e⟩ := hload 0
      rw [e]
      show 250 * raw 0 x / raw 0 y = 250
      rw [r0 x hx, r0 y hy]; norm_num
    have hsum : ∑ i ∈ unitsIn (ampleCards adm cap lim) 0, ((ampleCards adm cap lim).units i).cap (season i) = 200 := by
      unfold unitsIn
      rw [Finset.sum_filter, Fin.sum_univ_four]
      simp [ampleCards, demoCards]
      norm_num
    rw [e, hsum]
    simp [ampleCards, forecast]
    norm_num

/-- C110 applies, also to two different networks: the assistance over the line is needed in every hour, and is nowhere
near a limit. -/
example (sl : ℕ → ℚ → ℚ) (fuel : ℕ) : ∃ (s s' : Setup 1 4 1) (raw : ℕ → ℕ → ℚ),
    AmpleStudy sl fuel (ampleCards (-100) 260 1000) s 1 raw ∧ AmpleStudy sl fuel (ampleCards (-7) 5000 300) s' 1 raw ∧
    (ampleCards (-7) 5000 300).units = (ampleCards (-100) 260 1000).units ∧
    (∃ (log : List Ev) (st : St _) (e : Exit), Reach s.cfg (s.start 1) log st ∧ step s.cfg st = .ok (.exit e) ∧
      (e = .converged ∨ e = .finished)) := by
  obtain ⟨s, raw, h, hs⟩ := ample_study sl fuel (adm := -100) (cap := 260) (lim := 1000) (by norm_num) (by norm_num) (by norm_num)
  obtain ⟨s', raw', h', hs'⟩ := ample_study sl fuel (adm := -7) (cap := 5000) (lim := 300) (by norm_num) (by norm_num) (by norm_num)
  have e : raw' = raw := Except.ok.inj (h'.symm.trans h)
  subst e
  exact ⟨s, s', raw', hs, hs', rfl, C110_completes hs (.inl rfl) (by simp [ampleCards, demoCards]; norm_num)
    (by simp [ampleCards, demoCards]) 1⟩

end Narp.Props
