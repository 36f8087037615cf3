import Verif.Spec.Abort
import Verif.Props.NetworkFree
import Verif.Props.Ample
import Verif.Props.CardWhole

/-!
# C43: exactly which runs are aborted
-/

namespace Narp.Props
open Narp Narp.Spec BigOperators

section Hour
variable {n m l : ℕ}

/-- One tier in an ample network, if some area is short of at least 1 MW. -/
theorem tierBody_ample {LP : LEnds n l} {BLPA : Fin l → Fin 6 → LnPar} {NR : Fin (n + 1)} {NLS : ℤ}
    {c : HourIn (n + 1) m l (NetSt n l)} (hg : Grid LP BLPA NR) (hc : c.transm = hourTransm noRedispatch LP BLPA NR NLS)
    {d : Draw (n + 1) l} (hd : ∀ i, ∃ k : Fin 6, d.LNSTAT i = ((k : ℕ) : ℤ) + 1) {hr : ℕ}
    (hz : ∀ j, d.TRNSFR j + d.TRNSFJ j = 0) (hcap : ∀ j, 0 ≤ d.SYSCON j)
    (hload : ∀ t j, 0 ≤ findld t hr c.HRLOAD c.FCTERR j) {K : ℚ} (hK : ∀ t, ∑ j, findld t hr c.HRLOAD c.FCTERR j ≤ K)
    (hB : ∀ i s, K ≤ (BLPA i s).fwd ∧ K ≤ (BLPA i s).bwd) (pk : Bool) (t : Fin 5)
    (hs : ∃ j, d.SYSCON j - findld t hr c.HRLOAD c.FCTERR j ≤ -1) (f : ℤ) (w : HourSt (n + 1) m l (NetSt n l))
    (hI : f ≠ 1 ∨ Intact LP BLPA NR w.net) (h34 : w.net.BN.c3 = w.net.BN.c4) (h3 : ∀ a, K ≤ w.net.BN.c3 a) :
    ∃ r, tierBody c d hr pk t f w = .ok r ∧ ∀ f' w', r = .next f' w' → ∀ a, K ≤ w'.net.BN.c3 a := by
  choose k hk using hd
  obtain ⟨j0, hj0⟩ := hs
  have hneg : tierMargin c d hr t j0 < 0 := by
    unfold tierMargin marginInt pyInt
    rw [if_neg (by linarith)]
    have : d.SYSCON j0 - findld t hr c.HRLOAD c.FCTERR j0 ≤ (((-1 : ℤ)) : ℚ) := by push_cast; linarith
    exact lt_of_le_of_lt (Int.ceil_le.2 this) (by norm_num)
  have hmem : j0 ∈ (List.finRange (n + 1)).filter fun j => decide (tierMargin c d hr t j < 0) := by
    rw [List.mem_filter]; exact ⟨List.mem_finRange _, by simpa using hneg⟩
  have hne := List.ne_nil_of_mem hmem
  have hpos := List.length_pos_of_mem hmem
  unfold tierBody
  simp only
  rw [if_neg hne, if_neg (by omega)]
  by_cases hall : ((List.finRange (n + 1)).filter fun j => decide (tierMargin c d hr t j < 0)).length ≠ n + 1
  · rw [if_pos hall]
    have hlen := List.length_filter_le (fun j => decide (tierMargin c d hr t j < 0)) (List.finRange (n + 1))
    rw [List.length_finRange] at hlen
    have hn : 0 < n := by omega
    have hsum : NLS = 0 → (∀ a, 0 ≤ findld t hr c.HRLOAD c.FCTERR a) ∧ 0 < ∑ a, findld t hr c.HRLOAD c.FCTERR a := by
      intro _
      refine ⟨hload t, lt_of_lt_of_le ?_ (Finset.single_le_sum (fun a _ => hload t a) (Finset.mem_univ j0))⟩
      linarith [hcap j0]
    obtain ⟨⟨out, net⟩, hr1⟩ := transm_ample (NLS := NLS) (K := K) hn
      (t := ⟨f, d.LNSTAT, d.TRNSFR, d.TRNSFJ, d.SYSCON, findld t hr c.HRLOAD c.FCTERR⟩) hg hI hk hsum hz
      (le_trans (Finset.sum_le_sum fun a _ => max_le (hload t a) (by linarith [hcap a])) (hK t)) hB
      (fun a => ⟨h3 a, by rw [← h34]; exact h3 a⟩)
    obtain ⟨hi, e3, e4⟩ := C39_evaluation_partial hg (by exact hI) hk hsum h34 hr1
    have hcall : c.transm ⟨f, d.LNSTAT, d.TRNSFR, d.TRNSFJ, d.SYSCON, findld t hr c.HRLOAD c.FCTERR⟩ w.net =
        .ok ((out.JFLAG, out.SADJ), net) := by
      rw [hc]; unfold hourTransm; rw [hr1]; rfl
    rw [hcall]
    simp only
    by_cases hJ : out.JFLAG = 0
    · rw [if_pos hJ]; exact ⟨_, rfl, fun f' w' e => by cases e⟩
    rw [if_neg hJ]
    split
    · refine ⟨_, rfl, fun f' w' e a => ?_⟩
      cases e
      show K ≤ net.BN.c3 a; rw [e3]; exact h3 a
    · exact ⟨_, rfl, fun f' w' e => by cases e⟩
  · rw [if_neg hall]
    exact ⟨_, rfl, fun f' w' e a => by cases e; exact h3 a⟩

/-- A tier in which no area is short of 1 MW. -/
theorem tierBody_none {k : ℕ} {ν : Type} {c : HourIn k m l ν} {d : Draw k l} {hr : ℕ} (pk : Bool) (t : Fin 5) (f : ℤ)
    (w : HourSt k m l ν) (hs : ¬ ∃ j, d.SYSCON j - findld t hr c.HRLOAD c.FCTERR j ≤ -1) :
    tierBody c d hr pk t f w = .error .indexError := by
  have hfil : ((List.finRange k).filter fun j => tierMargin c d hr t j < 0) = [] := by
    rw [List.filter_eq_nil_iff]
    intro j _
    simp only [decide_eq_true_eq, not_lt]
    unfold tierMargin marginInt pyInt
    split
    · exact Int.floor_nonneg.2 (by assumption)
    · by_contra hc
      refine hs ⟨j, ?_⟩
      have h1 : ⌈d.SYSCON j - findld t hr c.HRLOAD c.FCTERR j⌉ ≤ -1 := by
        change ¬ (0 : ℤ) ≤ ⌈d.SYSCON j - findld t hr c.HRLOAD c.FCTERR j⌉ at hc
        omega
      have := Int.ceil_le.1 h1
      push_cast at this
      exact this
  unfold tierBody
  simp only [hfil, if_true]

/-- Replacing the transmission module by one that does the same whenever the first one returns. -/
theorem tierBody_mono {k : ℕ} {ν : Type} {c c' : HourIn k m l ν} (hc : c = { c' with transm := c.transm })
    (ht : ∀ t w r, c.transm t w = .ok r → c'.transm t w = .ok r) {d : Draw k l} {hr : ℕ} {pk : Bool} {t : Fin 5} {f : ℤ}
    {w : HourSt k m l ν} {r : TierRes k m l ν} (h : tierBody c d hr pk t f w = .ok r) : tierBody c' d hr pk t f w = .ok r := by
  have hm : tierMargin c d hr t = tierMargin c' d hr t := by rw [hc]; rfl
  have hf : findld t hr c.HRLOAD c.FCTERR = findld t hr c'.HRLOAD c'.FCTERR := by rw [hc]
  unfold tierBody at h ⊢
  rw [hm, hf] at h
  dsimp only at h ⊢
  split_ifs at h ⊢
  · exact h
  · cases hx : c.transm ⟨f, d.LNSTAT, d.TRNSFR, d.TRNSFJ, d.SYSCON, findld t hr c'.HRLOAD c'.FCTERR⟩ w.net with
    | error x => rw [hx] at h; cases h
    | ok x => rw [hx] at h; rw [ht _ _ _ hx]; exact h
  · exact h

/-- All tiers of a draw in an ample network; `c'` is the program, `c` the program without the re-dispatch. -/
theorem tierLoop_verdict {LP : LEnds n l} {BLPA : Fin l → Fin 6 → LnPar} {NR : Fin (n + 1)} {NLS : ℤ}
    {c : HourIn (n + 1) m l (NetSt n l)} (hg : Grid LP BLPA NR) (hc : c.transm = hourTransm noRedispatch LP BLPA NR NLS)
    {d : Draw (n + 1) l} (hd : ∀ i, ∃ k : Fin 6, d.LNSTAT i = ((k : ℕ) : ℤ) + 1) {hr : ℕ}
    (hz : ∀ j, d.TRNSFR j + d.TRNSFJ j = 0) (hcap : ∀ j, 0 ≤ d.SYSCON j)
    (hload : ∀ j t, 0 < c.HRLOAD j hr * c.FCTERR j t) {K : ℚ} (hK : ∀ t, ∑ j, c.HRLOAD j hr * c.FCTERR j t ≤ K)
    (hB : ∀ i s, K ≤ (BLPA i s).fwd ∧ K ≤ (BLPA i s).bwd) (pk : Bool) {c' : HourIn (n + 1) m l (NetSt n l)}
    (hcc : c = { c' with transm := c.transm }) (ht : ∀ t w r, c.transm t w = .ok r → c'.transm t w = .ok r) :
    ∀ (ts : List (Fin 5)) (first : Bool) (w : HourSt (n + 1) m l (NetSt n l)),
      (first = false → Intact LP BLPA NR w.net) ∧ w.net.BN.c3 = w.net.BN.c4 → (∀ a, K ≤ w.net.BN.c3 a) →
      (Survives NLS d.SYSCON (fun t j => c.HRLOAD j hr * c.FCTERR j t) ts →
        ∃ w', tierLoop c' d hr pk ts (if first then 0 else 1) w = .ok w') ∧
      (¬ Survives NLS d.SYSCON (fun t j => c.HRLOAD j hr * c.FCTERR j t) ts →
        tierLoop c' d hr pk ts (if first then 0 else 1) w = .error .indexError) := by
  intro ts
  induction ts with
  | nil => intro first w _ _; exact ⟨fun _ => ⟨_, rfl⟩, fun h => absurd trivial h⟩
  | cons t ts ih =>
    intro first w hn h3
    have hld : ∀ t j, findld t hr c.HRLOAD c.FCTERR j = c.HRLOAD j hr * c.FCTERR j t := fun _ _ => rfl
    have hiff : (∃ j, d.SYSCON j - findld t hr c.HRLOAD c.FCTERR j ≤ -1) ↔
        ∃ j, d.SYSCON j + 1 ≤ c.HRLOAD j hr * c.FCTERR j t :=
      exists_congr fun j => by rw [hld]; constructor <;> intro h <;> linarith
    unfold tierLoop Survives
    by_cases hs : ∃ j, d.SYSCON j - findld t hr c.HRLOAD c.FCTERR j ≤ -1
    swap
    · rw [tierBody_none (c := c') pk t _ w (by
        have hf : findld t hr c.HRLOAD c.FCTERR = findld t hr c'.HRLOAD c'.FCTERR := by rw [hcc]
        rw [← hf]; exact hs)]
      exact ⟨fun h => absurd (hiff.2 h.1) hs, fun _ => rfl⟩
    obtain ⟨r, hb, hK'⟩ := tierBody_ample hg hc hd hz hcap (fun t j => (hload j t).le) hK hB pk t hs
      (if first then 0 else 1) w (by
        cases first
        · exact .inr (hn.1 rfl)
        · exact .inl (by decide)) hn.2 h3
    rw [tierBody_mono hcc ht hb]
    have hs' := hiff.1 hs
    obtain ⟨_, hcase⟩ := tierBody_spec hb
    rcases hcase with ⟨all, rfl⟩ | ⟨na, o, net1, ha, hcase⟩
    · have he : deficit c d hr t = borne NLS d.SYSCON (fun j => c.HRLOAD j hr * c.FCTERR j t) := by
        funext j
        have hj : max 0 (deficit c d hr t j) = deficit c d hr t j := max_eq_right (by linarith [all j])
        unfold borne
        by_cases hr0 : NLS ≠ 0
        · rw [if_pos hr0, ← hj]
          exact own_need all j
        · rw [if_neg hr0, if_pos (show ∀ i, 1 ≤ (fun j => c.HRLOAD j hr * c.FCTERR j t) i - d.SYSCON i from all), ← hj]
          rfl
      have hgo : ∃ j, 1 ≤ borne NLS d.SYSCON (fun j => c.HRLOAD j hr * c.FCTERR j t) j := ⟨0, by rw [← he]; exact all 0⟩
      obtain ⟨i1, i2⟩ := ih first (tierStats t (marginInt fun j => -deficit c d hr t j) pk w) hn h3
      exact ⟨fun h => i1 (h.2 hgo), fun h => i2 fun h' => h ⟨hs', fun _ => h'⟩⟩
    · obtain ⟨g1, g2, g3⟩ := assist_shared hg hc hd hz hload hn na ha
      rcases hcase with ⟨rfl, rfl⟩ | ⟨S, rfl, ⟨hlt, rfl⟩ | ⟨hge, rfl⟩⟩
      · exact ⟨fun _ => ⟨_, rfl⟩, fun h => absurd ⟨hs', fun ⟨j, hj⟩ => absurd (g2 rfl j) (by linarith)⟩ h⟩
      · refine ⟨fun _ => ⟨_, rfl⟩, fun h => absurd ⟨hs', fun ⟨j, hj⟩ => absurd hj ?_⟩ h⟩
        show ¬ 1 ≤ borne NLS d.SYSCON (fun j => c.HRLOAD j hr * c.FCTERR j t) j
        rw [← g3 S rfl j]
        exact not_le.2 (max_lt (by norm_num) (hlt j))
      · have he := assist_exact hg hc hd hz hload hn na ha hge
        have hgo : ∃ j, 1 ≤ borne NLS d.SYSCON (fun j => c.HRLOAD j hr * c.FCTERR j t) j := by rw [← he]; exact hge
        obtain ⟨i1, i2⟩ := ih false _ g1 (hK' _ _ rfl)
        exact ⟨fun h => i1 (h.2 hgo), fun h => i2 fun h' => h ⟨hs', fun _ => h'⟩⟩

end Hour

section Loop
variable {σ : Type}

/-- What one iteration of the main loop does: it ends, processes an event other than a draw, or comes to a draw. -/
theorem step_outcome {cfg : Cfg σ} (hJ : StepOK cfg.JSTEP) {N : ℕ} {w : σ} (hT : PlanOK cfg.JPLOUT N)
    (hR : ∀ row ∈ cfg.RATES, row.length = 4) {log : List Ev} {s : St σ} (h : Reach cfg (narpInit cfg.JSTEP N w) log s)
    (hy : ∀ c e, ∃ r, cfg.yearFx c e s.world = .ok r) :
    (∃ e, step cfg s = .ok (.exit e)) ∨ (∃ ev s', step cfg s = .ok (.next ev s') ∧ ev.kind ≠ 1) ∨
    ∃ k : ℕ, (∃ c1, remove s.cal = .ok (((k + 1) * cfg.JSTEP, 1), c1)) ∧
      (∀ x, cfg.hourFx ((k + 1) * cfg.JSTEP) s.RATING s.PLNDST s.world = .error x → step cfg s = .error x) ∧
      (∀ u, cfg.hourFx ((k + 1) * cfg.JSTEP) s.RATING s.PLNDST s.world = .ok u →
        ∃ s', step cfg s = .ok (.next ⟨(k + 1) * cfg.JSTEP, 1⟩ s')) := by
  obtain ⟨n, q, hI⟩ := reach_inv hJ.lo hJ.hi h
  obtain ⟨i, q0, c1, hq, hrem, hfile, hst⟩ := step_shape hI
  rw [hst]
  by_cases hf : s.RFLAG = 1
  · rw [if_pos hf]; exact .inl ⟨_, rfl⟩
  rw [if_neg hf]
  by_cases ht : (occ cfg.JSTEP i (n i)).time > cfg.FINISH + 1
  · rw [if_pos ht]; exact .inl ⟨_, rfl⟩
  rw [if_neg ht]
  right
  set s1 : St σ := { s with cal := c1, CLOCK := (occ cfg.JSTEP i (n i)).time } with hs1
  have hfil : ∀ t k, ∃ c2, filem s1.cal t k = .ok c2 := fun t k => by
    obtain ⟨c2, h2, _⟩ := hfile ⟨t, k⟩
    exact ⟨c2, h2⟩
  have hev : ∀ {s2}, events cfg s1 (kind i) = .ok s2 → kind i ≠ 1 →
      ∃ ev s', (events cfg s1 (kind i)).map (fun s' => StepRes.next (occ cfg.JSTEP i (n i)) s') = .ok (.next ev s') ∧ ev.kind ≠ 1 := by
    intro s2 h2 hk
    rw [h2]
    exact ⟨_, _, rfl, hk⟩
  have hkall : ∀ i, kind i = 1 ∨ kind i = 2 ∨ kind i = 3 ∨ kind i = 4 := by decide +kernel
  rcases hkall i with hk | hk | hk | hk
  · right
    have hi := kind_eq_one hk
    subst hi
    have htime : (occ cfg.JSTEP 0 (n 0)).time = (n 0 + 1) * cfg.JSTEP := by
      show cfg.JSTEP + (n 0 : ℚ) * cfg.JSTEP = _
      ring
    obtain ⟨c2, h2⟩ := hfil (s1.CLOCK + cfg.JSTEP) 1
    have hocc : occ cfg.JSTEP 0 (n 0) = ⟨(n 0 + 1) * cfg.JSTEP, 1⟩ := by rw [← htime]; rfl
    refine ⟨n 0, ⟨c1, by rw [hrem, htime]; rfl⟩, fun x hx => ?_, fun u hu => ?_⟩
    · have hx' : cfg.hourFx s1.CLOCK s1.RATING s1.PLNDST s1.world = .error x := by rw [← hx, ← htime]
      rw [hk]
      unfold events
      simp only [pyInt_one, if_true]
      unfold hourEv
      simp only [h2, hx', bind, Except.bind]
      rfl
    · have hu' : cfg.hourFx s1.CLOCK s1.RATING s1.PLNDST s1.world = .ok u := by rw [← hu, ← htime]
      rw [hk, hocc]
      unfold events
      simp only [pyInt_one, if_true]
      unfold hourEv
      simp only [h2, hu', bind, Except.bind, pure, Except.pure]
      exact ⟨_, rfl⟩
  · left
    obtain ⟨c2, h2⟩ := hfil (s1.CLOCK + 168) 2
    have hlen : s1.PLNDST.length = N := (reach_plndst_length hJ h : s.PLNDST.length = N)
    obtain ⟨p, hp⟩ := weekPlan_ok (T := cfg.JPLOUT) (J := s1.JHOUR) (p := s1.PLNDST)
      (by rw [hlen]; exact hT) (jhour_ge hI : -1 ≤ s.JHOUR)
    have : ∃ s2, events cfg s1 (kind i) = .ok s2 := by
      rw [hk]
      unfold events
      simp only [pyInt_two]
      rw [if_neg (by decide), if_pos trivial]
      unfold week
      simp only [h2, hp, bind, Except.bind, pure, Except.pure]
      exact ⟨_, rfl⟩
    obtain ⟨s2, hs2⟩ := this
    exact hev hs2 (by rw [hk]; norm_num)
  · left
    obtain ⟨c2, h2⟩ := hfil (s1.CLOCK + 8760) 3
    obtain ⟨r, hr, _⟩ := mapM_ok (f := fun row => rd row ((s1.IQ + 1) % 4)) cfg.RATES (by
      intro row hrow
      obtain ⟨x, _, hx⟩ := rd_ok (a := row) (i := (s1.IQ + 1) % 4) (by rw [hR row hrow]; omega)
        (by rw [hR row hrow]; omega)
      exact ⟨x, hx⟩)
    have : ∃ s2, events cfg s1 (kind i) = .ok s2 := by
      rw [hk]
      unfold events
      simp only [pyInt_three]
      rw [if_neg (by decide), if_neg (by decide), if_pos trivial]
      unfold quartr
      simp only [hr, h2, bind, Except.bind, pure, Except.pure]
      exact ⟨_, rfl⟩
    obtain ⟨s2, hs2⟩ := this
    exact hev hs2 (by rw [hk]; norm_num)
  · left
    obtain ⟨c2, h2⟩ := hfil (s1.CLOCK + 8760) 4
    obtain ⟨u, hu⟩ := hy s1.CLOCK c2
    change cfg.yearFx s1.CLOCK c2 s1.world = .ok u at hu
    have : ∃ s2, events cfg s1 (kind i) = .ok s2 := by
      rw [hk]
      unfold events
      simp only [pyInt_four]
      rw [if_neg (by decide), if_neg (by decide), if_neg (by decide), if_pos trivial]
      unfold yearEv
      simp only [h2, hu, bind, Except.bind, pure, Except.pure]
      exact ⟨_, rfl⟩
    obtain ⟨s2, hs2⟩ := this
    exact hev hs2 (by rw [hk]; norm_num)

/-- The annual evaluation of a program with legal settings does not raise in any reached state. -/
theorem year_ok {n m l : ℕ} {ν α : Type} {hc : HourIn n m l ν} {yc : YearIn} {T : List (List ℤ)} {R : List (List ℚ)}
    {snap : ν → α} {g0 : Fin m → ℤ} {l0 : Fin l → ℤ} {net : ν} {I A : ℤ} (hJ : StepOK hc.JSTEP) {log : List Ev}
    {s : St (World n m l ν α)}
    (hre : Reach (narpCfg hc yc T R snap) (narpInit hc.JSTEP m (worldInit g0 l0 net I A)) log s)
    (hNR : yc.NORR.val < yc.NFCST) (hL : 0 < yc.LSTEP) (hI : yc.IOJ = 0 ∨ (yc.INDX = 1 ∧ 0 < n))
    (hK : yc.KWHERE = 1 → 0 ≤ yc.KVLOC ∧ yc.KVLOC < n) (c : ℚ) (e : Cal) :
    ∃ r, (narpCfg hc yc T R snap).yearFx c e s.world = .ok r := by
  obtain ⟨evs, hE⟩ := ends_of_reach hre
  obtain ⟨_, _, _, _, w1, w2⟩ := ends_inv hJ hE
  simp only [narpCfg, yearWorld]
  obtain ⟨h', hh', _⟩ := histLoop_aux hNR hL w1 w2 (List.finRange n) s.world.y.hist (List.nodup_finRange n)
  have hsel : ∀ (CH CP : Cum n) (WH WP : PoolW), ∃ S, selSum yc CH CP WH WP = .ok S := by
    intro CH CP WH WP
    unfold selSum
    simp only
    split_ifs with h1
    all_goals first
      | exact ⟨_, rfl⟩
      | (obtain ⟨k1, k2⟩ := hK h1
         rw [pyIdx_ok k1 k2]
         simp only
         rw [dif_pos (by omega)]
         exact ⟨_, rfl⟩)
  obtain ⟨rows, hrows⟩ : ∃ rows, yearRows yc s.world.h.H s.world.h.P s.world.y.rows = .ok rows := by
    unfold yearRows
    rcases hI with h0 | ⟨h1, hn⟩
    · rw [if_neg (by simpa using h0)]; exact ⟨_, rfl⟩
    · split_ifs
      · rw [h1]; exact annual_daily_ok hn _ _ _
      · exact ⟨_, rfl⟩
  unfold yearBody
  unfold histLoop
  simp only [hh', hrows, bind, Except.bind]
  obtain ⟨S, hS⟩ := hsel (accum yc.NFCST s.world.h.H s.world.y.CH) (accum yc.NFCST s.world.h.P s.world.y.CP)
    (poolW yc.NFCST s.world.h.H) (poolW yc.NFCST s.world.h.P)
  rw [hS]
  exact ⟨_, rfl⟩

end Loop

section Study
variable {n m l : ℕ} {sl : ℕ → ℚ → ℚ} {fuel : ℕ} {c : Cards n m l} {s : Setup n m l}

/-- An accepted sensible input with an ample network, whatever its areas have and need. -/
structure AmpleInput (sl : ℕ → ℚ → ℚ) (fuel : ℕ) (c : Cards n m l) (s : Setup n m l) (step : ℕ) (raw : ℕ → ℕ → ℚ) :
    Prop where
  one : OneCard c
  sensible : Sensible c
  lone : NoLone c
  network : SoundNetwork c
  accepted : setup sl fuel c = .ok s
  steps : c.misc.JSTEP = step
  mode : step = 1 ∨ step = 24
  freq : c.misc.JFREQ = 1
  number : ∀ k, (c.lines k).number ≤ l
  lfu : ∀ j, 0 ≤ (c.areas j).lfu ∧ (c.areas j).lfu < 40
  load : leeiRead (n + 1) c.leei = .ok raw
  peak : ∀ j, 0 < (c.areas j).peak
  pos : ∀ (j : Fin (n + 1)), ∀ h < 8760, 0 < raw j h
  some_load : ∀ j : Fin (n + 1), ∃ h < 8760, 1 / 1000 ≤ raw j h
  derating : ∀ i, 0 ≤ (c.units i).der ∧ (c.units i).der ≤ 100
  ample : Ample c

theorem AmpleStudy.input {step : ℕ} {raw : ℕ → ℕ → ℚ} (hc : AmpleStudy sl fuel c s step raw) : AmpleInput sl fuel c s step raw :=
  ⟨hc.one, hc.sensible, hc.lone, hc.network, hc.accepted, hc.steps, hc.mode, hc.freq, hc.number, hc.lfu, hc.load, hc.peak,
    hc.pos, hc.some_load, hc.derating, hc.ample⟩

/-- Going through the forecast levels at hour `N` with what is drawn in the state `st`. -/
def SurvivesHour (c : Cards n m l) (s : Setup n m l) (st : St (World (n + 1) m l (NetSt n l) ((Fin (n + 1) → Fin (n + 1)) × NMat n × NMat n)))
    (N : ℕ) : Prop :=
  Survives c.misc.NLS
    (hourDraw s.hour (hourOf (N % 8760) / 24) (fun i => st.RATING.getD i 0) (fun i => st.PLNDST.getD i 0) st.world.h).1.SYSCON
    (fun t j => s.hour.HRLOAD j (hourUsed s.hour (N % 8760)) * forecast (c.areas j).lfu t)
    ((List.finRange 5).take s.hour.NFCST)

theorem free_mono (h1 : OneCard c) (h : setup sl fuel c = .ok s) (hnum : ∀ k, (c.lines k).number ≤ l) {LP : LEnds n l}
    (hLP : ∀ k, (c.areas (LP k).1).name = (c.lines k).src ∧ (c.areas (LP k).2).name = (c.lines k).dst) :
    ∀ t w r, hourTransm noRedispatch LP (fun k => dataxBLPA (c.lines k)) 0 c.misc.NLS t w = .ok r → s.hour.transm t w = .ok r := by
  intro t w r e
  obtain ⟨wr, H, hwa, x1, x2⟩ := setup_wiring h1 h
  have hLP' : wr.LP = LP := funext fun k => Prod.ext (h1.areas ((hwa.src k).trans (hLP k).1.symm))
    (h1.areas ((hwa.dst k).trans (hLP k).2.symm))
  have hb : ∀ a b, dataxLINENO wr.LP wr.number a b < l :=
    lineno_bound wr.LP fun k => by rw [hwa.number k]; have := hnum k; omega
  rw [x1]
  show netCall (dataxLINENO wr.LP wr.number) fuel c.misc.IOI wr.LP (fun k => dataxBLPA (c.lines k)) 0 c.misc.NLS t w = _
  unfold netCall
  rw [helpCheck_small hb, hLP']
  show hourTransm _ _ _ _ _ _ _ = _
  unfold hourTransm at e ⊢
  generalize hx : transm noRedispatch LP (fun k => dataxBLPA (c.lines k)) 0 c.misc.NLS t w = x at e
  cases x with
  | error x => cases e
  | ok x => rw [transm_mono (lp := redispatch fuel c.misc.IOI) (fun x o h => by cases h) hx]; exact e

/-- A draw evaluated without re-dispatch gives the same in the program, with an exception too if it is not one of the network. -/
theorem hour_exact {step : ℕ} {raw : ℕ → ℕ → ℚ} (hc : AmpleInput sl fuel c s step raw) (JSEED : ℤ)
    {log : List Ev} {st : St _} (hr : Reach s.cfg (s.start JSEED) log st) (N : ℕ) :
    (SurvivesHour c s st N → ∃ w', hourBody s.hour N (fun i => st.RATING.getD i 0) (fun i => st.PLNDST.getD i 0) st.world.h = .ok w') ∧
    (¬ SurvivesHour c s st N →
      hourBody s.hour N (fun i => st.RATING.getD i 0) (fun i => st.PLNDST.getD i 0) st.world.h = .error .indexError) := by
  have h := hc.accepted
  obtain ⟨LP, hLP⟩ := ends_exist hc.one h
  have hJs : s.hour.JSTEP = step := by rw [C64_step h, hc.steps]; norm_num
  have hJ : StepOK s.hour.JSTEP := by
    rw [hJs]
    rcases hc.mode with e | e <;> rw [e]
    · left; norm_num
    · right; norm_num
  have hJF : s.hour.JFREQ = 1 := by
    obtain ⟨wr, raw, T, ITAB, ID', hw, _, _, _, _, rfl⟩ := setup_ok h
    exact hc.freq
  have hFE : ∀ j, s.hour.FCTERR j = dataxFCTERR (c.areas j).lfu := by
    obtain ⟨wr, raw, T, ITAB, ID', hw, _, _, _, _, rfl⟩ := setup_ok h
    exact fun j => rfl
  have hload : ∀ j : Fin (n + 1), Scaled (raw j) (c.areas j).peak (s.hour.HRLOAD j) := fun j =>
    loads_scaled h hc.load j (hc.peak j) (fun x hx => (hc.pos j x hx).le) (hc.some_load j)
  obtain ⟨_, _, _, hld, _, _, hmx⟩ := C64_loads h
  have hbd : ∀ j, ∀ x < 8760, 0 < s.hour.HRLOAD j x ∧ s.hour.HRLOAD j x ≤ (c.areas j).peak := by
    intro j x hx
    obtain ⟨y, hy, hy0, hmax, e⟩ := hload j
    rw [e]
    refine ⟨div_pos (mul_pos (hc.peak j) (hc.pos j x hx)) hy0, ?_⟩
    rw [div_le_iff₀ hy0]
    exact mul_le_mul_of_nonneg_left (hmax x hx) (hc.peak j).le
  have hF : ∀ j t, s.hour.FCTERR j t = forecast (c.areas j).lfu t := by
    intro j t
    rw [hFE]
    unfold dataxFCTERR forecast
    fin_cases t <;> simp <;> ring
  have hFpos : ∀ j t, 0 < s.hour.FCTERR j t := by
    intro j t
    have := hc.lfu j
    rw [hFE]
    unfold dataxFCTERR
    fin_cases t <;> simp <;> linarith
  have hmx' : ∀ d < 365, s.hour.MXPLHR d < 8760 := fun d hd => by have := (hmx d).2.1; omega
  have hk : N % 8760 < 8760 := Nat.mod_lt _ (by norm_num)
  have hN : (N : ℚ) = 8760 * ((N / 8760 : ℕ) : ℚ) + ((N % 8760 : ℕ) : ℚ) := by
    exact_mod_cast (Nat.div_add_mod N 8760).symm
  have hused : hourUsed s.hour (N % 8760) < 8760 := by
    unfold hourUsed
    split_ifs
    · exact_mod_cast hmx' _ (by unfold hourOf; split_ifs <;> omega)
    · unfold hourOf; split_ifs <;> omega
  set day := hourOf (N % 8760) / 24
  have hz : ∀ j, (hourDraw s.hour day (fun i => st.RATING.getD i 0) (fun i => st.PLNDST.getD i 0) st.world.h).1.TRNSFR j +
      (hourDraw s.hour day (fun i => st.RATING.getD i 0) (fun i => st.PLNDST.getD i 0) st.world.h).1.TRNSFJ j = 0 := by
    intro j
    obtain ⟨_, a, b, _⟩ := C64_units hc.one h day (fun i => st.RATING.getD i 0) (fun i => st.PLNDST.getD i 0) st.world.h j
    rw [a, b, add_zero]
  have hnet3 : ∀ j, st.world.h.net.BN.c3 j = (c.areas j).flowLimit := fun j => (C64_limits_run h hJ JSEED hr j).1
  have hnet4 : ∀ j, st.world.h.net.BN.c4 j = (c.areas j).flowLimit := fun j => (C64_limits_run h hJ JSEED hr j).2
  have hpp : 0 < poolPeak c := Finset.sum_pos (fun j _ => mul_pos (hc.peak j) (by
    have := hc.lfu j; unfold forecast; simp; linarith)) ⟨0, Finset.mem_univ _⟩
  set F : HourIn (n + 1) m l (NetSt n l) :=
    { s.hour with transm := hourTransm noRedispatch LP (fun k => dataxBLPA (c.lines k)) 0 c.misc.NLS } with hFdef
  have hcc : F = { s.hour with transm := F.transm } := rfl
  have hv := tierLoop_verdict (c := F) (c' := s.hour) (K := poolPeak c) (sound_grid hc.one hc.network hLP) rfl
    (d := (hourDraw s.hour day (fun i => st.RATING.getD i 0) (fun i => st.PLNDST.getD i 0) st.world.h).1)
    (hr := hourUsed s.hour (N % 8760))
    (fun i => lineState_idx (fun q => s.hour.PROBL q i) (variate (mul31 65539 (st.world.h.ILSEED i)))) hz
    (capacity_nonneg hc.one hc.sensible hc.derating h hJ JSEED hr day)
    (fun j t => mul_pos (hbd j _ hused).1 (hFpos j t))
    (fun t => Finset.sum_le_sum fun j _ => by
      show s.hour.HRLOAD j _ * s.hour.FCTERR j t ≤ _
      rw [hF]
      exact mul_le_mul (hbd j _ hused).2 (forecast_bounds (hc.lfu j) t).2 (forecast_bounds (hc.lfu j) t).1 (hc.peak j).le)
    (fun k t => by
      have := hc.ample.lines k t
      simp only [dataxBLPA]
      rw [if_neg (by linarith [this.1]), if_neg (by linarith [this.2])]
      exact this)
    (peakOf s.hour (N % 8760)) hcc (free_mono hc.one h hc.number hLP) ((List.finRange 5).take s.hour.NFCST) true
    (hourDraw s.hour day (fun i => st.RATING.getD i 0) (fun i => st.PLNDST.getD i 0) st.world.h).2
    ⟨fun e => absurd e (by decide), by
      show st.world.h.net.BN.c3 = st.world.h.net.BN.c4
      funext j; rw [hnet3, hnet4]⟩
    (fun a => by
      show _ ≤ st.world.h.net.BN.c3 a
      rw [hnet3]; exact hc.ample.areas a)
  have e1 : (fun (t : Fin 5) (j : Fin (n + 1)) => F.HRLOAD j (hourUsed s.hour (N % 8760)) * F.FCTERR j t) =
      fun t j => s.hour.HRLOAD j (hourUsed s.hour (N % 8760)) * forecast (c.areas j).lfu t := by
    funext t j
    show _ * s.hour.FCTERR j t = _
    rw [hF]
  rw [e1] at hv
  rw [hN, hourBody_peak s.hour hJF (N / 8760) (N % 8760) hk hmx']
  exact hv

/-- C43: a run of such a study, with legal settings, stops where the program stops: at the end, or at the first hour the
draw of which it does not survive. -/
theorem C43_abort_exact {step : ℕ} {raw : ℕ → ℕ → ℚ} (hc : AmpleInput sl fuel c s step raw)
    (hIOJ : c.misc.IOJ = 0 ∨ c.misc.JSTEP = 24) (hE : 20 ≤ c.misc.MAXEUE)
    (hK : c.misc.KWHERE = 1 → 1 ≤ c.misc.KVLOC ∧ c.misc.KVLOC ≤ n + 1) (JSEED : ℤ)
    {log : List Ev} {st : St _} (hr : Reach s.cfg (s.start JSEED) log st) :
    (∃ e, Narp.step s.cfg st = .ok (.exit e) ∧ (e = .converged ∨ e = .finished)) ∨
    (∃ ev st', Narp.step s.cfg st = .ok (.next ev st') ∧ (ev.kind = 1 → ∃ N : ℕ, ev.time = N ∧ SurvivesHour c s st N)) ∨
    (Narp.step s.cfg st = .error .indexError ∧ ∃ N : ℕ, (∃ cal, remove st.cal = .ok (((N : ℚ), 1), cal)) ∧ ¬ SurvivesHour c s st N) := by
  have h := hc.accepted
  have hJs : s.hour.JSTEP = step := by rw [C64_step h, hc.steps]; norm_num
  have hJ : StepOK s.hour.JSTEP := by
    rw [hJs]
    rcases hc.mode with e | e <;> rw [e]
    · left; norm_num
    · right; norm_num
  have hyr : s.year = setupYear c := by
    obtain ⟨wr, raw, T, ITAB, ID', hw, _, _, _, _, rfl⟩ := setup_ok h
    rfl
  obtain ⟨_, _, _, _, ⟨hNF, hNR⟩, _, _⟩ := C64_loads h
  rcases step_outcome (cfg := s.cfg) hJ (setup_planOK hc.one hc.sensible hc.lone h) (by
      intro row hrow
      change row ∈ s.RATES at hrow
      rw [setup_rates h, List.mem_ofFn] at hrow
      obtain ⟨i, rfl⟩ := hrow
      simp) hr (year_ok hJ hr
    (by
      rcases hNR with ⟨_, a, b⟩ | ⟨_, a, b⟩
      · rw [← hNF, a, b]; norm_num
      · rw [← hNF, a, b]; norm_num)
    (by
      rw [hyr]
      show 0 < ⌊c.misc.MAXEUE / 20⌋
      rw [Int.lt_iff_add_one_le, zero_add, Int.le_floor]
      push_cast
      rw [le_div_iff₀ (by norm_num)]
      linarith)
    (by
      rw [hyr]
      rcases hIOJ with e | e
      · exact .inl e
      · exact .inr ⟨if_pos e, Nat.succ_pos n⟩)
    (by
      rw [hyr]
      intro hk
      have := hK hk
      show 0 ≤ c.misc.KVLOC - 1 ∧ c.misc.KVLOC - 1 < ((n + 1 : ℕ) : ℤ)
      push_cast
      omega)) with ⟨e, he⟩ | ⟨ev, st', he, hk⟩ | ⟨k, hrem, herr, hok⟩
  · refine .inl ⟨e, he, ?_⟩
    rcases C06_exit_reason (cfg := s.cfg) hJ hr he with ⟨h1, _⟩ | ⟨h1, _⟩
    · exact .inl h1
    · exact .inr h1
  · exact .inr (.inl ⟨ev, st', he, fun e => absurd e hk⟩)
  have htime : ((k + 1) * s.cfg.JSTEP : ℚ) = (((k + 1) * step : ℕ) : ℚ) := by
    rw [show s.cfg.JSTEP = step from hJs]; push_cast; rfl
  rw [htime] at hrem herr hok
  obtain ⟨v1, v2⟩ := hour_exact hc JSEED hr ((k + 1) * step)
  by_cases hsv : SurvivesHour c s st ((k + 1) * step)
  · obtain ⟨w', hw⟩ := v1 hsv
    obtain ⟨st', hs'⟩ := hok ⟨w', st.world.y⟩ (by
      show (hourFx s.hour _ st.RATING st.PLNDST st.world.h).map _ = _
      unfold hourFx; rw [hw]; rfl)
    exact .inr (.inl ⟨_, st', hs', fun _ => ⟨_, rfl, hsv⟩⟩)
  · refine .inr (.inr ⟨herr _ ?_, _, hrem, hsv⟩)
    show (hourFx s.hour _ st.RATING st.PLNDST st.world.h).map _ = _
    unfold hourFx; rw [v2 hsv]; rfl

/-- C43: such a program with legal settings either ends regularly, having survived every draw, or raises `IndexError` at the
first draw it does not survive. -/
theorem C43_run_exact {step : ℕ} {raw : ℕ → ℕ → ℚ} (hc : AmpleInput sl fuel c s step raw)
    (hIOJ : c.misc.IOJ = 0 ∨ c.misc.JSTEP = 24) (hE : 20 ≤ c.misc.MAXEUE)
    (hK : c.misc.KWHERE = 1 → 1 ≤ c.misc.KVLOC ∧ c.misc.KVLOC ≤ n + 1) (JSEED : ℤ) (fu : ℕ)
    (hfu : 7 * (⌈s.year.FINISH⌉₊ + 2) < fu) :
    (∀ log st ev st', Reach s.cfg (s.start JSEED) log st → Narp.step s.cfg st = .ok (.next ev st') → ev.kind = 1 →
      ∃ N : ℕ, ev.time = N ∧ SurvivesHour c s st N) ∧
    ((∃ e st, contrl s.cfg fu (s.start JSEED) = some (.ok (e, st)) ∧ (e = .converged ∨ e = .finished)) ∨
     (contrl s.cfg fu (s.start JSEED) = some (.error .indexError) ∧
      ∃ (log : List Ev) (st : St _) (N : ℕ), Reach s.cfg (s.start JSEED) log st ∧
        (∃ cal, remove st.cal = .ok (((N : ℚ), 1), cal)) ∧ ¬ SurvivesHour c s st N)) := by
  have hJs : s.hour.JSTEP = step := by rw [C64_step hc.accepted, hc.steps]; norm_num
  have hJ : StepOK s.hour.JSTEP := by
    rw [hJs]
    rcases hc.mode with e | e <;> rw [e]
    · left; norm_num
    · right; norm_num
  refine ⟨fun log st ev st' hr hs hk => ?_, ?_⟩
  · rcases C43_abort_exact hc hIOJ hE hK JSEED hr with ⟨e, he, _⟩ | ⟨ev', st'', he, hx⟩ | ⟨he, _⟩
    · rw [hs] at he; cases he
    · rw [hs] at he; cases he; exact hx hk
    · rw [hs] at he; cases he
  obtain ⟨r, hr⟩ := C06_terminates (cfg := s.cfg) hJ m (worldInit (fun i => (programSeeds JSEED m l).1 i)
    (fun k => (programSeeds JSEED m l).2 k) s.net s.INTVT s.ITAB) fu hfu
  have hr' : contrl s.cfg fu (s.start JSEED) = some r := hr
  clear hr
  have key : ∀ (fu : ℕ) (log : List Ev) (st : St _), Reach s.cfg (s.start JSEED) log st → contrl s.cfg fu st = some r →
      (∃ e st, r = .ok (e, st) ∧ (e = .converged ∨ e = .finished)) ∨
      (r = .error .indexError ∧ ∃ (log : List Ev) (st : St _) (N : ℕ), Reach s.cfg (s.start JSEED) log st ∧
        (∃ cal, remove st.cal = .ok (((N : ℚ), 1), cal)) ∧ ¬ SurvivesHour c s st N) := by
    intro fu
    induction fu with
    | zero => intro log st _ h; simp [contrl] at h
    | succ fu ih =>
      intro log st hre h
      unfold contrl at h
      rcases C43_abort_exact hc hIOJ hE hK JSEED hre with ⟨e, he, hx⟩ | ⟨ev', st'', he, _⟩ | ⟨he, N, hn, hsv⟩
      · rw [he] at h
        simp only [Option.some.injEq] at h
        exact .inl ⟨e, st, h.symm, hx⟩
      · rw [he] at h
        exact ih _ _ (.step hre he) h
      · rw [he] at h
        simp only [Option.some.injEq] at h
        exact .inr ⟨h.symm, log, st, N, hre, hn, hsv⟩
  rcases key fu [] _ .start hr' with ⟨e, st, he, hx⟩ | ⟨he, hx⟩
  · exact .inl ⟨e, st, by rw [hr', he], hx⟩
  · exact .inr ⟨by rw [hr', he], hx⟩

/-- C43: if no area can ever be short of 1 MW, the program raises `IndexError`, whatever its seed. -/
theorem C43_adequate_refuted {step : ℕ} {raw : ℕ → ℕ → ℚ} (hc : AmpleInput sl fuel c s step raw)
    (hIOJ : c.misc.IOJ = 0 ∨ c.misc.JSTEP = 24) (hE : 20 ≤ c.misc.MAXEUE)
    (hK : c.misc.KWHERE = 1 → 1 ≤ c.misc.KVLOC ∧ c.misc.KVLOC ≤ n + 1) (hF : 8760 ≤ s.year.FINISH)
    (hsmall : ∀ j, (c.areas j).peak * forecast (c.areas j).lfu 0 < 1) (JSEED : ℤ) (fu : ℕ)
    (hfu : 7 * (⌈s.year.FINISH⌉₊ + 2) < fu) :
    contrl s.cfg fu (s.start JSEED) = some (.error .indexError) := by
  have h := hc.accepted
  have hJs : s.hour.JSTEP = step := by rw [C64_step h, hc.steps]; norm_num
  have hJ : StepOK s.hour.JSTEP := by
    rw [hJs]
    rcases hc.mode with e | e <;> rw [e]
    · left; norm_num
    · right; norm_num
  obtain ⟨_, _, _, _, ⟨_, hNR⟩, _, hmx⟩ := C64_loads h
  have hload : ∀ j : Fin (n + 1), Scaled (raw j) (c.areas j).peak (s.hour.HRLOAD j) := fun j =>
    loads_scaled h hc.load j (hc.peak j) (fun x hx => (hc.pos j x hx).le) (hc.some_load j)
  have hno : ∀ (log : List Ev) (st : St _) (N : ℕ), Reach s.cfg (s.start JSEED) log st → ¬ SurvivesHour c s st N := by
    intro log st N hr hs
    have hused : hourUsed s.hour (N % 8760) < 8760 := by
      have hk : N % 8760 < 8760 := Nat.mod_lt _ (by norm_num)
      unfold hourUsed
      split_ifs
      · have := (hmx (hourOf (N % 8760) / 24)).2.1
        unfold hourOf at this ⊢
        split_ifs at this ⊢ <;> omega
      · unfold hourOf; split_ifs <;> omega
    unfold SurvivesHour at hs
    have hne : (List.finRange 5).take s.hour.NFCST ≠ [] := by
      rcases hNR with ⟨_, a, _⟩ | ⟨_, a, _⟩ <;> rw [a] <;> decide
    obtain ⟨t, ts, e⟩ := List.exists_cons_of_ne_nil hne
    rw [e] at hs
    obtain ⟨⟨j, hj⟩, _⟩ := hs
    have h0 := capacity_nonneg hc.one hc.sensible hc.derating h hJ JSEED hr (hourOf (N % 8760) / 24) j
    obtain ⟨y, hy, hy0, hmax, e1⟩ := hload j
    have h1 : s.hour.HRLOAD j (hourUsed s.hour (N % 8760)) ≤ (c.areas j).peak := by
      rw [e1, div_le_iff₀ hy0]
      exact mul_le_mul_of_nonneg_left (hmax _ hused) (hc.peak j).le
    have h2 := forecast_bounds (hc.lfu j) t
    have h3 := mul_le_mul h1 h2.2 h2.1 (hc.peak j).le
    have := hsmall j
    linarith
  obtain ⟨hall, hres⟩ := C43_run_exact hc hIOJ hE hK JSEED fu hfu
  rcases hres with ⟨e, st, hr, _⟩ | ⟨hr, _⟩
  swap
  · exact hr
  exfalso
  have key : ∀ (fu : ℕ) (log : List Ev) (st0 : St _), Reach s.cfg (s.start JSEED) log st0 →
      contrl s.cfg fu st0 = some (.ok (e, st)) → ∃ log st, Reach s.cfg (s.start JSEED) log st ∧
        Narp.step s.cfg st = .ok (.exit e) := by
    intro fu
    induction fu with
    | zero => intro log st _ h; simp [contrl] at h
    | succ fu ih =>
      intro log st0 hre h
      unfold contrl at h
      cases hst : Narp.step s.cfg st0 with
      | error x => rw [hst] at h; simp at h
      | ok x =>
        rw [hst] at h
        cases x with
        | exit e' =>
          simp only [Option.some.injEq, Except.ok.injEq, Prod.mk.injEq] at h
          exact ⟨log, st0, hre, by rw [hst, h.1]⟩
        | next ev st' => exact ih _ _ (.step hre hst) h
  obtain ⟨log, st1, hre, hx⟩ := key fu [] _ .start hr
  obtain ⟨l1, st2, st3, ev, hr2, hs2, hk, _⟩ := draw_exists (cfg := s.cfg) hJ hF hre hx 1 le_rfl (by
    show ((1 : ℕ) : ℚ) * s.hour.JSTEP ≤ 8760
    rw [hJs]
    rcases hc.mode with e | e <;> rw [e] <;> norm_num)
  obtain ⟨N, _, hsv⟩ := hall _ _ _ _ hr2 hs2 hk
  exact hno _ _ _ hr2 hsv

end Study

/-! ## The theorems apply -/

/-- A study every draw of which is survived: the one of `Ample.lean`. -/
example (sl : ℕ → ℚ → ℚ) (fuel : ℕ) : ∃ (s : Setup 1 4 1) (raw : ℕ → ℕ → ℚ),
    AmpleInput sl fuel (ampleCards (-100) 260 1000) s 1 raw ∧
    ∀ fu, 7 * (⌈s.year.FINISH⌉₊ + 2) < fu → ∃ e st, contrl s.cfg fu (s.start 1) = some (.ok (e, st)) ∧
      (e = .converged ∨ e = .finished) := by
  obtain ⟨s, raw, h, hs⟩ := ample_study sl fuel (adm := -100) (cap := 260) (lim := 1000) (by norm_num) (by norm_num) (by norm_num)
  have hin := hs.input
  have h20 : 20 ≤ (ampleCards (-100) 260 1000).misc.MAXEUE := by simp [ampleCards, demoCards]; norm_num
  refine ⟨s, raw, hin, fun fu hfu => ?_⟩
  refine ((C43_run_exact hin (.inl rfl) h20 (by simp [ampleCards, demoCards]) 1 fu hfu).2).resolve_right ?_
  rintro ⟨_, log, st, N, hr, _, hn⟩
  obtain ⟨LP, hLP⟩ := ends_exist hs.one hs.accepted
  obtain ⟨w', hw⟩ := free_real hs.one hs.accepted hs.number hLP (ample_free hs 1 hLP hr (N : ℚ))
  rw [(hour_exact hin 1 hr N).2 hn] at hw
  cases hw

/-- The same system with so little load that nothing can ever be short of 1 MW. -/
def tinyCards : Cards 1 4 1 :=
  { demoCards 1 (-100) 260 with
    areas := ![⟨1, ['A'], 1/2, 0, fun _ => 0, 1000⟩, ⟨2, ['B'], 1/4, 0, fun _ => 0, 1000⟩] }

theorem tiny_input (sl : ℕ → ℚ → ℚ) (fuel : ℕ) : ∃ (s : Setup 1 4 1) (raw : ℕ → ℕ → ℚ), AmpleInput sl fuel tinyCards s 1 raw := by
  obtain ⟨raw, h, r0, r1⟩ := flat_read
  have h1 : OneCard tinyCards := by
    constructor
    · intro a b; fin_cases a <;> fin_cases b <;> simp [tinyCards]
    · exact (demo_one 1 (-100) 260).units
  have hk : AllKnown tinyCards := by
    constructor
    · intro i; fin_cases i <;> simp [tinyCards, demoCards]
    · intro i; exact ⟨0, by fin_cases i; rfl⟩
    · intro i; exact ⟨1, by fin_cases i; rfl⟩
    · intro x hx; cases hx
    · intro x hx; cases hx
    · intro x hx; cases hx
  have hs : Sensible tinyCards :=
    ⟨(demo_sensible 1 (-100) 260).cap, (demo_sensible 1 (-100) 260).dur, (demo_sensible 1 (-100) 260).apart⟩
  have hlo : NoLone tinyCards := demo_lone 1 (-100) 260
  have hread : leeiRead (1 + 1) tinyCards.leei = .ok raw := h
  obtain ⟨s, hs'⟩ := C64_accepted (c := tinyCards) sl fuel h1 (by norm_num) hk hs hlo.once ⟨raw, h⟩ rfl rfl
  have hraw : ∀ j : Fin 2, ∀ h < 8760, 5 ≤ raw j h := by
    intro j h hh
    fin_cases j
    · show 5 ≤ raw 0 h; rw [r0 h hh]
    · show 5 ≤ raw 1 h; rw [r1 h hh]; norm_num
  have hpp : poolPeak tinyCards = 3 / 4 := by
    unfold poolPeak
    rw [Fin.sum_univ_two]
    simp [tinyCards, forecast]
    norm_num
  refine ⟨s, raw, h1, hs, hlo, ?_, hs', rfl, .inl rfl, rfl, by intro k; fin_cases k; simp [tinyCards, demoCards],
    by intro j; fin_cases j <;> simp [tinyCards], hread, by intro j; fin_cases j <;> simp [tinyCards],
    fun j x hx => by have := hraw j x hx; linarith,
    fun j => ⟨0, by norm_num, by have := hraw j 0 (by norm_num); linarith⟩,
    by intro i; fin_cases i <;> simp [tinyCards, demoCards], ⟨?_, ?_⟩⟩
  · constructor
    · intro k; fin_cases k; simp [tinyCards, demoCards]
    · intro a
      fin_cases a
      · exact .refl
      · exact .single ⟨0, .inl ⟨rfl, rfl⟩⟩
    · intro k t; fin_cases k; show (-100 : ℚ) ≤ 0; norm_num
    · intro k t; fin_cases k; exact ⟨by show (0 : ℚ) ≤ 260; norm_num, by show (0 : ℚ) ≤ 260; norm_num⟩
  · rw [hpp]; intro k t; fin_cases k; constructor <;> (show (3/4 : ℚ) ≤ 260) <;> norm_num
  · rw [hpp]; intro j; fin_cases j <;> (show (3/4 : ℚ) ≤ 1000) <;> norm_num

/-- `C43_adequate_refuted` applies to it. -/
example (sl : ℕ → ℚ → ℚ) (fuel : ℕ) (JSEED : ℤ) : ∃ s : Setup 1 4 1, setup sl fuel tinyCards = .ok s ∧
    ∀ fu, 7 * (⌈s.year.FINISH⌉₊ + 2) < fu → contrl s.cfg fu (s.start JSEED) = some (.error .indexError) := by
  obtain ⟨s, raw, hs⟩ := tiny_input sl fuel
  have hyr : s.year = setupYear tinyCards := by
    obtain ⟨wr, raw, T, ITAB, ID', hw, _, _, _, _, rfl⟩ := setup_ok hs.accepted
    rfl
  refine ⟨s, hs.accepted, fun fu hfu => C43_adequate_refuted hs (.inl rfl) ?_ ?_ ?_ ?_ JSEED fu hfu⟩
  · simp [tinyCards, demoCards]; norm_num
  · simp [tinyCards, demoCards]
  · rw [hyr]; simp [tinyCards, demoCards, setupYear]
  · intro j; fin_cases j <;> simp [tinyCards, forecast] <;> norm_num

end Narp.Props
