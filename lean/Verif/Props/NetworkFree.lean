import Verif.Props.AnnualArea
import Verif.Props.Ample

/-!
# C113: a network that never binds has no influence on any figure
-/

namespace Narp.Props
open Narp Narp.Spec BigOperators

section Evaluation
variable {n m : ℕ}

/-- If an evaluation without contracts in which no limit binds leaves an area short, no area is left with a negative
shortage. -/
theorem C113_evaluation {LP : LEnds n m} {BLPA : Fin m → Fin 6 → LnPar} {NR : Fin (n + 1)} {NLS : ℤ}
    {t : TransIn (n + 1) m} {w w' : NetSt n m} {out : TransOut n m} {k : Fin m → Fin 6}
    (hg : Grid LP BLPA NR) (hI : t.IFLAG ≠ 1 ∨ Intact LP BLPA NR w) (hk : ∀ i, t.LNSTAT i = ((k i : ℕ) : ℤ) + 1)
    (hload : NLS = 0 → (∀ a, 0 ≤ t.CAPREQ a) ∧ 0 < ∑ a, t.CAPREQ a) (ht : ∀ a, t.TRNSFR a + t.TRNSFJ a = 0)
    (h : transm noRedispatch LP BLPA NR NLS t w = .ok (out, w')) (hJ : out.JFLAG ≠ 0) (hpos : ∃ a, 0 < out.SADJ a)
    (a : Fin (n + 1)) : 0 ≤ out.SADJ a := by
  obtain ⟨w1, w2, F1, hi1, _, _, hs, hi2, _, _, ha1, hcase⟩ := transm_split hg hI hk hload h
  rcases hcase with ⟨hJ0, _⟩ | ⟨_, _, w3, ha, _, hS⟩
  · exact absurd hJ0 hJ
  obtain ⟨_, hc⟩ := first_zero (fun i => hg.adm i _) hi1 hs ht ha1
  have hb : Function.Bijective w2.LT := by rw [hi2.LT]; exact LT_bij NR
  have hL : NLS = 0 → (∀ a, 0 ≤ (second LP (sampledBLP BLPA k) NLS t F1 w2.BN).2.2.c1 a) ∧
      0 < ∑ a, (second LP (sampledBLP BLPA k) NLS t F1 w2.BN).2.2.c1 a := by
    rw [second_c1]; exact hload
  have hc1 := ha.c1
  simp only [second_c1, second_c2, hc, zero_mul, sub_zero] at hc1
  have hS' : ∀ i, out.SADJ (w2.LT i) = (assign (fun i => t.SYSCON (w2.LT i) - t.CAPREQ (w2.LT i)) t.CAPREQ w2.LT NLS).1 i -
      (t.SYSCON (w2.LT i) - t.CAPREQ (w2.LT i)) := fun i => by
    rw [hS, hc1 i, hc]; ring
  set INJ : Fin (n + 1) → ℚ := fun i => t.SYSCON (w2.LT i) - t.CAPREQ (w2.LT i) with hINJ
  have hmax : ∀ i, max 0 (out.SADJ (w2.LT i)) = (assign INJ t.CAPREQ w2.LT NLS).2 (w2.LT i) := fun i => by
    rw [hS' i]; exact assign_excess hb hload i
  rcases le_or_gt (deficits INJ) (surpluses INJ) with hd | hd
  · obtain ⟨b, hb0⟩ := hpos
    obtain ⟨i, rfl⟩ := hb.2 b
    have := hmax i
    rw [assign_enough hd, max_eq_right hb0.le] at this
    dsimp only at this
    linarith
  · obtain ⟨i, rfl⟩ := hb.2 a
    have h0 : 0 ≤ surpluses INJ := Finset.sum_nonneg fun i _ => le_max_left _ _
    have e := hS' i
    change _ = _ - INJ i at e
    rw [e]
    by_cases hN : NLS = 0
    · subst hN
      rw [(assign_share hb hd).2 i]
      have := div_nonneg (mul_nonneg ((hload rfl).1 (w2.LT i)) (show 0 ≤ deficits INJ - surpluses INJ by linarith)) (hload rfl).2.le
      linarith
    · rw [(assign_noshare hb hd hN).1 i]
      split_ifs with hi
      · have h1 : surpluses INJ / deficits INJ ≤ 1 := div_le_one_of_le₀ hd.le (h0.trans hd.le)
        nlinarith
      · linarith

end Evaluation

section Hour
variable {N M L : ℕ}

/-- One evaluation without contracts in which no limit binds: it leaves nobody short, or exactly what the sharing rule
says. -/
theorem assist_exact {c : HourIn (N + 1) M L (NetSt N L)} {LP : LEnds N L} {BLPA : Fin L → Fin 6 → LnPar}
    {NR : Fin (N + 1)} {NLS : ℤ} (hg : Grid LP BLPA NR) (hc : c.transm = hourTransm noRedispatch LP BLPA NR NLS)
    {d : Draw (N + 1) L} (hd : ∀ i, ∃ k : Fin 6, d.LNSTAT i = ((k : ℕ) : ℤ) + 1)
    (hz : ∀ j, d.TRNSFR j + d.TRNSFJ j = 0) {hr : ℕ} (hload : ∀ j t, 0 < c.HRLOAD j hr * c.FCTERR j t)
    {first : Bool} {t : Fin 5} {net net1 : NetSt N L} {S : Fin (N + 1) → ℚ}
    (hn : (first = false → Intact LP BLPA NR net) ∧ net.BN.c3 = net.BN.c4)
    (na : ∃ j, deficit c d hr t j < 1) (ha : assist c d hr first t net (some S, net1)) (hS : ∃ j, 1 ≤ S j) :
    S = borne NLS d.SYSCON (fun j => c.HRLOAD j hr * c.FCTERR j t) := by
  obtain ⟨_, _, g3⟩ := assist_shared hg hc hd hz hload hn na ha
  have hmx := g3 S rfl
  obtain ⟨J, S0, htr, ho⟩ := ha
  dsimp only at ho
  rw [hc] at htr
  unfold hourTransm at htr
  generalize hti : (⟨if first then 0 else 1, d.LNSTAT, d.TRNSFR, d.TRNSFJ, d.SYSCON,
      fun j => c.HRLOAD j hr * c.FCTERR j t⟩ : TransIn (N + 1) L) = ti at htr
  have tL : ti.LNSTAT = d.LNSTAT := by rw [← hti]
  have tC : ti.CAPREQ = fun j => c.HRLOAD j hr * c.FCTERR j t := by rw [← hti]
  have tI : ti.IFLAG = if first then 0 else 1 := by rw [← hti]
  have tz : ∀ a, ti.TRNSFR a + ti.TRNSFJ a = 0 := by rw [← hti]; exact hz
  choose q hq using hd
  cases hr2 : transm noRedispatch LP BLPA NR NLS ti net with
  | error e => rw [hr2] at htr; cases htr
  | ok r =>
    obtain ⟨out, w'⟩ := r
    rw [hr2] at htr
    cases htr
    have hI : ti.IFLAG ≠ 1 ∨ Intact LP BLPA NR net := by
      rw [tI]
      cases first
      · exact .inr (hn.1 rfl)
      · exact .inl (by decide)
    have hl : NLS = 0 → (∀ a, 0 ≤ ti.CAPREQ a) ∧ 0 < ∑ a, ti.CAPREQ a := fun _ => by
      rw [tC]
      exact ⟨fun a => (hload a t).le, Finset.sum_pos (fun a _ => hload a t) ⟨0, Finset.mem_univ _⟩⟩
    have hk' : ∀ i, ti.LNSTAT i = ((q i : ℕ) : ℤ) + 1 := by rw [tL]; exact hq
    by_cases hJ : out.JFLAG = 0
    · rw [if_pos hJ] at ho; cases ho
    rw [if_neg hJ] at ho
    cases ho
    obtain ⟨b, hb⟩ := hS
    have nn := C113_evaluation hg hI hk' hl tz hr2 hJ ⟨b, by linarith⟩
    funext j
    rw [← hmx j, max_eq_right (nn j)]

/-- The shortage flags and the hourly and peak counters. -/
structure Books (n : ℕ) where
  LSFLG : Fin n → ℚ
  H : Cnt n
  P : Cnt n

def booksOf {n m l : ℕ} {ν : Type} (w : HourSt n m l ν) : Books n := ⟨w.LSFLG, w.H, w.P⟩

/-- The entry of the shortages `S` in tier `t`. -/
def enter {n : ℕ} (t : Fin 5) (S : Fin n → ℚ) (isPeak : Bool) (b : Books n) : Books n :=
  booksOf (tierStats t (marginInt fun j => -S j) isPeak (⟨fun i => i.elim0, fun i => i.elim0, b.LSFLG, b.H, b.P, ()⟩ : HourSt n 0 0 Unit))

theorem enter_eq {n m l : ℕ} {ν : Type} (t : Fin 5) (S : Fin n → ℚ) (isPeak : Bool) (w : HourSt n m l ν) :
    booksOf (tierStats t (marginInt fun j => -S j) isPeak w) = enter t S isPeak (booksOf w) := rfl

/-- What an hour enters if no limit binds: tier by tier, what the areas bear, until nobody bears 1 MW. -/
def enterHour {n : ℕ} (rule : ℤ) (cap : Fin n → ℚ) (load : Fin 5 → Fin n → ℚ) (isPeak : Bool) :
    List (Fin 5) → Books n → Books n
  | [], b => b
  | t :: ts, b =>
    if ∃ j, 1 ≤ borne rule cap (load t) j then
      enterHour rule cap load isPeak ts (enter t (borne rule cap (load t)) isPeak b)
    else b

theorem tierLoop_books {c : HourIn (N + 1) M L (NetSt N L)} {LP : LEnds N L} {BLPA : Fin L → Fin 6 → LnPar}
    {NR : Fin (N + 1)} {NLS : ℤ} (hg : Grid LP BLPA NR) (hc : c.transm = hourTransm noRedispatch LP BLPA NR NLS)
    {d : Draw (N + 1) L} (hd : ∀ i, ∃ k : Fin 6, d.LNSTAT i = ((k : ℕ) : ℤ) + 1)
    (hz : ∀ j, d.TRNSFR j + d.TRNSFJ j = 0) {hr : ℕ} (hload : ∀ j t, 0 < c.HRLOAD j hr * c.FCTERR j t) (isPeak : Bool) :
    ∀ (ts : List (Fin 5)) (first : Bool) (w w' : HourSt (N + 1) M L (NetSt N L)),
    (first = false → Intact LP BLPA NR w.net) ∧ w.net.BN.c3 = w.net.BN.c4 →
    tierLoop c d hr isPeak ts (if first then 0 else 1) w = .ok w' →
    booksOf w' = enterHour NLS d.SYSCON (fun t j => c.HRLOAD j hr * c.FCTERR j t) isPeak ts (booksOf w) := by
  intro ts
  induction ts with
  | nil =>
    intro first w w' _ h
    cases h
    rfl
  | cons t ts ih =>
    intro first w w' hn h
    unfold tierLoop at h
    cases hb : tierBody c d hr isPeak t (if first then 0 else 1) w with
    | error e => rw [hb] at h; cases h
    | ok r =>
      rw [hb] at h
      obtain ⟨_, hcase⟩ := tierBody_spec hb
      unfold enterHour
      rcases hcase with ⟨all, rfl⟩ | ⟨na, o, net1, ha, hcase⟩
      · have he : deficit c d hr t = borne NLS d.SYSCON (fun j => c.HRLOAD j hr * c.FCTERR j t) := by
          funext j
          have hj : max 0 (deficit c d hr t j) = deficit c d hr t j := max_eq_right (by linarith [all j])
          unfold borne
          by_cases hr0 : NLS ≠ 0
          · rw [if_pos hr0, ← hj]
            exact own_need all j
          · rw [if_neg hr0, if_pos (show ∀ i, 1 ≤ (fun j => c.HRLOAD j hr * c.FCTERR j t) i - d.SYSCON i from all), ← hj]
            rfl
        rw [if_pos ⟨0, by rw [← he]; exact all 0⟩]
        dsimp only at h
        rw [ih first (tierStats t (marginInt fun j => -deficit c d hr t j) isPeak w) w' hn h, enter_eq, he]
      · obtain ⟨g1, g2, g3⟩ := assist_shared hg hc hd hz hload hn na ha
        rcases hcase with ⟨rfl, rfl⟩ | ⟨S, rfl, ⟨hlt, rfl⟩ | ⟨hge, rfl⟩⟩
        · cases h
          rw [if_neg (by rintro ⟨j, hj⟩; linarith [g2 rfl j])]
          rfl
        · cases h
          rw [if_neg]
          · rfl
          · rintro ⟨j, hj⟩
            rw [← g3 S rfl j] at hj
            rcases le_max_iff.1 hj with e | e
            · norm_num at e
            · linarith [hlt j]
        · have he := assist_exact hg hc hd hz hload hn na ha hge
          rw [if_pos (by rw [← he]; exact hge), ← he]
          dsimp only at h
          rw [ih false _ w' g1 h, enter_eq]
          rfl

/-- Whether the statistics of the daily peaks are collected at clock `8760 y + k`. -/
def peakOf {n m l : ℕ} {ν : Type} (c : HourIn n m l ν) (k : ℕ) : Bool :=
  if c.JSTEP = 24 then true else decide ((k : ℤ) - 1 = c.MXPLHR (hourOf k / 24))

theorem hourBody_peak {n m l : ℕ} {ν : Type} (c : HourIn n m l ν) (hf : c.JFREQ = 1) (y k : ℕ) (hk : k < 8760)
    (hp : ∀ d < 365, c.MXPLHR d < 8760) (R P : Fin m → ℚ) (w : HourSt n m l ν) :
    hourBody c (8760 * y + k) R P w = tierLoop c (hourDraw c (hourOf k / 24) R P w).1 (hourUsed c k) (peakOf c k)
        ((List.finRange 5).take c.NFCST) 0 (hourDraw c (hourOf k / 24) R P w).2 := by
  unfold hourUsed peakOf
  by_cases hs : c.JSTEP = 24
  · rw [if_pos hs, if_pos hs]
    exact hourBody_daily c hs hf y k hk hp R P w
  · rw [if_neg hs, if_neg hs]
    exact hourBody_hourly c hs hf y k hk R P w

/-- An hour without contracts in which no limit binds. -/
theorem hour_books (c : HourIn (N + 1) M L (NetSt N L)) {LP : LEnds N L}
    {BLPA : Fin L → Fin 6 → LnPar} {NR : Fin (N + 1)} {NLS : ℤ} (hg : Grid LP BLPA NR)
    (hc : c.transm = hourTransm noRedispatch LP BLPA NR NLS) (hp : ∀ d < 365, c.MXPLHR d < 8760)
    (hf : c.JFREQ = 1) (y k : ℕ) (hk : k < 8760) (hL : ∀ j t, 0 < c.HRLOAD j (hourUsed c k) * c.FCTERR j t) (R P : Fin M → ℚ)
    (w w' : HourSt (N + 1) M L (NetSt N L)) (hlim : w.net.BN.c3 = w.net.BN.c4)
    (hz : ∀ j, (hourDraw c (hourOf k / 24) R P w).1.TRNSFR j + (hourDraw c (hourOf k / 24) R P w).1.TRNSFJ j = 0)
    (h : hourBody c (8760 * y + k) R P w = .ok w') :
    booksOf w' = enterHour NLS (hourDraw c (hourOf k / 24) R P w).1.SYSCON
      (fun t j => c.HRLOAD j (hourUsed c k) * c.FCTERR j t) (peakOf c k) ((List.finRange 5).take c.NFCST) (booksOf w) ∧
    w'.IGSEED = (hourDraw c (hourOf k / 24) R P w).2.IGSEED := by
  rw [hourBody_peak c hf y k hk hp] at h
  refine ⟨tierLoop_books hg hc (fun i => lineState_idx (fun q => c.PROBL q i) (variate (mul31 65539 (w.ILSEED i)))) hz hL _ _ true
    (hourDraw c (hourOf k / 24) R P w).2 _ ⟨fun e => absurd e (by decide), hlim⟩ h, ?_⟩
  obtain ⟨_, _, _, hd⟩ := tierLoop_hist _ _ _ _ h
  exact hd.1

end Hour

/-! ## A draw of a study -/

section Study
variable {n m l l' : ℕ} {sl : ℕ → ℚ → ℚ} {fuel fuel' : ℕ} {c : Cards n m l} {c' : Cards n m l'} {s : Setup n m l}
  {s' : Setup n m l'}

/-- What a draw of a study in which no limit binds enters in the books. -/
theorem calm_draw {stp : ℕ} {raw : ℕ → ℕ → ℚ} {JSEED : ℤ} (hc : Calm sl fuel c s stp raw JSEED) {log : List Ev}
    {st st' : St _} {ev : Ev} (hr : Reach s.cfg (s.start JSEED) log st) (hst : step s.cfg st = .ok (.next ev st'))
    (hk : ev.kind = 1) : ∃ y k : ℕ, k < 8760 ∧ ev.time = 8760 * (y : ℚ) + (k : ℚ) ∧
    booksOf st'.world.h = enterHour c.misc.NLS (hourDraw s.hour (hourOf k / 24) (fun i => st.RATING.getD i 0)
        (fun i => st.PLNDST.getD i 0) st.world.h).1.SYSCON
      (fun t j => s.hour.HRLOAD j (hourUsed s.hour k) * s.hour.FCTERR j t) (peakOf s.hour k)
      ((List.finRange 5).take s.hour.NFCST) (booksOf st.world.h) ∧
    st'.world.h.IGSEED = fun i => mul31 65539 (st.world.h.IGSEED i) := by
  obtain ⟨h1, hs, hl, hn, h, hstep, hstep', hfreq, hnum, hlfu, hraw, hpk, h0, hb, LP, hLP, hfree⟩ := hc
  have hstepc : c.misc.JSTEP = 1 ∨ c.misc.JSTEP = 24 := by
    rw [hstep]; rcases hstep' with e | e <;> rw [e] <;> simp
  have hJs : s.hour.JSTEP = stp := by rw [C64_step h, hstep]; norm_num
  have hJ : StepOK s.hour.JSTEP := by
    rw [hJs]
    rcases hstep' with e | e <;> rw [e]
    · left; norm_num
    · right; norm_num
  have hJF : s.hour.JFREQ = 1 := by
    obtain ⟨wr, raw, T, ITAB, ID', hw, _, _, _, _, rfl⟩ := setup_ok h
    exact hfreq
  have hmx : ∀ d < 365, s.hour.MXPLHR d < 8760 := fun d hd => by
    obtain ⟨_, _, _, _, _, _, hm⟩ := C64_loads h
    have := (hm d).2.1
    omega
  have hFE : ∀ j, s.hour.FCTERR j = dataxFCTERR (c.areas j).lfu := by
    obtain ⟨wr, raw, T, ITAB, ID', hw, _, _, _, _, rfl⟩ := setup_ok h
    exact fun j => rfl
  have hfac : ∀ j t, 0 < s.hour.FCTERR j t := by
    intro j t
    rw [hFE]
    have := hlfu j
    unfold dataxFCTERR
    fin_cases t <;> simp <;> linarith
  have hpos : 0 < stp := by rcases hstep' with e | e <;> rw [e] <;> norm_num
  obtain ⟨p1, p2⟩ := draw_position (cfg := s.cfg) hJ hr hst hk
  have hJc : s.cfg.JSTEP = stp := hJs
  rw [hJc] at p1
  set Y := log.countP fun e => e.kind = 4
  set d := drawsThisYear log + 1 with hd
  have hT : ev.time = ((8760 * Y + stp * d : ℕ) : ℚ) := by rw [p1, hd]; push_cast; ring
  have hle : stp * d ≤ 8760 := by
    rw [hT] at p2
    have : ((8760 * Y + stp * d : ℕ) : ℚ) ≤ ((8760 * (Y + 1) : ℕ) : ℚ) := by push_cast at p2 ⊢; exact p2
    have : 8760 * Y + stp * d ≤ 8760 * (Y + 1) := by exact_mod_cast this
    omega
  have hge : 1 ≤ stp * d := Nat.mul_pos hpos (by omega)
  obtain ⟨w', hw'⟩ := hfree log st ev st' hr hst hk
  obtain ⟨season, y', k, hclk, hsea, hk', hbody, hev, hseed, hL, hlo, hcp⟩ := draw_hour h1 hs hl h hstepc hfreq hnum hraw hpk
    (fun j x hx => (h0 j x hx).le) hb JSEED hr hst hk Y (stp * d) hT hge hle (fun j x hx => by
        refine h0 j x ?_
        unfold standsFor at hx
        split_ifs at hx <;> omega) hLP hw'
  refine ⟨y', k, hk', hclk, ?_⟩
  exact hour_books
    { s.hour with transm := hourTransm noRedispatch LP (fun k => dataxBLPA (c.lines k)) 0 c.misc.NLS }
    (sound_grid h1 hn hLP) rfl hmx hJF y' k hk' (fun j t => mul_pos (hL j) (hfac j t))
    (fun i => st.RATING.getD i 0) (fun i => st.PLNDST.getD i 0) st.world.h st'.world.h
    (by
      rw [show st.world.h.net.BN.c3 = fun j => (c.areas j).flowLimit from
          funext fun j => (C64_limits_run h hJ JSEED hr j).1,
        show st.world.h.net.BN.c4 = fun j => (c.areas j).flowLimit from
          funext fun j => (C64_limits_run h hJ JSEED hr j).2])
    (fun j => by
      obtain ⟨_, a, b, _⟩ := C64_units h1 h (hourOf k / 24) (fun i => st.RATING.getD i 0) (fun i => st.PLNDST.getD i 0) st.world.h j
      show (hourDraw s.hour _ _ _ _).1.TRNSFR j + (hourDraw s.hour _ _ _ _).1.TRNSFJ j = 0
      rw [a, b, add_zero]) hbody

/-- The part of the set-up in which the network has no place. -/
structure SameButNetwork (s : Setup n m l) (s' : Setup n m l') : Prop where
  JSTEP : s'.hour.JSTEP = s.hour.JSTEP
  MXPLHR : s'.hour.MXPLHR = s.hour.MXPLHR
  PROBG : s'.hour.PROBG = s.hour.PROBG
  DERATE : s'.hour.DERATE = s.hour.DERATE
  CAPOWN : s'.hour.CAPOWN = s.hour.CAPOWN
  CAPCON : s'.hour.CAPCON = s.hour.CAPCON
  NFCST : s'.hour.NFCST = s.hour.NFCST
  HRLOAD : s'.hour.HRLOAD = s.hour.HRLOAD
  FCTERR : s'.hour.FCTERR = s.hour.FCTERR
  year : s'.year = s.year
  JPLOUT : s'.JPLOUT = s.JPLOUT
  RATES : s'.RATES = s.RATES
  NAMA : s'.NAMA = s.NAMA
  SUSTAT : s'.SUSTAT = s.SUSTAT
  INTVT : s'.INTVT = s.INTVT
  ITAB : s'.ITAB = s.ITAB

theorem otherNetwork_setup (ho : OtherNetwork c c') (h1 : OneCard c) (h1' : OneCard c') (h : setup sl fuel c = .ok s)
    (h' : setup sl fuel' c' = .ok s') : SameButNetwork s s' := by
  obtain ⟨w, raw, T, ITAB, ID', hw, _, _, hr, hsm, rfl⟩ := setup_ok h
  obtain ⟨w', raw', T', ITAB', ID'', hw', _, _, hr', hsm', rfl⟩ := setup_ok h'
  have hwa := (wiring_iff h1 (wiring_pos hw)).2 w hw
  have hwa' := (wiring_iff h1' (wiring_pos hw')).2 w' hw'
  have hname : ∀ j, (c'.areas j).name = (c.areas j).name := ho.name
  have hpeak : ∀ j, (c'.areas j).peak = (c.areas j).peak := ho.peak
  have hlfu : ∀ j, (c'.areas j).lfu = (c.areas j).lfu := ho.lfu
  have eNAT : w'.NAT = w.NAT := funext fun i => (hwa'.unit i).trans (hwa.unit i).symm
  have eNAR : w'.NAR = w.NAR := funext fun i => h1.areas (by
    show (c.areas _).name = (c.areas _).name
    rw [← hname, hwa'.loc, hwa.loc, ho.units])
  have epk : c'.peaks = c.peaks := by
    funext j
    unfold Cards.peaks
    split_ifs
    · exact hpeak _
    · rfl
  rw [ho.leei, hr] at hr'
  obtain rfl := Except.ok.inj hr'
  have eID : setupID c' w' = setupID c w := by unfold setupID; rw [eNAT, eNAR, ho.units]
  have eMC : maxCap c' = maxCap c := by
    funext i
    unfold maxCap
    rw [ho.units]
  rw [eID, eMC, hsm] at hsm'
  obtain ⟨rfl, rfl, rfl⟩ := Prod.mk.inj (Except.ok.inj hsm') |>.imp id Prod.mk.inj
  constructor
  all_goals first
    | rfl
    | (simp only [setupHour, setupYear, setupSus, ho.units, ho.misc, hlfu, hpeak, hname, epk, eNAT, eNAR])

end Study

/-! ## Two runs side by side -/

section Loop
variable {σ σ' : Type}

/-- The decision of one iteration, which does not involve the rest of the state. -/
def pre (FINISH : ℚ) (cal : Cal) (CLOCK : ℚ) (RFLAG : ℤ) : Except PyErr (Exit ⊕ (ℚ × ℚ) × Cal) :=
  if cal.IPOINT = -1 then .ok (.inl .badPointer) else
  match rd cal.E (cal.IPOINT + 1) with
  | .error e => .error e
  | .ok t =>
    if CLOCK > t then .ok (.inl .timeError)
    else if RFLAG = 1 then .ok (.inl .converged)
    else if t > FINISH + 1 then .ok (.inl .finished)
    else match remove cal with
      | .error e => .error e
      | .ok r => .ok (.inr r)

theorem step_pre (cfg : Cfg σ) (s : St σ) : step cfg s = match pre cfg.FINISH s.cal s.CLOCK s.RFLAG with
    | .error e => .error e
    | .ok (.inl e) => .ok (.exit e)
    | .ok (.inr (a, cal)) => (events cfg { s with cal := cal, CLOCK := a.1 } a.2).map (StepRes.next ⟨a.1, a.2⟩) := by
  unfold step pre
  by_cases h1 : s.cal.IPOINT = -1
  · rw [if_pos h1, if_pos h1]; rfl
  · rw [if_neg h1, if_neg h1]
    cases hr : rd s.cal.E (s.cal.IPOINT + 1) with
    | error e => rfl
    | ok t =>
      simp only [bind, Except.bind]
      split_ifs
      · rfl
      · rfl
      · rfl
      · cases hm : remove s.cal with
        | error e => rfl
        | ok r =>
          obtain ⟨a, cal⟩ := r
          dsimp only
          cases events cfg { s with cal := cal, CLOCK := a.1 } a.2 <;> rfl

/-- Equal up to the rest of the state. -/
structure Ctl (s : St σ) (s' : St σ') : Prop where
  cal : s'.cal = s.cal
  CLOCK : s'.CLOCK = s.CLOCK
  IQ : s'.IQ = s.IQ
  JHOUR : s'.JHOUR = s.JHOUR
  RATING : s'.RATING = s.RATING
  PLNDST : s'.PLNDST = s.PLNDST

structure SameLoop (cfg : Cfg σ) (cfg' : Cfg σ') : Prop where
  JSTEP : cfg'.JSTEP = cfg.JSTEP
  FINISH : cfg'.FINISH = cfg.FINISH
  JPLOUT : cfg'.JPLOUT = cfg.JPLOUT
  RATES : cfg'.RATES = cfg.RATES

theorem events_pair {cfg : Cfg σ} {cfg' : Cfg σ'} (hc : SameLoop cfg cfg') {s : St σ} {s' : St σ'} (h : Ctl s s') {k : ℚ}
    {s1 : St σ} {s1' : St σ'} (e : events cfg s k = .ok s1) (e' : events cfg' s' k = .ok s1') : Ctl s1 s1' := by
  obtain ⟨a1, a2, a3, a4, a5, a6⟩ := h
  unfold events at e e'
  dsimp only at e e'
  split_ifs at e e' with b1 b2 b3 b4
  · unfold hourEv at e e'
    obtain ⟨q, x1, e⟩ := Except.bind_ok e
    obtain ⟨q', x1', e'⟩ := Except.bind_ok e'
    obtain ⟨w, x2, e⟩ := Except.bind_ok e
    obtain ⟨w', x2', e'⟩ := Except.bind_ok e'
    rw [a1, a2, hc.JSTEP, x1] at x1'
    cases x1'
    cases e
    cases e'
    exact ⟨rfl, a2, a3, by simp only [a2], a5, a6⟩
  · unfold week at e e'
    obtain ⟨q, x1, e⟩ := Except.bind_ok e
    obtain ⟨q', x1', e'⟩ := Except.bind_ok e'
    obtain ⟨w, x2, e⟩ := Except.bind_ok e
    obtain ⟨w', x2', e'⟩ := Except.bind_ok e'
    rw [a1, a2, x1] at x1'
    cases x1'
    rw [hc.JPLOUT, a4, a6, x2] at x2'
    cases x2'
    cases e
    cases e'
    exact ⟨rfl, a2, a3, a4, a5, rfl⟩
  · unfold quartr at e e'
    obtain ⟨w, x2, e⟩ := Except.bind_ok e
    obtain ⟨w', x2', e'⟩ := Except.bind_ok e'
    obtain ⟨q, x1, e⟩ := Except.bind_ok e
    obtain ⟨q', x1', e'⟩ := Except.bind_ok e'
    rw [a1, a2, x1] at x1'
    cases x1'
    rw [hc.RATES, a3, x2] at x2'
    cases x2'
    cases e
    cases e'
    exact ⟨rfl, a2, by simp only [a3], a4, rfl, a6⟩
  · unfold yearEv at e e'
    obtain ⟨q, x1, e⟩ := Except.bind_ok e
    obtain ⟨q', x1', e'⟩ := Except.bind_ok e'
    obtain ⟨⟨w, f⟩, x2, e⟩ := Except.bind_ok e
    obtain ⟨⟨w', f'⟩, x2', e'⟩ := Except.bind_ok e'
    rw [a1, a2, x1] at x1'
    cases x1'
    cases e
    cases e'
    exact ⟨rfl, a2, a3, a4, a5, a6⟩

theorem step_next_pair {cfg : Cfg σ} {cfg' : Cfg σ'} (hc : SameLoop cfg cfg') {s : St σ} {s' : St σ'} (h : Ctl s s')
    (hf : s'.RFLAG = s.RFLAG) {ev ev' : Ev} {s1 : St σ} {s1' : St σ'} (e : step cfg s = .ok (.next ev s1))
    (e' : step cfg' s' = .ok (.next ev' s1')) : ev' = ev ∧ Ctl s1 s1' := by
  rw [step_pre] at e e'
  rw [show pre cfg'.FINISH s'.cal s'.CLOCK s'.RFLAG = pre cfg.FINISH s.cal s.CLOCK s.RFLAG by
    rw [h.cal, h.CLOCK, hf, hc.FINISH]] at e'
  generalize pre cfg.FINISH s.cal s.CLOCK s.RFLAG = p at e e'
  match p, e, e' with
  | .ok (.inr (a, cal)), e, e' =>
    dsimp only at e e'
    cases hx : events cfg { s with cal := cal, CLOCK := a.1 } a.2 with
    | error x => rw [hx] at e; cases e
    | ok x =>
      cases hx' : events cfg' { s' with cal := cal, CLOCK := a.1 } a.2 with
      | error x' => rw [hx'] at e'; cases e'
      | ok x' =>
        rw [hx] at e
        rw [hx'] at e'
        cases e
        cases e'
        refine ⟨rfl, events_pair hc ?_ hx hx'⟩
        exact ⟨rfl, rfl, h.IQ, h.JHOUR, h.RATING, h.PLNDST⟩

theorem step_exit_pair {cfg : Cfg σ} {cfg' : Cfg σ'} (hc : SameLoop cfg cfg') {s : St σ} {s' : St σ'} (h : Ctl s s')
    (hf : s'.RFLAG = s.RFLAG) {x : Exit} (e : step cfg s = .ok (.exit x)) : step cfg' s' = .ok (.exit x) := by
  rw [step_pre] at e ⊢
  rw [h.cal, h.CLOCK, hf, hc.FINISH]
  generalize pre cfg.FINISH s.cal s.CLOCK s.RFLAG = p at e
  match p, e with
  | .ok (.inl y), e =>
    cases e
    rfl
  | .ok (.inr (a, cal)), e =>
    dsimp only at e
    cases hx : events cfg { s with cal := cal, CLOCK := a.1 } a.2 with
    | error y => rw [hx] at e; cases e
    | ok y => rw [hx] at e; cases e

/-- Every beginning of a run is a run, and goes on. -/
theorem reach_take {cfg : Cfg σ} {s0 s : St σ} {log : List Ev} (h : Reach cfg s0 log s) (k : ℕ) (hk : k < log.length) :
    ∃ s1 ev s2, Reach cfg s0 (log.take k) s1 ∧ step cfg s1 = .ok (.next ev s2) := by
  induction h with
  | start => cases hk
  | @step log s ev s' hr hs ih =>
    rw [List.length_append, List.length_singleton] at hk
    rcases Nat.lt_succ_iff_lt_or_eq.1 hk with e | e
    · rw [List.take_append_of_le_length e.le]
      exact ih e
    · rw [e, List.take_left]
      exact ⟨_, _, _, hr, hs⟩

end Loop

/-! ## The year end -/

section YearEnd
variable {n : ℕ} {α : Type}

/-- The state of the year ends without the network in the snapshot. -/
def strip (y : YearSt n α) : YearSt n Unit :=
  ⟨y.CH, y.CP, y.hist, y.XNEWA, y.XNEWP, y.SSQ, y.XLAST, y.INTVT, y.ITAB,
    y.dump.map fun d => ⟨d.ATRIB, d.CLOCK, d.cal, d.XLAST, d.SSQ, d.ITAB, d.INTVT, d.IGSEED, d.ILSEED, (), d.CH, d.CP, d.hist,
      d.XNEWA, d.XNEWP, d.LSFLG⟩, y.rows, y.rep⟩

theorem yearBody_strip (c : YearIn) (C : ℚ) (cal : Cal) (net : α) (LS : Fin n → ℚ) (H P : Cnt n) (y : YearSt n α) :
    (yearBody c C cal net LS H P y).map (fun r => (r.1, strip r.2.1, r.2.2)) = yearBody c C cal () LS H P (strip y) := by
  unfold yearBody
  show _ = Except.bind (histLoop c.NFCST c.NORR c.LSTEP H P y.hist) _
  cases histLoop c.NFCST c.NORR c.LSTEP H P y.hist with
  | error e => rfl
  | ok hist =>
    show _ = Except.bind (yearRows c H P y.rows) _
    simp only [bind, Except.bind]
    cases yearRows c H P y.rows with
    | error e => rfl
    | ok rows =>
      dsimp only [strip]
      generalize selSum c (accum c.NFCST H y.CH) (accum c.NFCST P y.CP) (poolW c.NFCST H) (poolW c.NFCST P) = q
      cases q with
      | error e => rfl
      | ok q =>
        dsimp only [pure, Except.pure, Except.map]
        unfold yearReport yearSave
        dsimp only
        split_ifs <;> rfl

end YearEnd

/-! ## C113 -/

section Runs
variable {n m l l' : ℕ} {sl : ℕ → ℚ → ℚ} {fuel fuel' : ℕ} {c : Cards n m l} {c' : Cards n m l'} {s : Setup n m l}
  {s' : Setup n m l'}

/-- Equal random states of the units, books and statistics. -/
structure Alike {k m l l' : ℕ} {ν ν' α α' : Type} (w : World k m l ν α) (w' : World k m l' ν' α') : Prop where
  IGSEED : w'.h.IGSEED = w.h.IGSEED
  books : booksOf w'.h = booksOf w.h
  year : strip w'.y = strip w.y

theorem calm_stepOK {stp : ℕ} {raw : ℕ → ℕ → ℚ} {J : ℤ} (hc : Calm sl fuel c s stp raw J) : StepOK s.hour.JSTEP := by
  rw [C64_step hc.accepted, hc.steps]
  rcases hc.mode with e | e <;> rw [e]
  · left; norm_num
  · right; norm_num

/-- The hour of the year is determined by the clock. -/
theorem clock_unique {y k y' k' : ℕ} (hk : k < 8760) (hk' : k' < 8760) (h : 8760 * (y : ℚ) + (k : ℚ) = 8760 * (y' : ℚ) + (k' : ℚ)) :
    k = k' := by
  have : 8760 * y + k = 8760 * y' + k' := by exact_mod_cast h
  omega

theorem run_alike {stp : ℕ} {raw : ℕ → ℕ → ℚ} {J J' : ℤ} (hc : Calm sl fuel c s stp raw J)
    (hc' : Calm sl fuel' c' s' stp raw J') (ho : OtherNetwork c c') {log : List Ev} {st : St _}
    (hr : Reach s.cfg (s.start J) log st) : ∀ {log' : List Ev} {st' : St _}, Reach s'.cfg (s'.start J') log' st' →
    log'.length = log.length → log' = log ∧ Ctl st st' ∧ st'.RFLAG = st.RFLAG ∧ Alike st.world st'.world := by
  have hsame := otherNetwork_setup ho hc.one hc'.one hc.accepted hc'.accepted
  have hloop : SameLoop s.cfg s'.cfg := ⟨hsame.JSTEP, congrArg YearIn.FINISH hsame.year, hsame.JPLOUT, hsame.RATES⟩
  have hJ := calm_stepOK hc
  have hJ' := calm_stepOK hc'
  induction hr with
  | start =>
    intro log' st' hr' hlen
    cases hr' with
    | step h _ => simp at hlen
    | start =>
      refine ⟨rfl, ⟨?_, rfl, rfl, rfl, rfl, rfl⟩, rfl, ⟨rfl, rfl, ?_⟩⟩
      · show initl s'.hour.JSTEP _ = initl s.hour.JSTEP _
        rw [hsame.JSTEP]
      · show strip (YearSt.init (n + 1) _ s'.INTVT s'.ITAB) = strip (YearSt.init (n + 1) _ s.INTVT s.ITAB)
        rw [hsame.INTVT, hsame.ITAB]
  | @step log st ev st1 hr hst ih =>
    intro log' st' hr' hlen
    cases hr' with
    | start => simp at hlen
    | @step log0 st0 ev0 _ hr0 hst0 =>
      simp only [List.length_append, List.length_singleton, Nat.add_right_cancel_iff] at hlen
      obtain ⟨rfl, hctl, hfl, hal⟩ := ih hr0 hlen
      obtain ⟨rfl, hctl1⟩ := step_next_pair hloop hctl hfl hst hst0
      refine ⟨rfl, hctl1, ?_⟩
      rcases step_world (cfg := s.cfg) hJ hr hst with ⟨k1, _, f1⟩ | ⟨k1, w1, f1⟩ | ⟨k1, w1⟩
      · rcases step_world (cfg := s'.cfg) hJ' hr0 hst0 with ⟨_, _, f2⟩ | ⟨k2, _⟩ | ⟨k2, _⟩
        · refine ⟨by rw [f1, f2, hfl], ?_⟩
          obtain ⟨y, k, hk, ht, hb, hi⟩ := calm_draw hc hr hst k1
          obtain ⟨y', k', hk', ht', hb', hi'⟩ := calm_draw hc' hr0 hst0 k1
          obtain rfl := clock_unique hk' hk (ht'.symm.trans ht)
          have hyr : st1.world.y = st.world.y ∧ st'.world.y = st0.world.y := by
            rcases step_world (cfg := s.cfg) hJ hr hst with ⟨_, e1, _⟩ | ⟨e1, _⟩ | ⟨e1, _⟩
            · rcases step_world (cfg := s'.cfg) hJ' hr0 hst0 with ⟨_, e2, _⟩ | ⟨e2, _⟩ | ⟨e2, _⟩
              · refine ⟨?_, ?_⟩
                · change (hourFx s.hour ev0.time st.RATING st.PLNDST st.world.h).map _ = _ at e1
                  cases hx : hourFx s.hour ev0.time st.RATING st.PLNDST st.world.h with
                  | error x => rw [hx] at e1; cases e1
                  | ok x => rw [hx] at e1; rw [← Except.ok.inj e1]
                · change (hourFx s'.hour ev0.time st0.RATING st0.PLNDST st0.world.h).map _ = _ at e2
                  cases hx : hourFx s'.hour ev0.time st0.RATING st0.PLNDST st0.world.h with
                  | error x => rw [hx] at e2; cases e2
                  | ok x => rw [hx] at e2; rw [← Except.ok.inj e2]
              · rw [k1] at e2; norm_num at e2
              · rw [k1] at e2; norm_num at e2
            · rw [k1] at e1; norm_num at e1
            · rw [k1] at e1; norm_num at e1
          refine ⟨by rw [hi, hi', hal.IGSEED], ?_, by rw [hyr.1, hyr.2, hal.year]⟩
          rw [hb, hb', hal.books, ho.misc, hsame.HRLOAD, hsame.FCTERR, hsame.NFCST]
          have e1 : hourUsed s'.hour k' = hourUsed s.hour k' := by unfold hourUsed; rw [hsame.JSTEP, hsame.MXPLHR]
          have e2 : peakOf s'.hour k' = peakOf s.hour k' := by unfold peakOf; rw [hsame.JSTEP, hsame.MXPLHR]
          rw [e1, e2]
          congr 1
          show (sumcap (gstate st0.world.h.IGSEED s'.hour.PROBG _ s'.hour.DERATE _).2.2 s'.hour.CAPOWN s'.hour.CAPCON).2.2.1 =
            (sumcap (gstate st.world.h.IGSEED s.hour.PROBG _ s.hour.DERATE _).2.2 s.hour.CAPOWN s.hour.CAPCON).2.2.1
          rw [hsame.PROBG, hsame.DERATE, hsame.CAPOWN, hsame.CAPCON, hal.IGSEED, hctl.RATING, hctl.PLNDST]
        · rw [k1] at k2; norm_num at k2
        · rw [k1] at k2; norm_num at k2
      · rcases step_world (cfg := s'.cfg) hJ' hr0 hst0 with ⟨k2, _⟩ | ⟨_, w2, f2⟩ | ⟨k2, _⟩
        · rw [k2] at k1; norm_num at k1
        · exact ⟨by rw [f1, f2, hfl], by rw [w1, w2]; exact hal⟩
        · rw [k2] at k1; norm_num at k1
      · rcases step_world (cfg := s'.cfg) hJ' hr0 hst0 with ⟨k2, _⟩ | ⟨k2, _⟩ | ⟨_, w2⟩
        · rw [k2] at k1; norm_num at k1
        · rw [k1] at k2; norm_num at k2
        · change yearWorld s.year snapNet _ _ _ = _ at w1
          change yearWorld s'.year snapNet _ _ _ = _ at w2
          unfold yearWorld at w1 w2
          have b1 := yearBody_strip s.year ev0.time st1.cal (snapNet st.world.h.net) st.world.h.LSFLG st.world.h.H st.world.h.P st.world.y
          have b2 := yearBody_strip s'.year ev0.time st'.cal (snapNet st0.world.h.net) st0.world.h.LSFLG st0.world.h.H st0.world.h.P
            st0.world.y
          have q1 : st0.world.h.LSFLG = st.world.h.LSFLG := congrArg Books.LSFLG hal.books
          have q2 : st0.world.h.H = st.world.h.H := congrArg Books.H hal.books
          have q3 : st0.world.h.P = st.world.h.P := congrArg Books.P hal.books
          rw [hsame.year, hctl1.cal, q1, q2, q3, hal.year, ← b1] at b2
          rw [hsame.year, hctl1.cal, q1, q2, q3] at w2
          generalize yearBody s.year ev0.time st1.cal (snapNet st.world.h.net) st.world.h.LSFLG st.world.h.H st.world.h.P
            st.world.y = r at w1 b2
          generalize yearBody s.year ev0.time st1.cal (snapNet st0.world.h.net) st.world.h.LSFLG st.world.h.H st.world.h.P
            st0.world.y = r' at w2 b2
          cases r with
          | error x => cases w1
          | ok r =>
            cases r' with
            | error x => cases w2
            | ok r' =>
              obtain ⟨e1, e1'⟩ := Prod.mk.inj (Except.ok.inj w1)
              obtain ⟨e2, e2'⟩ := Prod.mk.inj (Except.ok.inj w2)
              have b3 := Except.ok.inj b2
              dsimp only at b3
              obtain ⟨b4, b5⟩ := Prod.mk.inj b3
              obtain ⟨b5, b6⟩ := Prod.mk.inj b5
              refine ⟨by rw [← e1', ← e2', b6], ?_⟩
              rw [← e1, ← e2]
              refine ⟨hal.IGSEED, ?_, b5⟩
              show Books.mk st0.world.h.LSFLG r'.1.1 r'.1.2 = Books.mk st.world.h.LSFLG r.1.1 r.1.2
              rw [b4, q1]

/-- C113 (all along the way). Two studies that differ only in the network, and in neither of which a limit ever binds:
after the same number of events both have processed the same events, the random states of the units, the hourly and peak
counters of all areas and of the pool, their sums over the years, the histograms, the last annual table, the data
of the final report and the stop flag are the same. -/
theorem C113_figures {stp : ℕ} {raw : ℕ → ℕ → ℚ} {J J' : ℤ} (hc : Calm sl fuel c s stp raw J)
    (hc' : Calm sl fuel' c' s' stp raw J') (ho : OtherNetwork c c') {log log' : List Ev} {st st' : St _}
    (hr : Reach s.cfg (s.start J) log st) (hr' : Reach s'.cfg (s'.start J') log' st') (hlen : log'.length = log.length) :
    log' = log ∧ st'.CLOCK = st.CLOCK ∧ st'.RFLAG = st.RFLAG ∧ st'.world.h.IGSEED = st.world.h.IGSEED ∧
    st'.world.h.H = st.world.h.H ∧ st'.world.h.P = st.world.h.P ∧ st'.world.y.CH = st.world.y.CH ∧
    st'.world.y.CP = st.world.y.CP ∧ st'.world.y.hist = st.world.y.hist ∧ st'.world.y.rows = st.world.y.rows ∧
    st'.world.y.rep = st.world.y.rep := by
  obtain ⟨e, hctl, hf, ha⟩ := run_alike hc hc' ho hr hr' hlen
  exact ⟨e, hctl.CLOCK, hf, ha.IGSEED, congrArg Books.H ha.books, congrArg Books.P ha.books, (congrArg YearSt.CH ha.year :),
    (congrArg YearSt.CP ha.year :), (congrArg YearSt.hist ha.year :), (congrArg YearSt.rows ha.year :), (congrArg YearSt.rep ha.year :)⟩

/-- C113 (the end). Two such studies end in the same way after the same events, and print the same report. -/
theorem C113_report {stp : ℕ} {raw : ℕ → ℕ → ℚ} {J J' : ℤ} (hc : Calm sl fuel c s stp raw J)
    (hc' : Calm sl fuel' c' s' stp raw J') (ho : OtherNetwork c c') {log log' : List Ev} {st st' : St _} {e e' : Exit}
    (hr : Reach s.cfg (s.start J) log st) (hx : step s.cfg st = .ok (.exit e))
    (hr' : Reach s'.cfg (s'.start J') log' st') (hx' : step s'.cfg st' = .ok (.exit e')) :
    log' = log ∧ e' = e ∧ st'.world.y.rep = st.world.y.rep ∧ st'.world.y.ITAB = st.world.y.ITAB ∧
    ∀ r, s'.report st'.world.y.ITAB r = s.report st.world.y.ITAB r := by
  have hsame := otherNetwork_setup ho hc.one hc'.one hc.accepted hc'.accepted
  have hloop : SameLoop s.cfg s'.cfg := ⟨hsame.JSTEP, congrArg YearIn.FINISH hsame.year, hsame.JPLOUT, hsame.RATES⟩
  have hloop' : SameLoop s'.cfg s.cfg := ⟨hloop.1.symm, hloop.2.symm, hloop.3.symm, hloop.4.symm⟩
  have hlen : log'.length = log.length := by
    rcases lt_trichotomy log'.length log.length with h | h | h
    · obtain ⟨s1, ev, s2, r1, q⟩ := reach_take hr _ h
      obtain ⟨_, a, b, _⟩ := run_alike hc hc' ho r1 hr' (by rw [List.length_take]; omega)
      rw [step_exit_pair hloop' ⟨a.1.symm, a.2.symm, a.3.symm, a.4.symm, a.5.symm, a.6.symm⟩ b.symm hx'] at q
      cases q
    · exact h
    · obtain ⟨s1, ev, s2, r1, q⟩ := reach_take hr' _ h
      obtain ⟨_, a, b, _⟩ := run_alike hc hc' ho hr r1 (by rw [List.length_take]; omega)
      rw [step_exit_pair hloop a b hx] at q
      cases q
  obtain ⟨h1, h2, h3, h4⟩ := run_alike hc hc' ho hr hr' hlen
  have hI : st'.world.y.ITAB = st.world.y.ITAB := (congrArg YearSt.ITAB h4.year :)
  refine ⟨h1, ?_, (congrArg YearSt.rep h4.year :), hI, fun r => ?_⟩
  · have := step_exit_pair hloop h2 h3 hx
    rw [hx'] at this
    exact (StepRes.exit.inj (Except.ok.inj this))
  · unfold Setup.report
    rw [hsame.year, hsame.NAMA, hsame.SUSTAT, hI]

/-- C113 from the cards alone: with two ample networks (and legal settings) both studies run to the same regular end, with
the same events and the same report. -/
theorem C113_ample {stp : ℕ} {raw : ℕ → ℕ → ℚ} (hc : AmpleStudy sl fuel c s stp raw) (hc' : AmpleStudy sl fuel' c' s' stp raw)
    (ho : OtherNetwork c c') (hIOJ : c.misc.IOJ = 0 ∨ c.misc.JSTEP = 24) (hE : 20 ≤ c.misc.MAXEUE)
    (hK : c.misc.KWHERE = 1 → 1 ≤ c.misc.KVLOC ∧ c.misc.KVLOC ≤ n + 1) (J J' : ℤ) :
    ∃ (log : List Ev) (st st' : St _) (e : Exit), (e = .converged ∨ e = .finished) ∧
      Reach s.cfg (s.start J) log st ∧ step s.cfg st = .ok (.exit e) ∧
      Reach s'.cfg (s'.start J') log st' ∧ step s'.cfg st' = .ok (.exit e) ∧ st'.world.y.rep = st.world.y.rep ∧
      ∀ r, s'.report st'.world.y.ITAB r = s.report st.world.y.ITAB r := by
  obtain ⟨log, st, e, hr, hx, he⟩ := C110_completes hc hIOJ hE hK J
  obtain ⟨log', st', e', hr', hx', _⟩ := C110_completes hc' (by rw [ho.misc]; exact hIOJ) (by rw [ho.misc]; exact hE)
    (by rw [ho.misc]; exact hK) J'
  obtain ⟨rfl, rfl, h3, _, h5⟩ := C113_report (C110_calm hc J) (C110_calm hc' J') ho hr hx hr' hx'
  exact ⟨log', st, st', e', he, hr, hx, hr', hx', h3, h5⟩

/-- C113 applies: a weak and a strong line with different flow limits; the pool is short whenever enough units are out, and the
second area's surplus is needed by the first in every hour. -/
example (sl : ℕ → ℚ → ℚ) (fuel : ℕ) : ∃ (s s' : Setup 1 4 1) (raw : ℕ → ℕ → ℚ),
    AmpleStudy sl fuel (ampleCards (-100) 260 1000) s 1 raw ∧ AmpleStudy sl fuel (ampleCards (-7) 5000 300) s' 1 raw ∧
    OtherNetwork (ampleCards (-100) 260 1000) (ampleCards (-7) 5000 300) ∧
    ∃ (log : List Ev) (st st' : St _) (e : Exit), (e = .converged ∨ e = .finished) ∧
      Reach s.cfg (s.start 1) log st ∧ step s.cfg st = .ok (.exit e) ∧
      Reach s'.cfg (s'.start 2) log st' ∧ step s'.cfg st' = .ok (.exit e) ∧ st'.world.y.rep = st.world.y.rep := by
  obtain ⟨s, raw, h, hs⟩ := ample_study sl fuel (adm := -100) (cap := 260) (lim := 1000) (by norm_num) (by norm_num) (by norm_num)
  obtain ⟨s', raw', h', hs'⟩ := ample_study sl fuel (adm := -7) (cap := 5000) (lim := 300) (by norm_num) (by norm_num) (by norm_num)
  have e : raw' = raw := Except.ok.inj (h'.symm.trans h)
  subst e
  have ho : OtherNetwork (ampleCards (-100) 260 1000) (ampleCards (-7) 5000 300) :=
    ⟨by intro j; fin_cases j <;> rfl, by intro j; fin_cases j <;> rfl, by intro j; fin_cases j <;> rfl, rfl, rfl, rfl⟩
  obtain ⟨log, st, st', e, a, b, b2, b3, b4, b5, _⟩ := C113_ample hs hs' ho (.inl rfl) (by simp [ampleCards, demoCards]; norm_num)
    (by simp [ampleCards, demoCards]) 1 2
  exact ⟨s, s', raw', hs, hs', ho, log, st, st', e, a, b, b2, b3, b4, b5⟩

end Runs

end Narp.Props
