import Verif.Props.CardWhole
import Verif.Props.Sharing
import Verif.Spec.Balance

/-!
# C104: the books of every hour balance, area by area
-/

namespace Narp.Props
open Narp.Spec BigOperators

section Hour
variable {ν : Type}

/-- What holds of every entry. -/
theorem tiers_all {N : ℕ} {df : Fin 5 → Fin N → ℚ}
    {as : Bool → Fin 5 → ν → Option (Fin N → ℚ) × ν → Prop} {Good : Bool → ν → Prop} {P : Fin 5 → (Fin N → ℚ) → Prop}
    (hdf : ∀ t, (∀ j, 1 ≤ df t j) → P t (df t)) (hgood : ∀ {first t net o net1}, Good first net → as first t net (o, net1) → Good false net1 ∧
      ∀ S, o = some S → P t S) :
    ∀ {ts first net hist net'}, HourTiers df as ts first net hist net' → Good first net → ∀ e ∈ hist, P e.1 e.2 := by
  intro ts first net hist net' h
  induction h with
  | done => intro _ e he; cases he
  | everybody all _ ih =>
    intro hg e he
    rcases List.mem_cons.1 he with rfl | he
    · exact hdf _ all
    · exact ih hg e he
  | assisted _ _ ev _ _ ih =>
    intro hg e he
    obtain ⟨g1, g2⟩ := hgood hg ev
    rcases List.mem_cons.1 he with rfl | he
    · exact g2 _ rfl
    · exact ih g1 e he
  | helped _ _ _ _ => intro _ e he; cases he
  | scheduled _ _ _ => intro _ e he; cases he

variable {N M L : ℕ}

/-- One evaluation without contracts in which no limit binds. -/
theorem assist_balanced {c : HourIn (N + 1) M L (NetSt N L)} {LP : LEnds N L} {BLPA : Fin L → Fin 6 → LnPar}
    {NR : Fin (N + 1)} {NLS : ℤ} (hg : Grid LP BLPA NR) (hc : c.transm = hourTransm noRedispatch LP BLPA NR NLS)
    (hN : NLS = 0 ∨ NLS = 1) {d : Draw (N + 1) L} {k : Fin L → Fin 6} (hk : ∀ i, d.LNSTAT i = ((k i : ℕ) : ℤ) + 1)
    (hz : ∀ j, d.TRNSFR j + d.TRNSFJ j = 0) {hr : ℕ} (hload : ∀ j t, 0 < c.HRLOAD j hr * c.FCTERR j t)
    {lim : Fin (N + 1) → ℚ} (hl0 : ∀ j, 0 ≤ lim j) {first : Bool} {t : Fin 5} {net net1 : NetSt N L}
    {o : Option (Fin (N + 1) → ℚ)}
    (hn : (first = false → Intact LP BLPA NR net) ∧ net.BN.c3 = lim ∧ net.BN.c4 = lim)
    (ha : assist c d hr first t net (o, net1)) :
    ((false = false → Intact LP BLPA NR net1) ∧ net1.BN.c3 = lim ∧ net1.BN.c4 = lim) ∧
    ∀ S, o = some S → (∃ F, BooksBalance LP (fun i => (BLPA i (k i)).fwd) (fun i => (BLPA i (k i)).bwd) lim d.SYSCON
      (fun j => c.HRLOAD j hr * c.FCTERR j t) S F) ∧ SharedBy NLS d.SYSCON (fun j => c.HRLOAD j hr * c.FCTERR j t) S := by
  obtain ⟨J, S0, htr, ho⟩ := ha
  dsimp only at ho
  rw [hc] at htr
  unfold hourTransm at htr
  generalize hti : (⟨if first then 0 else 1, d.LNSTAT, d.TRNSFR, d.TRNSFJ, d.SYSCON,
      fun j => c.HRLOAD j hr * c.FCTERR j t⟩ : TransIn (N + 1) L) = ti at htr
  have tL : ti.LNSTAT = d.LNSTAT := by rw [← hti]
  have tS : ti.SYSCON = d.SYSCON := by rw [← hti]
  have tC : ti.CAPREQ = fun j => c.HRLOAD j hr * c.FCTERR j t := by rw [← hti]
  have tI : ti.IFLAG = if first then 0 else 1 := by rw [← hti]
  have tz : ∀ a, ti.TRNSFR a + ti.TRNSFJ a = 0 := by rw [← hti]; exact hz
  cases hr2 : transm noRedispatch LP BLPA NR NLS ti net with
  | error e => rw [hr2] at htr; cases htr
  | ok r =>
    obtain ⟨out, w'⟩ := r
    rw [hr2] at htr
    cases htr
    have hI : ti.IFLAG ≠ 1 ∨ Intact LP BLPA NR net := by
      rw [tI]
      cases first
      · exact .inr (hn.1 rfl)
      · exact .inl (by decide)
    have hl : NLS = 0 → (∀ a, 0 ≤ ti.CAPREQ a) ∧ 0 < ∑ a, ti.CAPREQ a := fun _ => by
      rw [tC]
      exact ⟨fun a => (hload a t).le, Finset.sum_pos (fun a _ => hload a t) ⟨0, Finset.mem_univ _⟩⟩
    have hk' : ∀ i, ti.LNSTAT i = ((k i : ℕ) : ℤ) + 1 := by rw [tL]; exact hk
    have hlim : ∀ a, 0 ≤ net.BN.c3 a ∧ 0 ≤ net.BN.c4 a := by rw [hn.2.1, hn.2.2]; exact fun a => ⟨hl0 a, hl0 a⟩
    obtain ⟨i1, i2, i3⟩ := C39_evaluation_partial hg hI hk' hl (by rw [hn.2.1, hn.2.2]) hr2
    refine ⟨⟨fun _ => i1, by rw [i2, hn.2.1], by rw [i3, hn.2.2]⟩, fun S h => ?_⟩
    by_cases hJ : out.JFLAG = 0
    · rw [ho, if_pos hJ] at h; cases h
    rw [ho, if_neg hJ] at h
    cases h
    have key : ∃ F : Fin L → ℚ, (∀ i, -(BLPA i (k i)).bwd ≤ F i ∧ F i ≤ (BLPA i (k i)).fwd) ∧
        (∀ a, netOut LP F a = ti.SYSCON a - ti.CAPREQ a + out.SADJ a) ∧
        ∀ a, -net.BN.c4 a ≤ -netOut LP F a ∧ -netOut LP F a ≤ net.BN.c3 a := by
      rcases hN with rfl | rfl
      · obtain ⟨F, f1, f2, f3⟩ := C53_total_flows hg hI hk' hl (.inl rfl) hlim hr2 hJ
        exact ⟨F, f1, f2, (f3 rfl).2⟩
      · obtain ⟨f1, f2, _, f4⟩ := C88_no_contracts_partial hg hI hk' hlim tz hr2
        exact ⟨_, f1, f4 hJ, f2⟩
    have share := C111_evaluation hg hI hk' hl tz hr2 hJ
    rw [tS, tC] at share
    refine ⟨?_, share.1, fun e => .inl (share.2 e)⟩
    obtain ⟨F, f1, f2, f3⟩ := key
    refine ⟨F, f1, fun j => ?_, fun j => ?_⟩
    · have := f3 j
      rw [hn.2.1, hn.2.2] at this
      exact ⟨by linarith [this.2], by linarith [this.1]⟩
    · have := f2 j
      rw [tS, tC] at this
      rw [this]
      ring

/-- C104 for an hour without contracts in which no limit binds. -/
theorem hour_balanced (c : HourIn (N + 1) M L (NetSt N L)) {LP : LEnds N L}
    {BLPA : Fin L → Fin 6 → LnPar} {NR : Fin (N + 1)} {NLS : ℤ} (hg : Grid LP BLPA NR)
    (hc : c.transm = hourTransm noRedispatch LP BLPA NR NLS) (hN : NLS = 0 ∨ NLS = 1) (hp : ∀ d < 365, c.MXPLHR d < 8760)
    (hf : c.JFREQ = 1) (y k : ℕ) (hk : k < 8760) (hL : ∀ j t, 0 < c.HRLOAD j (hourUsed c k) * c.FCTERR j t) (R P : Fin M → ℚ)
    (w w' : HourSt (N + 1) M L (NetSt N L)) {lim : Fin (N + 1) → ℚ} (hl0 : ∀ j, 0 ≤ lim j)
    (hlim : w.net.BN.c3 = lim ∧ w.net.BN.c4 = lim)
    {q : Fin L → Fin 6} (hq : ∀ i, (hourDraw c (hourOf k / 24) R P w).1.LNSTAT i = ((q i : ℕ) : ℤ) + 1)
    (hz : ∀ j, (hourDraw c (hourOf k / 24) R P w).1.TRNSFR j + (hourDraw c (hourOf k / 24) R P w).1.TRNSFJ j = 0)
    (h : hourBody c (8760 * y + k) R P w = .ok w') :
    ∃ hist, (∃ isPeak, Recorded hist isPeak w w') ∧
      ∀ e ∈ hist, (∃ F, BooksBalance LP (fun i => (BLPA i (q i)).fwd) (fun i => (BLPA i (q i)).bwd) lim
        (hourDraw c (hourOf k / 24) R P w).1.SYSCON (fun j => c.HRLOAD j (hourUsed c k) * c.FCTERR j e.1) e.2 F) ∧
        SharedBy NLS (hourDraw c (hourOf k / 24) R P w).1.SYSCON (fun j => c.HRLOAD j (hourUsed c k) * c.FCTERR j e.1) e.2 := by
  obtain ⟨hist, h1, isPeak, _, h2⟩ := C59_recorded_used c hf y k hk hp R P w w' h
  refine ⟨hist, ⟨isPeak, h2⟩, tiers_all
    (Good := fun first net => (first = false → Intact LP BLPA NR net) ∧ net.BN.c3 = lim ∧ net.BN.c4 = lim)
    (P := fun t S => (∃ F, BooksBalance LP (fun i => (BLPA i (q i)).fwd) (fun i => (BLPA i (q i)).bwd) lim
        (hourDraw c (hourOf k / 24) R P w).1.SYSCON (fun j => c.HRLOAD j (hourUsed c k) * c.FCTERR j t) S F) ∧
        SharedBy NLS (hourDraw c (hourOf k / 24) R P w).1.SYSCON (fun j => c.HRLOAD j (hourUsed c k) * c.FCTERR j t) S)
    (fun t ht => ⟨⟨fun _ => 0, fun i => ?_, fun j => ?_, fun j => ?_⟩, own_shared NLS ht⟩)
    (fun {first t net o net1} hn ha => assist_balanced hg hc hN hq hz hL hl0 hn ha) h1
    ⟨fun h => absurd h (by decide), hlim⟩⟩
  · obtain ⟨a, b⟩ := hg.cap i (q i)
    exact ⟨by linarith, a⟩
  · have : netOut LP (fun _ => (0 : ℚ)) j = 0 := by simp [netOut]
    rw [this]
    exact ⟨by linarith [hl0 j], hl0 j⟩
  · have : netOut LP (fun _ => (0 : ℚ)) j = 0 := by simp [netOut]
    rw [this]
    ring

/-- Non-vacuity of `hour_balanced`: the first area has 300 MW too much, the second lacks 400 MW, 300 MW are carried
over and 100 MWh recorded. -/
example : Grid twoLP twoBLPA 0 ∧ (∀ i, (hourDraw pairHour (hourOf 5 / 24) ![600, 300] (fun _ => 1) pairSt).1.LNSTAT i =
      (((0 : Fin 6) : ℕ) : ℤ) + 1) ∧
    (∀ j, (hourDraw pairHour (hourOf 5 / 24) ![600, 300] (fun _ => 1) pairSt).1.TRNSFR j +
      (hourDraw pairHour (hourOf 5 / 24) ![600, 300] (fun _ => 1) pairSt).1.TRNSFJ j = 0) ∧
    (hourBody pairHour (8760 * (0 : ℕ) + (5 : ℕ)) ![600, 300] (fun _ => 1) pairSt).toBool = true ∧
    BooksBalance twoLP (fun _ => 1000) (fun _ => 1000) (fun _ => 1000) ![600, 300] ![300, 700] ![0, 100] (fun _ => 300) := by
  refine ⟨two_grid, by decide +kernel, by decide +kernel, by decide +kernel, ⟨fun i => by norm_num, ?_, ?_⟩⟩ <;>
    decide +kernel

end Hour

/-- The comparisons of the sampler single out the state of the card. -/
theorem lineState_card {g : LineCard} {u : ℚ} {q : Fin 6}
    (h : lineState (fun t => cumProb g.prob (t + 1)) u = ((q : ℕ) : ℤ) + 1) : lineIn g u q := by
  unfold lineState at h
  unfold lineIn
  fin_cases q <;> simp only [] at h ⊢ <;> split_ifs at h <;> first | (exfalso; omega) | skip
  all_goals simp_all

variable {n m l : ℕ} {sl : ℕ → ℚ → ℚ} {fuel : ℕ} {c : Cards n m l} {s : Setup n m l}

/-- What the program does at a draw in which no limit binds, in terms of the cards. -/
theorem draw_hour (h1 : OneCard c) (hs : Sensible c) (hl : NoLone c)
    (h : setup sl fuel c = .ok s) (hstep : c.misc.JSTEP = 1 ∨ c.misc.JSTEP = 24) (hfreq : c.misc.JFREQ = 1)
    (hnum : ∀ k, (c.lines k).number ≤ l)
    {raw : ℕ → ℕ → ℚ} (hraw : leeiRead (n + 1) c.leei = .ok raw) (hpk : ∀ j, 0 < (c.areas j).peak)
    (h0 : ∀ (j : Fin (n + 1)), ∀ h < 8760, 0 ≤ raw j h) (hb : ∀ j : Fin (n + 1), ∃ h < 8760, 1 / 1000 ≤ raw j h)
    (JSEED : ℤ) {log : List Ev} {st st' : St _} {ev : Ev} (hr : Reach s.cfg (s.start JSEED) log st)
    (hst : step s.cfg st = .ok (.next ev st')) (hk : ev.kind = 1) (y T : ℕ) (hT : ev.time = ((8760 * y + T : ℕ) : ℚ))
    (hT1 : 1 ≤ T) (hT2 : T ≤ 8760) (hpos : ∀ (j : Fin (n + 1)) (h : ℕ), standsFor c.misc.JSTEP T h → 0 < raw j h)
    {LP : LEnds n l} (hLP : ∀ k, (c.areas (LP k).1).name = (c.lines k).src ∧ (c.areas (LP k).2).name = (c.lines k).dst)
    {w' : HourSt (n + 1) m l (NetSt n l)}
    (hfree : hourBody { s.hour with transm := hourTransm noRedispatch LP (fun k => dataxBLPA (c.lines k)) 0 c.misc.NLS }
      ev.time (fun i => st.RATING.getD i 0) (fun i => st.PLNDST.getD i 0) st.world.h = .ok w') :
    ∃ (season : Fin 4) (y' k : ℕ), ev.time = 8760 * (y' : ℚ) + (k : ℚ) ∧ ((season : ℕ) : ℤ) = (seasonOf T + 1) % 4 ∧ k < 8760 ∧
    hourBody { s.hour with transm := hourTransm noRedispatch LP (fun k => dataxBLPA (c.lines k)) 0 c.misc.NLS }
      (8760 * (y' : ℚ) + (k : ℚ)) (fun i => st.RATING.getD i 0) (fun i => st.PLNDST.getD i 0) st.world.h = .ok st'.world.h ∧
    Evaluated c.misc.JSTEP s.hour.HRLOAD T (hourUsed s.hour k) ∧
    (hourDraw s.hour (hourOf k / 24) (fun i => st.RATING.getD i 0) (fun i => st.PLNDST.getD i 0) st.world.h).2.ILSEED =
      st'.world.h.ILSEED ∧ (∀ j, 0 < s.hour.HRLOAD j (hourUsed s.hour k)) ∧
    (∀ t, (fun j => s.hour.HRLOAD j (hourUsed s.hour k) * s.hour.FCTERR j t) =
      fun j => s.hour.HRLOAD j (hourUsed s.hour k) * forecast (c.areas j).lfu t) ∧
    (hourDraw s.hour (hourOf k / 24) (fun i => st.RATING.getD i 0) (fun i => st.PLNDST.getD i 0) st.world.h).1.SYSCON =
      fun j => ∑ i ∈ unitsIn c j, outcome (c.units i) (variate (st'.world.h.IGSEED i)) *
        (c.units i).cap season * (if offInHour (c.units i) (8760 * y + T) then 0 else 1) := by
  have hload : ∀ j : Fin (n + 1), Scaled (raw j) (c.areas j).peak (s.hour.HRLOAD j) := fun j =>
    loads_scaled h hraw j (hpk j) (h0 j) (hb j)
  have hJs : s.hour.JSTEP = c.misc.JSTEP := (C64_step h)
  have hJF : s.hour.JFREQ = 1 := by
    obtain ⟨wr, raw, T, ITAB, ID', hw, _, _, _, _, rfl⟩ := setup_ok h
    exact hfreq
  have hJ : StepOK s.hour.JSTEP := by
    rw [hJs]
    rcases hstep with e | e <;> rw [e]
    · left; norm_num
    · right; norm_num
  -- the real event does the same
  have hreal : hourBody s.hour ev.time (fun i => st.RATING.getD i 0) (fun i => st.PLNDST.getD i 0) st.world.h =
      .ok w' := by
    refine hourBody_mono (c' := { s.hour with transm := hourTransm noRedispatch LP (fun k => dataxBLPA (c.lines k)) 0 c.misc.NLS })
      rfl ?_ hfree
    intro t w r e
    obtain ⟨wr, H, hwa, x1, x2⟩ := setup_wiring h1 h
    have hLP' : wr.LP = LP := funext fun k => Prod.ext (h1.areas ((hwa.src k).trans (hLP k).1.symm))
      (h1.areas ((hwa.dst k).trans (hLP k).2.symm))
    have hb : ∀ a b, dataxLINENO wr.LP wr.number a b < l :=
      lineno_bound wr.LP fun k => by rw [hwa.number k]; have := hnum k; omega
    rw [x1]
    show netCall (dataxLINENO wr.LP wr.number) fuel c.misc.IOI wr.LP (fun k => dataxBLPA (c.lines k)) 0 c.misc.NLS t w = _
    unfold netCall
    rw [helpCheck_small hb, hLP']
    show hourTransm _ _ _ _ _ _ _ = _
    change hourTransm _ _ _ _ _ _ _ = _ at e
    unfold hourTransm at e ⊢
    generalize hx : transm noRedispatch LP (fun k => dataxBLPA (c.lines k)) 0 c.misc.NLS t w = x at e
    cases x with
    | error x => cases e
    | ok x => rw [transm_mono (lp := redispatch fuel c.misc.IOI) (fun x o h => by cases h) hx]; exact e
  have hworld : st'.world.h = w' := by
    rcases step_world (cfg := s.cfg) hJ hr hst with ⟨_, e, _⟩ | ⟨e, _⟩ | ⟨e, _⟩
    · change (hourFx s.hour ev.time st.RATING st.PLNDST st.world.h).map _ = _ at e
      unfold hourFx at e
      rw [hreal] at e
      rw [← Except.ok.inj e]
    · rw [hk] at e; norm_num at e
    · rw [hk] at e; norm_num at e
  -- the hour
  have hmx : ∀ d < 365, s.hour.MXPLHR d < 8760 := fun d hd => by
    obtain ⟨_, _, _, _, _, _, hm⟩ := C64_loads h
    have := (hm d).2.1
    omega
  obtain ⟨y', k, hk', hclock, hof⟩ : ∃ y' k : ℕ, k < 8760 ∧ ev.time = 8760 * (y' : ℚ) + (k : ℚ) ∧ hourOf k = T - 1 := by
    by_cases hT' : T = 8760
    · exact ⟨y + 1, 0, by norm_num, by rw [hT, hT']; push_cast; ring, by rw [hT']; rfl⟩
    · exact ⟨y, T, by omega, by rw [hT]; push_cast; ring, by unfold hourOf; rw [if_neg (by omega)]⟩
  have hev : Evaluated c.misc.JSTEP s.hour.HRLOAD T (hourUsed s.hour k) := evaluated_hour h hstep hof
  obtain ⟨season, hsea, hcap⟩ : ∃ season : Fin 4, ((season : ℕ) : ℤ) = (seasonOf T + 1) % 4 ∧ ∀ j,
      (hourDraw s.hour (hourOf k / 24) (fun i => st.RATING.getD i 0) (fun i => st.PLNDST.getD i 0) st.world.h).1.SYSCON j =
      ∑ i ∈ unitsIn c j, outcome (c.units i) (variate ((hourDraw s.hour (hourOf k / 24) (fun i => st.RATING.getD i 0)
        (fun i => st.PLNDST.getD i 0) st.world.h).2.IGSEED i)) * (c.units i).cap season *
      (if offInHour (c.units i) (8760 * y + T) then 0 else 1) := by
    obtain ⟨s0, e0, _⟩ := C69_capacity_partial h1 hs hl h hJ JSEED hr hst hk y T hT hT1 hT2 (hourOf k / 24) 0
    refine ⟨s0, e0, fun j => ?_⟩
    obtain ⟨s1, e1, f1⟩ := C69_capacity_partial h1 hs hl h hJ JSEED hr hst hk y T hT hT1 hT2 (hourOf k / 24) j
    have : s1 = s0 := by
      apply Fin.ext
      have := e1.trans e0.symm
      exact_mod_cast this
    rw [← this]
    exact f1
  have hseed : (hourDraw s.hour (hourOf k / 24) (fun i => st.RATING.getD i 0) (fun i => st.PLNDST.getD i 0)
      st.world.h).2.IGSEED = st'.world.h.IGSEED ∧ (hourDraw s.hour (hourOf k / 24) (fun i => st.RATING.getD i 0)
      (fun i => st.PLNDST.getD i 0) st.world.h).2.ILSEED = st'.world.h.ILSEED := by
    rw [hworld]
    have e := hreal
    obtain ⟨_, hb⟩ := hourBody_used s.hour hJF y' k hk' hmx (fun i => st.RATING.getD i 0) (fun i => st.PLNDST.getD i 0)
      st.world.h
    rw [hclock, hb] at e
    obtain ⟨hist, _, _, hd⟩ := tierLoop_hist _ _ _ _ e
    exact ⟨by rw [hd.1], by rw [hd.2.1]⟩
  have hL : ∀ j, 0 < s.hour.HRLOAD j (hourUsed s.hour k) := by
    intro j
    obtain ⟨x, _, hx, _, e⟩ := hload j
    rw [e]
    exact div_pos (mul_pos (hpk j) (hpos j _ hev.1)) hx
  obtain ⟨_, _, _, hf, _⟩ := C64_loads h
  refine ⟨season, y', k, hclock, hsea, hk', by rw [hworld, ← hclock]; exact hfree, hev, hseed.2, hL, fun t => funext fun j => ?_,
    funext fun j => ?_⟩
  · have := hf j t (hourUsed s.hour k)
    unfold findld at this
    exact this
  · have hsys := hcap j
    rw [hseed.1] at hsys
    exact hsys

/-- The body of C104 and C111. -/
theorem balance_shared (h1 : OneCard c) (hs : Sensible c) (hl : NoLone c) (hn : SoundNetwork c)
    (h : setup sl fuel c = .ok s) (hstep : c.misc.JSTEP = 1 ∨ c.misc.JSTEP = 24) (hfreq : c.misc.JFREQ = 1) (hN : c.misc.NLS = 0 ∨ c.misc.NLS = 1)
    (hnum : ∀ k, (c.lines k).number ≤ l) (hlfu : ∀ j, 0 ≤ (c.areas j).lfu ∧ (c.areas j).lfu < 40)
    (hfl : ∀ j, 0 ≤ (c.areas j).flowLimit)
    {raw : ℕ → ℕ → ℚ} (hraw : leeiRead (n + 1) c.leei = .ok raw) (hpk : ∀ j, 0 < (c.areas j).peak)
    (h0 : ∀ (j : Fin (n + 1)), ∀ h < 8760, 0 ≤ raw j h) (hb : ∀ j : Fin (n + 1), ∃ h < 8760, 1 / 1000 ≤ raw j h)
    (JSEED : ℤ) {log : List Ev} {st st' : St _} {ev : Ev} (hr : Reach s.cfg (s.start JSEED) log st)
    (hst : step s.cfg st = .ok (.next ev st')) (hk : ev.kind = 1) (y T : ℕ) (hT : ev.time = ((8760 * y + T : ℕ) : ℚ))
    (hT1 : 1 ≤ T) (hT2 : T ≤ 8760) (hpos : ∀ (j : Fin (n + 1)) (h : ℕ), standsFor c.misc.JSTEP T h → 0 < raw j h)
    {LP : LEnds n l} (hLP : ∀ k, (c.areas (LP k).1).name = (c.lines k).src ∧ (c.areas (LP k).2).name = (c.lines k).dst)
    {w' : HourSt (n + 1) m l (NetSt n l)}
    (hfree : hourBody { s.hour with transm := hourTransm noRedispatch LP (fun k => dataxBLPA (c.lines k)) 0 c.misc.NLS }
      ev.time (fun i => st.RATING.getD i 0) (fun i => st.PLNDST.getD i 0) st.world.h = .ok w') :
    ∃ (season : Fin 4) (load : Fin (n + 1) → ℕ → ℚ) (H : ℕ) (q : Fin l → Fin 6) (hist : List (Fin 5 × (Fin (n + 1) → ℚ))),
    ((season : ℕ) : ℤ) = (seasonOf T + 1) % 4 ∧
    (∀ j : Fin (n + 1), Scaled (raw j) (c.areas j).peak (load j)) ∧ Evaluated c.misc.JSTEP load T H ∧
    (∀ k, lineIn (c.lines k) (variate (st'.world.h.ILSEED k)) (q k)) ∧
    (∃ isPeak, Recorded hist isPeak st.world.h st'.world.h) ∧
    ∀ e ∈ hist, (∃ F, BooksBalance LP (fun k => ratingUsed ((c.lines k).cap (q k))) (fun k => ratingUsed ((c.lines k).capr (q k)))
      (fun j => (c.areas j).flowLimit)
      (fun j => ∑ i ∈ unitsIn c j, outcome (c.units i) (variate (st'.world.h.IGSEED i)) * (c.units i).cap season *
        (if offInHour (c.units i) (8760 * y + T) then 0 else 1))
      (fun j => load j H * forecast (c.areas j).lfu e.1) e.2 F) ∧
      SharedBy c.misc.NLS (fun j => ∑ i ∈ unitsIn c j, outcome (c.units i) (variate (st'.world.h.IGSEED i)) * (c.units i).cap season *
        (if offInHour (c.units i) (8760 * y + T) then 0 else 1))
      (fun j => load j H * forecast (c.areas j).lfu e.1) e.2 := by
  have hload : ∀ j : Fin (n + 1), Scaled (raw j) (c.areas j).peak (s.hour.HRLOAD j) := fun j =>
    loads_scaled h hraw j (hpk j) (h0 j) (hb j)
  have hJs : s.hour.JSTEP = c.misc.JSTEP := (C64_step h)
  have hJF : s.hour.JFREQ = 1 := by
    obtain ⟨wr, raw, T, ITAB, ID', hw, _, _, _, _, rfl⟩ := setup_ok h
    exact hfreq
  have hJ : StepOK s.hour.JSTEP := by
    rw [hJs]
    rcases hstep with e | e <;> rw [e]
    · left; norm_num
    · right; norm_num
  have hFE : ∀ j, s.hour.FCTERR j = dataxFCTERR (c.areas j).lfu := by
    obtain ⟨wr, raw, T, ITAB, ID', hw, _, _, _, _, rfl⟩ := setup_ok h
    exact fun j => rfl
  have hmx : ∀ d < 365, s.hour.MXPLHR d < 8760 := fun d hd => by
    obtain ⟨_, _, _, _, _, _, hm⟩ := C64_loads h
    have := (hm d).2.1
    omega
  obtain ⟨season, y', k, _, hsea, hk', hfree, hev, hseed, hL, hlo, hcp⟩ := draw_hour h1 hs hl h hstep hfreq hnum hraw hpk h0 hb
    JSEED hr hst hk y T hT hT1 hT2 hpos hLP hfree
  have hlim : (st.world.h.net.BN.c3 = fun j => (c.areas j).flowLimit) ∧
      st.world.h.net.BN.c4 = fun j => (c.areas j).flowLimit :=
    ⟨funext fun j => (C64_limits_run h hJ JSEED hr j).1, funext fun j => (C64_limits_run h hJ JSEED hr j).2⟩
  have hfac : ∀ j t, 0 < s.hour.FCTERR j t := by
    intro j t
    rw [hFE]
    have := hlfu j
    unfold dataxFCTERR
    fin_cases t <;> simp <;> linarith
  have hst2 : ∀ i, ∃ q : Fin 6, (hourDraw s.hour (hourOf k / 24) (fun i => st.RATING.getD i 0)
      (fun i => st.PLNDST.getD i 0) st.world.h).1.LNSTAT i = ((q : ℕ) : ℤ) + 1 := fun i =>
    lineState_idx (fun q => s.hour.PROBL q i) (variate (mul31 65539 (st.world.h.ILSEED i)))
  choose q hq using hst2
  obtain ⟨hist, r1, r2⟩ := hour_balanced
    { s.hour with transm := hourTransm noRedispatch LP (fun k => dataxBLPA (c.lines k)) 0 c.misc.NLS }
    (sound_grid h1 hn hLP) rfl hN hmx hJF y' k hk'
    (fun j t => mul_pos (hL j) (hfac j t)) (fun i => st.RATING.getD i 0) (fun i => st.PLNDST.getD i 0) st.world.h st'.world.h
    hfl hlim (q := q) hq (fun j => by
      obtain ⟨_, a, b, _⟩ := C64_units h1 h (hourOf k / 24) (fun i => st.RATING.getD i 0) (fun i => st.PLNDST.getD i 0) st.world.h j
      show (hourDraw s.hour _ _ _ _).1.TRNSFR j + (hourDraw s.hour _ _ _ _).1.TRNSFJ j = 0
      rw [a, b, add_zero]) hfree
  refine ⟨season, s.hour.HRLOAD, hourUsed s.hour k, q, hist, hsea, hload, hev, fun k' => ?_, r1, fun e he => ?_⟩
  · refine lineState_card ?_
    rw [← hseed, ← hq k']
    obtain ⟨_, _, _, _, _, hP, _⟩ := C64_lines_partial h1 h hnum
    show _ = lineState (fun t => s.hour.PROBL t k') _
    rw [show (fun t => s.hour.PROBL t k') = fun t : Fin 6 => cumProb (c.lines k').prob (t + 1) from funext fun t => hP k' t]
    rfl
  · have := r2 e he
    rw [← hlo e.1, ← hcp]
    exact this

/-- C104. For every accepted sensible input with a sound network, non-negative limits, and no area with exactly one
unit, in every run in hourly or daily mode, at every draw (hour `T` of year `y`, counted from 1; the loads are those of the
hour `H` that the draw evaluates) in which no line or area
limit binds: the loss-of-load hours and the unserved energy of the areas and of the pool grow by the shortages
`hist` (tier by tier, shortages under 1 MW left out, in whole megawatts), and for each entry there are line flows
within the ratings of the states drawn and within the flow limits of the cards under which the books of every area
balance: capacity (of the season *after* the current one, with the planned outages of week `weekInEffect`) plus
shortage is load plus net export. -/
theorem C104_balance_partial (h1 : OneCard c) (hs : Sensible c) (hl : NoLone c) (hn : SoundNetwork c)
    (h : setup sl fuel c = .ok s) (hstep : c.misc.JSTEP = 1 ∨ c.misc.JSTEP = 24) (hfreq : c.misc.JFREQ = 1) (hN : c.misc.NLS = 0 ∨ c.misc.NLS = 1)
    (hnum : ∀ k, (c.lines k).number ≤ l) (hlfu : ∀ j, 0 ≤ (c.areas j).lfu ∧ (c.areas j).lfu < 40)
    (hfl : ∀ j, 0 ≤ (c.areas j).flowLimit)
    {raw : ℕ → ℕ → ℚ} (hraw : leeiRead (n + 1) c.leei = .ok raw) (hpk : ∀ j, 0 < (c.areas j).peak)
    (h0 : ∀ (j : Fin (n + 1)), ∀ h < 8760, 0 ≤ raw j h) (hb : ∀ j : Fin (n + 1), ∃ h < 8760, 1 / 1000 ≤ raw j h)
    (JSEED : ℤ) {log : List Ev} {st st' : St _} {ev : Ev} (hr : Reach s.cfg (s.start JSEED) log st)
    (hst : step s.cfg st = .ok (.next ev st')) (hk : ev.kind = 1) (y T : ℕ) (hT : ev.time = ((8760 * y + T : ℕ) : ℚ))
    (hT1 : 1 ≤ T) (hT2 : T ≤ 8760) (hpos : ∀ (j : Fin (n + 1)) (h : ℕ), standsFor c.misc.JSTEP T h → 0 < raw j h)
    {LP : LEnds n l} (hLP : ∀ k, (c.areas (LP k).1).name = (c.lines k).src ∧ (c.areas (LP k).2).name = (c.lines k).dst)
    {w' : HourSt (n + 1) m l (NetSt n l)}
    (hfree : hourBody { s.hour with transm := hourTransm noRedispatch LP (fun k => dataxBLPA (c.lines k)) 0 c.misc.NLS }
      ev.time (fun i => st.RATING.getD i 0) (fun i => st.PLNDST.getD i 0) st.world.h = .ok w') :
    ∃ (season : Fin 4) (load : Fin (n + 1) → ℕ → ℚ) (H : ℕ) (q : Fin l → Fin 6) (hist : List (Fin 5 × (Fin (n + 1) → ℚ))),
    ((season : ℕ) : ℤ) = (seasonOf T + 1) % 4 ∧
    (∀ j : Fin (n + 1), Scaled (raw j) (c.areas j).peak (load j)) ∧ Evaluated c.misc.JSTEP load T H ∧
    (∀ k, lineIn (c.lines k) (variate (st'.world.h.ILSEED k)) (q k)) ∧
    (∃ isPeak, Recorded hist isPeak st.world.h st'.world.h) ∧
    ∀ e ∈ hist, ∃ F, BooksBalance LP (fun k => ratingUsed ((c.lines k).cap (q k))) (fun k => ratingUsed ((c.lines k).capr (q k)))
      (fun j => (c.areas j).flowLimit)
      (fun j => ∑ i ∈ unitsIn c j, outcome (c.units i) (variate (st'.world.h.IGSEED i)) * (c.units i).cap season *
        (if offInHour (c.units i) (8760 * y + T) then 0 else 1))
      (fun j => load j H * forecast (c.areas j).lfu e.1) e.2 F := by
  obtain ⟨season, load, H, q, hist, a1, a2, a3, a4, a5, a6⟩ := balance_shared h1 hs hl hn h hstep hfreq hN hnum hlfu hfl hraw hpk h0 hb JSEED hr hst hk y T hT hT1 hT2 hpos hLP hfree
  exact ⟨season, load, H, q, hist, a1, a2, a3, a4, a5, fun e he => (a6 e he).1⟩

/-- C111. Under the conditions of C104 (no limit binds): without loss sharing every recorded shortage is the area's own
deficit times the fraction of all deficits that the pool as a whole lacks; with loss sharing (rule 0) it is the area's share of the
load of what the pool as a whole lacks, except in the tiers in which every area is at least 1 MW short: there it is the
area's own deficit (`C111_rule_refuted`). -/
theorem C111_shares_partial (h1 : OneCard c) (hs : Sensible c) (hl : NoLone c) (hn : SoundNetwork c)
    (h : setup sl fuel c = .ok s) (hstep : c.misc.JSTEP = 1 ∨ c.misc.JSTEP = 24) (hfreq : c.misc.JFREQ = 1) (hN : c.misc.NLS = 0 ∨ c.misc.NLS = 1)
    (hnum : ∀ k, (c.lines k).number ≤ l) (hlfu : ∀ j, 0 ≤ (c.areas j).lfu ∧ (c.areas j).lfu < 40)
    (hfl : ∀ j, 0 ≤ (c.areas j).flowLimit)
    {raw : ℕ → ℕ → ℚ} (hraw : leeiRead (n + 1) c.leei = .ok raw) (hpk : ∀ j, 0 < (c.areas j).peak)
    (h0 : ∀ (j : Fin (n + 1)), ∀ h < 8760, 0 ≤ raw j h) (hb : ∀ j : Fin (n + 1), ∃ h < 8760, 1 / 1000 ≤ raw j h)
    (JSEED : ℤ) {log : List Ev} {st st' : St _} {ev : Ev} (hr : Reach s.cfg (s.start JSEED) log st)
    (hst : step s.cfg st = .ok (.next ev st')) (hk : ev.kind = 1) (y T : ℕ) (hT : ev.time = ((8760 * y + T : ℕ) : ℚ))
    (hT1 : 1 ≤ T) (hT2 : T ≤ 8760) (hpos : ∀ (j : Fin (n + 1)) (h : ℕ), standsFor c.misc.JSTEP T h → 0 < raw j h)
    {LP : LEnds n l} (hLP : ∀ k, (c.areas (LP k).1).name = (c.lines k).src ∧ (c.areas (LP k).2).name = (c.lines k).dst)
    {w' : HourSt (n + 1) m l (NetSt n l)}
    (hfree : hourBody { s.hour with transm := hourTransm noRedispatch LP (fun k => dataxBLPA (c.lines k)) 0 c.misc.NLS }
      ev.time (fun i => st.RATING.getD i 0) (fun i => st.PLNDST.getD i 0) st.world.h = .ok w') :
    ∃ (season : Fin 4) (load : Fin (n + 1) → ℕ → ℚ) (H : ℕ) (hist : List (Fin 5 × (Fin (n + 1) → ℚ))),
    ((season : ℕ) : ℤ) = (seasonOf T + 1) % 4 ∧
    (∀ j : Fin (n + 1), Scaled (raw j) (c.areas j).peak (load j)) ∧ Evaluated c.misc.JSTEP load T H ∧
    (∃ isPeak, Recorded hist isPeak st.world.h st'.world.h) ∧
    ∀ e ∈ hist, SharedBy c.misc.NLS
      (fun j => ∑ i ∈ unitsIn c j, outcome (c.units i) (variate (st'.world.h.IGSEED i)) * (c.units i).cap season *
        (if offInHour (c.units i) (8760 * y + T) then 0 else 1))
      (fun j => load j H * forecast (c.areas j).lfu e.1) e.2 := by
  obtain ⟨season, load, H, q, hist, a1, a2, a3, a4, a5, a6⟩ := balance_shared h1 hs hl hn h hstep hfreq hN hnum hlfu hfl hraw hpk h0 hb JSEED hr hst hk y T hT hT1 hT2 hpos hLP hfree
  exact ⟨season, load, H, hist, a1, a2, a3, a5, fun e he => (a6 e he).2⟩

/-- Non-vacuity of C104: all its hypotheses are met at every draw of the first year of the run of `scarceCards`
(`C71_applies`); there both areas are short at every draw, and what is recorded balances. -/
theorem C104_applies (sl : ℕ → ℚ → ℚ) (fuel : ℕ) (JSEED : ℤ) (T : ℕ) (hT1 : 1 ≤ T) (hT2 : T ≤ 8759) :
    ∃ (s : Setup 1 4 1) (log : List Ev) (st st' : St _) (ev : Ev) (season : Fin 4) (load : Fin 2 → ℕ → ℚ) (H : ℕ)
      (q : Fin 1 → Fin 6) (hist : List (Fin 5 × (Fin 2 → ℚ))) (isPeak : Bool),
      setup sl fuel scarceCards = .ok s ∧ Reach s.cfg (s.start JSEED) log st ∧ step s.cfg st = .ok (.next ev st') ∧
      ev.kind = 1 ∧ ev.time = ((8760 * 0 + T : ℕ) : ℚ) ∧ Recorded hist isPeak st.world.h st'.world.h ∧
      ∀ e ∈ hist, ∃ F, BooksBalance twoLP (fun k => ratingUsed ((scarceCards.lines k).cap (q k)))
        (fun k => ratingUsed ((scarceCards.lines k).capr (q k))) (fun j => (scarceCards.areas j).flowLimit)
        (fun j => ∑ i ∈ unitsIn scarceCards j, outcome (scarceCards.units i) (variate (st'.world.h.IGSEED i)) *
          (scarceCards.units i).cap season * (if offInHour (scarceCards.units i) (8760 * 0 + T) then 0 else 1))
        (fun j => load j H * forecast (scarceCards.areas j).lfu e.1) e.2 F := by
  obtain ⟨s, raw, log, st, st', ev, LP, w', hs, hraw, h5, hr, hst, hk, hT, hLP, hfree⟩ := C71_applies sl fuel JSEED T hT1 hT2
  have hLP2 : LP = twoLP := by
    have e : ∀ k : Fin 1, (scarceCards.areas (twoLP k).1).name = (scarceCards.lines k).src ∧
        (scarceCards.areas (twoLP k).2).name = (scarceCards.lines k).dst := by
      intro k; fin_cases k; exact ⟨rfl, rfl⟩
    exact funext fun k => Prod.ext (scarce_one.areas ((hLP k).1.trans (e k).1.symm))
      (scarce_one.areas ((hLP k).2.trans (e k).2.symm))
  obtain ⟨season, load, H, q, hist, _, _, _, _, ⟨isPeak, hrec⟩, hbal⟩ := C104_balance_partial scarce_one scarce_sensible
    scarce_lone scarce_network hs (.inl rfl) rfl (.inr rfl) (by simp [scarceCards, demoCards])
    (by intro j; fin_cases j <;> simp [scarceCards]) (by intro j; fin_cases j <;> simp [scarceCards]) hraw
    (by intro j; fin_cases j <;> simp [scarceCards]) (fun j h hh => by linarith [h5 j h hh])
    (fun j => ⟨0, by norm_num, by have := h5 j 0 (by norm_num); linarith⟩) JSEED hr hst hk 0 T hT hT1 (by omega)
    (fun j h e => by
      have e : h = T - 1 := e
      have := h5 j h (by omega)
      linarith) hLP hfree
  subst hLP2
  exact ⟨s, log, st, st', ev, season, load, H, q, hist, isPeak, hs, hr, hst, hk, hT, hrec, hbal⟩

end Narp.Props
