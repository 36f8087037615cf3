import Verif.Props.Restart

/-!
# C83: what is missing from the snapshot

Everything that a run resumed from a snapshot lacks: put back the random seeds, the maintenance status, the hour of the
last draw, the year of the next snapshot and the annual counters that were not cleared, and the resumed run ends like the run
that was not interrupted.
-/

namespace Narp.Props
open Narp Narp.Spec

section loop
variable {σ : Type}

/-- Other ratings. -/
def reRate (R : List ℚ) (s : St σ) : St σ := { s with RATING := R }

/-- How a run ended, and what `o` shows of its final state; or the exception. -/
def ending {β : Type} (o : σ → β) (r : Option (Except PyErr (Exit × St σ))) : Option (Except PyErr (Exit × β)) :=
  r.map fun x => x.map fun p => (p.1, o p.2.world)

theorem inv_rate {cfg : Cfg σ} {log : List Ev} {s : St σ} {n : Fin 7 → ℕ} {q : List Ev} (hI : Inv cfg log s n q) (R : List ℚ) :
    Inv cfg log (reRate R s) n q := ⟨hI.1, hI.2, hI.3, hI.4, hI.5, hI.6, hI.7, hI.8, hI.9, hI.10, hI.11, hI.12⟩

/-- The weekly event does not look at the ratings, the seasonal event replaces them. -/
theorem events_rate {cfg : Cfg σ} (R : List ℚ) (s : St σ) :
    events cfg (reRate R s) 2 = (events cfg s 2).map (reRate R) ∧ events cfg (reRate R s) 3 = events cfg s 3 := by
  have p2 : pyInt (2 : ℚ) = 2 := by decide +kernel
  have p3 : pyInt (3 : ℚ) = 3 := by decide +kernel
  constructor
  · unfold events
    simp only [p2]
    norm_num
    unfold week
    show (filem s.cal (s.CLOCK + 168) 2 >>= _) = Except.map _ (filem s.cal (s.CLOCK + 168) 2 >>= _)
    cases filem s.cal (s.CLOCK + 168) 2 with
    | error x => rfl
    | ok c =>
      show (weekPlan cfg.JPLOUT s.JHOUR s.PLNDST >>= _) = Except.map _ (weekPlan cfg.JPLOUT s.JHOUR s.PLNDST >>= _)
      cases weekPlan cfg.JPLOUT s.JHOUR s.PLNDST <;> rfl
  · unfold events
    simp only [p3]
    norm_num
    unfold quartr
    rfl

/-- Until the seasonal event that is pending the ratings are not read. -/
theorem rate_free {cfg : Cfg σ} (hJ : 0 < cfg.JSTEP) (hJ2 : cfg.JSTEP < 8760) {β : Type} (o : σ → β) (R : List ℚ) :
    ∀ (fuel : ℕ) (log : List Ev) (s : St σ) (n : Fin 7 → ℕ) (q : List Ev), Inv cfg log s n q →
      (occ cfg.JSTEP 2 (n 2)).time < (occ cfg.JSTEP 0 (n 0)).time → (occ cfg.JSTEP 2 (n 2)).time < (occ cfg.JSTEP 6 (n 6)).time →
      ending o (contrl cfg fuel (reRate R s)) = ending o (contrl cfg fuel s) := by
  intro fuel
  induction fuel with
  | zero => intro log s n q _ _ _; rfl
  | succ fuel ih =>
    intro log s n q hI h0 h6
    obtain ⟨i, q0, c1, hq, hrem, _, hst⟩ := step_shape hI
    obtain ⟨i', q0', c1', hq', hrem', _, hst'⟩ := step_shape (inv_rate hI R)
    have hmem : ∀ j, occ cfg.JSTEP j (n j) ∈ q := by
      intro j
      have : occ cfg.JSTEP j (n j) ∈ (q : Multiset Ev) := by
        rw [hI.pend]; exact Multiset.mem_map.2 ⟨j, Finset.mem_univ_val j, rfl⟩
      simpa using this
    have hmin : ∀ j, (occ cfg.JSTEP i (n i)).time ≤ (occ cfg.JSTEP j (n j)).time := by
      intro j
      have hj := hmem j
      have hso := hI.holds.sorted
      rw [hq, List.pairwise_cons] at hso
      rw [hq] at hj
      rcases List.mem_cons.1 hj with h | h
      · rw [h]
      · exact hso.1 _ h
    have hocc : occ cfg.JSTEP i' (n i') = occ cfg.JSTEP i (n i) := by
      rw [hq] at hq'; exact (List.cons.inj hq').1.symm
    have hkind : kind i' = kind i := congrArg Ev.kind hocc
    have hc : c1' = c1 := by
      have e : remove (reRate R s).cal = remove s.cal := rfl
      rw [e, hrem] at hrem'
      simp only [Except.ok.injEq, Prod.mk.injEq] at hrem'
      exact hrem'.2.symm
    subst hc
    rw [hocc, hkind] at hst'
    have hi0 : i ≠ 0 := by rintro rfl; exact absurd (hmin 2) (not_le.2 h0)
    have hi6 : i ≠ 6 := by rintro rfl; exact absurd (hmin 2) (not_le.2 h6)
    have hRr : (reRate R s).RFLAG = s.RFLAG := rfl
    rw [hRr] at hst'
    by_cases hR : s.RFLAG = 1
    · rw [if_pos hR] at hst hst'
      unfold contrl; rw [hst, hst']; rfl
    rw [if_neg hR] at hst hst'
    by_cases hF : (occ cfg.JSTEP i (n i)).time > cfg.FINISH + 1
    · rw [if_pos hF] at hst hst'
      unfold contrl; rw [hst, hst']; rfl
    rw [if_neg hF] at hst hst'
    generalize hS : ({ s with cal := c1', CLOCK := (occ cfg.JSTEP i (n i)).time } : St σ) = S at hst
    have hst'' : step cfg (reRate R s) = (events cfg (reRate R S) (kind i)).map fun s' => .next (occ cfg.JSTEP i (n i)) s' := by
      rw [← hS]; exact hst'
    clear hst'
    obtain ⟨e2, e3⟩ := events_rate (cfg := cfg) R S
    by_cases hk : kind i = 2
    · have e : events cfg (reRate R S) (kind i) =
          (events cfg S (kind i)).map (reRate R) := by
        rw [hk]; exact e2
      rw [e] at hst''
      cases hev : events cfg S (kind i) with
      | error x =>
        rw [hev] at hst hst''
        have h1 : step cfg s = .error x := hst
        have h2 : step cfg (reRate R s) = .error x := hst''
        unfold contrl; rw [h1, h2]
      | ok s2 =>
        rw [hev] at hst hst''
        have h1 : step cfg s = .ok (.next (occ cfg.JSTEP i (n i)) s2) := hst
        have h2 : step cfg (reRate R s) = .ok (.next (occ cfg.JSTEP i (n i)) (reRate R s2)) := hst''
        obtain ⟨i2, q2, hev2, _, hI2⟩ := inv_step hJ hJ2 hI h1
        have hi2 : i2 = 1 := by
          have := congrArg Ev.kind hev2
          have h2 : kind i2 = 2 := by rw [← hk]; exact this.symm
          revert h2; fin_cases i2 <;> simp [kind]
        subst hi2
        unfold contrl; rw [h1, h2]
        exact ih _ s2 _ _ hI2 (by simpa [Function.update] using h0) (by simpa [Function.update] using h6)
    · have hk3 : kind i = 3 := by revert hk hi0 hi6; fin_cases i <;> simp [kind]
      have e : events cfg (reRate R S) (kind i) =
          events cfg S (kind i) := by
        rw [hk3]; exact e3
      rw [e, ← hst] at hst''
      unfold contrl; rw [hst'']
      rw [hst]
      cases events cfg S (kind i) <;> rfl

end loop

variable {n m l : ℕ} {ν α : Type} {hc : HourIn n m l ν} {yc : YearIn} {T : List (List ℤ)} {R : List (List ℚ)}
  {snap : ν → α} {g0 : Fin m → ℤ} {l0 : Fin l → ℤ} {net : ν} {I A : ℤ} {s s' : St (World n m l ν α)} {log : List Ev}
  {ev : Ev}

/-! ## The working arrays of the network -/

/-- What a run leaves: the random seeds, the counters, the statistics, the report, the snapshot; everything but the working
arrays of the network. -/
def leaves (w : World n m l ν α) : ((Fin m → ℤ) × (Fin l → ℤ) × (Fin n → ℚ) × Cnt n × Cnt n) × YearSt n α :=
  ((w.h.IGSEED, w.h.ILSEED, w.h.LSFLG, w.h.H, w.h.P), w.y)

/-- Another network. -/
def reNet (v : ν) (h : HourSt n m l ν) : HourSt n m l ν := { h with net := v }

/-- Networks between which no event can tell: the transmission module does the same on both when it is called for the first
time in an hour, and the same is saved. -/
structure AlikeNet (hc : HourIn n m l ν) (snap : ν → α) (v v' : ν) : Prop where
  transm : ∀ t : TransIn n l, t.IFLAG ≠ 1 → hc.transm t v = hc.transm t v'
  saved : snap v = snap v'

/-- Two outcomes that differ in the network at most, between networks that are alike. -/
def SimH (hc : HourIn n m l ν) (snap : ν → α) (a b : Except PyErr (HourSt n m l ν)) : Prop :=
  a = b ∨ ∃ (h : HourSt n m l ν) (v v' : ν), a = .ok (reNet v h) ∧ b = .ok (reNet v' h) ∧ AlikeNet hc snap v v'

theorem tier_net {v v' : ν} (hA : AlikeNet hc snap v v') (d : Draw n l) (hr : ℕ) (pk : Bool) :
    ∀ (ts : List (Fin 5)) (f : ℤ) (h : HourSt n m l ν), f ≠ 1 →
      SimH hc snap (tierLoop hc d hr pk ts f (reNet v h)) (tierLoop hc d hr pk ts f (reNet v' h)) := by
  intro ts
  induction ts with
  | nil => intro f h _; exact .inr ⟨h, v, v', rfl, rfl, hA⟩
  | cons t ts ih =>
    intro f h hf
    unfold tierLoop
    by_cases h1 : ((List.finRange n).filter fun j => tierMargin hc d hr t j < 0) = []
    · have e : ∀ w : HourSt n m l ν, tierBody hc d hr pk t f w = .error .indexError := fun w => by
        unfold tierBody; simp only [h1, if_true]
      rw [e, e]; exact .inl rfl
    have h2 : ((List.finRange n).filter fun j => tierMargin hc d hr t j < 0).length ≠ 0 := by
      rw [Ne, List.length_eq_zero_iff]; exact h1
    by_cases h3 : ((List.finRange n).filter fun j => tierMargin hc d hr t j < 0).length = n
    · have e : ∀ w : HourSt n m l ν, tierBody hc d hr pk t f w = .ok (.next f (tierStats t (tierMargin hc d hr t) pk w)) := fun w => by
        unfold tierBody
        simp only []
        rw [if_neg h1, if_neg h2, if_neg (not_not.2 h3)]
      rw [e, e]
      exact ih f (tierStats t (tierMargin hc d hr t) pk h) hf
    · have e : tierBody hc d hr pk t f (reNet v h) = tierBody hc d hr pk t f (reNet v' h) := by
        unfold tierBody
        simp only []
        rw [if_neg h1, if_neg h2, if_pos h3, if_neg h1, if_neg h2, if_pos h3]
        show (match hc.transm _ v with | .error e => _ | .ok ((JFLAG, SADJ), net) => _) =
          (match hc.transm _ v' with | .error e => _ | .ok ((JFLAG, SADJ), net) => _)
        rw [hA.transm _ hf]
        rfl
      rw [e]; exact .inl rfl

theorem hour_net {v v' : ν} (hA : AlikeNet hc snap v v') (C : ℚ) (Ra Pl : List ℚ) (h : HourSt n m l ν) :
    SimH hc snap (hourFx hc C Ra Pl (reNet v h)) (hourFx hc C Ra Pl (reNet v' h)) := by
  unfold hourFx hourBody
  simp only [bind, Except.bind]
  cases pyIdx 365 ((-1 + pyInt (pyMod C 8760)) / 24) with
  | error x => exact .inl rfl
  | ok day =>
    simp only []
    generalize (if hc.JSTEP = 24 then (hc.MXPLHR day : ℤ) else -1 + pyInt (pyMod C 8760)) = JH
    by_cases hz : hc.JFREQ = 0
    · rw [if_pos hz, if_pos hz]; exact .inl rfl
    rw [if_neg hz, if_neg hz]
    by_cases h2 : ¬ (JH % hc.JFREQ = 0 ∨ hc.JFREQ = 1)
    · rw [if_pos h2, if_pos h2]; exact .inl rfl
    rw [if_neg h2, if_neg h2]
    cases pyIdx 8760 JH with
    | error x => exact .inl rfl
    | ok hr =>
      have := tier_net hA (hourDraw hc day (fun i => Ra.getD i 0) (fun i => Pl.getD i 0) h).1 hr (decide (JH = hc.MXPLHR day))
        ((List.finRange 5).take hc.NFCST) 0 (hourDraw hc day (fun i => Ra.getD i 0) (fun i => Pl.getD i 0) h).2 (by norm_num)
      exact this

/-- Two outcomes of an event or a run that differ in the network at most. -/
def reWorld (v : ν) (w : World n m l ν α) : World n m l ν α := ⟨reNet v w.h, w.y⟩

/-- The state with another network. -/
def reSt (v : ν) (s : St (World n m l ν α)) : St (World n m l ν α) := { s with world := reWorld v s.world }

theorem year_net {v v' : ν} (hA : snap v = snap v') (C : ℚ) (cal : Cal) (w : World n m l ν α) :
    (∃ e, yearWorld yc snap C cal (reWorld v w) = .error e ∧ yearWorld yc snap C cal (reWorld v' w) = .error e) ∨
    ∃ w1 rf, yearWorld yc snap C cal (reWorld v w) = .ok (reWorld v w1, rf) ∧ yearWorld yc snap C cal (reWorld v' w) = .ok (reWorld v' w1, rf) := by
  unfold yearWorld
  show (∃ e, Except.map _ (yearBody yc C cal (snap v) w.h.LSFLG w.h.H w.h.P w.y) = _ ∧
    Except.map _ (yearBody yc C cal (snap v') w.h.LSFLG w.h.H w.h.P w.y) = _) ∨ ∃ w1 rf,
    Except.map _ (yearBody yc C cal (snap v) w.h.LSFLG w.h.H w.h.P w.y) = _ ∧
    Except.map _ (yearBody yc C cal (snap v') w.h.LSFLG w.h.H w.h.P w.y) = _
  rw [hA]
  cases yearBody yc C cal (snap v') w.h.LSFLG w.h.H w.h.P w.y with
  | error e => exact .inl ⟨e, rfl, rfl⟩
  | ok r => exact .inr ⟨⟨{ w.h with H := r.1.1, P := r.1.2 }, r.2.1⟩, r.2.2, rfl, rfl⟩

/-- One event. -/
theorem events_net {v v' : ν} (hA : AlikeNet hc snap v v') (s : St (World n m l ν α)) (k : ℚ) :
    events (narpCfg hc yc T R snap) (reSt v s) k = events (narpCfg hc yc T R snap) (reSt v' s) k ∨
    ∃ (s1 : St (World n m l ν α)) (u u' : ν), events (narpCfg hc yc T R snap) (reSt v s) k = .ok (reSt u s1) ∧
      events (narpCfg hc yc T R snap) (reSt v' s) k = .ok (reSt u' s1) ∧ AlikeNet hc snap u u' := by
  unfold events
  simp only []
  split_ifs
  · unfold hourEv
    show (filem s.cal (s.CLOCK + hc.JSTEP) k >>= _) = (filem s.cal (s.CLOCK + hc.JSTEP) k >>= _) ∨ ∃ s1 u u',
      (filem s.cal (s.CLOCK + hc.JSTEP) k >>= _) = _ ∧ (filem s.cal (s.CLOCK + hc.JSTEP) k >>= _) = _ ∧ _
    cases filem s.cal (s.CLOCK + hc.JSTEP) k with
    | error e => exact .inl rfl
    | ok cal =>
      show (((hourFx hc s.CLOCK s.RATING s.PLNDST (reNet v s.world.h)).map fun h => (⟨h, s.world.y⟩ : World n m l ν α)) >>= _) =
        (((hourFx hc s.CLOCK s.RATING s.PLNDST (reNet v' s.world.h)).map fun h => (⟨h, s.world.y⟩ : World n m l ν α)) >>= _) ∨ ∃ s1 u u',
        (((hourFx hc s.CLOCK s.RATING s.PLNDST (reNet v s.world.h)).map fun h => (⟨h, s.world.y⟩ : World n m l ν α)) >>= _) = _ ∧
        (((hourFx hc s.CLOCK s.RATING s.PLNDST (reNet v' s.world.h)).map fun h => (⟨h, s.world.y⟩ : World n m l ν α)) >>= _) = _ ∧ _
      rcases hour_net hA s.CLOCK s.RATING s.PLNDST s.world.h with e | ⟨h, u, u', e1, e2, hA'⟩
      · rw [e]; exact .inl rfl
      · rw [e1, e2]
        exact .inr ⟨{ s with cal := cal, JHOUR := -1 + pyInt (pyMod s.CLOCK 8760), world := ⟨h, s.world.y⟩ }, u, u', rfl, rfl, hA'⟩
  · unfold week
    show (filem s.cal (s.CLOCK + 168) k >>= _) = (filem s.cal (s.CLOCK + 168) k >>= _) ∨ ∃ s1 u u',
      (filem s.cal (s.CLOCK + 168) k >>= _) = _ ∧ (filem s.cal (s.CLOCK + 168) k >>= _) = _ ∧ _
    cases filem s.cal (s.CLOCK + 168) k with
    | error e => exact .inl rfl
    | ok cal =>
      show (weekPlan T s.JHOUR s.PLNDST >>= _) = (weekPlan T s.JHOUR s.PLNDST >>= _) ∨ ∃ s1 u u',
        (weekPlan T s.JHOUR s.PLNDST >>= _) = _ ∧ (weekPlan T s.JHOUR s.PLNDST >>= _) = _ ∧ _
      cases weekPlan T s.JHOUR s.PLNDST with
      | error e => exact .inl rfl
      | ok p => exact .inr ⟨{ s with cal := cal, PLNDST := p }, v, v', rfl, rfl, hA⟩
  · unfold quartr
    show ((R.mapM fun row => rd row ((s.IQ + 1) % 4)) >>= _) = ((R.mapM fun row => rd row ((s.IQ + 1) % 4)) >>= _) ∨ ∃ s1 u u',
      ((R.mapM fun row => rd row ((s.IQ + 1) % 4)) >>= _) = _ ∧ ((R.mapM fun row => rd row ((s.IQ + 1) % 4)) >>= _) = _ ∧ _
    cases R.mapM fun row => rd row ((s.IQ + 1) % 4) with
    | error e => exact .inl rfl
    | ok ra =>
      show (filem s.cal (s.CLOCK + 8760) k >>= _) = (filem s.cal (s.CLOCK + 8760) k >>= _) ∨ ∃ s1 u u',
        (filem s.cal (s.CLOCK + 8760) k >>= _) = _ ∧ (filem s.cal (s.CLOCK + 8760) k >>= _) = _ ∧ _
      cases filem s.cal (s.CLOCK + 8760) k with
      | error e => exact .inl rfl
      | ok cal => exact .inr ⟨{ s with cal := cal, IQ := (s.IQ + 1) % 4, RATING := ra }, v, v', rfl, rfl, hA⟩
  · unfold yearEv
    show (filem s.cal (s.CLOCK + 8760) 4 >>= _) = (filem s.cal (s.CLOCK + 8760) 4 >>= _) ∨ ∃ s1 u u',
      (filem s.cal (s.CLOCK + 8760) 4 >>= _) = _ ∧ (filem s.cal (s.CLOCK + 8760) 4 >>= _) = _ ∧ _
    cases filem s.cal (s.CLOCK + 8760) 4 with
    | error e => exact .inl rfl
    | ok cal =>
      show (yearWorld yc snap s.CLOCK cal (reWorld v s.world) >>= _) = (yearWorld yc snap s.CLOCK cal (reWorld v' s.world) >>= _) ∨ ∃ s1 u u',
        (yearWorld yc snap s.CLOCK cal (reWorld v s.world) >>= _) = _ ∧ (yearWorld yc snap s.CLOCK cal (reWorld v' s.world) >>= _) = _ ∧ _
      rcases year_net (yc := yc) hA.saved s.CLOCK cal s.world with ⟨e, e1, e2⟩ | ⟨w1, rf, e1, e2⟩
      · rw [e1, e2]; exact .inl rfl
      · rw [e1, e2]
        exact .inr ⟨{ s with cal := cal, RFLAG := rf, world := w1 }, v, v', rfl, rfl, hA⟩
  · exact .inl rfl

/-- The rest of the run does not depend on which of the two networks there is. -/
theorem net_free : ∀ (fuel : ℕ) (s : St (World n m l ν α)) (v v' : ν), AlikeNet hc snap v v' →
    ending leaves (contrl (narpCfg hc yc T R snap) fuel (reSt v s)) = ending leaves (contrl (narpCfg hc yc T R snap) fuel (reSt v' s)) := by
  intro fuel
  induction fuel with
  | zero => intro s v v' _; rfl
  | succ fuel ih =>
    intro s v v' hA
    have e : ∀ u : ν, step (narpCfg hc yc T R snap) (reSt u s) = (do
        if s.cal.IPOINT = -1 then return .exit .badPointer
        let t ← rd s.cal.E (s.cal.IPOINT + 1)
        if s.CLOCK > t then return .exit .timeError
        if s.RFLAG = 1 then return .exit .converged
        if t > yc.FINISH + 1 then return .exit .finished
        let (a, cal) ← remove s.cal
        let s' ← events (narpCfg hc yc T R snap) (reSt u { s with cal := cal, CLOCK := a.1 }) a.2
        return .next ⟨a.1, a.2⟩ s') := fun u => rfl
    unfold contrl
    rw [e, e]
    by_cases h1 : s.cal.IPOINT = -1
    · simp only [h1, if_true]; rfl
    simp only [h1, if_false]
    cases rd s.cal.E (s.cal.IPOINT + 1) with
    | error x => rfl
    | ok t =>
    simp only [bind, Except.bind, pure, Except.pure]
    by_cases h2 : s.CLOCK > t
    · rw [if_pos h2, if_pos h2]; rfl
    rw [if_neg h2, if_neg h2]
    by_cases h3 : s.RFLAG = 1
    · rw [if_pos h3, if_pos h3]; rfl
    rw [if_neg h3, if_neg h3]
    by_cases h4 : t > yc.FINISH + 1
    · rw [if_pos h4, if_pos h4]; rfl
    rw [if_neg h4, if_neg h4]
    cases remove s.cal with
    | error x => rfl
    | ok a =>
      obtain ⟨a, cal⟩ := a
      simp only []
      rcases events_net (yc := yc) (T := T) (R := R) hA { s with cal := cal, CLOCK := a.1 } a.2 with e | ⟨s1, u, u', e1, e2, hA'⟩
      · rw [e]
        cases events (narpCfg hc yc T R snap) (reSt v' { s with cal := cal, CLOCK := a.1 }) a.2 <;> rfl
      · rw [e1, e2]
        exact ih s1 u u' hA'

/-- What the snapshot lacks, put into the resumed state `r` from the state `s` of the run: the random seeds, the maintenance
status, the hour of the last draw, the year of the next snapshot, the annual counters, and the output so far. -/
def putBack (s r : St (World n m l ν α)) : St (World n m l ν α) :=
  { r with
    JHOUR := s.JHOUR
    PLNDST := s.PLNDST
    world :=
      { h := { r.world.h with IGSEED := s.world.h.IGSEED, ILSEED := s.world.h.ILSEED, H := s.world.h.H, P := s.world.h.P }
        y := { r.world.y with INTVT := s.world.y.INTVT, dump := s.world.y.dump, rows := s.world.y.rows, rep := s.world.y.rep } } }


/-- At every year end of every run at which the snapshot is written and after which the run goes on: the run resumed
from the snapshot, with `putBack`, ends as the run that was not interrupted, with the same statistics, report, snapshot and
random seeds, or with the same exception. -/
theorem resumed (hJ : StepOK hc.JSTEP)
    (h : Reach (narpCfg hc yc T R snap) (narpInit hc.JSTEP m (worldInit g0 l0 net I A)) log s)
    (hs : step (narpCfg hc yc T R snap) s = .ok (.next ev s')) (hk : ev.kind = 4)
    (hw : (((log.countP fun e => e.kind = 4 : ℕ) : ℤ) + 1 = s.world.y.INTVT) ∨
      (((log.countP fun e => e.kind = 4 : ℕ) : ℤ) + 1 = pyInt (yc.FINISH / 8760)))
    (hgo : s'.RFLAG = 0) (setNet : α → ν → ν) (w₀ : World n m l ν α)
    (hA : AlikeNet hc snap (setNet (snap s'.world.h.net) w₀.h.net) s'.world.h.net) :
    ∃ d, s'.world.y.dump = some d ∧ ∀ fuel,
      ending leaves (contrl (narpCfg hc yc T R snap) fuel (putBack s' (restart (narpInit hc.JSTEP m w₀) setNet d))) =
        ending leaves (contrl (narpCfg hc yc T R snap) fuel s') := by
  obtain ⟨d, hd, h1, h2, h3, h4, h5, h6, h7, h8, h9, h10, h11, h12, h13⟩ := C32_restored hJ h hs hk hw setNet w₀
  refine ⟨d, hd, fun fuel => ?_⟩
  have e : putBack s' (restart (narpInit hc.JSTEP m w₀) setNet d) = reRate (List.replicate m 0) (reSt (setNet (snap s'.world.h.net) w₀.h.net) s') := by
    obtain ⟨cal, CLOCK, IQ, JHOUR, RFLAG, RATING, PLNDST, ⟨⟨ig, il, ls, H, P, nt⟩, ⟨CH, CP, hist, xa, xp, ss, xl, iv, it, du, ro, re⟩⟩⟩ := s'
    dsimp only at h1 h2 h3 h4 h5 h6 h7 h8 h9 h10 h11 h12 h13 hgo
    subst hgo
    rw [← h1, ← h2, ← h3, ← h4, ← h5, ← h6, ← h7, ← h8, ← h9, ← h10, ← h11, ← h12]
    dsimp only
    rw [← h13]
    rfl
  rw [e]
  refine Eq.trans ?_ ((net_free (hc := hc) (yc := yc) (T := T) (R := R) fuel s' _ _ hA).trans rfl)
  have hl := hJ.lo
  have hh := hJ.hi
  have hI0 : ∃ k q, Inv (narpCfg hc yc T R snap) log s k q := reach_inv (cfg := narpCfg hc yc T R snap) hl hh h
  obtain ⟨k, q, hI⟩ := hI0
  have hlo : (0 : ℚ) < (narpCfg hc yc T R snap).JSTEP := by show (0 : ℚ) < hc.JSTEP; linarith
  have hhi : (narpCfg hc yc T R snap).JSTEP < 8760 := by show hc.JSTEP < 8760; linarith
  obtain ⟨i, hev, _, hmin, hyr, hpast, _, _⟩ := inv_next hlo hhi hI hs
  obtain ⟨i2, q2, hev2, _, hI2⟩ := inv_step hlo hhi hI hs
  have hi6 : i = 6 := kind_eq_four (by rw [hev] at hk; exact hk)
  have hi62 : i2 = 6 := kind_eq_four (by rw [hev2] at hk; exact hk)
  subst hi6 hi62
  have ht : ev.time = 8760 * ((k 6 : ℚ) + 1) := by
    rw [hev]; simp only [occ, base, period]; simp; ring
  have h2k : k 2 = k 6 + 1 := by
    have a := hmin 2
    have b := hpast 2
    have e1 : (occ (narpCfg hc yc T R snap).JSTEP 2 (k 2)).time = 1/2 + (k 2 : ℚ) * 8760 := rfl
    have e2 : base (narpCfg hc yc T R snap).JSTEP 2 + ((k 2 : ℚ) - 1) * period (narpCfg hc yc T R snap).JSTEP 2 =
      1/2 + ((k 2 : ℚ) - 1) * 8760 := rfl
    have e3 : (k 2 : ℚ) * period (narpCfg hc yc T R snap).JSTEP 2 = (k 2 : ℚ) * 8760 := rfl
    rw [e1, ht] at a
    rw [e2, e3, ht] at b
    have a1 : (k 6 : ℚ) < k 2 := by linarith
    have b1 := b (by have : (0 : ℚ) ≤ k 6 := by positivity
                     have : (0 : ℚ) < k 2 := by linarith
                     positivity)
    have b2 : (k 2 : ℚ) < k 6 + 2 := by linarith
    have a2 : k 6 < k 2 := by exact_mod_cast a1
    have b3 : k 2 < k 6 + 2 := by exact_mod_cast b2
    omega
  have u2 : (Function.update k 6 (k 6 + 1)) 2 = k 2 := Function.update_of_ne (by decide) _ _
  have u0 : (Function.update k 6 (k 6 + 1)) 0 = k 0 := Function.update_of_ne (by decide) _ _
  have u6 : (Function.update k 6 (k 6 + 1)) 6 = k 6 + 1 := Function.update_self _ _ _
  have e1 : (occ (narpCfg hc yc T R snap).JSTEP 2 (k 2)).time = 1/2 + (k 2 : ℚ) * 8760 := rfl
  have e0 : (occ (narpCfg hc yc T R snap).JSTEP 0 (k 0)).time = hc.JSTEP + (k 0 : ℚ) * hc.JSTEP := rfl
  have e6 : (occ (narpCfg hc yc T R snap).JSTEP 6 (k 6 + 1)).time = 8760 + ((k 6 + 1 : ℕ) : ℚ) * 8760 := rfl
  have h2q : (k 2 : ℚ) = k 6 + 1 := by exact_mod_cast h2k
  refine rate_free hlo hhi leaves _ fuel _ (reSt (setNet (snap s'.world.h.net) w₀.h.net) s') _ _
    ⟨hI2.1, hI2.2, hI2.3, hI2.4, hI2.5, hI2.6, hI2.7, hI2.8, hI2.9, hI2.10, hI2.11, hI2.12⟩ ?_ ?_
  · rw [u2, u0, e1, e0]
    have hy := hyr rfl
    rw [ht, e0] at hy
    have key : ∀ a b : ℕ, (a : ℚ) < b → (a : ℚ) + 1/2 < b := by
      intro a b hab
      have : a + 1 ≤ b := by exact_mod_cast hab
      have : (a : ℚ) + 1 ≤ b := by exact_mod_cast this
      linarith
    rcases hJ with hJ | hJ
    · rw [hJ] at hy ⊢
      have := key (8760 * (k 6 + 1)) (1 + k 0 * 1) (by push_cast; linarith)
      push_cast at this
      rw [h2q]; linarith
    · rw [hJ] at hy ⊢
      have := key (8760 * (k 6 + 1)) (24 + k 0 * 24) (by push_cast; linarith)
      push_cast at this
      rw [h2q]; linarith
  · rw [u2, u6, e1, e6]
    push_cast
    rw [h2q]; linarith

end Narp.Props
