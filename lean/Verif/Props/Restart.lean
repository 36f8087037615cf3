import Verif.Model.Restart
import Verif.Props.Program

/-!
# C32: interrupting and restarting
-/

namespace Narp.Props
open Narp Narp.Spec BigOperators

variable {n m l : ℕ} {ν α : Type} {hc : HourIn n m l ν} {yc : YearIn} {T : List (List ℤ)} {R : List (List ℚ)}
  {snap : ν → α} {g0 : Fin m → ℤ} {l0 : Fin l → ℤ} {net : ν} {I A : ℤ} {s s' : St (World n m l ν α)} {log : List Ev}
  {ev : Ev}

/-- The season pointer is 0 after every year end. -/
theorem iq_year_end {σ : Type} {cfg : Cfg σ} (hJ : StepOK cfg.JSTEP) {N : ℕ} {w : σ} {log : List Ev} {s s' : St σ}
    {ev : Ev} (h : Reach cfg (narpInit cfg.JSTEP N w) log s) (hs : step cfg s = .ok (.next ev s'))
    (hk : ev.kind = 4) : s'.IQ = 0 := by
  have hl := hJ.lo
  have hh := hJ.hi
  obtain ⟨k, q, hI⟩ := reach_inv hl hh h
  obtain ⟨i, hev, hclk, hmin, hyr, hpast, _, _⟩ := inv_next (by linarith) (by linarith) hI hs
  have hi6 : i = 6 := kind_eq_four (by rw [hev] at hk; exact hk)
  subst hi6
  have ht : ev.time = 8760 * ((k 6 : ℚ) + 1) := by
    rw [hev]; simp only [occ, base, period]; simp; ring
  have hj : ∀ (j : Fin 7) (b : ℚ), base cfg.JSTEP j = b → period cfg.JSTEP j = 8760 → 0 < b → b < 8760 →
      k j = k 6 + 1 := by
    intro j b hb hp hb0 hb1
    have h1 := hmin j
    simp only [occ, hb, hp] at h1
    rw [ht] at h1
    have h2 : (k 6 : ℚ) < k j := by linarith
    have h2' : k 6 < k j := by exact_mod_cast h2
    have h0 : (k j : ℚ) ≠ 0 := by
      have : k j ≠ 0 := by omega
      exact_mod_cast this
    have h3 := hpast j (by rw [hp]; positivity)
    rw [hb, hp, ht] at h3
    have h4 : (k j : ℚ) < k 6 + 2 := by linarith
    have h4' : k j < k 6 + 2 := by exact_mod_cast h4
    omega
  obtain ⟨j2, q2, c1, hq, hrem, hfile, hst⟩ := step_shape hI
  rw [hst] at hs
  split at hs
  · cases hs
  split at hs
  · cases hs
  cases hevs : events cfg { s with cal := c1, CLOCK := (occ cfg.JSTEP j2 (k j2)).time } (kind j2) with
  | error x => rw [hevs] at hs; cases hs
  | ok s2 =>
    rw [hevs] at hs
    simp only [Except.map, Except.ok.injEq, StepRes.next.injEq] at hs
    obtain ⟨e1, rfl⟩ := hs
    have hk2 : kind j2 = 4 := by
      have : (occ cfg.JSTEP j2 (k j2)).kind = 4 := by rw [e1]; exact hk
      exact this
    obtain ⟨_, _, _, hiq, _⟩ := events_inv j2 hevs
    rw [hiq, if_neg (by rw [hk2]; norm_num)]
    simp only
    rw [hI.iq, hj 2 (1/2) rfl rfl (by norm_num) (by norm_num), hj 3 (4369/2) rfl rfl (by norm_num) (by norm_num),
      hj 4 (8737/2) rfl rfl (by norm_num) (by norm_num), hj 5 (13105/2) rfl rfl (by norm_num) (by norm_num)]
    omega

/-- C32 (what holds). At every year end of every run at which the snapshot is written (the interval is reached, or
the last year): the state resumed from it has the same clock, the same pending events, the same season, the same
cumulative statistics, histograms and convergence sums, and the saved part of the network, as the run that was not interrupted.
Not restored: random seeds, maintenance status, and the next snapshot year (the refutations below). -/
theorem C32_restored (hJ : StepOK hc.JSTEP)
    (h : Reach (narpCfg hc yc T R snap) (narpInit hc.JSTEP m (worldInit g0 l0 net I A)) log s)
    (hs : step (narpCfg hc yc T R snap) s = .ok (.next ev s')) (hk : ev.kind = 4)
    (hw : (((log.countP fun e => e.kind = 4 : ℕ) : ℤ) + 1 = s.world.y.INTVT) ∨
      (((log.countP fun e => e.kind = 4 : ℕ) : ℤ) + 1 = pyInt (yc.FINISH / 8760)))
    (setNet : α → ν → ν) (w₀ : World n m l ν α) :
    ∃ d, s'.world.y.dump = some d ∧
      let r := restart (narpInit hc.JSTEP m w₀) setNet d
      r.CLOCK = s'.CLOCK ∧ r.cal = s'.cal ∧ r.IQ = s'.IQ ∧
      r.world.y.CH = s'.world.y.CH ∧ r.world.y.CP = s'.world.y.CP ∧ r.world.y.hist = s'.world.y.hist ∧
      r.world.y.XNEWA = s'.world.y.XNEWA ∧ r.world.y.XNEWP = s'.world.y.XNEWP ∧
      r.world.y.SSQ = s'.world.y.SSQ ∧ r.world.y.XLAST = s'.world.y.XLAST ∧ r.world.y.ITAB = s'.world.y.ITAB ∧
      r.world.h.LSFLG = s'.world.h.LSFLG ∧ r.world.h.net = setNet (snap s'.world.h.net) w₀.h.net := by
  have hiq := iq_year_end (cfg := narpCfg hc yc T R snap) hJ h hs hk
  obtain ⟨ht, hclk, _, _⟩ := C07_year_is_8760_hours (cfg := narpCfg hc yc T R snap) hJ h hs hk
  rcases step_world (cfg := narpCfg hc yc T R snap) hJ h hs with hh | hh | ⟨_, hh⟩
  · rw [hk] at hh; norm_num at hh
  · rw [hk] at hh; norm_num at hh
  have hyr : pyInt ((ev.time + 1) / 8760) = ((log.countP fun e => e.kind = 4 : ℕ) : ℤ) + 1 := by
    rw [ht]
    have := iyear_eq ((log.countP fun e => e.kind = 4) + 1)
    push_cast at this
    exact this
  simp only [narpCfg, yearWorld] at hh
  unfold yearBody at hh
  simp only at hh
  rw [hyr] at hh
  cases h1 : histLoop yc.NFCST yc.NORR yc.LSTEP s.world.h.H s.world.h.P s.world.y.hist with
  | error x => rw [h1] at hh; cases hh
  | ok hist =>
  rw [h1] at hh
  simp only [bind, Except.bind] at hh
  cases h2 : yearRows yc s.world.h.H s.world.h.P s.world.y.rows with
  | error x => rw [h2] at hh; cases hh
  | ok rows =>
  rw [h2] at hh
  simp only at hh
  generalize hSel : selSum yc _ _ _ _ = sel at hh
  cases sel with
  | error x => cases hh
  | ok SUM =>
  simp only [pure, Except.pure, Except.map, Except.ok.injEq, Prod.mk.injEq] at hh
  obtain ⟨hh, _⟩ := hh
  generalize hcv : cvchk _ _ _ _ _ _ _ = cv at hh
  have hrep : ∀ (C : ℚ) (I rf : ℤ) (wh wp : PoolW) (y : YearSt n α),
      (yearReport yc C I rf wh wp y).hist = y.hist ∧
      (yearReport yc C I rf wh wp y).CH = y.CH ∧ (yearReport yc C I rf wh wp y).CP = y.CP ∧
      (yearReport yc C I rf wh wp y).XNEWA = y.XNEWA ∧ (yearReport yc C I rf wh wp y).XNEWP = y.XNEWP ∧
      (yearReport yc C I rf wh wp y).SSQ = y.SSQ ∧ (yearReport yc C I rf wh wp y).XLAST = y.XLAST ∧
      (yearReport yc C I rf wh wp y).ITAB = y.ITAB ∧ (yearReport yc C I rf wh wp y).dump = y.dump := by
    intro C I rf wh wp y
    unfold yearReport
    split_ifs <;> exact ⟨rfl, rfl, rfl, rfl, rfl, rfl, rfl, rfl, rfl⟩
  rw [← hh]
  simp only [hrep]
  have hsave : ∀ (y : YearSt n α), y.INTVT = s.world.y.INTVT →
      ∃ y2, yearSave yc ev.time (((log.countP fun e => e.kind = 4 : ℕ) : ℤ) + 1) s'.cal (snap s.world.h.net)
        s.world.h.LSFLG y = y2 ∧ y2.dump = some (intm ev.time s'.cal y (snap s.world.h.net) s.world.h.LSFLG) ∧
        y2.hist = y.hist ∧ y2.CH = y.CH ∧ y2.CP = y.CP ∧ y2.XNEWA = y.XNEWA ∧ y2.XNEWP = y.XNEWP ∧
        y2.SSQ = y.SSQ ∧ y2.XLAST = y.XLAST ∧ y2.ITAB = y.ITAB := by
    intro y hy
    refine ⟨_, rfl, ?_⟩
    unfold yearSave
    by_cases hi : (((log.countP fun e => e.kind = 4 : ℕ) : ℤ) + 1 = s.world.y.INTVT)
    · rw [if_pos (by rw [hy]; exact hi)]
      exact ⟨rfl, rfl, rfl, rfl, rfl, rfl, rfl, rfl, rfl⟩
    · rw [if_neg (by rw [hy]; exact hi), if_pos (by rcases hw with hw | hw; exact absurd hw hi; exact hw)]
      exact ⟨rfl, rfl, rfl, rfl, rfl, rfl, rfl, rfl, rfl⟩
  generalize hY : ({ s.world.y with
    CH := accum yc.NFCST s.world.h.H s.world.y.CH
    CP := accum yc.NFCST s.world.h.P s.world.y.CP
    hist := hist
    XNEWA := newA yc.NFCST s.world.h.H s.world.h.P s.world.y.XNEWA
    XNEWP := newP (poolW yc.NFCST s.world.h.H) (poolW yc.NFCST s.world.h.P) s.world.y.XNEWP
    SSQ := cv.2.1
    XLAST := cv.2.2
    ITAB := if yc.IOJ ≠ 0 then s.world.y.ITAB + 1 else s.world.y.ITAB
    rows := rows } : YearSt n α) = Y
  obtain ⟨y2, e, d, k1, k2, k3, k4, k5, k6, k7, k8⟩ := hsave Y (by rw [← hY])
  rw [e]
  refine ⟨_, d, ?_⟩
  simp only [k1, k2, k3, k4, k5, k6, k7, k8]
  refine ⟨?_, rfl, ?_, rfl, rfl, rfl, rfl, rfl, rfl, rfl, rfl, rfl, ?_⟩
  · exact hclk.symm
  · rw [hiq]; rfl
  · rfl

/-- C32 (refuted: random seeds). The snapshot holds the integer 123 for the seeds of the units, whatever the seeds
of the run are; the first draw after the restart raises a TypeError in every system with at least one unit. -/
theorem C32_seeds_refuted (CLOCK : ℚ) (cal : Cal) (y : YearSt n α) (a : α) (L : Fin n → ℚ) (hm : 0 < m)
    (PROBG : Fin m → Fin 2 → ℚ) (RATING DERATE PLNDST : Fin m → ℚ) :
    gstateAny (.inl (intm CLOCK cal y a L).IGSEED) PROBG RATING DERATE PLNDST = .error .typeError := by
  unfold gstateAny
  simp only
  rw [dif_neg (by omega)]

/-- C32 (refuted: maintenance). Even if the seeds were restored: after the restart every unit counts as on planned
outage, so that the next draw finds no capacity at all in any area, whatever the seeds, ratings and snapshot; the
status changes only at the next weekly event, and that is not before the next draw unless the number of the year
is a multiple of 7. -/
theorem C32_maintenance_refuted (w₀ : World n m l ν α) (setNet : α → ν → ν) (d : Snap n α) (c : HourIn n m l ν)
    (day : ℕ) (RATING : Fin m → ℚ) (w : HourSt n m l ν) :
    let r := restart (narpInit hc.JSTEP m w₀) setNet d
    (∀ j, (hourDraw c day RATING (fun i => r.PLNDST.getD i 0) w).1.SYSCON j = 0) ∧
    (∀ k a : ℕ, ¬ 7 ∣ k → ¬ (8760 * (k : ℚ) < 1/2 + 168 * a ∧ 1/2 + 168 * (a : ℚ) ≤ 8760 * k + 1)) := by
  intro r
  constructor
  · intro j
    have hp : ∀ i : Fin m, (r.PLNDST.getD i 0) = 0 := by
      intro i
      show (List.replicate m (0 : ℚ)).getD i 0 = 0
      simp
    unfold hourDraw sumcap
    simp only [hp]
    have hz : ∀ i, (gstate w.IGSEED c.PROBG RATING c.DERATE fun _ => 0).2.2 i = 0 := by
      intro i
      simp [gstate]
    simp only [hz]
    have : ∀ (l : List (Fin m)) (S : Fin n → ℚ), (∀ j, S j = 0) →
        ∀ j, (l.foldl (fun S i => addAt S (c.CAPCON i) 0) S) j = 0 := by
      intro l
      induction l with
      | nil => intro S h j; exact h j
      | cons a l ih =>
        intro S h j
        rw [List.foldl_cons]
        refine ih _ ?_ j
        intro j'
        unfold addAt
        by_cases hj : j' = c.CAPCON a
        · subst hj; simp [h]
        · simp [hj, h]
    exact this _ _ (fun _ => rfl) j
  · rintro k a hk ⟨h1, h2⟩
    have h1' : ((8760 * k : ℕ) : ℚ) < ((168 * a + 1 : ℕ) : ℚ) := by push_cast; linarith
    have h2' : ((168 * a : ℕ) : ℚ) < ((8760 * k + 1 : ℕ) : ℚ) := by push_cast; linarith
    have h1'' : 8760 * k < 168 * a + 1 := by exact_mod_cast h1'
    have h2'' : 168 * a < 8760 * k + 1 := by exact_mod_cast h2'
    omega

/-- C32 (refuted: later snapshots). A snapshot written because year `Y` ended a snapshot interval says that the next
snapshot is due in year `Y`: the resumed run never writes an interval snapshot again, in no later year, while
the original run continues with year `Y + INTV`. -/
theorem C32_interval_refuted (c : YearIn) (Y : ℤ) (CLOCK : ℚ) (cal : Cal) (a : α) (L : Fin n → ℚ) (y : YearSt n α)
    (hY : y.INTVT = Y) (s₀ : St (World n m l ν α)) (setNet : α → ν → ν) :
    ∃ d, (yearSave c CLOCK Y cal a L y).dump = some d ∧ (yearSave c CLOCK Y cal a L y).INTVT = Y + c.INTV ∧
      (restart s₀ setNet d).world.y.INTVT = Y ∧
      ∀ Y', Y < Y' → Y' ≠ pyInt (c.FINISH / 8760) → ∀ C' cal' a' L',
        yearSave c C' Y' cal' a' L' (restart s₀ setNet d).world.y = (restart s₀ setNet d).world.y := by
  have e : yearSave c CLOCK Y cal a L y =
      { y with dump := some (intm CLOCK cal y a L), INTVT := y.INTVT + c.INTV } := by
    unfold yearSave; rw [if_pos hY.symm]
  refine ⟨intm CLOCK cal y a L, by rw [e], by rw [e, hY], hY, ?_⟩
  intro Y' hlt hne C' cal' a' L'
  have hI : (restart s₀ setNet (intm CLOCK cal y a L)).world.y.INTVT = Y := hY
  unfold yearSave
  rw [hI, if_neg (by omega), if_neg hne]

/-- The hypotheses are met: a snapshot at the end of the first year (interval 1) and the run resumed from it. -/
example : (yearRun { demoYear with INTV := 1 } [demoEnd 0 10] (YearSt.init 1 Unit 1 0)).map
    (fun y => (y.INTVT, y.dump.map fun d => (d.INTVT, d.CH.SOLGA 0 0, d.IGSEED))) = .ok (2, some (1, 10, 123)) := by
  decide +kernel

end Narp.Props
