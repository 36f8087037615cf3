import Verif.Spec.Snapshot
import Verif.Model.Disk
import Verif.Props.Restart

/-!
# C102, C103: which snapshot is on the disk at any moment of a run
-/

namespace Narp.Props
open Narp Narp.Spec BigOperators

variable {n m l : ℕ} {ν α : Type} {hc : HourIn n m l ν} {yc : YearIn} {T : List (List ℤ)} {R : List (List ℚ)}
  {snap : ν → α} {g0 : Fin m → ℤ} {l0 : Fin l → ℤ} {net : ν} {A : ℤ} {s s' : St (World n m l ν α)} {log : List Ev}
  {ev : Ev}

/-- the report step changes nothing that is saved -/
theorem yearReport_keeps (c : YearIn) (C : ℚ) (I rf : ℤ) (wh wp : PoolW) (y : YearSt n α) :
    yearReport c C I rf wh wp y = { y with rep := (yearReport c C I rf wh wp y).rep } := by
  unfold yearReport
  split_ifs <;> rfl

/-- What a year end does to the file and to the year of the next snapshot. -/
theorem year_dump (hJ : StepOK hc.JSTEP) {I : ℤ}
    (h : Reach (narpCfg hc yc T R snap) (narpInit hc.JSTEP m (worldInit g0 l0 net I A)) log s)
    (hs : step (narpCfg hc yc T R snap) s = .ok (.next ev s')) (hk : ev.kind = 4) :
    if (yearsDone log : ℤ) + 1 = s.world.y.INTVT then
      (∃ d, s'.world.y.dump = some d ∧ SavedState snap d s') ∧ s'.world.y.INTVT = s.world.y.INTVT + yc.INTV
    else if (yearsDone log : ℤ) + 1 = pyInt (yc.FINISH / 8760) then
      (∃ d, s'.world.y.dump = some d ∧ SavedState snap d s') ∧ s'.world.y.INTVT = s.world.y.INTVT
    else s'.world.y.dump = s.world.y.dump ∧ s'.world.y.INTVT = s.world.y.INTVT := by
  obtain ⟨ht, hclk, _, _⟩ := C07_year_is_8760_hours (cfg := narpCfg hc yc T R snap) hJ h hs hk
  rcases step_world (cfg := narpCfg hc yc T R snap) hJ h hs with hh | hh | ⟨_, hh⟩
  · rw [hk] at hh; norm_num at hh
  · rw [hk] at hh; norm_num at hh
  have hyr : pyInt ((ev.time + 1) / 8760) = (yearsDone log : ℤ) + 1 := by
    rw [ht]
    have := iyear_eq ((log.countP fun e => e.kind = 4) + 1)
    push_cast at this
    exact this
  simp only [narpCfg, yearWorld] at hh
  unfold yearBody at hh
  simp only at hh
  rw [hyr] at hh
  cases h1 : histLoop yc.NFCST yc.NORR yc.LSTEP s.world.h.H s.world.h.P s.world.y.hist with
  | error x => rw [h1] at hh; cases hh
  | ok hist =>
  rw [h1] at hh
  simp only [bind, Except.bind] at hh
  cases h2 : yearRows yc s.world.h.H s.world.h.P s.world.y.rows with
  | error x => rw [h2] at hh; cases hh
  | ok rows =>
  rw [h2] at hh
  simp only at hh
  generalize hSel : selSum yc _ _ _ _ = sel at hh
  cases sel with
  | error x => cases hh
  | ok SUM =>
  simp only [pure, Except.pure, Except.map, Except.ok.injEq, Prod.mk.injEq] at hh
  obtain ⟨hh, _⟩ := hh
  generalize hcv : cvchk _ _ _ _ _ _ _ = cv at hh
  generalize hY : ({ s.world.y with
    CH := accum yc.NFCST s.world.h.H s.world.y.CH
    CP := accum yc.NFCST s.world.h.P s.world.y.CP
    hist := hist
    XNEWA := newA yc.NFCST s.world.h.H s.world.h.P s.world.y.XNEWA
    XNEWP := newP (poolW yc.NFCST s.world.h.H) (poolW yc.NFCST s.world.h.P) s.world.y.XNEWP
    SSQ := cv.2.1
    XLAST := cv.2.2
    ITAB := if yc.IOJ ≠ 0 then s.world.y.ITAB + 1 else s.world.y.ITAB
    rows := rows } : YearSt n α) = Y at hh
  have hYI : Y.INTVT = s.world.y.INTVT := by rw [← hY]
  have hYd : Y.dump = s.world.y.dump := by rw [← hY]
  rw [yearReport_keeps] at hh
  have hclk' := hclk
  unfold SavedState
  rw [← hh]
  unfold yearSave
  rw [hYI]
  split_ifs with c1 c2
  · exact ⟨⟨_, rfl, hclk.symm, rfl, rfl, rfl, rfl, rfl, rfl, rfl, rfl, rfl, rfl, rfl⟩, rfl⟩
  · exact ⟨⟨_, rfl, hclk.symm, rfl, rfl, rfl, rfl, rfl, rfl, rfl, rfl, rfl, rfl, rfl⟩, rfl⟩
  · exact ⟨hYd, hYI⟩

/-- Other events touch neither the file nor the year of the next snapshot. -/
theorem other_dump (hJ : StepOK hc.JSTEP) {I : ℤ}
    (h : Reach (narpCfg hc yc T R snap) (narpInit hc.JSTEP m (worldInit g0 l0 net I A)) log s)
    (hs : step (narpCfg hc yc T R snap) s = .ok (.next ev s')) (hk : ev.kind ≠ 4) : s'.world.y = s.world.y := by
  rcases step_world (cfg := narpCfg hc yc T R snap) hJ h hs with ⟨_, hh, _⟩ | ⟨_, hh, _⟩ | ⟨hh, _⟩
  · simp only [narpCfg] at hh
    cases hx : hourFx hc ev.time s.RATING s.PLNDST s.world.h with
    | error x => rw [hx] at hh; cases hh
    | ok w => rw [hx] at hh; simp only [Except.map, Except.ok.injEq] at hh; rw [← hh]
  · rw [hh]
  · exact absurd hh hk

theorem yearsDone_snoc (log : List Ev) (ev : Ev) :
    yearsDone (log ++ [ev]) = yearsDone log + if ev.kind = 4 then 1 else 0 := by
  unfold yearsDone
  rw [List.countP_append, List.countP_singleton]
  simp

/-- The year of the next snapshot: the next multiple of the interval. -/
theorem next_save (hJ : StepOK hc.JSTEP)
    (h : Reach (narpCfg hc yc T R snap) (narpInit hc.JSTEP m (worldInit g0 l0 net yc.INTV A)) log s) :
    s.world.y.INTVT = if 0 < yc.INTV then yc.INTV * ((yearsDone log : ℤ) / yc.INTV + 1) else yc.INTV := by
  induction h with
  | start =>
    show yc.INTV = _
    have : (yearsDone [] : ℤ) = 0 := rfl
    rw [this]; simp
  | @step log s ev s' hr hs ih =>
    rw [yearsDone_snoc]
    by_cases hk : ev.kind = 4
    · rw [if_pos hk]
      have hy := year_dump hJ hr hs hk
      by_cases hp : 0 < yc.INTV
      · rw [if_pos hp] at ih ⊢
        set k : ℤ := (yearsDone log : ℤ) with hkdef
        have hk0 : 0 ≤ k := by rw [hkdef]; positivity
        have h1 := Int.emod_add_mul_ediv k yc.INTV
        have h2 := Int.emod_lt_of_pos k hp
        have h3 := Int.emod_nonneg k (ne_of_gt hp)
        push_cast
        rw [← hkdef]
        by_cases hc1 : k + 1 = s.world.y.INTVT
        · rw [if_pos hc1] at hy
          rw [hy.2, hc1, ih, Int.mul_ediv_cancel_left _ (ne_of_gt hp)]
          ring
        · rw [if_neg hc1] at hy
          have hI : s'.world.y.INTVT = s.world.y.INTVT := by
            split_ifs at hy
            · exact hy.2
            · exact hy.2
          have hlt : k % yc.INTV + 1 < yc.INTV := by
            rcases lt_or_eq_of_le (show k % yc.INTV + 1 ≤ yc.INTV by omega) with h | h
            · exact h
            · exact absurd (by rw [ih]; linarith) hc1
          have hd : (k + 1) / yc.INTV = k / yc.INTV := by
            rw [Int.ediv_eq_iff_of_pos hp]
            constructor <;> nlinarith
          rw [hI, ih, hd]
      · rw [if_neg hp] at ih ⊢
        have hne : ¬ ((yearsDone log : ℤ) + 1 = s.world.y.INTVT) := by
          have : (0 : ℤ) ≤ (yearsDone log : ℤ) := by positivity
          omega
        rw [if_neg hne] at hy
        split_ifs at hy
        · rw [hy.2, ih]
        · rw [hy.2, ih]
    · rw [if_neg hk, other_dump hJ hr hs hk, ih, add_zero]

/-- The file is replaced exactly at the year ends at which a snapshot is due. -/
theorem year_due (hJ : StepOK hc.JSTEP)
    (h : Reach (narpCfg hc yc T R snap) (narpInit hc.JSTEP m (worldInit g0 l0 net yc.INTV A)) log s)
    (hs : step (narpCfg hc yc T R snap) s = .ok (.next ev s')) (hk : ev.kind = 4) :
    (Due yc.INTV (pyInt (yc.FINISH / 8760)) (yearsDone log + 1) → ∃ d, s'.world.y.dump = some d ∧ SavedState snap d s') ∧
    (¬ Due yc.INTV (pyInt (yc.FINISH / 8760)) (yearsDone log + 1) → s'.world.y.dump = s.world.y.dump) := by
  have hy := year_dump hJ h hs hk
  have hI := next_save hJ h
  have key : ((0 < yc.INTV ∧ yc.INTV ∣ ((yearsDone log + 1 : ℕ) : ℤ)) ↔ (yearsDone log : ℤ) + 1 = s.world.y.INTVT) := by
    push_cast
    set k : ℤ := (yearsDone log : ℤ) with hkdef
    have hk0 : 0 ≤ k := by rw [hkdef]; positivity
    by_cases hp : 0 < yc.INTV
    · rw [if_pos hp] at hI
      have h1 := Int.emod_add_mul_ediv k yc.INTV
      have h2 := Int.emod_lt_of_pos k hp
      have h3 := Int.emod_nonneg k (ne_of_gt hp)
      rw [hI]
      constructor
      · rintro ⟨_, q, hq⟩
        have a1 : k / yc.INTV < q := by
          by_contra hcon
          have : yc.INTV * q ≤ yc.INTV * (k / yc.INTV) := mul_le_mul_of_nonneg_left (not_lt.1 hcon) hp.le
          omega
        have a2 : yc.INTV * (k / yc.INTV + 1) ≤ yc.INTV * q := mul_le_mul_of_nonneg_left a1 hp.le
        have a3 : yc.INTV * (k / yc.INTV + 1) = yc.INTV * (k / yc.INTV) + yc.INTV := by ring
        omega
      · intro e
        exact ⟨hp, _, e⟩
    · rw [if_neg hp] at hI
      constructor
      · intro h; exact absurd h.1 hp
      · intro h; omega
  unfold Due
  rw [key]
  push_cast
  split_ifs at hy with c1 c2
  · exact ⟨fun _ => hy.1, fun hn => absurd (Or.inl c1) hn⟩
  · exact ⟨fun _ => hy.1, fun hn => absurd (Or.inr c2) hn⟩
  · exact ⟨fun hd => absurd hd (by tauto), fun _ => hy.1⟩

/-- C102. At every moment between two events of every run: if no snapshot was due so far there is none on the disk;
otherwise the file holds the state of the run right after the end of the last year in which one was due, that is, the
last multiple of the interval (or the last year of the run). -/
theorem C102_on_disk (hJ : StepOK hc.JSTEP)
    (h : Reach (narpCfg hc yc T R snap) (narpInit hc.JSTEP m (worldInit g0 l0 net yc.INTV A)) log s) :
    (s.world.y.dump = none ∧
      ∀ y, 1 ≤ y → y ≤ yearsDone log → ¬ Due yc.INTV (pyInt (yc.FINISH / 8760)) y) ∨
    ∃ d y log₁ s₁, s.world.y.dump = some d ∧ LastDue yc.INTV (pyInt (yc.FINISH / 8760)) (yearsDone log) y ∧
      log₁ <+: log ∧ yearsDone log₁ = y ∧ (∃ e ∈ log₁.getLast?, e.kind = 4) ∧
      Reach (narpCfg hc yc T R snap) (narpInit hc.JSTEP m (worldInit g0 l0 net yc.INTV A)) log₁ s₁ ∧
      d.CLOCK = 8760 * y ∧ SavedState snap d s₁ := by
  induction h with
  | start =>
    left
    refine ⟨rfl, fun y h1 h2 => ?_⟩
    have : yearsDone [] = 0 := rfl
    omega
  | @step log s ev s' hr hs ih =>
    rw [yearsDone_snoc]
    by_cases hk : ev.kind = 4
    · rw [if_pos hk]
      obtain ⟨hdue, hnot⟩ := year_due hJ hr hs hk
      by_cases hd : Due yc.INTV (pyInt (yc.FINISH / 8760)) (yearsDone log + 1)
      · right
        obtain ⟨d, e, hh⟩ := hdue hd
        refine ⟨d, yearsDone log + 1, log ++ [ev], s', e, ⟨by omega, le_rfl, hd, fun z h1 h2 => by omega⟩,
          List.prefix_rfl, by rw [yearsDone_snoc, if_pos hk], ⟨ev, by simp, hk⟩, Reach.step hr hs, ?_, hh⟩
        obtain ⟨ht, hclk, _, _⟩ := C07_year_is_8760_hours (cfg := narpCfg hc yc T R snap) hJ hr hs hk
        rw [hh.1, hclk, ht]
        push_cast
        rfl
      · have e := hnot hd
        rcases ih with ⟨h0, hall⟩ | ⟨d, y, log₁, s₁, e1, ⟨l1, l2, l3, l4⟩, hp, hrest⟩
        · left
          refine ⟨by rw [e, h0], fun y h1 h2 => ?_⟩
          rcases Nat.lt_or_ge (yearsDone log) y with h3 | h3
          · have : y = yearsDone log + 1 := by omega
            rw [this]; exact hd
          · exact hall y h1 h3
        · right
          refine ⟨d, y, log₁, s₁, by rw [e, e1], ⟨l1, by omega, l3, fun z h1 h2 => ?_⟩,
            hp.trans (List.prefix_append _ _), hrest⟩
          rcases Nat.lt_or_ge (yearsDone log) z with h3 | h3
          · have : z = yearsDone log + 1 := by omega
            rw [this]; exact hd
          · exact l4 z h1 h3
    · rw [if_neg hk, add_zero, other_dump hJ hr hs hk]
      rcases ih with hl | ⟨d, y, log₁, s₁, e1, hL, hp, hrest⟩
      · exact Or.inl hl
      · exact Or.inr ⟨d, y, log₁, s₁, e1, hL, hp.trans (List.prefix_append _ _), hrest⟩

/-- C102 (bounded loss). With a positive interval a crash between two events costs less than `INTV` simulated years:
once the first interval has passed there is a snapshot, and it is less than `INTV` years old. -/
theorem C102_loss (hJ : StepOK hc.JSTEP) (hp : 0 < yc.INTV)
    (h : Reach (narpCfg hc yc T R snap) (narpInit hc.JSTEP m (worldInit g0 l0 net yc.INTV A)) log s)
    (hk : yc.INTV ≤ yearsDone log) :
    ∃ d, s.world.y.dump = some d ∧ 8760 * ((yearsDone log : ℚ) - yc.INTV) < d.CLOCK ∧
      d.CLOCK ≤ 8760 * (yearsDone log : ℚ) := by
  set k : ℤ := (yearsDone log : ℤ) with hkdef
  have h1 := Int.emod_add_mul_ediv k yc.INTV
  have h2 := Int.emod_lt_of_pos k hp
  have h3 := Int.emod_nonneg k (ne_of_gt hp)
  have hq : 1 ≤ k / yc.INTV := by
    rw [Int.le_ediv_iff_mul_le hp]; omega
  -- the last multiple of the interval
  obtain ⟨y0, hy0⟩ : ∃ y0 : ℕ, (y0 : ℤ) = yc.INTV * (k / yc.INTV) :=
    ⟨(yc.INTV * (k / yc.INTV)).toNat, Int.toNat_of_nonneg (by positivity)⟩
  have hy1 : 1 ≤ y0 := by
    have : yc.INTV * 1 ≤ yc.INTV * (k / yc.INTV) := mul_le_mul_of_nonneg_left hq hp.le
    omega
  have hy2 : y0 ≤ yearsDone log := by omega
  have hdue : Due yc.INTV (pyInt (yc.FINISH / 8760)) y0 := Or.inl ⟨hp, hy0 ▸ Dvd.intro _ rfl⟩
  rcases C102_on_disk hJ h with ⟨_, hall⟩ | ⟨d, y, log₁, s₁, e, ⟨l1, l2, l3, l4⟩, _, _, _, _, hc, _⟩
  · exact absurd hdue (hall y0 hy1 hy2)
  · refine ⟨d, e, ?_, ?_⟩
    · have hge : y0 ≤ y := by
        by_contra hcon
        exact l4 y0 (by omega) hy2 hdue
      have : k - yc.INTV < (y : ℤ) := by omega
      have : (((yearsDone log : ℤ) - yc.INTV : ℤ) : ℚ) < ((y : ℤ) : ℚ) := by exact_mod_cast this
      push_cast at this
      rw [hc]; linarith
    · rw [hc]
      have : (y : ℚ) ≤ yearsDone log := by exact_mod_cast l2
      linarith

/-! ## A crash while the file is written -/

section Torn
variable {V : Type}

theorem go_prefix (R : Reader V) {bytes : List UInt8} : ∀ {q : R.σ} {v : V}, R.go q bytes = some (v, 0) →
    ∀ k, k < bytes.length → R.go q (bytes.take k) = none := by
  induction bytes with
  | nil => intro q v h; simp [Reader.go] at h
  | cons b bs ih =>
    intro q v h k hk
    cases k with
    | zero => rfl
    | succ k =>
      rw [List.take_succ_cons]
      unfold Reader.go at h ⊢
      cases hf : R.feed q b with
      | inl q' =>
        rw [hf] at h
        simp only at h ⊢
        exact ih h k (by simpa using hk)
      | inr o =>
        rw [hf] at h
        cases o with
        | none => simp at h
        | some w =>
          simp only [Option.some.injEq, Prod.mk.injEq, List.length_eq_zero_iff] at h
          rw [h.2] at hk
          simp at hk

/-- C103 (a torn file is detected). Whatever was in the file before, and whenever the crash comes during the writing of a
snapshot `d`: reading the file gives the earlier snapshot, or `d`, or an error; never anything else. -/
theorem C103_torn_detected (R : Reader V) (old : Option (List UInt8)) {bytes : List UInt8} {d : V}
    (h : R.go R.init bytes = some (d, 0)) (file : Option (List UInt8)) (hf : file ∈ dumpStates old bytes) :
    rstart R file = rstart R old ∨ rstart R file = some d ∨ rstart R file = none := by
  unfold dumpStates at hf
  rcases List.mem_cons.1 hf with rfl | hf
  · exact Or.inl rfl
  · obtain ⟨k, hk, rfl⟩ := List.mem_map.1 hf
    right
    rcases Nat.lt_or_ge k bytes.length with h1 | h1
    · right
      simp only [rstart, go_prefix R h k h1, Option.map_none]
    · left
      simp only [rstart, List.take_of_length_le h1, h, Option.map_some]

/-- C103 (refuted: a crash while writing). The file is truncated before the new snapshot is written: whatever snapshots
`d₀` (on the disk) and `d` (being written), there is a moment at which the disk holds neither; a crash then loses the
whole run. -/
theorem C103_torn_refuted (R : Reader V) {bytes₀ bytes : List UInt8} {d₀ d : V}
    (h₀ : R.go R.init bytes₀ = some (d₀, 0)) (h : R.go R.init bytes = some (d, 0)) :
    rstart R (some bytes₀) = some d₀ ∧ rstart R (some bytes) = some d ∧ some bytes ∈ dumpStates (some bytes₀) bytes ∧
    ∃ file ∈ dumpStates (some bytes₀) bytes, rstart R file = none := by
  refine ⟨by simp [rstart, h₀], by simp [rstart, h], ?_, some (bytes.take 0), ?_, rfl⟩
  · exact List.mem_cons_of_mem _ (List.mem_map.2 ⟨bytes.length, List.mem_range.2 (by omega), by simp⟩)
  · exact List.mem_cons_of_mem _ (List.mem_map.2 ⟨0, List.mem_range.2 (by omega), rfl⟩)

/-- A reader for the examples: numbers in unary, ended by a `.` (the STOP opcode of pickle is that byte, 46). -/
def unary : Reader ℕ := ⟨ℕ, 0, fun q b => if b = 46 then .inr (some q) else if b = 49 then .inl (q + 1) else .inr none⟩

/-- The file held 2, 3 is written: at the six moments the reader sees 2, nothing four times, 3. -/
example : (dumpStates (some [49, 49, 46]) [49, 49, 49, 46]).map (rstart unary) =
    [some 2, none, none, none, none, some 3] ∧ unary.go unary.init [49, 49, 49, 46] = some (3, 0) := by decide +kernel

end Torn

end Narp.Props
