import Verif.Model.Output
import Verif.Props.AnnualText
import Verif.Props.History

/-!
# C121: the file `output.txt` after a run
-/

namespace Narp.Props
open Narp Narp.Spec

/-! ## Specification -/

/-- The lines of `output.txt` after a run: those that were there before, then a page for each of the tables `tables` in turn,
the `i`-th one headed by the number of the year, then `last`. -/
def FileShown (INDX : ℤ) (before : List (List (List Char))) (tables : List (List Row)) (last lines : List (List (List Char))) : Prop :=
  ∃ pages : List (List (List (List Char))), lines = before ++ pages.flatten ++ last ∧ pages.length = tables.length ∧
    ∀ i p rows, pages[i]? = some p → tables[i]? = some rows → AnnualAsIs INDX (i + 1 : ℕ) rows p

/-! ## A run with the file is a run without it -/

/-- The state with a part of the world forgotten. -/
def St.via {σ τ : Type} (p : σ → τ) (s : St σ) : St τ :=
  ⟨s.cal, s.CLOCK, s.IQ, s.JHOUR, s.RFLAG, s.RATING, s.PLNDST, p s.world⟩

section Via
variable {σ τ : Type} {p : σ → τ} {cfg : Cfg σ} {cfg' : Cfg τ}

/-- The second program does what the first one does, on the part `p` of the world. -/
structure ViaOK (p : σ → τ) (cfg : Cfg σ) (cfg' : Cfg τ) : Prop where
  step : cfg'.JSTEP = cfg.JSTEP
  finish : cfg'.FINISH = cfg.FINISH
  plan : cfg'.JPLOUT = cfg.JPLOUT
  rates : cfg'.RATES = cfg.RATES
  hour : ∀ C R P w w', cfg.hourFx C R P w = .ok w' → cfg'.hourFx C R P (p w) = .ok (p w')
  year : ∀ C cal w w' r, cfg.yearFx C cal w = .ok (w', r) → cfg'.yearFx C cal (p w) = .ok (p w', r)

theorem via_events (h : ViaOK p cfg cfg') {s s' : St σ} {k : ℚ} (he : events cfg s k = .ok s') :
    events cfg' (St.via p s) k = .ok (St.via p s') := by
  unfold events at he ⊢
  dsimp only at he ⊢
  split_ifs at he ⊢
  · unfold hourEv at he ⊢
    obtain ⟨c, h1, he⟩ := Except.bind_ok he
    obtain ⟨w, h2, he⟩ := Except.bind_ok he
    injection he with he
    subst he
    show (filem s.cal (s.CLOCK + cfg'.JSTEP) k >>= _) = _
    rw [h.step, h1]
    show (cfg'.hourFx s.CLOCK s.RATING s.PLNDST (p s.world) >>= _) = _
    rw [h.hour _ _ _ _ _ h2]
    rfl
  · unfold week at he ⊢
    obtain ⟨c, h1, he⟩ := Except.bind_ok he
    obtain ⟨q, h2, he⟩ := Except.bind_ok he
    injection he with he
    subst he
    show (filem s.cal (s.CLOCK + 168) k >>= _) = _
    rw [h1]
    show (weekPlan cfg'.JPLOUT s.JHOUR s.PLNDST >>= _) = _
    rw [h.plan, h2]
    rfl
  · unfold quartr at he ⊢
    obtain ⟨q, h1, he⟩ := Except.bind_ok he
    obtain ⟨c, h2, he⟩ := Except.bind_ok he
    injection he with he
    subst he
    show ((cfg'.RATES.mapM fun row => rd row ((s.IQ + 1) % 4)) >>= _) = _
    rw [h.rates, h1]
    show (filem s.cal (s.CLOCK + 8760) k >>= _) = _
    rw [h2]
    rfl
  · unfold yearEv at he ⊢
    obtain ⟨c, h1, he⟩ := Except.bind_ok he
    obtain ⟨⟨w, r⟩, h2, he⟩ := Except.bind_ok he
    injection he with he
    subst he
    show (filem s.cal (s.CLOCK + 8760) 4 >>= _) = _
    rw [h1]
    show (cfg'.yearFx s.CLOCK c (p s.world) >>= _) = _
    rw [h.year _ _ _ _ _ h2]
    rfl

/-- The state in a result, with a part of the world forgotten. -/
def StepRes.via (p : σ → τ) : StepRes σ → StepRes τ
  | .exit e => .exit e
  | .next ev s => .next ev (St.via p s)

theorem via_step (h : ViaOK p cfg cfg') {s : St σ} {r : StepRes σ} (he : Narp.step cfg s = .ok r) :
    Narp.step cfg' (St.via p s) = .ok (StepRes.via p r) := by
  unfold Narp.step at he ⊢
  by_cases h1 : s.cal.IPOINT = -1
  · have h1' : (St.via p s).cal.IPOINT = -1 := h1
    rw [if_pos h1] at he
    rw [if_pos h1']
    injection he with he
    subst he
    rfl
  have h1' : ¬ (St.via p s).cal.IPOINT = -1 := h1
  rw [if_neg h1] at he
  rw [if_neg h1']
  obtain ⟨t, h2, he⟩ := Except.bind_ok he
  have h2' : rd (St.via p s).cal.E ((St.via p s).cal.IPOINT + 1) = .ok t := h2
  rw [h2']
  show (if (St.via p s).CLOCK > t then _ else _) = _
  by_cases h3 : s.CLOCK > t
  · have h3' : (St.via p s).CLOCK > t := h3
    rw [if_pos h3] at he
    rw [if_pos h3']
    injection he with he
    subst he
    rfl
  have h3' : ¬ (St.via p s).CLOCK > t := h3
  rw [if_neg h3] at he
  rw [if_neg h3']
  by_cases h4 : s.RFLAG = 1
  · have h4' : (St.via p s).RFLAG = 1 := h4
    rw [if_pos h4] at he
    rw [if_pos h4']
    injection he with he
    subst he
    rfl
  have h4' : ¬ (St.via p s).RFLAG = 1 := h4
  rw [if_neg h4] at he
  rw [if_neg h4', h.finish]
  by_cases h5 : t > cfg.FINISH + 1
  · rw [if_pos h5] at he ⊢
    injection he with he
    subst he
    rfl
  rw [if_neg h5] at he ⊢
  obtain ⟨⟨a, cal⟩, h6, he⟩ := Except.bind_ok he
  obtain ⟨s', h7, he⟩ := Except.bind_ok he
  injection he with he
  subst he
  have h6' : Narp.remove (St.via p s).cal = .ok (a, cal) := h6
  rw [h6']
  have := via_events h h7
  show (events cfg' _ a.2 >>= _) = _
  rw [show ({ St.via p s with cal := cal, CLOCK := a.1 } : St τ) = St.via p { s with cal := cal, CLOCK := a.1 } from rfl, this]
  rfl

theorem via_reach (h : ViaOK p cfg cfg') {N : ℕ} {w : σ} {log : List Ev} {s : St σ}
    (hr : Reach cfg (narpInit cfg.JSTEP N w) log s) : Reach cfg' (narpInit cfg'.JSTEP N (p w)) log (St.via p s) := by
  induction hr with
  | start => rw [h.step]; exact .start
  | step _ hs ih => exact .step ih (via_step h hs)

end Via

/-! ## The file in every state of a run -/

/-- The pages of the annual tables, one after the other. -/
def pagesText (INDX : ℤ) (tables : List (List Row)) : List Char :=
  (tables.mapIdx fun i rows => annualText INDX (i + 1 : ℕ) rows).flatten

theorem pagesText_snoc (INDX : ℤ) (tables : List (List Row)) (rows : List Row) :
    pagesText INDX (tables ++ [rows]) = pagesText INDX tables ++ annualText INDX (tables.length + 1 : ℕ) rows := by
  unfold pagesText
  rw [List.mapIdx_append, List.flatten_append]
  simp

theorem yearBody_itab {n : ℕ} {α : Type} {c : YearIn} {CLOCK : ℚ} {cal : Cal} {net : α} {LS : Fin n → ℚ} {H P : Cnt n} {y : YearSt n α}
    {r : (Cnt n × Cnt n) × YearSt n α × ℤ} (h : yearBody c CLOCK cal net LS H P y = .ok r) :
    r.2.1.ITAB = if c.IOJ ≠ 0 then y.ITAB + 1 else y.ITAB := by
  unfold yearBody at h
  simp only at h
  obtain ⟨hist, h1, h⟩ := Except.bind_ok h
  obtain ⟨rows, h2, h⟩ := Except.bind_ok h
  obtain ⟨SUM, h3, h⟩ := Except.bind_ok h
  have hs : ∀ (C : ℚ) (I : ℤ) (y : YearSt n α), (yearSave c C I cal net LS y).ITAB = y.ITAB := by
    intro C I y; unfold yearSave; split_ifs <;> rfl
  have hrp : ∀ (C : ℚ) (I rf : ℤ) (wh wp : PoolW) (y : YearSt n α), (yearReport c C I rf wh wp y).ITAB = y.ITAB := by
    intro C I rf wh wp y; unfold yearReport; split_ifs <;> rfl
  injection h with h
  rw [← h]
  dsimp only
  rw [hrp, hs]

section Runs
variable {n m l : ℕ} {ν α : Type} {hc : HourIn n m l ν} {yc : YearIn} {T : List (List ℤ)} {R : List (List ℚ)} {snap : ν → α}
  {NAMA : Fin n → String} {S : Sus n}

theorem file_via : ViaOK Prod.fst (fileCfg hc yc T R snap NAMA S) (narpCfg hc yc T R snap) where
  step := rfl
  finish := rfl
  plan := rfl
  rates := rfl
  hour := by
    intro C Q P w w' h
    simp only [fileCfg, narpCfg] at h ⊢
    cases hb : hourFx hc C Q P w.1.h with
    | error x => rw [hb] at h; cases h
    | ok v =>
      rw [hb] at h
      simp only [Except.map, Except.ok.injEq] at h ⊢
      rw [← h]
  year := by
    intro C cal w w' r h
    simp only [fileCfg, narpCfg, yearFile] at h ⊢
    obtain ⟨v, h1, h⟩ := Except.bind_ok h
    obtain ⟨t, _, h⟩ := Except.bind_ok h
    simp only [pure, Except.pure, Except.ok.injEq, Prod.mk.injEq] at h
    rw [h1, ← h.1, ← h.2]

variable {g0 : Fin m → ℤ} {l0 : Fin l → ℤ} {net : ν} {I A : ℤ} {old : List Char} {s : St (World n m l ν α × List Char)} {log : List Ev}

/-- The file in every state of every run. -/
theorem file_inv (hJ : StepOK hc.JSTEP)
    (h : Reach (fileCfg hc yc T R snap NAMA S) (narpInit hc.JSTEP m (worldInit g0 l0 net I A, old)) log s) :
    ∃ evs tables last, Ends hc yc T R snap (narpInit hc.JSTEP m (worldInit g0 l0 net I A)) log (St.via Prod.fst s) evs ∧
      tables.length = (if yc.IOJ ≠ 0 then evs.length else 0) ∧
      (∀ (i : ℕ) (e : YearEnd n α) (rows : List Row), evs[i]? = some e → tables[i]? = some rows → annualTable yc.NFCST yc.INDX e.H e.P = .ok rows) ∧
      s.world.1.y.ITAB = A + tables.length ∧ s.world.2 = old ++ pagesText yc.INDX tables ++ last ∧
      (s.RFLAG ≠ 1 → last = []) ∧ (s.RFLAG = 1 → ∃ r Rep, s.world.1.y.rep = some r ∧
        report yc.NFCST yc.INDX yc.LSTEP (A + tables.length) NAMA r S = .ok Rep ∧
        last = reportText yc.NFCST yc.INDX (A + tables.length) r Rep) := by
  induction h with
  | start =>
    refine ⟨[], [], [], .start, by simp, by simp, by simp [narpInit, worldInit, YearSt.init], by simp [narpInit, pagesText], fun _ => rfl, ?_⟩
    intro h; simp [narpInit] at h
  | @step log s ev s' hr hs ih =>
    obtain ⟨evs, tables, last, hE, i1, i2, i3, i4, i5, i6⟩ := ih
    have hs' := via_step file_via hs
    have hr' := hE.reach
    obtain ⟨k, q, hI⟩ := reach_inv (cfg := narpCfg hc yc T R snap) hJ.lo hJ.hi hr'
    have b1 := hJ.lo
    have b2 := hJ.hi
    obtain ⟨_, _, _, _, _, _, hR1, _⟩ := inv_next (cfg := narpCfg hc yc T R snap)
      (by show 0 < hc.JSTEP; linarith) (by show hc.JSTEP < 8760; linarith) hI hs'
    have hR0 : s.RFLAG ≠ 1 := hR1
    have hl := i5 hR0
    subst hl
    rcases step_world (cfg := fileCfg hc yc T R snap NAMA S) hJ hr hs with ⟨hk, hw, hf⟩ | ⟨hk, hw, hf⟩ | ⟨hk, hw⟩
    · have hk4 : ev.kind ≠ 4 := by rw [hk]; norm_num
      have e : s'.world.1.y = s.world.1.y ∧ s'.world.2 = s.world.2 := by
        simp only [fileCfg] at hw
        cases hb : hourFx hc ev.time s.RATING s.PLNDST s.world.1.h with
        | error x => rw [hb] at hw; cases hw
        | ok v =>
          rw [hb] at hw
          simp only [Except.map, Except.ok.injEq] at hw
          rw [← hw]
          exact ⟨rfl, rfl⟩
      refine ⟨evs, tables, [], .other hE hs' hk4, i1, i2, by rw [e.1, i3], by rw [e.2, i4], fun _ => rfl, ?_⟩
      intro hf1; rw [hf] at hf1; exact absurd hf1 hR0
    · have hk4 : ev.kind ≠ 4 := by rcases hk with hk | hk <;> (rw [hk]; norm_num)
      refine ⟨evs, tables, [], .other hE hs' hk4, i1, i2, by rw [hw, i3], by rw [hw, i4], fun _ => rfl, ?_⟩
      intro hf1; rw [hf] at hf1; exact absurd hf1 hR0
    · have hN := Ends.year hE hs' hk
      have hyr : pyInt ((ev.time + 1) / 8760) = ((evs.length + 1 : ℕ) : ℤ) := by
        have h7 := C07_year_is_8760_hours (cfg := narpCfg hc yc T R snap) hJ hr' hs' hk
        have hlen := (ends_inv hJ hE).1
        have ht := h7.1
        have := h7.2.2.2
        rw [h7.2.1] at this
        rw [this, ← hlen]; push_cast; ring
      simp only [fileCfg, yearFile] at hw
      obtain ⟨v, h1, hw⟩ := Except.bind_ok hw
      obtain ⟨t, h2, hw⟩ := Except.bind_ok hw
      simp only [pure, Except.pure, Except.ok.injEq, Prod.mk.injEq] at hw
      obtain ⟨hw, hf⟩ := hw
      unfold yearWorld at h1
      cases hb : yearBody yc ev.time s'.cal (snap s.world.1.h.net) s.world.1.h.LSFLG s.world.1.h.H s.world.1.h.P s.world.1.y with
      | error x => rw [hb] at h1; cases h1
      | ok r =>
      rw [hb] at h1
      simp only [Except.map, Except.ok.injEq] at h1
      have hit := yearBody_itab hb
      obtain ⟨_, _, _, _, _, _, _, ⟨SUM, _, hcv⟩, h9, h10⟩ := yearBody_ok (H' := r.1.1) (P' := r.1.2) (y' := r.2.1) (rf := r.2.2) hb
      have vy : v.1.y = r.2.1 := by rw [← h1]
      have vr : v.2 = r.2.2 := by rw [← h1]
      have ey : s'.world.1.y = r.2.1 := by rw [← hw]; exact vy
      have ef : s'.world.2 = s.world.2 ++ yearPage yc ev.time r.2.1 ++ t := by rw [← hw]; dsimp only; rw [vy]
      have er : s'.RFLAG = r.2.2 := by rw [← hf, vr]
      rw [vy, vr] at h2
      obtain ⟨tables', ht1, ht2, ht3, ht4⟩ : ∃ tables', tables'.length = (if yc.IOJ ≠ 0 then evs.length + 1 else 0) ∧
          (∀ (i : ℕ) (e : YearEnd n α) (rows : List Row), (evs ++ [⟨ev.time, (St.via Prod.fst s').cal, snap (St.via Prod.fst s).world.h.net,
            (St.via Prod.fst s).world.h.LSFLG, (St.via Prod.fst s).world.h.H, (St.via Prod.fst s).world.h.P⟩])[i]? = some e →
            tables'[i]? = some rows → annualTable yc.NFCST yc.INDX e.H e.P = .ok rows) ∧
          r.2.1.ITAB = A + tables'.length ∧
          pagesText yc.INDX tables ++ yearPage yc ev.time r.2.1 = pagesText yc.INDX tables' := by
        by_cases hI0 : yc.IOJ ≠ 0
        · rw [if_pos hI0] at i1 hit
          unfold yearRows at h10
          rw [if_pos hI0] at h10
          refine ⟨tables ++ [r.2.1.rows], by rw [if_pos hI0]; simp [i1], ?_, ?_, ?_⟩
          · intro i e rows he hrw
            rcases lt_trichotomy i evs.length with hlt | heq | hgt
            · rw [List.getElem?_append_left hlt] at he
              rw [List.getElem?_append_left (by omega)] at hrw
              exact i2 i e rows he hrw
            · subst heq
              rw [List.getElem?_append_right (le_refl _)] at he
              rw [List.getElem?_append_right (by omega), i1] at hrw
              simp only [Nat.sub_self, List.getElem?_cons_zero, Option.some.injEq] at he hrw
              rw [← he, ← hrw]
              exact h10
            · rw [List.getElem?_eq_none (by simp; omega)] at he; cases he
          · rw [hit, i3]; simp; ring
          · rw [pagesText_snoc]
            unfold yearPage
            rw [if_pos hI0, hyr, i1]
        · rw [if_neg hI0] at i1 hit
          have h0 := List.eq_nil_of_length_eq_zero i1
          subst h0
          refine ⟨[], by rw [if_neg hI0]; rfl, by simp, ?_, ?_⟩
          · rw [hit, i3]
          · unfold yearPage; rw [if_neg hI0]; simp
      refine ⟨_, tables', t, hN, by rw [ht1]; simp, ht2, by rw [ey, ht3], ?_, ?_, ?_⟩
      · rw [ef, i4, ← ht4]; simp only [List.append_assoc, List.nil_append]
      · intro hne
        rw [er] at hne
        unfold yearFinal at h2
        rw [if_neg] at h2
        · injection h2 with h2; exact h2.symm
        · rintro (h | h)
          · exact hne h
          · exact hne ((congrArg Prod.fst hcv).trans (cvchk_horizon _ _ _ _ _ _ _ h))
      · intro h1'
        rw [er] at h1'
        obtain ⟨rep, hrep, _⟩ := h9 (.inl h1')
        unfold yearFinal at h2
        rw [if_pos (.inl h1'), hrep] at h2
        dsimp only at h2
        rw [ht3] at h2
        cases hq : report yc.NFCST yc.INDX yc.LSTEP (A + tables'.length) NAMA rep S with
        | error x => rw [hq] at h2; cases h2
        | ok Rep =>
          rw [hq] at h2
          simp only [Except.map, Except.ok.injEq] at h2
          exact ⟨rep, Rep, by rw [ey]; exact hrep, hq, h2.symm⟩

end Runs

/-! ## Lines -/

theorem lw_blank (a b : List Char) : lineWords (a ++ ' ' :: '\n' :: b) = lineWords a ++ lineWords b := by
  have e : a ++ ' ' :: '\n' :: b = (a ++ [' ']) ++ '\n' :: b := by simp
  rw [e, lw_sep]
  congr 1
  have key : ∀ x : List Char, '\n' ∉ x → lineWords (x ++ [' ']) = lineWords x := by
    intro x hx
    unfold lineWords
    have h1 : ∀ c ∈ x, decide (c = '\n') = false := fun c hc => by
      simp only [decide_eq_false_iff_not]; rintro rfl; exact hx hc
    have h2 : ∀ c ∈ x ++ [' '], decide (c = '\n') = false := fun c hc => by
      simp only [List.mem_append, List.mem_singleton] at hc
      rcases hc with hc | rfl
      · exact h1 c hc
      · decide
    rw [cutAt_all h1, cutAt_all h2]
    simp only [List.map_cons, List.map_nil]
    rw [words_end (by decide)]
  by_cases hm : '\n' ∈ a
  · obtain ⟨x, y, hxy, hy⟩ : ∃ x y, a = x ++ '\n' :: y ∧ '\n' ∉ y := by
      clear e key
      induction a with
      | nil => cases hm
      | cons c a ih =>
        by_cases hm' : '\n' ∈ a
        · obtain ⟨x, y, rfl, hy⟩ := ih hm'
          exact ⟨c :: x, y, rfl, hy⟩
        · rcases List.mem_cons.mp hm with rfl | h
          · exact ⟨[], a, rfl, hm'⟩
          · exact absurd h hm'
    subst hxy
    rw [List.append_assoc, List.cons_append, lw_sep, lw_sep, key y hy]
  · exact key a hm

theorem annual_begins (INDX Y : ℤ) (rows : List Row) : ∃ b, annualText INDX Y rows = ' ' :: '\n' :: b := by
  have e : " \n ".toList = [' ', '\n', ' '] := by decide +kernel
  unfold annualText annHead
  rw [e]
  simp only [List.append_assoc, List.cons_append]
  exact ⟨_, rfl⟩

theorem lw_annual (a : List Char) (INDX Y : ℤ) (rows : List Row) :
    lineWords (a ++ annualText INDX Y rows) = lineWords a ++ lineWords (annualText INDX Y rows) := by
  obtain ⟨b, e⟩ := annual_begins INDX Y rows
  have := lw_blank [] b
  rw [List.nil_append] at this
  rw [e, lw_blank, this, lw_nil, List.nil_append]

theorem starts_report {n : ℕ} (NFCST : ℕ) (INDX ITAB : ℤ) (r : RepIn n) (R : Report n) : Starts (reportText NFCST INDX ITAB r R) := by
  have e : "\n                        TABLE ".toList = '\n' :: "                        TABLE ".toList := by decide +kernel
  unfold reportText repHead
  rw [e]
  simp only [List.append_assoc, List.cons_append]
  exact .inr ⟨_, rfl⟩

theorem summary_names {n : ℕ} {NFCST : ℕ} {INDX LSTEP ITAB : ℤ} {NAMA : Fin n → String} {r : RepIn n} {S : Sus n} {R : Report n}
    (h : report NFCST INDX LSTEP ITAB NAMA r S = .ok R) : ∀ q ∈ R.summary, ∀ x, q.name = some x → ∃ j, x = NAMA j := by
  have key : ∀ (L : List (Fin n)) (s : Sus n × List SumRow), (∀ q ∈ s.2, ∀ x, q.name = some x → ∃ j, x = NAMA j) →
      ∀ q ∈ (L.foldl (sumBody INDX NAMA r) s).2, ∀ x, q.name = some x → ∃ j, x = NAMA j := by
    intro L
    induction L with
    | nil => intro s hs; exact hs
    | cons i L ih =>
      intro s hs
      refine ih _ ?_
      intro q hq x hx
      simp only [sumBody, List.mem_append, List.mem_singleton] at hq
      rcases hq with hq | rfl
      · exact hs q hq x hx
      · simp only [sumRow, Option.some.injEq] at hx
        exact ⟨i, hx.symm⟩
  unfold report at h
  cases hs : repSummary INDX NAMA r S with
  | error x => rw [hs] at h; cases h
  | ok v =>
    rw [hs] at h
    injection h with h
    rw [← h]
    dsimp only
    unfold repSummary at hs
    dsimp only at hs
    cases hg : (List.finRange n).getLast? with
    | none => rw [hg] at hs; cases hs
    | some i =>
      rw [hg] at hs
      injection hs with hs
      rw [← hs]
      intro q hq x hx
      simp only [List.mem_append, List.mem_singleton] at hq
      rcases hq with hq | rfl
      · exact key _ _ (by simp) q hq x hx
      · simp [sumRow] at hx

theorem pages_lines (INDX : ℤ) (before : List Char) (tables : List (List Row))
    (h : ∀ rows ∈ tables, ∃ (n NFCST : ℕ) (H P : Cnt n), annualTable NFCST INDX H P = .ok rows) :
    FileShown INDX (lineWords before) tables [] (lineWords (before ++ pagesText INDX tables)) := by
  induction tables using List.reverseRecOn with
  | nil => exact ⟨[], by simp [pagesText], rfl, by simp⟩
  | append_singleton tables rows ih =>
    obtain ⟨pages, h1, h2, h3⟩ := ih fun rows hr => h rows (by simp [hr])
    obtain ⟨n, NFCST, H, P, ht⟩ := h rows (by simp)
    refine ⟨pages ++ [lineWords (annualText INDX (tables.length + 1 : ℕ) rows)], ?_, by simp [h2], ?_⟩
    · rw [pagesText_snoc, ← List.append_assoc, lw_annual, h1]
      simp
    · intro i p rows' hp hr
      rcases lt_trichotomy i tables.length with hlt | heq | hgt
      · rw [List.getElem?_append_left (by omega)] at hp hr
        exact h3 i p rows' hp hr
      · subst heq
        rw [List.getElem?_append_right (by omega)] at hr
        rw [List.getElem?_append_right (by omega), h2] at hp
        simp only [Nat.sub_self, List.getElem?_cons_zero, Option.some.injEq] at hp hr
        rw [← hp, ← hr]
        exact C117_annual_partial ht _
      · rw [List.getElem?_eq_none (by simp; omega)] at hr; cases hr

/-! ## C121 -/

section C121
variable {n m l : ℕ} {ν α : Type} {hc : HourIn n m l ν} {yc : YearIn} {T : List (List ℤ)} {R : List (List ℚ)} {snap : ν → α}
  {NAMA : Fin n → String} {S : Sus n} {g0 : Fin m → ℤ} {l0 : Fin l → ℤ} {net : ν} {I A : ℤ} {old : List Char}
  {s : St (World n m l ν α × List Char)} {log : List Ev}

/-- **C121.** When a run over a horizon of whole years ends, `output.txt` has the content it had before, unchanged, and after it
these lines and no others: if annual tables are wanted, one page for each simulated year, in the order of the years, headed by
the number of the year and showing the table of that year; then the final report, once, its tables numbered after those of
the years. -/
theorem C121_output (hJ : StepOK hc.JSTEP) {Y : ℕ} (hY : 1 ≤ Y) (hF : yc.FINISH = 8760 * (Y : ℚ)) (hn : ∀ j, '\n' ∉ (NAMA j).toList)
    (h : Reach (fileCfg hc yc T R snap NAMA S) (narpInit hc.JSTEP m (worldInit g0 l0 net I A, old)) log s) {e : Exit}
    (he : Narp.step (fileCfg hc yc T R snap NAMA S) s = .ok (.exit e)) :
    ∃ (evs : List (YearEnd n α)) (tables : List (List Row)) (r : RepIn n) (Rep : Report n) (last : List (List (List Char))),
      Ends hc yc T R snap (narpInit hc.JSTEP m (worldInit g0 l0 net I A)) log (St.via Prod.fst s) evs ∧
      evs.length = log.countP (fun e => e.kind = 4) ∧
      (yc.IOJ ≠ 0 → List.Forall₂ (fun e rows => annualTable yc.NFCST yc.INDX e.H e.P = .ok rows) evs tables) ∧
      (yc.IOJ = 0 → tables = []) ∧
      s.world.1.y.rep = some r ∧ report yc.NFCST yc.INDX yc.LSTEP (A + tables.length) NAMA r S = .ok Rep ∧ Rep.years = evs.length ∧
      old <+: s.world.2 ∧ FileShown yc.INDX (lineWords old) tables last (lineWords s.world.2) ∧
      ReportShown yc.INDX (A + tables.length) Rep last := by
  obtain ⟨evs, tables, last, hE, h1, h2, h3, h4, h5, h6⟩ := file_inv hJ h
  have hR : s.RFLAG = 1 := exit_flag (s := St.via Prod.fst s) hJ hY hF hE (via_step file_via he)
  obtain ⟨r, Rep, hr, hq, rfl⟩ := h6 hR
  have hlen := (ends_inv hJ hE).1
  have ht : yc.IOJ ≠ 0 → List.Forall₂ (fun (e : YearEnd n α) rows => annualTable yc.NFCST yc.INDX e.H e.P = .ok rows) evs tables := by
    intro hI
    rw [if_pos hI] at h1
    rw [List.forall₂_iff_get]
    refine ⟨h1.symm, fun i a b => h2 i _ _ ?_ ?_⟩
    · rw [List.getElem?_eq_getElem a]; rfl
    · rw [List.getElem?_eq_getElem b]; rfl
  have h0 : yc.IOJ = 0 → tables = [] := by
    intro hI
    rw [if_neg (by simpa using hI)] at h1
    exact List.eq_nil_of_length_eq_zero h1
  have hrows : ∀ rows ∈ tables, ∃ (n NFCST : ℕ) (H P : Cnt n), annualTable NFCST yc.INDX H P = .ok rows := by
    intro rows hm
    by_cases hI : yc.IOJ = 0
    · rw [h0 hI] at hm; cases hm
    · obtain ⟨i, hi, e⟩ := List.getElem_of_mem hm
      have hi' : i < evs.length := by rw [if_pos hI] at h1; omega
      exact ⟨n, _, _, _, h2 i evs[i] rows (List.getElem?_eq_getElem hi') (by rw [List.getElem?_eq_getElem hi, e])⟩
  have hyears : Rep.years = evs.length := by
    obtain ⟨evs0, e0, r', hev, ⟨y, v, _, hb, hc', hrep⟩, hr'⟩ := ends_report hJ hE hR
    have hrr : r' = r := Option.some.inj (hr'.symm.trans hr)
    subst hrr
    obtain ⟨_, _, _, _, _, _, _, _, h9, _⟩ := yearBody_ok (H' := v.1.1) (P' := v.1.2) (y' := v.2.1) (rf := v.2.2) hb
    obtain ⟨r2, hr2, hiy, _⟩ := h9 hc'
    have : r2 = r' := Option.some.inj (hr2.symm.trans hrep)
    subst this
    have hyr : Rep.years = r2.IYEAR := by
      unfold report at hq
      split at hq
      · cases hq
      · injection hq with hq; rw [← hq]
    rw [hyr, hiy]
    have hck := (ends_inv hJ hE).2.1 (evs.length - 1) e0 (by rw [hev]; simp)
    have hpos : 1 ≤ evs.length := by rw [hev]; simp
    have hc2 : e0.CLOCK = 8760 * ((evs.length : ℕ) : ℚ) := by
      rw [hck]; push_cast [Nat.cast_sub hpos]; ring
    rw [hc2]
    exact iyear_eq _
  refine ⟨evs, tables, r, Rep, lineWords (reportText yc.NFCST yc.INDX (A + tables.length) r Rep), hE, hlen, ht, h0, hr, hq, hyears, ?_, ?_, ?_⟩
  · rw [h4, List.append_assoc]; exact List.prefix_append _ _
  · obtain ⟨pages, p1, p2, p3⟩ := pages_lines yc.INDX old tables hrows
    refine ⟨pages, ?_, p2, p3⟩
    rw [h4, lw_append _ (starts_report _ _ _ _ _), p1, List.append_nil]
  · exact C116_report_text hq fun q hq' x hx => by
      obtain ⟨j, rfl⟩ := summary_names hq q hq' x hx
      exact hn j

/-- C121, while the run goes on: the file has the content it had before and the pages of the years that have ended, and no report. -/
theorem C121_during (hJ : StepOK hc.JSTEP)
    (h : Reach (fileCfg hc yc T R snap NAMA S) (narpInit hc.JSTEP m (worldInit g0 l0 net I A, old)) log s) {ev : Ev}
    {s' : St (World n m l ν α × List Char)} (he : Narp.step (fileCfg hc yc T R snap NAMA S) s = .ok (.next ev s')) :
    ∃ tables : List (List Row), tables.length = (if yc.IOJ ≠ 0 then log.countP (fun e => e.kind = 4) else 0) ∧
      old <+: s.world.2 ∧ FileShown yc.INDX (lineWords old) tables [] (lineWords s.world.2) := by
  obtain ⟨evs, tables, last, hE, h1, h2, h3, h4, h5, h6⟩ := file_inv hJ h
  obtain ⟨k, q, hI⟩ := reach_inv (cfg := narpCfg hc yc T R snap) hJ.lo hJ.hi hE.reach
  have b1 := hJ.lo
  have b2 := hJ.hi
  obtain ⟨_, _, _, _, _, _, hR1, _⟩ := inv_next (cfg := narpCfg hc yc T R snap)
    (by show 0 < hc.JSTEP; linarith) (by show hc.JSTEP < 8760; linarith) hI (via_step file_via he)
  have hl := h5 hR1
  subst hl
  have hlen := (ends_inv hJ hE).1
  refine ⟨tables, by rw [h1, hlen], ?_, ?_⟩
  · rw [h4, List.append_assoc]; exact List.prefix_append _ _
  · rw [h4, List.append_nil]
    refine pages_lines yc.INDX old tables ?_
    intro rows hm
    by_cases hI : yc.IOJ = 0
    · rw [if_neg (by simpa using hI)] at h1
      rw [List.eq_nil_of_length_eq_zero h1] at hm; cases hm
    · obtain ⟨i, hi, e⟩ := List.getElem_of_mem hm
      have hi' : i < evs.length := by rw [if_pos hI] at h1; omega
      exact ⟨n, _, _, _, h2 i evs[i] rows (List.getElem?_eq_getElem hi') (by rw [List.getElem?_eq_getElem hi, e])⟩

end C121
/-! ## A run without the file is a run with it -/

section Lift
variable {σ τ : Type} {p : σ → τ} {cfg : Cfg σ} {cfg' : Cfg τ}

/-- What the second program can do, the first one can do. -/
structure LiftOK (p : σ → τ) (cfg : Cfg σ) (cfg' : Cfg τ) : Prop where
  via : ViaOK p cfg cfg'
  hour : ∀ C R P w v, cfg'.hourFx C R P (p w) = .ok v → ∃ w', cfg.hourFx C R P w = .ok w'
  year : ∀ C cal w v, cfg'.yearFx C cal (p w) = .ok v → ∃ w', cfg.yearFx C cal w = .ok w'

theorem lift_events (h : LiftOK p cfg cfg') {s : St σ} {t' : St τ} {k : ℚ} (he : events cfg' (St.via p s) k = .ok t') :
    ∃ s', events cfg s k = .ok s' := by
  unfold events at he ⊢
  dsimp only at he ⊢
  split_ifs at he ⊢
  · unfold hourEv at he ⊢
    obtain ⟨c, h1, he⟩ := Except.bind_ok he
    obtain ⟨w, h2, he⟩ := Except.bind_ok he
    obtain ⟨w', h2'⟩ := h.hour _ _ _ _ _ h2
    have h1' : filem s.cal (s.CLOCK + cfg.JSTEP) k = .ok c := by rw [← h.via.step]; exact h1
    have h2'' : cfg.hourFx s.CLOCK s.RATING s.PLNDST s.world = .ok w' := h2'
    rw [h1']
    show ∃ s', (cfg.hourFx s.CLOCK s.RATING s.PLNDST s.world >>= _) = Except.ok s'
    rw [h2'']
    exact ⟨_, rfl⟩
  · unfold week at he ⊢
    obtain ⟨c, h1, he⟩ := Except.bind_ok he
    obtain ⟨q, h2, he⟩ := Except.bind_ok he
    have h1' : filem s.cal (s.CLOCK + 168) k = .ok c := h1
    have h2' : weekPlan cfg.JPLOUT s.JHOUR s.PLNDST = .ok q := by rw [← h.via.plan]; exact h2
    rw [h1']
    show ∃ s', (weekPlan cfg.JPLOUT s.JHOUR s.PLNDST >>= _) = Except.ok s'
    rw [h2']
    exact ⟨_, rfl⟩
  · unfold quartr at he ⊢
    obtain ⟨q, h1, he⟩ := Except.bind_ok he
    obtain ⟨c, h2, he⟩ := Except.bind_ok he
    have h1' : (cfg.RATES.mapM fun row => rd row ((s.IQ + 1) % 4)) = .ok q := by rw [← h.via.rates]; exact h1
    have h2' : filem s.cal (s.CLOCK + 8760) k = .ok c := h2
    dsimp only
    rw [h1']
    show ∃ s', (filem s.cal (s.CLOCK + 8760) k >>= _) = Except.ok s'
    rw [h2']
    exact ⟨_, rfl⟩
  · unfold yearEv at he ⊢
    obtain ⟨c, h1, he⟩ := Except.bind_ok he
    obtain ⟨v, h2, he⟩ := Except.bind_ok he
    obtain ⟨w', h2'⟩ := h.year _ _ _ _ h2
    have h1' : filem s.cal (s.CLOCK + 8760) 4 = .ok c := h1
    have h2'' : cfg.yearFx s.CLOCK c s.world = .ok w' := h2'
    rw [h1']
    show ∃ s', (cfg.yearFx s.CLOCK c s.world >>= _) = Except.ok s'
    rw [h2'']
    exact ⟨_, rfl⟩

theorem lift_step (h : LiftOK p cfg cfg') {s : St σ} {r : StepRes τ} (he : Narp.step cfg' (St.via p s) = .ok r) :
    ∃ r', Narp.step cfg s = .ok r' ∧ StepRes.via p r' = r := by
  have key : ∃ r', Narp.step cfg s = .ok r' := by
    unfold Narp.step at he ⊢
    by_cases h1 : s.cal.IPOINT = -1
    · rw [if_pos h1]; exact ⟨_, rfl⟩
    have h1' : ¬ (St.via p s).cal.IPOINT = -1 := h1
    rw [if_neg h1'] at he
    rw [if_neg h1]
    obtain ⟨t, h2, he⟩ := Except.bind_ok he
    have h2' : rd s.cal.E (s.cal.IPOINT + 1) = .ok t := h2
    rw [h2']
    show ∃ r', (if s.CLOCK > t then _ else _) = Except.ok r'
    by_cases h3 : s.CLOCK > t
    · rw [if_pos h3]; exact ⟨_, rfl⟩
    have h3' : ¬ (St.via p s).CLOCK > t := h3
    rw [if_neg h3'] at he
    rw [if_neg h3]
    by_cases h4 : s.RFLAG = 1
    · rw [if_pos h4]; exact ⟨_, rfl⟩
    have h4' : ¬ (St.via p s).RFLAG = 1 := h4
    rw [if_neg h4', h.via.finish] at he
    rw [if_neg h4]
    by_cases h5 : t > cfg.FINISH + 1
    · rw [if_pos h5]; exact ⟨_, rfl⟩
    rw [if_neg h5] at he ⊢
    obtain ⟨⟨a, cal⟩, h6, he⟩ := Except.bind_ok he
    obtain ⟨s', h7, he⟩ := Except.bind_ok he
    have h6' : Narp.remove s.cal = .ok (a, cal) := h6
    rw [h6']
    obtain ⟨s2, h8⟩ := lift_events (s := { s with cal := cal, CLOCK := a.1 }) h h7
    show ∃ r', (events cfg { s with cal := cal, CLOCK := a.1 } a.2 >>= _) = Except.ok r'
    rw [h8]
    exact ⟨_, rfl⟩
  obtain ⟨r', hr'⟩ := key
  have := via_step h.via hr'
  exact ⟨r', hr', Except.ok.inj (this.symm.trans he)⟩

theorem lift_reach (h : LiftOK p cfg cfg') {N : ℕ} {w : σ} {log : List Ev} {t : St τ}
    (hr : Reach cfg' (narpInit cfg'.JSTEP N (p w)) log t) : ∃ s, Reach cfg (narpInit cfg.JSTEP N w) log s ∧ St.via p s = t := by
  induction hr with
  | start => exact ⟨_, .start, by rw [h.via.step]; rfl⟩
  | step _ hs ih =>
    obtain ⟨s, h1, rfl⟩ := ih
    obtain ⟨r', h2, h3⟩ := lift_step h hs
    cases r' with
    | exit e => cases h3
    | next ev s' =>
      simp only [StepRes.via, StepRes.next.injEq] at h3
      obtain ⟨rfl, rfl⟩ := h3
      exact ⟨s', .step h1 h2, rfl⟩

end Lift

theorem report_total {n : ℕ} (hn : 0 < n) (NFCST : ℕ) (INDX LSTEP ITAB : ℤ) (NAMA : Fin n → String) (r : RepIn n) (S : Sus n) :
    ∃ R, report NFCST INDX LSTEP ITAB NAMA r S = .ok R := by
  unfold report repSummary
  dsimp only
  cases hg : (List.finRange n).getLast? with
  | none =>
    rw [List.getLast?_eq_none_iff] at hg
    have := congrArg List.length hg
    simp at this
    omega
  | some i => exact ⟨_, rfl⟩

theorem file_lift {n m l : ℕ} {ν α : Type} {hc : HourIn n m l ν} {yc : YearIn} {T : List (List ℤ)} {R : List (List ℚ)} {snap : ν → α}
    {NAMA : Fin n → String} {S : Sus n} (hn : 0 < n) :
    LiftOK Prod.fst (fileCfg hc yc T R snap NAMA S) (narpCfg hc yc T R snap) where
  via := file_via
  hour := by
    intro C Q P w v h
    simp only [fileCfg, narpCfg] at h ⊢
    cases hb : hourFx hc C Q P w.1.h with
    | error x => rw [hb] at h; cases h
    | ok v => exact ⟨_, rfl⟩
  year := by
    intro C cal w v h
    simp only [fileCfg, narpCfg, yearFile] at h ⊢
    rw [h]
    have : ∃ t, yearFinal yc NAMA S C v.2 v.1.y = .ok t := by
      unfold yearFinal
      split_ifs
      · cases v.1.y.rep with
        | none => exact ⟨_, rfl⟩
        | some r =>
          obtain ⟨Rep, hR⟩ := report_total hn yc.NFCST yc.INDX yc.LSTEP v.1.y.ITAB NAMA r S
          dsimp only
          rw [hR]
          exact ⟨_, rfl⟩
      · exact ⟨_, rfl⟩
    obtain ⟨t, ht⟩ := this
    show ∃ w', (yearFinal yc NAMA S C v.2 v.1.y >>= _) = Except.ok w'
    rw [ht]
    exact ⟨_, rfl⟩

/-- C121: writing the file never stops a run: a run that ends without the file ends with it. -/
theorem C121_writes {n m l : ℕ} {ν α : Type} {hc : HourIn n m l ν} {yc : YearIn} {T : List (List ℤ)} {R : List (List ℚ)} {snap : ν → α}
    {NAMA : Fin n → String} {S : Sus n} (hn : 0 < n) {w : World n m l ν α} {log : List Ev} {s : St (World n m l ν α)} {e : Exit}
    (hr : Reach (narpCfg hc yc T R snap) (narpInit hc.JSTEP m w) log s) (he : Narp.step (narpCfg hc yc T R snap) s = .ok (.exit e))
    (old : List Char) : ∃ t, Reach (fileCfg hc yc T R snap NAMA S) (narpInit hc.JSTEP m (w, old)) log t ∧
      Narp.step (fileCfg hc yc T R snap NAMA S) t = .ok (.exit e) ∧ St.via Prod.fst t = s := by
  obtain ⟨t, h1, rfl⟩ := lift_reach (w := (w, old)) (file_lift (NAMA := NAMA) (S := S) hn) hr
  obtain ⟨r', h2, h3⟩ := lift_step (file_lift (NAMA := NAMA) (S := S) hn) he
  refine ⟨t, h1, ?_, rfl⟩
  cases r' with
  | exit e' => simp only [StepRes.via, StepRes.exit.injEq] at h3; subst h3; exact h2
  | next ev s' => cases h3

/-- C121 applies: three areas that are always short, in daily mode with annual tables; the file starts with a line of an older run. -/
example : ∃ (log : List Ev) (t : St (World 3 0 0 Unit Unit × List Char)) (e : Exit) (tables : List (List Row)) (Rep : Report 3)
    (last : List (List (List Char))),
    Reach (fileCfg (shortSys 3 24) { shortYear with IOJ := 1, INDX := 1 } (List.replicate 52 [0]) [] (fun _ => ()) (fun _ => "A")
      ⟨fun _ _ => 1, fun _ => 1⟩) (narpInit 24 0 (worldInit (fun i => i.elim0) (fun i => i.elim0) () 100 4, "old text".toList)) log t ∧
    Narp.step (fileCfg (shortSys 3 24) { shortYear with IOJ := 1, INDX := 1 } (List.replicate 52 [0]) [] (fun _ => ()) (fun _ => "A")
      ⟨fun _ _ => 1, fun _ => 1⟩) t = .ok (.exit e) ∧
    1 ≤ tables.length ∧ Rep.years = tables.length ∧ FileShown 1 [line ["old", "text"]] tables last (lineWords t.world.2) ∧
    ReportShown 1 (4 + tables.length) Rep last := by
  obtain ⟨e, s, _, _, log, hr, he⟩ := C43_run_completes_partial (hc := shortSys 3 24) (yc := { shortYear with IOJ := 1, INDX := 1 })
    (T := List.replicate 52 [0]) (R := []) (snap := fun _ => ()) (g0 := fun i => i.elim0) (l0 := fun i => i.elim0)
    (net := ()) (I := 100) (A := 4) (Or.inr rfl)
    (fun _ s _ C => (shortSys_hour (by norm_num) C _ _ s.world.h).imp fun _ h => h.1)
    ⟨rfl, fun row hrow => ⟨0, [], by simpa using hrow, by simp⟩⟩ (by simp) (by decide) (by decide) (.inr ⟨rfl, by norm_num⟩)
    (by decide) (7 * (⌈shortYear.FINISH⌉₊ + 2) + 1) (Nat.lt_succ_self _)
  obtain ⟨t, h1, h2, _⟩ := C121_writes (NAMA := fun _ => "A") (S := ⟨fun _ _ => 1, fun _ => 1⟩) (by norm_num) hr he "old text".toList
  have hw : lineWords "old text".toList = [line ["old", "text"]] := by decide +kernel
  obtain ⟨evs, tables, r, Rep, last, hE, _, g1, _, _, _, g2, _, g3, g4⟩ := C121_output (Y := 2) (Or.inr rfl) (by norm_num)
    (by show (17520 : ℚ) = 8760 * ((2 : ℕ) : ℚ); norm_num) (by intro _; decide +kernel) h1 h2
  have hl := (g1 (by decide)).length_eq
  have hR := exit_flag (Y := 2) (s := St.via Prod.fst t) (Or.inr rfl) (by norm_num)
    (by show (17520 : ℚ) = 8760 * ((2 : ℕ) : ℚ); norm_num) hE (via_step file_via h2)
  obtain ⟨evs0, e0, r', hev, _⟩ := ends_report (Or.inr rfl) hE hR
  rw [hw] at g3
  exact ⟨log, t, e, tables, Rep, last, h1, h2, by rw [← hl, hev]; simp, by rw [g2, hl], g3, g4⟩

end Narp.Props
