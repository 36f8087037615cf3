import Verif.Props.Snapshot
import Verif.Props.CardStop

/-!
# C102 for the input cards
-/

namespace Narp.Props
open Narp Narp.Spec BigOperators

variable {n m l : ℕ} {sl : ℕ → ℚ → ℚ} {fuel : ℕ} {c : Cards n m l} {s : Setup n m l}

theorem stepOK_cards (h : setup sl fuel c = .ok s) (hstep : c.misc.JSTEP = 1 ∨ c.misc.JSTEP = 24) :
    StepOK s.hour.JSTEP := by
  obtain ⟨wr, raw, T, ITAB, ID', hw, _, _, _, _, rfl⟩ := setup_ok h
  show ((c.misc.JSTEP : ℤ) : ℚ) = 1 ∨ ((c.misc.JSTEP : ℤ) : ℚ) = 24
  rcases hstep with e | e <;> rw [e]
  · left; norm_num
  · right; norm_num

/-- The last year of the horizon. -/
theorem last_year (Y : ℤ) : pyInt (8760 * (Y : ℚ) / 8760) = Y := by
  have : 8760 * (Y : ℚ) / 8760 = (Y : ℚ) := by field_simp
  rw [this]
  unfold pyInt
  split_ifs <;> simp

/-- C102 (for the input cards). In every run on every input that is accepted, at every moment between two events: the
snapshot on the disk is the state of the run at the end of the last year that is a multiple of the interval on the card,
or the last year of the horizon on the card; if there was no such year yet there is no snapshot. -/
theorem C102_cards (h : setup sl fuel c = .ok s) (hstep : c.misc.JSTEP = 1 ∨ c.misc.JSTEP = 24) (JSEED : ℤ)
    {log : List Ev} {st : St _} (hr : Reach s.cfg (s.start JSEED) log st) :
    (st.world.y.dump = none ∧ ∀ y, 1 ≤ y → y ≤ yearsDone log → ¬ Due c.misc.INTV c.misc.FINISH y) ∨
    ∃ d y log₁ s₁, st.world.y.dump = some d ∧ LastDue c.misc.INTV c.misc.FINISH (yearsDone log) y ∧
      log₁ <+: log ∧ yearsDone log₁ = y ∧ (∃ e ∈ log₁.getLast?, e.kind = 4) ∧
      Reach s.cfg (s.start JSEED) log₁ s₁ ∧ d.CLOCK = 8760 * y ∧ SavedState snapNet d s₁ := by
  have hF : pyInt (s.year.FINISH / 8760) = c.misc.FINISH := by
    rw [(C72_settings h JSEED).2.1]; exact last_year _
  have hI : s.year.INTV = c.misc.INTV := (C72_settings h JSEED).2.2.2.2.2.2.2.2.1
  have hT : s.INTVT = s.year.INTV := by
    obtain ⟨wr, raw, T, ITAB, ID', hw, _, _, _, _, rfl⟩ := setup_ok h
    rfl
  have hs : s.start JSEED = narpInit s.hour.JSTEP m (worldInit (fun i => (programSeeds JSEED m l).1 i)
      (fun k => (programSeeds JSEED m l).2 k) s.net s.year.INTV s.ITAB) := by
    rw [← hT]; rfl
  rw [hs] at hr ⊢
  have := C102_on_disk (stepOK_cards h hstep) hr
  rw [hF, hI] at this
  rw [hI]
  exact this

/-- the cards with another snapshot interval -/
def withINTV (c : Cards n m l) (k : ℤ) : Cards n m l := { c with misc := { c.misc with INTV := k } }

/-- The interval is used for nothing else in the preparation. -/
theorem setup_withINTV (k : ℤ) (h : setup sl fuel c = .ok s) :
    ∃ s', setup sl fuel (withINTV c k) = .ok s' ∧ s'.hour = s.hour := by
  unfold setup at h ⊢
  have e1 : wiring (withINTV c k) = wiring c := rfl
  have e2 : cardErrors (withINTV c k) = cardErrors c := rfl
  rw [e1, e2]
  cases hw : wiring c with
  | error x => rw [hw] at h; cases h
  | ok w =>
  rw [hw] at h
  simp only [bind, Except.bind] at h ⊢
  cases he : cardErrors c with
  | error x => rw [he] at h; cases h
  | ok u =>
  rw [he] at h
  simp only at h ⊢
  have e3 : xldnew (n + 1) (withINTV c k).leei (withINTV c k).peaks = xldnew (n + 1) c.leei c.peaks := rfl
  have e4 : smaint (n + 1) (setupID (withINTV c k) w) 6 (maxCap (withINTV c k)) sl =
    smaint (n + 1) (setupID c w) 6 (maxCap c) sl := rfl
  rw [e3, e4]
  cases hx : xldnew (n + 1) c.leei c.peaks with
  | error x => rw [hx] at h; cases h
  | ok H =>
  rw [hx] at h
  simp only at h ⊢
  cases hm : smaint (n + 1) (setupID c w) 6 (maxCap c) sl with
  | error x => rw [hm] at h; cases h
  | ok r =>
  rw [hm] at h
  simp only [pure, Except.pure, Except.ok.injEq] at h ⊢
  exact ⟨_, rfl, by rw [← h]; rfl⟩

/-- C103 (refuted: the finished run). The input `scarceCards`, horizon ten years, with a snapshot every third year: the run
ends after five years because the statistic has converged, the report is written, and the file still holds the state of
year three. The results of the finished run cannot be taken up again. -/
theorem C103_final_refuted (sl : ℕ → ℚ → ℚ) (fuel : ℕ) (JSEED : ℤ) : ∃ (s : Setup 1 4 1) (log : List Ev) (st : St _)
    (e : Exit) (r : RepIn 2) (d : Snap 2 _), setup sl fuel (withINTV scarceCards 3) = .ok s ∧
    Reach s.cfg (s.start JSEED) log st ∧ step s.cfg st = .ok (.exit e) ∧ st.world.y.rep = some r ∧
    yearsDone log = 5 ∧ st.world.y.dump = some d ∧ d.CLOCK = 8760 * 3 := by
  set c3 := withINTV scarceCards 3 with hc3
  obtain ⟨s0, hs0, hsc0⟩ := scarce_ok sl fuel
  obtain ⟨s, hs, hho⟩ := setup_withINTV 3 hs0
  have hsc : Scarce c3 s.hour.HRLOAD := by
    rw [hho]; exact hsc0
  have one : OneCard c3 := ⟨scarce_one.areas, scarce_one.units⟩
  have sen : Sensible c3 := ⟨scarce_sensible.cap, scarce_sensible.dur, scarce_sensible.apart⟩
  have lone : NoLone c3 := scarce_lone
  have der : ∀ i, 0 ≤ (c3.units i).der ∧ (c3.units i).der ≤ 100 := scarce_derating
  have hlfu : ∀ j, (c3.areas j).lfu = 0 := by intro j; fin_cases j <;> rfl
  have h1t : tiersOf c3 = 1 := by
    unfold tiersOf
    rw [if_neg (by simpa using hlfu)]
  have hJs : s.hour.JSTEP = 1 := by
    have := (C72_settings hs JSEED).1
    rw [this]
    show (((1 : ℤ)) : ℚ) = 1
    norm_num
  have hJ : StepOK s.hour.JSTEP := .inl hJs
  have hE : 20 ≤ c3.misc.MAXEUE := by simp [hc3, withINTV, scarceCards, demoCards]; norm_num
  have hF : 1 ≤ c3.misc.FINISH := by simp [hc3, withINTV, scarceCards, demoCards]
  have hK : c3.misc.KWHERE = 1 → 1 ≤ c3.misc.KVLOC ∧ c3.misc.KVLOC ≤ ((1 : ℕ) : ℤ) + 1 := by
    simp [hc3, withINTV, scarceCards, demoCards]
  obtain ⟨log, st, e, hr, he, _⟩ := C43_cards_partial one sen lone der hs (.inl rfl) rfl (.inl rfl) hE hK hsc JSEED
  obtain ⟨years, r, hh, hne, hhrs, hrep, hR⟩ := C72_always_short_refuted one sen der hs rfl rfl
    hF hE hsc hlfu JSEED hr he
  obtain ⟨years', cur', hh', hfirst, hexit, _⟩ := C33_cards hs (.inl rfl) rfl hF (some 0)
    ⟨rfl, rfl⟩ (.inl rfl) JSEED hr
  have hall := (history_scarce one sen der hs hJ hsc h1t JSEED hh').1
  have hL : ∀ ds ∈ years', (ds.length : ℚ) = 8760 := by
    intro ds hds
    have := (history_full hJ hh').2 ds hds
    rw [hJs] at this
    linarith
  have hch : chosenYears c3 (some 0) years' = List.replicate years'.length 8760 := by
    have := annual_scarce years' hall 8760 hL 0
    simp only [if_true] at this
    rw [List.map_const', List.length_range] at this
    rw [← this]
    unfold chosenYears annualC
    refine List.map_congr_left fun y _ => ?_
    simp only [h1t]
    rfl
  have h5 : years'.length = 5 := by
    obtain ⟨_, hne', hx⟩ := hexit e he
    have hge : 5 ≤ years'.length := by
      rcases hx with hx | hx
      · have : (10 : ℤ) = years'.length := hx
        omega
      · rw [hch] at hx
        simpa using hx.1
    by_contra hne5
    have := (hfirst 5 (by norm_num) (by omega)).2
    rw [chosen_take, hch, List.take_replicate, Nat.min_eq_left hge] at this
    exact this (converged_const (by simp [withINTV, scarceCards, demoCards]) (by norm_num) le_rfl)
  have hyd : yearsDone log = 5 := by
    have := (history_full hJ hh').1.1
    rw [h5] at this
    exact this.symm
  have h3 : LastDue c3.misc.INTV c3.misc.FINISH 5 3 := by
    refine ⟨by norm_num, by norm_num, .inl ⟨by norm_num [hc3, withINTV], ⟨1, rfl⟩⟩, fun z h1 h2 => ?_⟩
    have : z = 4 ∨ z = 5 := by omega
    show ¬ ((0 < (3 : ℤ) ∧ (3 : ℤ) ∣ (z : ℤ)) ∨ (z : ℤ) = 10)
    omega
  rcases C102_cards hs (.inl rfl) JSEED hr with ⟨_, hno⟩ | ⟨d, y, log₁, s₁, hd, hL2, _, _, _, _, hck, _⟩
  · rw [hyd] at hno
    exact absurd h3.2.2.1 (hno 3 h3.1 h3.2.1)
  · rw [hyd] at hL2
    have hy : y = 3 := by
      rcases lt_trichotomy y 3 with hlt | heq | hgt
      · exact absurd h3.2.2.1 (hL2.2.2.2 3 hlt h3.2.1)
      · exact heq
      · exact absurd hL2.2.2.1 (h3.2.2.2 y hgt hL2.2.1)
    refine ⟨s, log, st, e, r, d, hs, hr, he, hrep, hyd, hd, by rw [hck, hy]; norm_num⟩

end Narp.Props
