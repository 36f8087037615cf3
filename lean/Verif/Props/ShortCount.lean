import Verif.Props.HourShort
import Verif.Props.Program
import Verif.Props.Restart
import Verif.Props.CardWhole

/-!
# C109: the running count of shortages per area that the snapshots carry
-/

namespace Narp.Props
open Narp Narp.Spec BigOperators

variable {n m l : ℕ} {ν α : Type}

/-- Loss-of-load hours booked for area `j` in all forecast tiers together. -/
def bookedHours (H : Cnt n) (j : Fin n) : ℚ := ∑ t, (H.LOLTA j t + H.LOLGA j t)

/-- Runs of the program, with the number of loss-of-load hours booked for every area at the draws so far (all
years, all forecast tiers). -/
inductive Tally (hc : HourIn n m l ν) (yc : YearIn) (T : List (List ℤ)) (R : List (List ℚ)) (snap : ν → α)
    (s₀ : St (World n m l ν α)) : List Ev → St (World n m l ν α) → (Fin n → ℚ) → Prop
  | start : Tally hc yc T R snap s₀ [] s₀ (fun _ => 0)
  | draw {log s q ev s'} : Tally hc yc T R snap s₀ log s q →
      step (narpCfg hc yc T R snap) s = .ok (.next ev s') → ev.kind = 1 →
      Tally hc yc T R snap s₀ (log ++ [ev]) s'
        (fun j => q j + (bookedHours s'.world.h.H j - bookedHours s.world.h.H j))
  | other {log s q ev s'} : Tally hc yc T R snap s₀ log s q →
      step (narpCfg hc yc T R snap) s = .ok (.next ev s') → ev.kind ≠ 1 → Tally hc yc T R snap s₀ (log ++ [ev]) s' q

theorem Tally.reach {hc : HourIn n m l ν} {yc : YearIn} {T : List (List ℤ)} {R : List (List ℚ)} {snap : ν → α}
    {s₀ s : St (World n m l ν α)} {log : List Ev} {q : Fin n → ℚ} (h : Tally hc yc T R snap s₀ log s q) :
    Reach (narpCfg hc yc T R snap) s₀ log s := by
  induction h with
  | start => exact .start
  | draw _ hs _ ih => exact .step ih hs
  | other _ hs _ ih => exact .step ih hs

/-- Every run has its tally. -/
theorem tally_of_reach {hc : HourIn n m l ν} {yc : YearIn} {T : List (List ℤ)} {R : List (List ℚ)} {snap : ν → α}
    {s₀ s : St (World n m l ν α)} {log : List Ev} (h : Reach (narpCfg hc yc T R snap) s₀ log s) :
    ∃ q, Tally hc yc T R snap s₀ log s q := by
  induction h with
  | start => exact ⟨_, .start⟩
  | @step log s ev s' _ hs ih =>
    obtain ⟨q, hq⟩ := ih
    by_cases hk : ev.kind = 1
    · exact ⟨_, .draw hq hs hk⟩
    · exact ⟨_, .other hq hs hk⟩

theorem addTiers_count (hist : List (Fin 5 × (Fin n → ℤ))) (L : Fin n → ℚ) (c : Cnt n) (j : Fin n) :
    (addTiers hist (L, c)).1 j - L j = bookedHours (addTiers hist (L, c)).2 j - bookedHours c j := by
  induction hist generalizing L c with
  | nil => simp [addTiers]
  | cons e hist ih =>
    have hh := C26_hrstat e.1 (fun j => (e.2 j : ℚ)) L c
    obtain ⟨a, _⟩ := adds_total hh.2
    have h1 : bookedHours (hrstat e.1 (fun j => (e.2 j : ℚ)) (L, c)).2 j = bookedHours c j +
        shortFlag (fun j => (e.2 j : ℚ)) j := by
      unfold bookedHours
      rw [Finset.sum_congr rfl fun t _ => a j t, Finset.sum_add_distrib]
      simp
    have h2 : addTiers (e :: hist) (L, c) = addTiers hist ((hrstat e.1 (fun j => (e.2 j : ℚ)) (L, c)).1,
        (hrstat e.1 (fun j => (e.2 j : ℚ)) (L, c)).2) := rfl
    have h3 := ih (hrstat e.1 (fun j => (e.2 j : ℚ)) (L, c)).1 (hrstat e.1 (fun j => (e.2 j : ℚ)) (L, c)).2
    rw [h2]
    have h4 := hh.1 j
    linarith

theorem hourBody_count {c : HourIn n m l ν} {CLOCK : ℚ} {R P : Fin m → ℚ} {w w' : HourSt n m l ν}
    (hw : hourBody c CLOCK R P w = .ok w') (j : Fin n) :
    w'.LSFLG j - w.LSFLG j = bookedHours w'.H j - bookedHours w.H j := by
  unfold hourBody at hw
  simp only at hw
  obtain ⟨day, hday, hw⟩ := Except.bind_ok hw
  by_cases hz : c.JFREQ = 0
  · rw [if_pos hz] at hw; cases hw
  rw [if_neg hz] at hw
  generalize (if c.JSTEP = 24 then (c.MXPLHR day : ℤ) else -1 + pyInt (pyMod CLOCK 8760)) = JH at hw
  split at hw
  · cases hw
  obtain ⟨hr, hhr, hw⟩ := Except.bind_ok hw
  obtain ⟨hist, h1, _, _, _, h3, h4⟩ := tierLoop_hist _ _ _ _ hw
  have e1 := congrArg Prod.fst h3
  have e2 := congrArg Prod.snd h3
  simp only at e1 e2
  rw [e1, e2]
  exact addTiers_count hist w.LSFLG w.H j

/-- **C109.** In every state of every run the count kept for an area is the number of loss-of-load hours booked for the
area at the draws of the run so far, in all its years and all forecast tiers together (it is never reset). -/
theorem C109_count {hc : HourIn n m l ν} {yc : YearIn} {T : List (List ℤ)} {R : List (List ℚ)} {snap : ν → α}
    (hJ : StepOK hc.JSTEP) {g0 : Fin m → ℤ} {l0 : Fin l → ℤ} {net : ν} {I A : ℤ} {s : St (World n m l ν α)} {log : List Ev}
    {q : Fin n → ℚ} (h : Tally hc yc T R snap (narpInit hc.JSTEP m (worldInit g0 l0 net I A)) log s q) (j : Fin n) :
    s.world.h.LSFLG j = q j := by
  induction h with
  | start => rfl
  | @draw log s q ev s' ht hs hk ih =>
    rcases step_world (cfg := narpCfg hc yc T R snap) hJ ht.reach hs with ⟨_, hh, _⟩ | ⟨hh, _⟩ | ⟨hh, _⟩
    · simp only [narpCfg] at hh
      cases hb : hourFx hc ev.time s.RATING s.PLNDST s.world.h with
      | error x => rw [hb] at hh; cases hh
      | ok w =>
        rw [hb] at hh
        simp only [Except.map, Except.ok.injEq] at hh
        have := hourBody_count hb j
        rw [← hh]
        dsimp only
        linarith
    · rw [hk] at hh; norm_num at hh
    · rw [hk] at hh; norm_num at hh
  | @other log s q ev s' ht hs hk ih =>
    rcases step_world (cfg := narpCfg hc yc T R snap) hJ ht.reach hs with ⟨hh, _⟩ | ⟨_, hh, _⟩ | ⟨_, hh⟩
    · exact absurd hh hk
    · rw [hh]; exact ih
    · simp only [narpCfg, yearWorld] at hh
      cases hb : yearBody yc ev.time s'.cal (snap s.world.h.net) s.world.h.LSFLG s.world.h.H s.world.h.P s.world.y with
      | error x => rw [hb] at hh; cases hh
      | ok r =>
        rw [hb] at hh
        simp only [Except.map, Except.ok.injEq, Prod.mk.injEq] at hh
        obtain ⟨hh, _⟩ := hh
        rw [← hh]
        exact ih

/-- **C109, the snapshot.** A snapshot written at a year end carries this count for every area. -/
theorem C109_snapshot {hc : HourIn n m l ν} {yc : YearIn} {T : List (List ℤ)} {R : List (List ℚ)} {snap : ν → α}
    (hJ : StepOK hc.JSTEP) {g0 : Fin m → ℤ} {l0 : Fin l → ℤ} {net : ν} {I A : ℤ} {s s' : St (World n m l ν α)}
    {log : List Ev} {q : Fin n → ℚ} {ev : Ev}
    (h : Tally hc yc T R snap (narpInit hc.JSTEP m (worldInit g0 l0 net I A)) log s q)
    (hs : step (narpCfg hc yc T R snap) s = .ok (.next ev s')) (hk : ev.kind = 4)
    (hw : (((log.countP fun e => e.kind = 4 : ℕ) : ℤ) + 1 = s.world.y.INTVT) ∨
      (((log.countP fun e => e.kind = 4 : ℕ) : ℤ) + 1 = pyInt (yc.FINISH / 8760)))
    (setNet : α → ν → ν) (w₀ : World n m l ν α) :
    ∃ d, s'.world.y.dump = some d ∧ (restart (narpInit hc.JSTEP m w₀) setNet d).world.h.LSFLG = q := by
  obtain ⟨d, hd, _, _, _, _, _, _, _, _, _, _, _, hL, _⟩ := C32_restored hJ h.reach hs hk hw setNet w₀
  have h' : Tally hc yc T R snap (narpInit hc.JSTEP m (worldInit g0 l0 net I A)) (log ++ [ev]) s' q :=
    .other h hs (by rw [hk]; norm_num)
  exact ⟨d, hd, hL.trans (funext fun j => C109_count hJ h' j)⟩

/-- C109 for the input cards: every run on every accepted input has its tally, and the counts are those of the tally. -/
theorem C109_cards {sl : ℕ → ℚ → ℚ} {fuel : ℕ} {c : Cards n m l} {s : Setup n m l} (h : setup sl fuel c = .ok s)
    (hstep : c.misc.JSTEP = 1 ∨ c.misc.JSTEP = 24) (JSEED : ℤ) {log : List Ev} {st : St _}
    (hr : Reach s.cfg (s.start JSEED) log st) :
    ∃ q, Tally s.hour s.year s.JPLOUT s.RATES snapNet (s.start JSEED) log st q ∧ st.world.h.LSFLG = q := by
  have hJ : StepOK s.hour.JSTEP := by
    rw [C64_step h]
    rcases hstep with e | e <;> rw [e]
    · left; norm_num
    · right; norm_num
  obtain ⟨q, hq⟩ := tally_of_reach hr
  exact ⟨q, hq, funext fun j => C109_count hJ hq j⟩

/-- C109 applies to the whole run of `scarceCards`. -/
example (sl : ℕ → ℚ → ℚ) (fuel : ℕ) (JSEED : ℤ) : ∃ (s : Setup 1 4 1) (log : List Ev) (st : St _) (x : Exit) (q : Fin 2 → ℚ),
    setup sl fuel scarceCards = .ok s ∧ step s.cfg st = .ok (.exit x) ∧
    Tally s.hour s.year s.JPLOUT s.RATES snapNet (s.start JSEED) log st q ∧ st.world.h.LSFLG = q := by
  obtain ⟨s, hs, hsc⟩ := scarce_ok sl fuel
  obtain ⟨log, st, x, hr, hx, _⟩ := C43_cards_partial scarce_one scarce_sensible scarce_lone scarce_derating hs (.inl rfl)
    rfl (.inl rfl) (by simp [scarceCards, demoCards]; norm_num) (by simp [scarceCards, demoCards]) hsc JSEED
  obtain ⟨q, hq, e⟩ := C109_cards hs (.inl rfl) JSEED hr
  exact ⟨s, log, st, x, q, hs, hx, hq, e⟩

end Narp.Props
