import Verif.Props.Output
import Verif.Props.SummaryLine

/-!
# C121, end to end: from the cards to the content of `output.txt`
-/

namespace Narp.Props
open Narp Narp.Spec

variable {sl : ℕ → ℚ → ℚ} {fuel n m l : ℕ} {c : Cards n m l} {s : Setup n m l}

/-- **C121, end to end.** The cards of every study that shares freely (in hourly mode without annual tables) make a run that ends,
and after it `output.txt` has what it had before, a page for every year if annual tables are wanted, and then the final report,
in which every area has a line with the name on its card, its peak, and the means and standard errors of what the random streams
and the sharing rule give. -/
theorem C121_cards {step : ℕ} {raw : ℕ → ℕ → ℚ} (hc : AmpleStudy sl fuel c s step raw) (hIOJ : c.misc.IOJ = 0 ∨ c.misc.JSTEP = 24)
    (hF : 1 ≤ c.misc.FINISH) (hE : 20 ≤ c.misc.MAXEUE) (hK : c.misc.KWHERE = 1 → 1 ≤ c.misc.KVLOC ∧ c.misc.KVLOC ≤ n + 1)
    {nm : Fin (n + 1) → List Char} (hnm : ∀ j, NameCard (nm j) (c.areas j).name) (JSEED : ℤ) (old : List Char) :
    ∃ (load : Fin (n + 1) → ℕ → ℚ) (H : ℕ → ℕ), (∀ j : Fin (n + 1), Scaled (raw j) (c.areas j).peak (load j)) ∧
    (∀ d, 1 ≤ d → d ≤ 8760 / step → Evaluated step load (step * d) (H d)) ∧
    ∃ (log : List Ev) (t : St _) (e : Exit) (Y : ℕ) (tables : List (List Row)) (last : List (List (List Char))),
      Reach (fileCfg s.hour s.year s.JPLOUT s.RATES snapNet s.NAMA s.SUSTAT) (narpInit s.hour.JSTEP m (worldInit
        (fun i => (programSeeds JSEED m l).1 i) (fun k => (programSeeds JSEED m l).2 k) s.net s.INTVT s.ITAB, old)) log t ∧
      Narp.step (fileCfg s.hour s.year s.JPLOUT s.RATES snapNet s.NAMA s.SUSTAT) t = .ok (.exit e) ∧ 1 ≤ Y ∧
      tables.length = (if c.misc.IOJ = 0 then 0 else Y) ∧ old <+: t.world.2 ∧
      FileShown s.year.INDX (lineWords old) tables last (lineWords t.world.2) ∧
      ∀ j, ∃ ws ∈ last, AreaLine (step ≠ 24) (nm j) (c.areas j).peak
        (figures (tiersOf c) Y (Carried (n + 1) (tiersOf c) j) fun t y =>
          lossDays (yearShare c step load H t j y) (fun d => PeakDraw step load (step * d)) (8760 / step))
        (figures (tiersOf c) Y (Carried (n + 1) (tiersOf c) j) fun t y => lossHours (yearShare c step load H t j y) (8760 / step))
        (figures (tiersOf c) Y (Carried (n + 1) (tiersOf c) j) fun t y => wholeMWh (yearShare c step load H t j y) (8760 / step)) ws := by
  have h := hc.accepted
  have hJs : s.hour.JSTEP = step := by rw [C64_step h, hc.steps]; norm_num
  have hJ : StepOK s.hour.JSTEP := by
    rw [hJs]
    rcases hc.mode with e | e <;> rw [e]
    · left; norm_num
    · right; norm_num
  obtain ⟨hyr, hna⟩ : s.year = setupYear c ∧ ∀ j, s.NAMA j = areaLabel (c.areas j).name := by
    obtain ⟨wr, raw, T, ITAB, ID', hw, _, _, _, _, rfl⟩ := setup_ok h
    exact ⟨rfl, fun _ => rfl⟩
  have hio : s.year.IOJ = c.misc.IOJ := by rw [hyr]; rfl
  obtain ⟨load, H, h1, h2, log, st, e, Y, r, hr, hx, _, hY, hrep, hR⟩ := C114_ample_partial hc hIOJ hF hE hK JSEED
  obtain ⟨t, t1, t2, t3⟩ := C121_writes (NAMA := s.NAMA) (S := s.SUSTAT) (Nat.succ_pos n) hr hx old
  obtain ⟨evs, tables, r', Rep, last, _, _, g1, g2, g3, g4, g5, g6, g7, g8⟩ := C121_output (Y := c.misc.FINISH.toNat) hJ (by omega)
    (by
      rw [hyr]
      show ((c.misc.FINISH : ℤ) : ℚ) * 8760 = 8760 * ((c.misc.FINISH.toNat : ℕ) : ℚ)
      have e : ((c.misc.FINISH.toNat : ℕ) : ℚ) = ((c.misc.FINISH : ℤ) : ℚ) := by
        have : ((c.misc.FINISH.toNat : ℕ) : ℤ) = c.misc.FINISH := Int.toNat_of_nonneg (by omega)
        exact_mod_cast congrArg (Int.cast : ℤ → ℚ) this
      rw [e]; ring)
    (by
      intro j
      rw [hna, strip_quotes (hnm j)]
      simp only [List.mem_append, not_or]
      exact ⟨shown_nl (hnm j).1, by decide⟩) t1 t2
  have hrr : r' = r := by
    have : st.world.y.rep = some r' := by rw [← t3]; exact g3
    exact Option.some.inj (this.symm.trans hrep)
  subst hrr
  obtain ⟨R, hq, F⟩ := hR (s.ITAB + tables.length)
  have hRR : R = Rep := Except.ok.inj (hq.symm.trans g4)
  subst hRR
  refine ⟨load, H, h1, h2, log, t, e, Y, tables, last, t1, t2, hY, ?_, g6, g7, area_lines F g8 hnm⟩
  by_cases hI : c.misc.IOJ = 0
  · rw [if_pos hI, g2 (by rw [hio]; exact hI)]; rfl
  · rw [if_neg hI, ← (g1 (by rw [hio]; exact hI)).length_eq]
    have := g5.symm.trans F.years
    exact_mod_cast this

/-- The study `ampleCards` in daily mode, with annual tables. -/
def ampleDaily : Cards 1 4 1 :=
  { ampleCards (-100) 260 1000 with misc := { (ampleCards (-100) 260 1000).misc with JSTEP := 24, IOJ := 1 } }

theorem ample_daily (sl : ℕ → ℚ → ℚ) (fuel : ℕ) :
    ∃ (s : Setup 1 4 1) (raw : ℕ → ℕ → ℚ), leeiRead 2 (flatBlocks.flatMap Block.lines) = .ok raw ∧ AmpleStudy sl fuel ampleDaily s 24 raw := by
  obtain ⟨s0, raw, h, A⟩ := ample_study sl fuel (adm := -100) (cap := 260) (lim := 1000) (by norm_num) (by norm_num) (by norm_num)
  have hk : AllKnown ampleDaily := by
    constructor
    · intro i; fin_cases i <;> simp [ampleDaily, ampleCards, demoCards]
    · intro i; exact ⟨0, by fin_cases i; rfl⟩
    · intro i; exact ⟨1, by fin_cases i; rfl⟩
    · intro x hx; cases hx
    · intro x hx; cases hx
    · intro x hx; cases hx
  have h1 : OneCard ampleDaily := ⟨A.one.areas, A.one.units⟩
  have hs : Sensible ampleDaily := ⟨A.sensible.cap, A.sensible.dur, A.sensible.apart⟩
  have hlo : NoLone ampleDaily := A.lone
  obtain ⟨s, hs'⟩ := C64_accepted (c := ampleDaily) sl fuel h1 (by norm_num) hk hs hlo.once ⟨raw, h⟩ rfl rfl
  exact ⟨s, raw, h, h1, hs, hlo, ⟨A.network.1, A.network.2, A.network.3, A.network.4⟩, hs', rfl, .inr rfl, rfl, A.number, A.lfu, h, A.peak, A.pos,
    A.some_load, A.derating, ⟨A.ample.1, A.ample.2⟩, A.needy⟩

/-- C121 applies: two areas joined by an ample line, in daily mode with annual tables; the file was not empty. -/
example (sl : ℕ → ℚ → ℚ) (fuel : ℕ) : ∃ (s : Setup 1 4 1) (raw : ℕ → ℕ → ℚ), AmpleStudy sl fuel ampleDaily s 24 raw ∧
    ∃ (log : List Ev) (t : St _) (e : Exit) (tables : List (List Row)) (last : List (List (List Char))),
      Reach (fileCfg s.hour s.year s.JPLOUT s.RATES snapNet s.NAMA s.SUSTAT) (narpInit s.hour.JSTEP 4 (worldInit
        (fun i => (programSeeds 1 4 1).1 i) (fun k => (programSeeds 1 4 1).2 k) s.net s.INTVT s.ITAB, "old text".toList)) log t ∧
      Narp.step (fileCfg s.hour s.year s.JPLOUT s.RATES snapNet s.NAMA s.SUSTAT) t = .ok (.exit e) ∧ 1 ≤ tables.length ∧
      FileShown s.year.INDX [line ["old", "text"]] tables last (lineWords t.world.2) := by
  obtain ⟨s, raw, _, hs⟩ := ample_daily sl fuel
  have hw : lineWords "old text".toList = [line ["old", "text"]] := by decide +kernel
  obtain ⟨_, _, _, _, log, t, e, Y, tables, last, a, b, c1, d, _, f, _⟩ := C121_cards hs (.inr rfl) (by simp [ampleDaily, ampleCards, demoCards])
    (by simp [ampleDaily, ampleCards, demoCards]; norm_num) (by simp [ampleDaily, ampleCards, demoCards]) (nm := ![['A'], ['B']])
    (by
      intro j
      fin_cases j
      · exact ⟨⟨by simp, by decide⟩, by decide, .inl rfl⟩
      · exact ⟨⟨by simp, by decide⟩, by decide, .inl rfl⟩) 1 "old text".toList
  rw [hw] at f
  refine ⟨s, raw, hs, log, t, e, tables, last, a, b, ?_, f⟩
  rw [d, if_neg (by simp [ampleDaily])]
  exact c1

end Narp.Props
