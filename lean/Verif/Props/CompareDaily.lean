import Verif.Props.OutputCards
import Verif.Props.BetterArea

/-!
# C107, C115 in daily mode: an example
-/

namespace Narp.Props
open Narp Narp.Spec BigOperators

/-- `ampleDaily` with all peaks a tenth lower. -/
def lowerDaily : Cards 1 4 1 :=
  { ampleDaily with areas := ![⟨1, ['A'], 225, 0, fun _ => 0, 1000⟩, ⟨2, ['B'], 9, 0, fun _ => 0, 1000⟩] }

theorem lower_daily (sl : ℕ → ℚ → ℚ) (fuel : ℕ) : ∃ (s s' : Setup 1 4 1) (raw : ℕ → ℕ → ℚ),
    AmpleStudy sl fuel ampleDaily s 24 raw ∧ AmpleStudy sl fuel lowerDaily s' 24 raw := by
  obtain ⟨s0, raw, h, A⟩ := ample_daily sl fuel
  obtain ⟨raw0, h0, r0, r1⟩ := flat_read
  have e : raw0 = raw := Except.ok.inj (h0.symm.trans h)
  subst e
  have hk : AllKnown lowerDaily := by
    constructor
    · intro i; fin_cases i <;> simp [lowerDaily, ampleDaily, ampleCards, demoCards]
    · intro i; exact ⟨0, by fin_cases i; rfl⟩
    · intro i; exact ⟨1, by fin_cases i; rfl⟩
    · intro x hx; cases hx
    · intro x hx; cases hx
    · intro x hx; cases hx
  have h1 : OneCard lowerDaily := by
    constructor
    · intro a b; fin_cases a <;> fin_cases b <;> simp [lowerDaily]
    · exact A.one.units
  have hs : Sensible lowerDaily := ⟨A.sensible.cap, A.sensible.dur, A.sensible.apart⟩
  have hlo : NoLone lowerDaily := A.lone
  obtain ⟨s, hs'⟩ := C64_accepted (c := lowerDaily) sl fuel h1 (by norm_num) hk hs hlo.once ⟨raw0, h⟩ rfl rfl
  have hpp : poolPeak lowerDaily = 234 := by
    unfold poolPeak
    rw [Fin.sum_univ_two]
    simp [lowerDaily, forecast]
    norm_num
  refine ⟨s0, s, raw0, A, h1, hs, hlo, ?_, hs', rfl, .inr rfl, rfl, A.number,
    by intro j; fin_cases j <;> simp [lowerDaily], h, by intro j; fin_cases j <;> simp [lowerDaily], A.pos,
    A.some_load, A.derating, ⟨?_, ?_⟩, ?_⟩
  · constructor
    · intro k; fin_cases k; simp [lowerDaily, ampleDaily, ampleCards, demoCards]
    · intro a
      fin_cases a
      · exact .refl
      · exact .single ⟨0, .inl ⟨rfl, rfl⟩⟩
    · intro k t; fin_cases k; show (-100 : ℚ) ≤ 0; norm_num
    · intro k t; fin_cases k; exact ⟨by show (0 : ℚ) ≤ 260; norm_num, by show (0 : ℚ) ≤ 260; norm_num⟩
  · rw [hpp]; intro k t; fin_cases k; constructor <;> (show (234 : ℚ) ≤ 260) <;> norm_num
  · rw [hpp]; intro j; fin_cases j <;> (show (234 : ℚ) ≤ 1000) <;> norm_num
  · intro load hload t x hx season
    refine ⟨0, ?_⟩
    have e : load 0 x = 225 := by
      obtain ⟨y, hy, _, _, e⟩ := hload 0
      rw [e]
      show 225 * raw0 0 x / raw0 0 y = 225
      rw [r0 x hx, r0 y hy]; norm_num
    have hsum : ∑ i ∈ unitsIn lowerDaily 0, (lowerDaily.units i).cap (season i) = 200 := by
      unfold unitsIn
      rw [Finset.sum_filter, Fin.sum_univ_four]
      simp [lowerDaily, ampleDaily, ampleCards, demoCards]
      norm_num
    rw [e, hsum]
    simp [lowerDaily, forecast]
    norm_num

/-- All conditions of `C107_better_partial` and, without loss sharing, of `C115_books_partial` hold for these two. -/
example (sl : ℕ → ℚ → ℚ) (fuel : ℕ) (J J' : ℤ) : ∃ (s s' : Setup 1 4 1) (raw : ℕ → ℕ → ℚ),
    Calm sl fuel ampleDaily s 24 raw J ∧ Calm sl fuel lowerDaily s' 24 raw J' ∧ BetterByArea ampleDaily lowerDaily le_rfl ∧
    (∃ q : ℚ, ∀ j, (lowerDaily.areas j).peak = q * (ampleDaily.areas j).peak) ∧ (∃ f, ∀ j, (ampleDaily.areas j).lfu = f) := by
  obtain ⟨s, s', raw, A, A'⟩ := lower_daily sl fuel
  refine ⟨s, s', raw, C110_calm A J, C110_calm A' J', ?_, ⟨9 / 10, ?_⟩, ⟨0, ?_⟩⟩
  · refine ⟨⟨rfl, ?_, ?_, fun _ _ => le_rfl, fun _ => le_rfl, fun _ => le_rfl, fun _ => le_rfl, fun _ _ h => h⟩, ?_, fun _ => rfl⟩
    · intro j; fin_cases j <;> rfl
    · intro j; fin_cases j <;> simp [lowerDaily, ampleDaily, ampleCards] <;> norm_num
    · intro j; fin_cases j <;> rfl
  · intro j; fin_cases j <;> simp [lowerDaily, ampleDaily, ampleCards] <;> norm_num
  · intro j; fin_cases j <;> rfl

end Narp.Props
