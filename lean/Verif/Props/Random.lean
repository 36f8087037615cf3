import Verif.Model.Random
import Verif.Spec.Sampling
import Mathlib.Data.Int.GCD
import Mathlib.Data.Int.ModEq
import Mathlib.Data.Fintype.Basic
import Mathlib.RingTheory.Coprime.Basic
import Mathlib.RingTheory.Int.Basic
import Mathlib.Tactic.IntervalCases
import Mathlib.Data.Fin.VecNotation

/-!
# Random number streams (C12, C13)
-/

namespace Narp.Props
open Narp Narp.Spec

/-- int32 multiplication followed by the sign correction is multiplication modulo 2^31 -/
theorem mul31_eq (m x : ℤ) : mul31 m x = (x * m) % 2147483648 := by
  unfold mul31 wrap32
  simp only
  generalize x * m = z
  split <;> omega

theorem wrap32_id {x : ℤ} (h0 : 0 ≤ x) (h1 : x < 2147483648) : wrap32 x = x := by
  unfold wrap32; omega

theorem seedLoop_spec (n : ℕ) (a : ℕ → ℤ) :
    (∀ i < n, seedLoop n a i = (a 0 * 9649599 ^ (i + 1)) % 2147483648) ∧
      (seedLoop n a n = if n = 0 then a 0 else (a 0 * 9649599 ^ n) % 2147483648) := by
  induction n with
  | zero => exact ⟨by omega, by simp [seedLoop]⟩
  | succ n ih =>
    obtain ⟨h1, h2⟩ := ih
    have hv : mul31 9649599 (seedLoop n a n) = (a 0 * 9649599 ^ (n + 1)) % 2147483648 := by
      rw [mul31_eq, h2]
      split
      · next h => subst h; simp
      · rw [Int.mul_emod, Int.emod_emod_of_dvd _ (dvd_refl _), ← Int.mul_emod, pow_succ, mul_assoc]
    refine ⟨?_, ?_⟩
    · intro i hi
      simp only [seedLoop]
      rw [Function.update_of_ne (by omega)]
      by_cases hin : i = n
      · subst hin; rw [Function.update_self, hv]
      · rw [Function.update_of_ne hin, h1 i (by omega)]
    · simp only [seedLoop]
      rw [Function.update_self, Function.update_self, hv, if_neg (by omega)]

/-- C13 (formula). The stream of unit `i` starts at `seed * 9649599^(i+1)` modulo 2^31, and the
line streams continue the sequence after the last unit. -/
theorem C13_streams {JSEED : ℤ} (h0 : 0 ≤ JSEED) (h1 : JSEED < 2 ^ 31) (NUNITS NLINES : ℕ) :
    (∀ i < NUNITS, (seeder JSEED NUNITS NLINES).1 i = (JSEED * 9649599 ^ (i + 1)) % 2 ^ 31) ∧
    (∀ l < NLINES, (seeder JSEED NUNITS NLINES).2 l = (JSEED * 9649599 ^ (NUNITS + l + 1)) % 2 ^ 31) := by
  have hw := wrap32_id h0 (by simpa using h1)
  have e : (2 : ℤ) ^ 31 = 2147483648 := by norm_num
  rw [e]
  unfold seeder
  simp only
  refine ⟨?_, ?_⟩
  · intro i hi
    rw [(seedLoop_spec _ _).1 i hi, Function.update_self, hw]
  · intro l hl
    rw [(seedLoop_spec _ _).1 l hl, Function.update_self]
    rcases Nat.eq_zero_or_pos NUNITS with hn | hn
    · subst hn
      simp only [seedLoop]
      rw [Function.update_self, hw]; simp
    · rw [(seedLoop_spec _ _).1 (NUNITS - 1) (by omega), Function.update_self, hw,
        Nat.sub_add_cancel hn, Int.mul_emod, Int.emod_emod_of_dvd _ (dvd_refl _), ← Int.mul_emod,
        mul_assoc, ← pow_add]
      congr 3

example : (0 : ℤ) ≤ 123456 ∧ (123456 : ℤ) < 2 ^ 31 ∧ (seeder 123456 2 2).1 1 = 1665139264 := by decide

theorem coprime_pow31 (a b : ℕ) : IsCoprime (2147483648 : ℤ) (9649599 ^ a * 65539 ^ b) := by
  have e : (2147483648 : ℤ) = 2 ^ 31 := by norm_num
  rw [e]
  refine IsCoprime.pow_left (IsCoprime.mul_right (IsCoprime.pow_right ?_) (IsCoprime.pow_right ?_))
  · exact ⟨-4824799, 1, by norm_num⟩
  · exact ⟨-32769, 1, by norm_num⟩

/-- C13 (what the routine gives). If the seeds passed to the seeding routine differ, then the stream
of every unit and of every line differs. -/
theorem C13_seeder_injective {s s' : ℤ} (h0 : 0 ≤ s) (h1 : s < 2 ^ 31) (h0' : 0 ≤ s') (h1' : s' < 2 ^ 31)
    (hne : s ≠ s') (NUNITS NLINES : ℕ) :
    (∀ i < NUNITS, (seeder s NUNITS NLINES).1 i ≠ (seeder s' NUNITS NLINES).1 i) ∧
    (∀ l < NLINES, (seeder s NUNITS NLINES).2 l ≠ (seeder s' NUNITS NLINES).2 l) := by
  have e : (2 : ℤ) ^ 31 = 2147483648 := by norm_num
  have key : ∀ k : ℕ, (s * 9649599 ^ k) % 2147483648 ≠ (s' * 9649599 ^ k) % 2147483648 := by
    intro k hk
    have hd : (2147483648 : ℤ) ∣ (s - s') * 9649599 ^ k := by
      rw [sub_mul]; exact Int.ModEq.dvd (Int.ModEq.symm hk)
    have hc : IsCoprime (2147483648 : ℤ) (9649599 ^ k) := by simpa using coprime_pow31 k 0
    have := hc.dvd_of_dvd_mul_right hd
    rw [e] at h1 h1'
    omega
  obtain ⟨a1, a2⟩ := C13_streams h0 h1 NUNITS NLINES
  obtain ⟨b1, b2⟩ := C13_streams h0' h1' NUNITS NLINES
  rw [e] at a1 a2 b1 b2
  exact ⟨fun i hi => by rw [a1 i hi, b1 i hi]; exact key _,
    fun l hl => by rw [a2 l hl, b2 l hl]; exact key _⟩

/-- C13 (what fails). The main program gives all its users the same streams, whatever seed they ask
for. -/
theorem C13_user_seed_refuted : ∃ s s' : ℤ, s ≠ s' ∧ ∀ NUNITS NLINES : ℕ,
    programSeeds s NUNITS NLINES = programSeeds s' NUNITS NLINES :=
  ⟨1, 2, by norm_num, fun _ _ => rfl⟩

/-! ## C12 -/

/-- Everything an hourly draw of the units depends on besides the random states. -/
structure UnitData (n : ℕ) where
  PROBG : Fin n → Fin 2 → ℚ
  RATING : Fin n → ℚ
  DERATE : Fin n → ℚ
  PLNDST : Fin n → ℚ

/-- Random states of the units after the draws of a history. -/
def unitSeeds {n : ℕ} (s : Fin n → ℤ) (hist : List (UnitData n)) : Fin n → ℤ :=
  hist.foldl (fun s d => (gstate s d.PROBG d.RATING d.DERATE d.PLNDST).1) s

/-- Random states of the lines after the draws of a history. -/
def lineSeeds {n : ℕ} (s : Fin n → ℤ) (hist : List (Fin 6 → Fin n → ℚ)) : Fin n → ℤ :=
  hist.foldl (fun s p => (lstate s p).1) s

theorem unitSeeds_eq {n : ℕ} (hist : List (UnitData n)) (s : Fin n → ℤ) (i : Fin n)
    (hs : 0 ≤ s i) (hs1 : s i < 2147483648) :
    unitSeeds s hist i = (s i * 65539 ^ hist.length) % 2147483648 := by
  induction hist generalizing s with
  | nil => simp [unitSeeds]; omega
  | cons d r ih =>
    have hstep : (gstate s d.PROBG d.RATING d.DERATE d.PLNDST).1 i = (s i * 65539) % 2147483648 := by
      simp only [gstate, mul31_eq]
    have := ih (gstate s d.PROBG d.RATING d.DERATE d.PLNDST).1 (by rw [hstep]; omega) (by rw [hstep]; omega)
    simp only [unitSeeds, List.foldl_cons, List.length_cons] at this ⊢
    rw [this, hstep, Int.mul_emod, Int.emod_emod_of_dvd _ (dvd_refl _), ← Int.mul_emod, pow_succ]
    congr 1; ring

theorem lineSeeds_eq {n : ℕ} (hist : List (Fin 6 → Fin n → ℚ)) (s : Fin n → ℤ) (i : Fin n)
    (hs : 0 ≤ s i) (hs1 : s i < 2147483648) :
    lineSeeds s hist i = (s i * 65539 ^ hist.length) % 2147483648 := by
  induction hist generalizing s with
  | nil => simp [lineSeeds]; omega
  | cons d r ih =>
    have hstep : (lstate s d).1 i = (s i * 65539) % 2147483648 := by simp only [lstate, mul31_eq]
    have := ih (lstate s d).1 (by rw [hstep]; omega) (by rw [hstep]; omega)
    simp only [lineSeeds, List.foldl_cons, List.length_cons] at this ⊢
    rw [this, hstep, Int.mul_emod, Int.emod_emod_of_dvd _ (dvd_refl _), ← Int.mul_emod, pow_succ]
    congr 1; ring

/-- what is true of every state of the program -/
theorem state_ok (a b : ℕ) (x : ℤ) (hx : x = (123456 * (9649599 ^ a * 65539 ^ b)) % 2147483648) :
    0 < x ∧ x < 2 ^ 31 ∧ 0 < variate x ∧ variate x < 1 := by
  have hne : x ≠ 0 := by
    intro h0
    rw [h0] at hx
    have hd : (2147483648 : ℤ) ∣ 123456 * (9649599 ^ a * 65539 ^ b) := Int.dvd_of_emod_eq_zero hx.symm
    have := (coprime_pow31 a b).dvd_of_dvd_mul_right hd
    revert this; norm_num
  have h64 : (64 : ℤ) ∣ x := by
    rw [hx]
    generalize (9649599 : ℤ) ^ a * 65539 ^ b = c
    omega
  have h0 : 0 ≤ x := by rw [hx]; exact Int.emod_nonneg _ (by norm_num)
  have h1 : x < 2147483648 := by rw [hx]; exact Int.emod_lt_of_pos _ (by norm_num)
  have h2 : x ≤ 2147483584 := by omega
  have hp : 0 < x := by omega
  have q1 : (0 : ℚ) < x := by exact_mod_cast hp
  have q2 : (x : ℚ) ≤ 2147483584 := by exact_mod_cast h2
  refine ⟨hp, by simpa using h1, ?_, ?_⟩ <;> unfold variate
  · linarith
  · linarith

/-- C12. In the main program, after any number of draws, each unit's and each line's random state is
an integer strictly between 0 and 2^31, each draw has multiplied it by 65539 modulo 2^31, and its
variate is strictly between 0 and 1. -/
theorem C12_states (userSeed : ℤ) (NUNITS NLINES : ℕ) :
    (∀ (hist : List (UnitData NUNITS)) (i : Fin NUNITS),
      let x := unitSeeds (fun i : Fin NUNITS => (programSeeds userSeed NUNITS NLINES).1 i) hist i
      x = ((programSeeds userSeed NUNITS NLINES).1 i * 65539 ^ hist.length) % 2 ^ 31 ∧
        0 < x ∧ x < 2 ^ 31 ∧ 0 < variate x ∧ variate x < 1) ∧
    (∀ (hist : List (Fin 6 → Fin NLINES → ℚ)) (l : Fin NLINES),
      let x := lineSeeds (fun l : Fin NLINES => (programSeeds userSeed NUNITS NLINES).2 l) hist l
      x = ((programSeeds userSeed NUNITS NLINES).2 l * 65539 ^ hist.length) % 2 ^ 31 ∧
        0 < x ∧ x < 2 ^ 31 ∧ 0 < variate x ∧ variate x < 1) := by
  have e : (2 : ℤ) ^ 31 = 2147483648 := by norm_num
  obtain ⟨a1, a2⟩ := C13_streams (JSEED := 123456) (by norm_num) (by norm_num) NUNITS NLINES
  refine ⟨?_, ?_⟩
  · intro hist i
    simp only [programSeeds]
    have h := a1 i i.2
    rw [e] at h
    have hx := unitSeeds_eq hist (fun i : Fin NUNITS => (seeder 123456 NUNITS NLINES).1 i) i
      (by rw [h]; omega) (by rw [h]; omega)
    refine ⟨by rw [e]; exact hx, state_ok (i + 1) hist.length _ ?_⟩
    rw [hx, h, Int.mul_emod, Int.emod_emod_of_dvd _ (dvd_refl _), ← Int.mul_emod, mul_assoc]
  · intro hist l
    simp only [programSeeds]
    have h := a2 l l.2
    rw [e] at h
    have hx := lineSeeds_eq hist (fun i : Fin NLINES => (seeder 123456 NUNITS NLINES).2 i) l
      (by rw [h]; omega) (by rw [h]; omega)
    refine ⟨by rw [e]; exact hx, state_ok (NUNITS + l + 1) hist.length _ ?_⟩
    rw [hx, h, Int.mul_emod, Int.emod_emod_of_dvd _ (dvd_refl _), ← Int.mul_emod, mul_assoc]

/-- A concrete history: two units, one draw. -/
example : unitSeeds (fun i : Fin 2 => (programSeeds 7 2 0).1 i)
    [⟨fun _ => ![9/10, 95/100], fun _ => 100, fun _ => 1/2, fun _ => 1⟩] 1 = 738199232 := by decide

/-- For other seeds the variate can exceed 1 (the scale factor is rounded up): with seed 98769387
the first draw of the first unit does. -/
theorem C12_variate_can_exceed_one :
    ∃ JSEED : ℤ, 0 < JSEED ∧ JSEED < 2 ^ 31 ∧ ∀ d : UnitData 1,
      1 < variate (unitSeeds (fun i : Fin 1 => (seeder JSEED 1 0).1 i) [d] 0) := by
  refine ⟨98769387, by norm_num, by norm_num, fun d => ?_⟩
  show 1 < variate (mul31 65539 ((seeder 98769387 1 0).1 0))
  decide +kernel

/-- Successive random states of a unit satisfy the fixed linear relation of the generator RANDU: the
third of three consecutive states is a fixed linear combination of the first two. -/
theorem C47_consecutive_draws_dependent_refuted {n : ℕ} (s : Fin n → ℤ) (h0 : ∀ i, 0 ≤ s i)
    (h1 : ∀ i, s i < 2 ^ 31) (d d' d'' : UnitData n) (hist : List (UnitData n)) (i : Fin n) :
    unitSeeds s (hist ++ [d, d', d'']) i =
      (6 * unitSeeds s (hist ++ [d, d']) i - 9 * unitSeeds s (hist ++ [d]) i) % 2 ^ 31 := by
  have e : (2 : ℤ) ^ 31 = 2147483648 := by norm_num
  rw [e] at h1 ⊢
  simp only [unitSeeds_eq _ s i (h0 i) (h1 i), List.length_append, List.length_cons, List.length_nil]
  generalize s i * 65539 ^ hist.length = z
  have hz : ∀ k : ℕ, s i * 65539 ^ (hist.length + k) = s i * 65539 ^ hist.length * 65539 ^ k := by
    intro k; rw [pow_add, mul_assoc]
  simp only [hz]
  generalize s i * 65539 ^ hist.length = y
  norm_num
  omega

end Narp.Props
