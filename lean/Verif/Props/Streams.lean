import Verif.Spec.Streams
import Verif.Props.CardReport
import Mathlib.Data.ZMod.Basic
import Mathlib.GroupTheory.OrderOfElement

/-!
# C73: the random streams of different units
-/

namespace Narp.Props
open Narp Narp.Spec BigOperators

theorem pow_two_mod (a M : ℕ) : ∀ k, a ^ 2 ^ k % M = (fun x => x * x % M)^[k] (a % M)
  | 0 => by simp
  | k + 1 => by
    rw [Function.iterate_succ', Function.comp_apply, ← pow_two_mod a M k, pow_succ, mul_comm, pow_mul', pow_two]
    simp [Nat.mul_mod]

theorem shift_pow : 9649599 ^ 32 % 33554432 = 65539 ^ 14848 % 33554432 := by
  have : 65539 ^ 14848 = (65539 ^ 29) ^ 2 ^ 9 := by
    rw [show 14848 = 29 * 2 ^ 9 by norm_num, pow_mul]
  rw [this, pow_two_mod]
  decide +kernel

theorem period_pow : 65539 ^ 8388608 % 33554432 = 1 := by
  have : 8388608 = 2 ^ 23 := by norm_num
  rw [this, pow_two_mod]
  decide +kernel

/-- Equal factors modulo 2^25 are enough, since the first seed is a multiple of 64. -/
theorem mul64_mod {s x y : ℤ} (z : ℤ) (hs : 64 ∣ s) (h : x % 33554432 = y % 33554432) :
    (s * z * x) % 2 ^ 31 = (s * z * y) % 2 ^ 31 := by
  obtain ⟨q, rfl⟩ := hs
  have h' : (33554432 : ℤ) ∣ x - y := Int.ModEq.dvd (Int.ModEq.symm h)
  obtain ⟨w, hw⟩ := h'
  have : 64 * q * z * x = 64 * q * z * y + 2 ^ 31 * (q * z * w) := by
    have : x = y + 33554432 * w := by linarith
    rw [this]; ring
  rw [this, Int.add_mul_emod_self_left]

theorem stream_period {s : ℤ} (hs : 64 ∣ s) (i k : ℕ) : stream s i (k + 8388608) = stream s i k := by
  unfold stream
  refine mul64_mod _ hs ?_
  rw [pow_add, Int.mul_emod]
  have : ((65539 : ℤ) ^ 8388608) % 33554432 = 1 := by exact_mod_cast period_pow
  rw [this, mul_one, Int.emod_emod_of_dvd _ (dvd_refl _)]

theorem stream_shift {s : ℤ} (hs : 64 ∣ s) (i k : ℕ) : stream s (i + 32) k = stream s i (k + 14848) := by
  unfold stream
  have h : ((9649599 : ℤ) ^ 32) % 33554432 = (65539 : ℤ) ^ 14848 % 33554432 := by exact_mod_cast shift_pow
  have e1 : s * 9649599 ^ (i + 32 + 1) * 65539 ^ k = s * (9649599 ^ (i + 1) * 65539 ^ k) * 9649599 ^ 32 := by
    rw [show i + 32 + 1 = i + 1 + 32 by ring, pow_add]
    generalize (9649599 : ℤ) ^ 32 = A
    generalize (9649599 : ℤ) ^ (i + 1) = B
    generalize (65539 : ℤ) ^ k = C
    ring
  have e2 : s * 9649599 ^ (i + 1) * 65539 ^ (k + 14848) = s * (9649599 ^ (i + 1) * 65539 ^ k) * 65539 ^ 14848 := by
    rw [pow_add _ k]
    generalize (65539 : ℤ) ^ 14848 = A
    generalize (9649599 : ℤ) ^ (i + 1) = B
    generalize (65539 : ℤ) ^ k = C
    ring
  rw [e1, e2]
  exact mul64_mod _ hs h

/-- RANDU: of three consecutive states of a stream, two determine the third. -/
theorem stream_randu (s : ℤ) (i k : ℕ) :
    stream s i (k + 2) = (6 * stream s i (k + 1) - 9 * stream s i k) % 2 ^ 31 := by
  unfold stream
  generalize hz : s * 9649599 ^ (i + 1) = z
  rw [pow_add, pow_add]
  generalize (65539 : ℤ) ^ k = y
  have : z * (y * 65539 ^ 2) = z * y * 4295360521 := by ring
  rw [this]
  have : z * (y * 65539 ^ 1) = z * y * 65539 := by ring
  rw [this]
  generalize z * y = x
  omega

/-! ## The streams of a run -/

theorem hourBody_seeds {n m l : ℕ} {ν : Type} {c : HourIn n m l ν} {C : ℚ} {R P : Fin m → ℚ} {w w' : HourSt n m l ν}
    (h : hourBody c C R P w = .ok w') :
    (∀ i, w'.IGSEED i = (w.IGSEED i * 65539) % 2 ^ 31) ∧ (∀ i, w'.ILSEED i = (w.ILSEED i * 65539) % 2 ^ 31) := by
  unfold hourBody at h
  obtain ⟨day, _, h⟩ := Except.bind_ok h
  dsimp only at h
  generalize (if c.JSTEP = 24 then ((c.MXPLHR day : ℕ) : ℤ) else -1 + pyInt (pyMod C 8760)) = jh at h
  split at h
  · cases h
  split at h
  · cases h
  obtain ⟨hr, _, h⟩ := Except.bind_ok h
  obtain ⟨hist, _, _, h1, h2, _, _⟩ := tierLoop_hist _ _ _ _ h
  rw [h1, h2]
  have e : (2 : ℤ) ^ 31 = 2147483648 := by norm_num
  rw [e]
  exact ⟨fun i => mul31_eq _ _, fun i => mul31_eq _ _⟩

theorem stream_succ (s : ℤ) (i k : ℕ) : stream s i (k + 1) = (stream s i k * 65539) % 2 ^ 31 := by
  unfold stream
  rw [pow_succ 65539 k, ← mul_assoc, Int.mul_emod _ 65539, Int.mul_emod (_ % _) 65539, Int.emod_emod_of_dvd _ (dvd_refl _)]

variable {n m l : ℕ} {sl : ℕ → ℚ → ℚ} {fuel : ℕ} {c : Cards n m l} {s : Setup n m l}

/-- Number of draws in a log. -/
def draws (log : List Ev) : ℕ := log.countP fun e => e.kind = 1

/-- C73. At every moment of every run, after `k` draws, unit `i` is at the `k`-th state of stream `i`, and line `j` at
the `k`-th state of stream `m + j`; all streams start from the same seed, and the share that a unit delivers at the next
draw is that of the random number of its next state. -/
theorem C73_streams (h : setup sl fuel c = .ok s) (hstep : c.misc.JSTEP = 1 ∨ c.misc.JSTEP = 24) (JSEED : ℤ)
    {log : List Ev} {st : St _} (hr : Reach s.cfg (s.start JSEED) log st) :
    (∀ i, st.world.h.IGSEED i = stream 123456 i (draws log)) ∧
    (∀ j, st.world.h.ILSEED j = stream 123456 (m + j) (draws log)) ∧
    ∀ R P i, (gstate st.world.h.IGSEED s.hour.PROBG R s.hour.DERATE P).2.1 i =
      unitFraction (c.units i).der (unitState (c.units i).dfor (c.units i).fout
        (number (stream 123456 i (draws log + 1)))) := by
  have hJs : s.hour.JSTEP = c.misc.JSTEP := (C72_settings h JSEED).1
  have hJ : StepOK s.hour.JSTEP := by
    rw [hJs]
    rcases hstep with e | e <;> rw [e]
    · left; norm_num
    · right; norm_num
  have key : (∀ i, st.world.h.IGSEED i = stream 123456 i (draws log)) ∧
      (∀ j, st.world.h.ILSEED j = stream 123456 (m + j) (draws log)) := by
    induction hr with
    | start =>
      obtain ⟨a1, a2⟩ := C13_streams (JSEED := 123456) (by norm_num) (by norm_num) m l
      refine ⟨fun i => ?_, fun j => ?_⟩
      · show (seeder 123456 m l).1 i = _
        rw [a1 i i.2]; simp [stream, draws]
      · show (seeder 123456 m l).2 j = _
        rw [a2 j j.2]; simp [stream, draws]
    | @step log st ev st' hr' hs ih =>
      obtain ⟨i1, i2⟩ := ih
      rcases step_world (cfg := s.cfg) hJ hr' hs with ⟨hk, hw, _⟩ | ⟨hk, hw, _⟩ | ⟨hk, hw⟩
      · simp only [Setup.cfg, narpCfg, hourFx] at hw
        cases hb : hourBody s.hour ev.time (fun i => st.RATING.getD i 0) (fun i => st.PLNDST.getD i 0) st.world.h with
        | error x => rw [hb] at hw; cases hw
        | ok w' =>
        rw [hb] at hw
        simp only [Except.map, Except.ok.injEq] at hw
        have e1 : st'.world.h = w' := by rw [← hw]
        obtain ⟨b1, b2⟩ := hourBody_seeds hb
        have hd : draws (log ++ [ev]) = draws log + 1 := by simp [draws, hk]
        rw [e1, hd]
        exact ⟨fun i => by rw [b1, i1, stream_succ], fun i => by rw [b2, i2, stream_succ]⟩
      · have hd : draws (log ++ [ev]) = draws log := by
          rcases hk with e | e <;> simp [draws, e]
        rw [hw, hd]
        exact ⟨i1, i2⟩
      · have hd : draws (log ++ [ev]) = draws log := by simp [draws, hk]
        have e1 : st'.world.h.IGSEED = st.world.h.IGSEED ∧ st'.world.h.ILSEED = st.world.h.ILSEED := by
          simp only [Setup.cfg, narpCfg, yearWorld] at hw
          cases hb : yearBody s.year ev.time st'.cal (snapNet st.world.h.net) st.world.h.LSFLG st.world.h.H st.world.h.P
              st.world.y with
          | error x => rw [hb] at hw; cases hw
          | ok r =>
          rw [hb] at hw
          simp only [Except.map, Except.ok.injEq, Prod.mk.injEq] at hw
          rw [← hw.1]
          exact ⟨rfl, rfl⟩
        rw [e1.1, e1.2, hd]
        exact ⟨i1, i2⟩
  refine ⟨key.1, key.2, fun R P i => ?_⟩
  have hp : s.hour.PROBG = (fun i => dataxPROBG (c.units i).dfor (c.units i).fout) ∧
      s.hour.DERATE = fun i => dataxDERATE (c.units i).der := by
    obtain ⟨wr, raw, T, ITAB, ID', hw, _, _, _, _, rfl⟩ := setup_ok h
    exact ⟨rfl, rfl⟩
  rw [stream_succ, ← key.1 i, hp.1, hp.2]
  have e : (2 : ℤ) ^ 31 = 2147483648 := by norm_num
  simp only [gstate, mul31_eq, e]
  unfold unitPct unitState number variate dataxPROBG dataxDERATE
  have h1 : ∀ a b : ℚ, 1 - (a + b) = 1 - b - a := fun a b => by ring
  have h2 : (10 : ℚ) ^ 16 = 10000000000000000 := by norm_num
  simp only [Matrix.cons_val_zero, Matrix.cons_val_one, h1, h2]
  split_ifs <;> rfl

/-- The random number of a state of a stream from the program's seed. -/
theorem stream_range (s : ℤ) (i k : ℕ) : 0 ≤ stream s i k ∧ stream s i k < 2147483648 := by
  have e : (2 : ℤ) ^ 31 = 2147483648 := by norm_num
  unfold stream
  rw [e]
  generalize s * 9649599 ^ (i + 1) * 65539 ^ k = z
  omega

theorem number_lt (x : ℤ) (q : ℚ) : number x < q ↔ (x : ℚ) < q * (10 ^ 16 / 4656613) := by
  unfold number
  constructor <;> intro h <;> linarith

/-- C47 (what fails). A unit that is derated 2 % of the time and out 8 % of the time (probability of full capacity
90 %) is never derated in three draws in a row, in no stream, whatever the seed: after two such draws it is always at
full capacity. -/
theorem C47_three_in_a_row_refuted (sd : ℤ) (i k : ℕ)
    (h0 : unitState (2 / 100) (8 / 100) (number (stream sd i k)) = .derated)
    (h1 : unitState (2 / 100) (8 / 100) (number (stream sd i (k + 1))) = .derated) :
    unitState (2 / 100) (8 / 100) (number (stream sd i (k + 2))) = .full := by
  have e : (2 : ℤ) ^ 31 = 2147483648 := by norm_num
  have der : ∀ x : ℤ, unitState (2 / 100) (8 / 100) (number x) = .derated → 1932735100 ≤ x ∧ x ≤ 1975684936 := by
    intro x hx
    unfold unitState at hx
    split at hx
    · cases hx
    · split at hx
      · rename_i g1 g2
        rw [number_lt] at g1 g2
        rw [not_lt] at g1
        constructor
        · by_contra hc
          have : (x : ℚ) ≤ (1932735099 : ℤ) := by exact_mod_cast (by omega : x ≤ 1932735099)
          push_cast at this
          norm_num at g1
          linarith
        · by_contra hc
          have : ((1975684937 : ℤ) : ℚ) ≤ x := by exact_mod_cast (by omega : 1975684937 ≤ x)
          push_cast at this
          norm_num at g2
          linarith
      · cases hx
  obtain ⟨a1, a2⟩ := der _ h0
  obtain ⟨b1, b2⟩ := der _ h1
  have h2 := stream_randu sd i k
  rw [e] at h2
  have hq : (6 * stream sd i (k + 1) - 9 * stream sd i k) / 2147483648 = -3 := by omega
  have : stream sd i (k + 2) ≤ 1900000000 := by omega
  unfold unitState
  rw [if_pos]
  rw [number_lt]
  have : (stream sd i (k + 2) : ℚ) ≤ (1900000000 : ℤ) := by exact_mod_cast this
  push_cast at this
  norm_num
  linarith

/-- The hypotheses are met: the first unit of the program has such a pair of draws. -/
example : ∃ k, unitState (2 / 100) (8 / 100) (number (stream 123456 0 k)) = .derated ∧
    unitState (2 / 100) (8 / 100) (number (stream 123456 0 (k + 1))) = .derated := by
  refine ⟨1677, ?_, ?_⟩
  · rw [unitState, if_neg (by decide +kernel), if_pos (by decide +kernel)]
  · rw [unitState, if_neg (by decide +kernel), if_pos (by decide +kernel)]

theorem frac_inj {pct : ℚ} (h0 : 0 < pct) (h1 : pct < 100) {a b : UnitState} (h : unitFraction pct a = unitFraction pct b) :
    a = b := by
  cases a <;> cases b <;> first | rfl | (exfalso; simp only [unitFraction] at h; linarith)

/-- The share of its capacity that unit `i` delivers at the draw that state `st` is about to make. -/
def nextShare (s : Setup n m l) (st : St (World (n + 1) m l (NetSt n l) ((Fin (n + 1) → Fin (n + 1)) × NMat n × NMat n)))
    (i : Fin m) : ℚ :=
  (gstate st.world.h.IGSEED s.hour.PROBG (fun i => st.RATING.getD i 0) s.hour.DERATE
    (fun i => st.PLNDST.getD i 0)).2.1 i

theorem nextShare_eq (h : setup sl fuel c = .ok s) (hstep : c.misc.JSTEP = 1 ∨ c.misc.JSTEP = 24) {JSEED : ℤ}
    {log : List Ev} {st : St _} (hr : Reach s.cfg (s.start JSEED) log st) (i : Fin m) :
    nextShare s st i = unitFraction (c.units i).der (unitState (c.units i).dfor (c.units i).fout
      (number (stream 123456 i (draws log + 1)))) :=
  (C73_streams h hstep JSEED hr).2.2 _ _ i

/-- C47 (what fails), in the runs of the program: after two draws in a row in which such a unit is derated, it is never
derated (nor out) at the next. The seeds asked for may differ. -/
theorem C47_three_in_a_row_run_refuted (h : setup sl fuel c = .ok s) (hstep : c.misc.JSTEP = 1 ∨ c.misc.JSTEP = 24)
    (i : Fin m) (hd : (c.units i).dfor = 2 / 100) (hf : (c.units i).fout = 8 / 100) (hder : 0 < (c.units i).der ∧ (c.units i).der < 100)
    {J0 J1 J2 : ℤ} {log0 log1 log2 : List Ev} {st0 st1 st2 : St _} (r0 : Reach s.cfg (s.start J0) log0 st0)
    (r1 : Reach s.cfg (s.start J1) log1 st1) (r2 : Reach s.cfg (s.start J2) log2 st2)
    (e1 : draws log1 = draws log0 + 1) (e2 : draws log2 = draws log0 + 2)
    (d0 : nextShare s st0 i = 1 - (c.units i).der / 100) (d1 : nextShare s st1 i = 1 - (c.units i).der / 100) :
    nextShare s st2 i = 1 := by
  rw [nextShare_eq h hstep r0, hd, hf] at d0
  rw [nextShare_eq h hstep r1, e1, hd, hf] at d1
  rw [nextShare_eq h hstep r2, e2, hd, hf]
  rw [C47_three_in_a_row_refuted 123456 i (draws log0 + 1)
    (frac_inj hder.1 hder.2 (b := .derated) d0) (frac_inj hder.1 hder.2 (b := .derated) d1)]
  rfl

/-- C73 (what fails). The unit 32 places further down, with the same outage rates, repeats the whole history of a
unit: what it delivers at a draw is what the other delivers 14848 draws later (in hourly steps after a year and 8 months).
-/
theorem C73_shifted_units_refuted (h : setup sl fuel c = .ok s) (hstep : c.misc.JSTEP = 1 ∨ c.misc.JSTEP = 24)
    (i i' : Fin m) (hi : i'.val = i.val + 32) (hd : (c.units i').dfor = (c.units i).dfor)
    (hf : (c.units i').fout = (c.units i).fout) (hder : (c.units i').der = (c.units i).der)
    {J0 J1 : ℤ} {log0 log1 : List Ev} {st0 st1 : St _} (r0 : Reach s.cfg (s.start J0) log0 st0)
    (r1 : Reach s.cfg (s.start J1) log1 st1) (e1 : draws log1 = draws log0 + 14848) :
    nextShare s st0 i' = nextShare s st1 i := by
  have e : draws log1 + 1 = draws log0 + 1 + 14848 := by omega
  rw [nextShare_eq h hstep r0, nextShare_eq h hstep r1, e, hd, hf, hder, hi,
    stream_shift (by norm_num) i.val (draws log0 + 1)]

/-- The same between a line and a unit, or between two lines: the random states are those of one stream. -/
theorem C73_shifted_lines_refuted (h : setup sl fuel c = .ok s) (hstep : c.misc.JSTEP = 1 ∨ c.misc.JSTEP = 24)
    {J0 J1 : ℤ} {log0 log1 : List Ev} {st0 st1 : St _} (r0 : Reach s.cfg (s.start J0) log0 st0)
    (r1 : Reach s.cfg (s.start J1) log1 st1) (e1 : draws log1 = draws log0 + 14848) (j : Fin l) :
    (∀ i : Fin m, m + j.val = i.val + 32 → st0.world.h.ILSEED j = st1.world.h.IGSEED i) ∧
    (∀ j' : Fin l, j.val = j'.val + 32 → st0.world.h.ILSEED j = st1.world.h.ILSEED j') := by
  obtain ⟨_, a2, _⟩ := C73_streams h hstep J0 r0
  obtain ⟨b1, b2, _⟩ := C73_streams h hstep J1 r1
  refine ⟨fun i hi => ?_, fun j' hj => ?_⟩
  · rw [a2, b1, e1, hi, stream_shift (by norm_num)]
  · rw [a2, b2, e1, hj, ← add_assoc, stream_shift (by norm_num)]

/-- C73 (what fails). After 8388608 draws (in hourly steps within year 958) all units and lines are again where they
were: the run goes on with the same random numbers. -/
theorem C73_period_refuted (h : setup sl fuel c = .ok s) (hstep : c.misc.JSTEP = 1 ∨ c.misc.JSTEP = 24)
    {J0 J1 : ℤ} {log0 log1 : List Ev} {st0 st1 : St _} (r0 : Reach s.cfg (s.start J0) log0 st0)
    (r1 : Reach s.cfg (s.start J1) log1 st1) (e1 : draws log1 = draws log0 + 8388608) :
    st1.world.h.IGSEED = st0.world.h.IGSEED ∧ st1.world.h.ILSEED = st0.world.h.ILSEED := by
  obtain ⟨a1, a2, _⟩ := C73_streams h hstep J0 r0
  obtain ⟨b1, b2, _⟩ := C73_streams h hstep J1 r1
  refine ⟨funext fun i => ?_, funext fun j => ?_⟩
  · rw [a1, b1, e1, stream_period (by norm_num)]
  · rw [a2, b2, e1, stream_period (by norm_num)]

/-- No two streams 32 apart are kept apart in runs of two years. -/
theorem C73_apart_refuted (i : ℕ) : ¬ Apart 123456 (i + 32) i 17520 :=
  fun h => h 0 (by norm_num) 14848 (by norm_num) (by rw [stream_shift (by norm_num)])

theorem order65539 : orderOf (65539 : ZMod 33554432) = 8388608 := by
  have h0 : ∀ k : ℕ, (65539 : ZMod 33554432) ^ k = 1 ↔ 65539 ^ k % 33554432 = 1 := by
    intro k
    have := ZMod.natCast_eq_natCast_iff' (65539 ^ k) 1 33554432
    push_cast at this
    exact this
  have : orderOf (65539 : ZMod 33554432) = 2 ^ (22 + 1) := by
    refine orderOf_eq_prime_pow ?_ ?_
    · rw [h0, pow_two_mod]
      decide +kernel
    · rw [h0]
      have := period_pow
      rwa [show 8388608 = 2 ^ (22 + 1) by norm_num] at this
  rw [this]; norm_num

/-- What holds within a stream: up to the 8388608th draw no state of a unit or line comes twice. -/
theorem C73_no_repeat_partial (i k d : ℕ) (hd : 0 < d) (hk : d < 8388608) : stream 123456 i (k + d) ≠ stream 123456 i k := by
  have ho := order65539
  intro h
  unfold stream at h
  have e : (2 : ℤ) ^ 31 = 2147483648 := by norm_num
  rw [e] at h
  have h1 : (2147483648 : ℤ) ∣ 123456 * (9649599 ^ (i + 1) * 65539 ^ k) * (65539 ^ d - 1) := by
    have := Int.ModEq.dvd (Int.ModEq.symm h)
    rw [pow_add _ k] at this
    have e' : 123456 * (9649599 ^ (i + 1) * 65539 ^ k) * (65539 ^ d - 1) =
        123456 * 9649599 ^ (i + 1) * (65539 ^ k * 65539 ^ d) - 123456 * 9649599 ^ (i + 1) * (65539 : ℤ) ^ k := by ring
    rw [e']; exact this
  have h2 : (33554432 : ℤ) ∣ 1929 * (9649599 ^ (i + 1) * 65539 ^ k) * (65539 ^ d - 1) := by
    generalize (9649599 : ℤ) ^ (i + 1) * 65539 ^ k = x at h1
    generalize (65539 : ℤ) ^ d - 1 = y at h1
    rw [mul_assoc] at h1 ⊢
    generalize x * y = z at h1
    omega
  have hc : IsCoprime (33554432 : ℤ) (1929 * (9649599 ^ (i + 1) * 65539 ^ k)) := by
    have c0 : IsCoprime (2 : ℤ) 1929 := by rw [Int.isCoprime_iff_gcd_eq_one]; decide
    have c1 : IsCoprime (2 : ℤ) 9649599 := by rw [Int.isCoprime_iff_gcd_eq_one]; decide
    have c2 : IsCoprime (2 : ℤ) 65539 := by rw [Int.isCoprime_iff_gcd_eq_one]; decide
    have : (33554432 : ℤ) = 2 ^ 25 := by norm_num
    rw [this]
    exact IsCoprime.pow_left (c0.mul_right ((c1.pow_right).mul_right c2.pow_right))
  have h3 := hc.dvd_of_dvd_mul_left h2
  have h4 : ((65539 : ZMod 33554432)) ^ d = 1 := by
    have := (ZMod.intCast_zmod_eq_zero_iff_dvd _ _).2 h3
    push_cast at this
    exact sub_eq_zero.1 this
  exact pow_ne_one_of_lt_orderOf (by omega) (by rw [ho]; exact hk) h4

end Narp.Props
