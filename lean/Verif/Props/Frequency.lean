import Verif.Props.Streams
import Verif.Props.CardBalance
import Verif.Spec.Frequency
import Mathlib.Data.Int.CardIntervalMod
import Mathlib.Data.Finset.Card
import Mathlib.Data.Rat.Floor

/-!
# C105: over a full period of the generator every unit and line is in each state as often as its card says
-/

namespace Narp.Props
open Narp Narp.Spec

theorem pow7 {b : ℕ} (hb : b % 8 = 7) (k : ℕ) : b ^ k % 8 = 1 ∨ b ^ k % 8 = 7 := by
  induction k with
  | zero => left; rw [pow_zero]; rfl
  | succ k ih =>
    rw [pow_succ, Nat.mul_mod, hb]
    rcases ih with h | h <;> rw [h] <;> norm_num

theorem pow3 {b : ℕ} (hb : b % 8 = 3) (k : ℕ) : b ^ k % 8 = 1 ∨ b ^ k % 8 = 3 := by
  induction k with
  | zero => left; rw [pow_zero]; rfl
  | succ k ih =>
    rw [pow_succ, Nat.mul_mod, hb]
    rcases ih with h | h <;> rw [h] <;> norm_num

theorem class_aux {x a b z : ℤ} {i k M N : ℕ} {A B : ℕ} (hx : x = M * (N : ℤ)) (ha : a = A) (hb : b = B) (hM : 0 < M) (hz : z = M * (33554432 : ℤ)) :
    (x * a ^ (i + 1) * b ^ k) % z = M * ((N * A ^ (i + 1) * B ^ k % 33554432 : ℕ) : ℤ) := by
  subst hx ha hb hz
  push_cast
  rw [show (M : ℤ) * N * (A : ℤ) ^ (i + 1) * (B : ℤ) ^ k = M * (N * (A : ℤ) ^ (i + 1) * (B : ℤ) ^ k) by ring,
    Int.mul_emod_mul_of_pos _ _ (by exact_mod_cast hM)]

/-- The states of a stream of the program are 64 times an odd residue whose class modulo 8 is `a` or `3 a`. -/
theorem stream_class (i k : ℕ) : ∃ y : ℕ, stream 123456 i k = 64 * (y : ℤ) ∧ y < 33554432 ∧
    (y % 8 = 1929 * 9649599 ^ (i + 1) % 8 ∨ y % 8 = 3 * (1929 * 9649599 ^ (i + 1)) % 8) := by
  refine ⟨1929 * 9649599 ^ (i + 1) * 65539 ^ k % 33554432, ?_, Nat.mod_lt _ (by norm_num), ?_⟩
  · unfold stream
    exact class_aux (x := 123456) (a := 9649599) (b := 65539) (z := 2 ^ 31) (M := 64) (N := 1929) (A := 9649599)
      (B := 65539) (i := i) (k := k) (by norm_num) rfl rfl (by norm_num) (by norm_num)
  · rw [Nat.mod_mod_of_dvd _ (by norm_num)]
    have h3 := pow3 (b := 65539) (by norm_num) k
    generalize 1929 * 9649599 ^ (i + 1) = z
    generalize 65539 ^ k = w at h3 ⊢
    rcases h3 with h | h
    · left; rw [Nat.mul_mod, h]; simp
    · right; rw [Nat.mul_mod, h, Nat.mul_comm 3 z, Nat.mul_mod z 3]

theorem class_odd (i : ℕ) : 1929 * 9649599 ^ (i + 1) % 8 = 1 ∨ 1929 * 9649599 ^ (i + 1) % 8 = 7 := by
  rw [Nat.mul_mod]
  rcases pow7 (b := 9649599) (by norm_num) (i + 1) with h | h <;> rw [h] <;> norm_num

/-- The residues below `t` in the two classes. -/
def hits (a t : ℕ) : Finset ℕ := {y ∈ Finset.range t | y % 8 = a % 8 ∨ y % 8 = 3 * a % 8}

theorem hits_card {a : ℕ} (ha : a % 8 = 1 ∨ a % 8 = 7) (t : ℕ) :
    (hits a t).card = 2 * (t / 8) + (if a % 8 < t % 8 then 1 else 0) + (if 3 * a % 8 < t % 8 then 1 else 0) := by
  unfold hits
  rw [Finset.filter_or, Finset.card_union_of_disjoint, ← Nat.count_eq_card_filter_range, ← Nat.count_eq_card_filter_range]
  · have h1 := Nat.count_modEq_card t (r := 8) (by norm_num) a
    have h2 := Nat.count_modEq_card t (r := 8) (by norm_num) (3 * a)
    have h1' : Nat.count (fun y => y % 8 = a % 8) t = t / 8 + if a % 8 < t % 8 then 1 else 0 := by
      rw [← h1]; congr
    have h2' : Nat.count (fun y => y % 8 = 3 * a % 8) t = t / 8 + if 3 * a % 8 < t % 8 then 1 else 0 := by
      rw [← h2]; congr
    rw [h1', h2']
    omega
  · rw [Finset.disjoint_filter]
    intro y _ h
    omega

/-- In a period, exactly the residues of the two classes below `t` come below `t`. -/
theorem below_count {K : ℕ} (hK : K = 8388608) (i k t : ℕ) (ht : t ≤ 33554432) :
    howOften k K (fun j => stream 123456 i j < 64 * (t : ℤ)) = (hits (1929 * 9649599 ^ (i + 1)) t).card := by
  have ha := class_odd i
  choose y hy hlt hcl using fun j => stream_class i (k + j)
  generalize 1929 * 9649599 ^ (i + 1) = a at ha hcl
  have hinj : Set.InjOn y (Finset.range K : Finset ℕ) := by
    intro j hj j' hj' e
    simp only [Finset.coe_range, Set.mem_Iio] at hj hj'
    have e2 : stream 123456 i (k + j) = stream 123456 i (k + j') := by rw [hy, hy, e]
    rcases lt_trichotomy j j' with h | h | h
    · exact absurd (show stream 123456 i (k + j + (j' - j)) = stream 123456 i (k + j) by
        rw [show k + j + (j' - j) = k + j' by omega, e2]) (C73_no_repeat_partial i (k + j) (j' - j) (by omega) (by omega))
    · exact h
    · exact absurd (show stream 123456 i (k + j' + (j - j')) = stream 123456 i (k + j') by
        rw [show k + j' + (j - j') = k + j by omega, e2]) (C73_no_repeat_partial i (k + j') (j - j') (by omega) (by omega))
  have himg : (Finset.range K).image y = hits a 33554432 := by
    refine Finset.eq_of_subset_of_card_le ?_ ?_
    · intro z hz
      obtain ⟨j, _, rfl⟩ := Finset.mem_image.1 hz
      unfold hits
      exact Finset.mem_filter.2 ⟨Finset.mem_range.2 (hlt j), hcl j⟩
    · rw [Finset.card_image_of_injOn hinj, Finset.card_range, hits_card ha, hK]
      norm_num
  have e : (hits a t) = {j ∈ Finset.range K | stream 123456 i (k + j) < 64 * (t : ℤ)}.image y := by
    ext z
    constructor
    · intro hz
      have hz' : z ∈ hits a 33554432 := by
        unfold hits at hz ⊢
        rw [Finset.mem_filter, Finset.mem_range] at hz ⊢
        exact ⟨by omega, hz.2⟩
      rw [← himg] at hz'
      obtain ⟨j, hj, rfl⟩ := Finset.mem_image.1 hz'
      unfold hits at hz
      rw [Finset.mem_filter, Finset.mem_range] at hz
      exact Finset.mem_image.2 ⟨j, Finset.mem_filter.2 ⟨hj, by rw [hy]; omega⟩, rfl⟩
    · intro hz
      obtain ⟨j, hj, rfl⟩ := Finset.mem_image.1 hz
      rw [Finset.mem_filter, hy] at hj
      unfold hits
      exact Finset.mem_filter.2 ⟨Finset.mem_range.2 (by omega), hcl j⟩
  rw [e, Finset.card_image_of_injOn]
  · rfl
  · exact hinj.mono fun j hj => by
      rw [Finset.mem_coe] at hj ⊢
      exact (Finset.mem_filter.1 hj).1

theorem hits_near {a : ℕ} (ha : a % 8 = 1 ∨ a % 8 = 7) (t : ℕ) :
    (t : ℚ) / 4 - 5 / 4 ≤ ((hits a t).card : ℚ) ∧ ((hits a t).card : ℚ) ≤ t / 4 + 1 := by
  have h := hits_card ha t
  have h4 : t ≤ 4 * (hits a t).card + 5 ∧ 4 * (hits a t).card ≤ t + 4 := by
    rw [h]
    rcases ha with h | h <;> split_ifs <;> omega
  have h1 : (t : ℚ) ≤ 4 * ((hits a t).card : ℚ) + 5 := by exact_mod_cast h4.1
  have h2 : 4 * ((hits a t).card : ℚ) ≤ t + 4 := by exact_mod_cast h4.2
  constructor <;> linarith

/-- Any question about a random number that is answered by a threshold `x < q` or `x ≤ q` with `q` in [0,1] is
answered with yes in a period as often as `q` says, up to 3/2 draws. -/
theorem threshold_count {K : ℕ} (hK : K = 8388608) (i k : ℕ) {q : ℚ} (h0 : 0 ≤ q) (h1 : q ≤ 1) (p : ℕ → Prop) [DecidablePred p]
    (hp : (∀ j, p j ↔ number (stream 123456 i j) < q) ∨ (∀ j, p j ↔ number (stream 123456 i j) ≤ q)) :
    AsOftenAs (howOften k K p) K q (3 / 2) := by
  have hC : (0 : ℚ) ≤ q * (10 ^ 16 / 4656613) / 64 := by positivity
  set r := q * (10 ^ 16 / 4656613) / 64 with hr
  have hr1 : r ≤ 33554432 - 1 / 2 := by
    rw [hr]
    norm_num
    linarith
  have key : ∃ t : ℕ, t ≤ 33554432 ∧ r ≤ t ∧ (t : ℚ) ≤ r + 1 ∧ ∀ j, p j ↔ stream 123456 i j < 64 * (t : ℤ) := by
    rcases hp with hp | hp
    · refine ⟨⌈r⌉₊, ?_, Nat.le_ceil r, (Nat.ceil_lt_add_one hC).le, fun j => ?_⟩
      · rw [Nat.ceil_le]; push_cast; linarith
      · rw [hp]
        obtain ⟨y, hy, _⟩ := stream_class i j
        rw [hy, number_lt]
        have : (64 * (y : ℤ) < 64 * ((⌈r⌉₊ : ℕ) : ℤ)) ↔ (y : ℚ) < r := by
          rw [← Nat.lt_ceil]; omega
        rw [this, hr]
        push_cast
        constructor <;> intro h <;> linarith
    · refine ⟨⌊r⌋₊ + 1, ?_, ?_, ?_, fun j => ?_⟩
      · have : ⌊r⌋₊ < 33554432 := by rw [Nat.floor_lt hC]; push_cast; linarith
        omega
      · push_cast; exact (Nat.lt_floor_add_one r).le
      · push_cast; linarith [Nat.floor_le hC]
      · rw [hp]
        obtain ⟨y, hy, _⟩ := stream_class i j
        have hn : number (stream 123456 i j) ≤ q ↔ ((stream 123456 i j : ℤ) : ℚ) ≤ q * (10 ^ 16 / 4656613) := by
          unfold number
          constructor <;> intro h <;> linarith
        rw [hn, hy]
        have : (64 * (y : ℤ) < 64 * ((⌊r⌋₊ + 1 : ℕ) : ℤ)) ↔ (y : ℚ) ≤ r := by
          rw [← Nat.le_floor_iff hC]; omega
        rw [this, hr]
        push_cast
        constructor <;> intro h <;> linarith
  obtain ⟨t, t1, t2, t3, t4⟩ := key
  have hN : howOften k K p = (hits (1929 * 9649599 ^ (i + 1)) t).card := by
    rw [← below_count hK i k t t1]
    unfold howOften
    congr 1
    exact Finset.filter_congr fun j _ => t4 _
  obtain ⟨n1, n2⟩ := hits_near (class_odd i) t
  unfold AsOftenAs
  rw [hN]
  generalize ((hits (1929 * 9649599 ^ (i + 1)) t).card : ℚ) = N at n1 n2
  rw [abs_le]
  have e1 : r / 4 ≤ q * 8388608 := by
    rw [hr]; norm_num; linarith
  have e2 : q * 8388608 - 1 / 4 ≤ r / 4 := by
    rw [hr]; norm_num; linarith
  have hKq : (K : ℚ) = 8388608 := by rw [hK]; norm_num
  rw [hKq]
  constructor <;> linarith


theorem howOften_congr {k K : ℕ} {p q : ℕ → Prop} [DecidablePred p] [DecidablePred q] (h : ∀ j, p j ↔ q j) :
    howOften k K p = howOften k K q := by
  unfold howOften
  congr 1
  exact Finset.filter_congr fun j _ => h _

theorem howOften_not (k K : ℕ) (p : ℕ → Prop) [DecidablePred p] :
    (howOften k K (fun j => ¬ p j) : ℚ) = K - howOften k K p := by
  have := Finset.card_filter_add_card_filter_not (s := Finset.range K) (fun j => p (k + j))
  rw [Finset.card_range] at this
  unfold howOften
  have : ((Finset.card {j ∈ Finset.range K | p (k + j)} : ℕ) : ℚ) + (Finset.card {j ∈ Finset.range K | ¬ p (k + j)} : ℕ) = K := by
    exact_mod_cast this
  linarith

theorem howOften_diff (k K : ℕ) (p q : ℕ → Prop) [DecidablePred p] [DecidablePred q] (h : ∀ j, p j → q j) :
    (howOften k K (fun j => q j ∧ ¬ p j) : ℚ) = howOften k K q - howOften k K p := by
  have := Finset.card_filter_add_card_filter_not (s := {j ∈ Finset.range K | q (k + j)}) (fun j => p (k + j))
  rw [Finset.filter_filter, Finset.filter_filter] at this
  have e : {j ∈ Finset.range K | q (k + j) ∧ p (k + j)} = {j ∈ Finset.range K | p (k + j)} :=
    Finset.filter_congr fun j _ => ⟨fun x => x.2, fun x => ⟨h _ x, x⟩⟩
  rw [e] at this
  unfold howOften
  have : ((Finset.card {j ∈ Finset.range K | p (k + j)} : ℕ) : ℚ) +
      (Finset.card {j ∈ Finset.range K | q (k + j) ∧ ¬ p (k + j)} : ℕ) = (Finset.card {j ∈ Finset.range K | q (k + j)} : ℕ) := by
    exact_mod_cast this
  linarith

/-- C105 (units). Of any 8388608 successive draws (the full period of the generator) unit `i` of the program, whatever
its outage rates, spends as many at full capacity, derated and out as the rates say, up to 3 draws. -/
theorem C105_unit_frequency (i k : ℕ) {dfor fout : ℚ} (hd : 0 ≤ dfor) (hf : 0 ≤ fout) (hs : dfor + fout ≤ 1) {K : ℕ} (hK : K = 8388608) :
    AsOftenAs (howOften k K fun j => unitState dfor fout (number (stream 123456 i j)) = .full) K
      (1 - fout - dfor) 2 ∧
    AsOftenAs (howOften k K fun j => unitState dfor fout (number (stream 123456 i j)) = .derated) K dfor 3 ∧
    AsOftenAs (howOften k K fun j => unitState dfor fout (number (stream 123456 i j)) = .out) K fout 2 := by
  have a1 := threshold_count hK i k (q := 1 - fout - dfor) (by linarith) (by linarith)
    (fun j => number (stream 123456 i j) < 1 - fout - dfor) (.inl fun j => Iff.rfl)
  have a2 := threshold_count hK i k (q := 1 - fout) (by linarith) (by linarith)
    (fun j => number (stream 123456 i j) < 1 - fout) (.inl fun j => Iff.rfl)
  have e1 : howOften k K (fun j => unitState dfor fout (number (stream 123456 i j)) = .full) =
      howOften k K (fun j => number (stream 123456 i j) < 1 - fout - dfor) :=
    howOften_congr fun j => by unfold unitState; split_ifs <;> simp_all
  have e2 : howOften k K (fun j => unitState dfor fout (number (stream 123456 i j)) = .derated) =
      howOften k K (fun j => number (stream 123456 i j) < 1 - fout ∧ ¬ number (stream 123456 i j) < 1 - fout - dfor) :=
    howOften_congr fun j => by unfold unitState; split_ifs <;> simp_all
  have e3 : howOften k K (fun j => unitState dfor fout (number (stream 123456 i j)) = .out) =
      howOften k K (fun j => ¬ number (stream 123456 i j) < 1 - fout) :=
    howOften_congr fun j => by
      unfold unitState
      split_ifs with h1 h2 <;> simp only [false_iff, true_iff, not_not]
      · linarith
      · exact h2
      · exact h2
  rw [e1, e2, e3]
  unfold AsOftenAs at a1 a2 ⊢
  rw [howOften_diff _ _ _ _ (fun j h => by linarith), howOften_not]
  rw [abs_le] at a1 a2 ⊢
  rw [abs_le, abs_le]
  refine ⟨⟨?_, ?_⟩, ⟨?_, ?_⟩, ⟨?_, ?_⟩⟩ <;> linarith [a1.1, a1.2, a2.1, a2.2]

/-- C105 (lines). The same for the states of a line of the program (the lines follow the `m` units). -/
theorem C105_line_frequency (m i k : ℕ) (g : LineCard) (h0 : ∀ q, 0 ≤ g.prob q) (h1 : cumProb g.prob 6 = 1) (q : Fin 6) {K : ℕ}
    (hK : K = 8388608) :
    AsOftenAs (howOften k K fun j => lineIn g (number (stream 123456 (m + i) j)) q) K (g.prob q) 3 := by
  have hmono : ∀ a : ℕ, a ≤ 5 → cumProb g.prob (a + 1) = cumProb g.prob a + g.prob (Fin.ofNat 6 a) := by
    intro a ha
    interval_cases a <;> simp [cumProb] <;> rfl
  have hsmall : cumProb g.prob 0 = 0 := by simp [cumProb]
  have hb : ∀ a ≤ 6, 0 ≤ cumProb g.prob a ∧ cumProb g.prob a ≤ 1 := by
    intro a ha
    have := h0 0; have := h0 1; have := h0 2; have := h0 3; have := h0 4; have := h0 5
    rw [show cumProb g.prob 6 = g.prob 0 + g.prob 1 + g.prob 2 + g.prob 3 + g.prob 4 + g.prob 5 by simp [cumProb]] at h1
    interval_cases a <;> simp [cumProb] <;> try constructor
    all_goals linarith
  have hc : ∀ a ≤ 6, AsOftenAs (howOften k K fun j => number (stream 123456 (m + i) j) ≤ cumProb g.prob a) K
      (cumProb g.prob a) (3 / 2) := fun a ha =>
    threshold_count hK (m + i) k (hb a ha).1 (hb a ha).2 _ (.inr fun j => Iff.rfl)
  have hq := hmono q (by omega)
  rw [show (Fin.ofNat 6 (q : ℕ)) = q by ext; simp] at hq
  by_cases hq0 : q.val = 0
  · have e : howOften k K (fun j => lineIn g (number (stream 123456 (m + i) j)) q) =
        howOften k K (fun j => number (stream 123456 (m + i) j) ≤ cumProb g.prob (q + 1)) :=
      howOften_congr fun j => by unfold lineIn; simp [hq0]
    have := hc (q + 1) (by omega)
    rw [e]
    rw [hq0, hsmall] at hq
    rw [hq0] at this ⊢
    unfold AsOftenAs at this ⊢
    rw [hq, zero_add] at this
    rw [hq, zero_add]
    exact this.trans (by norm_num)
  by_cases hq5 : q.val = 5
  · have e : howOften k K (fun j => lineIn g (number (stream 123456 (m + i) j)) q) =
        howOften k K (fun j => ¬ number (stream 123456 (m + i) j) ≤ cumProb g.prob q) :=
      howOften_congr fun j => by unfold lineIn; simp [hq5]
    have := hc q (by omega)
    rw [e]
    unfold AsOftenAs at this ⊢
    rw [howOften_not]
    rw [show (q : ℕ) + 1 = 6 by omega, h1] at hq
    have hv : cumProb g.prob q = 1 - g.prob q := by linarith
    rw [hv] at this ⊢
    push_cast at this ⊢
    rw [abs_le] at this ⊢
    constructor <;> linarith [this.1, this.2]
  · have e : howOften k K (fun j => lineIn g (number (stream 123456 (m + i) j)) q) =
        howOften k K (fun j => number (stream 123456 (m + i) j) ≤ cumProb g.prob (q + 1) ∧
          ¬ number (stream 123456 (m + i) j) ≤ cumProb g.prob q) :=
      howOften_congr fun j => by unfold lineIn; simp [hq0, hq5, and_comm]
    have b1 := hc q (by omega)
    have b2 := hc (q + 1) (by omega)
    rw [e]
    unfold AsOftenAs at b1 b2 ⊢
    rw [howOften_diff _ _ _ _ (fun j h => by have := h0 q; rw [hq]; linarith)]
    rw [hq] at b2 ⊢
    push_cast at b1 b2 ⊢
    rw [abs_le] at b1 b2 ⊢
    constructor <;> linarith [b1.1, b1.2, b2.1, b2.2]

variable {n m l : ℕ} {sl : ℕ → ℚ → ℚ} {fuel : ℕ} {c : Cards n m l} {s : Setup n m l}

/-- C105 (in the runs of the program). For every accepted input, unit, and stretch of 8388608 successive draws of a
run (`st j` is the state before the `j`-th draw of the stretch), the shares of its capacity that the unit delivers
add up to what its card says on average, up to 3/2 draws. -/
theorem C105_run_mean (h : setup sl fuel c = .ok s) (hstep : c.misc.JSTEP = 1 ∨ c.misc.JSTEP = 24) (i : Fin m)
    (hd : 0 ≤ (c.units i).dfor) (hf : 0 ≤ (c.units i).fout) (hs : (c.units i).dfor + (c.units i).fout ≤ 1)
    (hder : 0 ≤ (c.units i).der ∧ (c.units i).der ≤ 100) (JSEED : ℤ) (k : ℕ) {K : ℕ} (hK : K = 8388608)
    (log : ℕ → List Ev) (st : ℕ → St _)
    (hr : ∀ j < K, Reach s.cfg (s.start JSEED) (log j) (st j)) (hk : ∀ j < K, draws (log j) = k + j) :
    |∑ j ∈ Finset.range K, nextShare s (st j) i -
      K * (1 - (c.units i).fout - (c.units i).dfor * ((c.units i).der / 100))| ≤ 3 / 2 := by
  set dfor := (c.units i).dfor
  set fout := (c.units i).fout
  set der := (c.units i).der
  have a1 := threshold_count hK i (k + 1) (q := 1 - fout - dfor) (by linarith) (by linarith)
    (fun j => number (stream 123456 i j) < 1 - fout - dfor) (.inl fun j => Iff.rfl)
  have a2 := threshold_count hK i (k + 1) (q := 1 - fout) (by linarith) (by linarith)
    (fun j => number (stream 123456 i j) < 1 - fout) (.inl fun j => Iff.rfl)
  have e : ∑ j ∈ Finset.range K, nextShare s (st j) i =
      der / 100 * howOften (k + 1) K (fun j => number (stream 123456 i j) < 1 - fout - dfor) +
      (1 - der / 100) * howOften (k + 1) K (fun j => number (stream 123456 i j) < 1 - fout) := by
    unfold howOften
    rw [Finset.card_filter, Finset.card_filter]
    push_cast
    rw [Finset.mul_sum, Finset.mul_sum, ← Finset.sum_add_distrib]
    refine Finset.sum_congr rfl fun j hj => ?_
    rw [nextShare_eq h hstep (hr j (Finset.mem_range.1 hj)), hk j (Finset.mem_range.1 hj),
      show k + j + 1 = k + 1 + j by omega]
    show unitFraction der (unitState dfor fout _) = _
    generalize number (stream 123456 i (k + 1 + j)) = u
    unfold unitState
    by_cases h1 : u < 1 - fout - dfor
    · rw [if_pos h1, if_pos h1, if_pos (by linarith)]
      simp only [unitFraction]; ring
    · rw [if_neg h1, if_neg h1]
      by_cases h2 : u < 1 - fout
      · rw [if_pos h2, if_pos h2]; simp only [unitFraction]; ring
      · rw [if_neg h2, if_neg h2]; simp only [unitFraction]; ring
  rw [e]
  unfold AsOftenAs at a1 a2
  generalize (howOften (k + 1) K (fun j => number (stream 123456 i j) < 1 - fout - dfor) : ℚ) = N1 at a1 ⊢
  generalize (howOften (k + 1) K (fun j => number (stream 123456 i j) < 1 - fout) : ℚ) = N2 at a2 ⊢
  rw [abs_le] at a1 a2 ⊢
  have hδ : 0 ≤ der / 100 ∧ der / 100 ≤ 1 := ⟨by have := hder.1; positivity, by have := hder.2; linarith⟩
  generalize der / 100 = δ at hδ ⊢
  constructor <;> nlinarith [a1.1, a1.2, a2.1, a2.2, mul_le_mul_of_nonneg_left a1.1 hδ.1,
    mul_le_mul_of_nonneg_left a1.2 hδ.1, mul_le_mul_of_nonneg_left a2.1 (sub_nonneg.2 hδ.2),
    mul_le_mul_of_nonneg_left a2.2 (sub_nonneg.2 hδ.2)]

end Narp.Props
