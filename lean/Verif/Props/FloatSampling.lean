import Verif.Model.FloatCode
import Verif.Lemmas.Float
import Verif.Props.Random
import Verif.Props.Sampling

/-!
# C95: the states drawn in binary64 arithmetic
-/

namespace Narp.Props
open Narp Narp.Spec

/-- One rounding near 1. -/
theorem f64_err_one {x : ℚ} (h : |x| ≤ 3 / 2) : |f64 x - x| ≤ 2 / 2 ^ 53 := by
  have h1 := f64_err_abs x
  have h2 : (2 : ℚ) ^ (-1075 : ℤ) ≤ 2 ^ (-60 : ℤ) := zpow_le_zpow_right₀ (by norm_num) (by norm_num)
  have h3 : (2 : ℚ) ^ (-60 : ℤ) ≤ (1 / 2) / 2 ^ 53 := by norm_num
  have h4 : |x| / 2 ^ 53 ≤ (3 / 2) / 2 ^ 53 := by gcongr
  have h5 : (3 / 2 : ℚ) / 2 ^ 53 + (1 / 2) / 2 ^ 53 = 2 / 2 ^ 53 := by norm_num
  exact (h1.trans (add_le_add h4 (h2.trans h3))).trans_eq h5

/-- The stored multiplier is within 2^-84 of the written one. -/
theorem mult_err : |f64 (4656613 / 10000000000000000) - 4656613 / 10000000000000000| ≤ 1 / 2 ^ 84 := by decide +kernel

/-- A variate is off by at most three roundings. -/
theorem variateF_err {s : ℤ} (h0 : 0 ≤ s) (h1 : s < 2 ^ 31) : |variateF s - variate s| ≤ 3 / 2 ^ 53 := by
  have q0 : (0 : ℚ) ≤ s := by exact_mod_cast h0
  have q1 : (s : ℚ) ≤ 2 ^ 31 := by exact_mod_cast h1.le
  have hm := mult_err
  set c := f64 (4656613 / 10000000000000000) with hc
  have e1 : |(s : ℚ) * c - variate s| ≤ 1 / 2 ^ 53 := by
    have : (s : ℚ) * c - variate s = s * (c - 4656613 / 10000000000000000) := by unfold variate; ring
    rw [this, abs_mul, abs_of_nonneg q0]
    calc (s : ℚ) * |c - 4656613 / 10000000000000000| ≤ 2 ^ 31 * (1 / 2 ^ 84) :=
          mul_le_mul q1 hm (abs_nonneg _) (by positivity)
      _ = 1 / 2 ^ 53 := by norm_num
  have hv0 : 0 ≤ variate s := by unfold variate; positivity
  have hv1 : variate s ≤ 11 / 10 := by unfold variate; linarith
  have e2 : |f64 ((s : ℚ) * c) - s * c| ≤ 2 / 2 ^ 53 := by
    apply f64_err_one
    rw [abs_le] at e1 ⊢
    constructor <;> linarith [e1.1, e1.2, (by norm_num : (1 : ℚ) / 2 ^ 53 ≤ 1 / 10)]
  have : variateF s - variate s = (f64 ((s : ℚ) * c) - s * c) + (s * c - variate s) := by unfold variateF; ring
  rw [this]
  refine (abs_add_le _ _).trans ?_
  linarith

/-- The unit thresholds are off by at most eight roundings. -/
theorem probgF_err {d f : ℚ} (hd : 0 ≤ d) (hf : 0 ≤ f) (h : d + f ≤ 1) (k : Fin 2) :
    |dataxPROBGF (f64 d) (f64 f) k - dataxPROBG d f k| ≤ 8 / 2 ^ 53 := by
  have ed := f64_err_one (x := d) (by rw [abs_of_nonneg hd]; linarith)
  have ef := f64_err_one (x := f) (by rw [abs_of_nonneg hf]; linarith)
  have sm : (8 : ℚ) / 2 ^ 53 ≤ 1 / 10 := by norm_num
  rw [abs_le] at ed ef
  fin_cases k
  · simp only [dataxPROBGF, dataxPROBG, Fin.zero_eta, Matrix.cons_val_zero]
    have es := f64_err_one (x := f64 d + f64 f) (by rw [abs_le]; constructor <;> linarith)
    rw [abs_le] at es
    have et := f64_err_one (x := 1 - f64 (f64 d + f64 f)) (by rw [abs_le]; constructor <;> linarith)
    rw [abs_le] at et ⊢
    constructor <;> linarith
  · simp only [dataxPROBGF, dataxPROBG, Fin.mk_one, Matrix.cons_val_one, Matrix.cons_val_zero]
    have et := f64_err_one (x := 1 - f64 f) (by rw [abs_le]; constructor <;> linarith)
    rw [abs_le] at et ⊢
    constructor <;> linarith

/-- Rounded running sums. -/
theorem foldF_err {ι : Type} (p : ι → ℚ) (l : List ι) (hp : ∀ j, 0 ≤ p j) :
    ∀ (a A : ℚ) (e : ℕ), 0 ≤ a → |A - a| ≤ e / 2 ^ 53 → a + (l.map p).sum ≤ 1 → e + 4 * l.length ≤ 1000 →
      |l.foldl (fun acc j => f64 (acc + f64 (p j))) A - l.foldl (fun acc j => acc + p j) a| ≤
        (e + 4 * l.length : ℕ) / 2 ^ 53 := by
  induction l with
  | nil => intro a A e _ h _ _; simpa using h
  | cons j l ih =>
    intro a A e ha h hs he
    simp only [List.foldl_cons, List.map_cons, List.sum_cons, List.length_cons] at hs he ⊢
    have hl : 0 ≤ (l.map p).sum := List.sum_nonneg (by intro x hx; obtain ⟨i, _, rfl⟩ := List.mem_map.1 hx; exact hp i)
    have hj := hp j
    have ej := f64_err_one (x := p j) (by rw [abs_of_nonneg hj]; linarith)
    have eb : (e : ℚ) / 2 ^ 53 ≤ 1 / 10 := by
      have : (e : ℚ) ≤ 1000 := by exact_mod_cast (by omega : e ≤ 1000)
      calc (e : ℚ) / 2 ^ 53 ≤ 1000 / 2 ^ 53 := by gcongr
        _ ≤ 1 / 10 := by norm_num
    have sm : (2 : ℚ) / 2 ^ 53 ≤ 1 / 10 := by norm_num
    rw [abs_le] at ej h
    have es := f64_err_one (x := A + f64 (p j)) (by rw [abs_le]; constructor <;> linarith)
    rw [abs_le] at es
    have := ih (a + p j) (f64 (A + f64 (p j))) (e + 4) (by linarith) (by
      push_cast
      rw [add_div, abs_le]
      have : (4 : ℚ) / 2 ^ 53 = 2 / 2 ^ 53 + 2 / 2 ^ 53 := by norm_num
      constructor <;> linarith) (by linarith) (by omega)
    refine this.trans (le_of_eq ?_)
    congr 2
    omega

/-- The line thresholds are off by at most 24 roundings. -/
theorem problF_err {p : Fin 6 → ℚ} (hp : ∀ j, 0 ≤ p j) (h : cumProb p 6 ≤ 1) (k : Fin 6) :
    |dataxPROBLF (fun j => f64 (p j)) k - dataxPROBL p k| ≤ 24 / 2 ^ 53 := by
  unfold dataxPROBLF dataxPROBL
  have hlen : ((List.finRange 6).take (k.val + 1)).length ≤ 6 := by
    rw [List.length_take, List.length_finRange]; omega
  have hsum : ((((List.finRange 6).take (k.val + 1))).map p).sum ≤ 1 := by
    refine le_trans ?_ h
    have a0 := hp 0; have a1 := hp 1; have a2 := hp 2; have a3 := hp 3; have a4 := hp 4; have a5 := hp 5
    fin_cases k <;> simp [cumProb, List.finRange_succ] <;> linarith
  have := foldF_err p ((List.finRange 6).take (k.val + 1)) hp 0 0 0 (le_refl _) (by simp) (by linarith) (by omega)
  refine this.trans ?_
  gcongr
  have : 0 + 4 * ((List.finRange 6).take (k.val + 1)).length ≤ 24 := by omega
  exact_mod_cast this

/-- The program's random states are 64 times an odd number, so that no variate comes nearer than 64e-16 to a number
with nine decimals. -/
theorem variate_apart {s : ℤ} (h : s % 128 = 64) (T : ℤ) : 64 / 10 ^ 16 ≤ |variate s - T / 10 ^ 9| := by
  obtain ⟨t, rfl⟩ : ∃ t, s = 64 * (2 * t + 1) := ⟨s / 128, by omega⟩
  have e : variate (64 * (2 * t + 1)) - T / 10 ^ 9 =
      64 / 10 ^ 16 * (((2 * t + 1) * 4656613 - T * 156250 : ℤ) : ℚ) := by
    unfold variate; push_cast; ring
  have h1 : (1 : ℤ) ≤ |(2 * t + 1) * 4656613 - T * 156250| := Int.one_le_abs (by omega)
  have h2 : (1 : ℚ) ≤ |(((2 * t + 1) * 4656613 - T * 156250 : ℤ) : ℚ)| := by exact_mod_cast h1
  rw [e, abs_mul, abs_of_pos (by norm_num : (0 : ℚ) < 64 / 10 ^ 16)]
  nlinarith

theorem lt_iff_of_apart {u v p q e d : ℚ} (hu : |u - v| ≤ e) (hp : |p - q| ≤ d) (h : e + d < |v - q|) :
    (u < p ↔ v < q) ∧ (u ≤ p ↔ v ≤ q) := by
  rw [abs_le] at hu hp
  rcases lt_abs.1 h with h | h
  · exact ⟨⟨fun _ => by linarith, fun _ => by linarith⟩, ⟨fun _ => by linarith, fun _ => by linarith⟩⟩
  · exact ⟨⟨fun _ => by linarith, fun _ => by linarith⟩, ⟨fun _ => by linarith, fun _ => by linarith⟩⟩

/-- C95 (units). For outage rates written with at most nine decimals, and any state of the program's generators, the
state of a unit drawn with binary64 arithmetic is the one exact arithmetic draws. -/
theorem C95_unit (a b : ℕ) (hab : a + b ≤ 10 ^ 9) {s : ℤ} (h0 : 0 ≤ s) (h1 : s < 2 ^ 31) (h : s % 128 = 64) (der : ℚ) :
    let p := dataxPROBG (a / 10 ^ 9) (b / 10 ^ 9)
    let P := dataxPROBGF (f64 (a / 10 ^ 9)) (f64 (b / 10 ^ 9))
    unitPct (P 0) (P 1) der (variateF s) = unitPct (p 0) (p 1) der (variate s) := by
  intro p P
  have q : (a : ℚ) + b ≤ 10 ^ 9 := by exact_mod_cast hab
  have qa : (0 : ℚ) ≤ a := Nat.cast_nonneg _
  have qb : (0 : ℚ) ≤ b := Nat.cast_nonneg _
  have hP := probgF_err (d := a / 10 ^ 9) (f := b / 10 ^ 9) (by positivity) (by positivity)
    (by rw [← add_div, div_le_one (by positivity)]; exact q)
  have hv := variateF_err h0 h1
  have key : ∀ k, (variateF s < P k ↔ variate s < p k) := by
    intro k
    refine (lt_iff_of_apart hv (hP k) ?_).1
    have : ∃ T : ℤ, p k = T / 10 ^ 9 := by
      fin_cases k
      · refine ⟨10 ^ 9 - (a + b), ?_⟩
        simp only [p, dataxPROBG, Fin.zero_eta, Matrix.cons_val_zero]; push_cast; ring
      · refine ⟨10 ^ 9 - b, ?_⟩
        simp only [p, dataxPROBG, Fin.mk_one, Matrix.cons_val_one, Matrix.cons_val_zero]; push_cast; ring
    obtain ⟨T, hT⟩ := this
    have := variate_apart h T
    rw [← hT] at this
    refine lt_of_lt_of_le ?_ this
    norm_num
  unfold unitPct
  simp only [key]

/-- C95 (lines). The same for lines with up to six states. -/
theorem C95_line (a : Fin 6 → ℕ) (ha : ∑ k, a k ≤ 10 ^ 9) {s : ℤ} (h0 : 0 ≤ s) (h1 : s < 2 ^ 31) (h : s % 128 = 64) :
    lineState (dataxPROBLF fun k => f64 (a k / 10 ^ 9)) (variateF s) =
      lineState (dataxPROBL fun k => a k / 10 ^ 9) (variate s) := by
  have hc : ∀ k : Fin 6, ∃ T : ℤ, dataxPROBL (fun k => (a k : ℚ) / 10 ^ 9) k = T / 10 ^ 9 := by
    intro k
    rw [(C22_thresholds.2 _).1 k]
    refine ⟨((if 0 < k.val + 1 then (a 0 : ℤ) else 0) + (if 1 < k.val + 1 then (a 1 : ℤ) else 0) +
      (if 2 < k.val + 1 then (a 2 : ℤ) else 0) + (if 3 < k.val + 1 then (a 3 : ℤ) else 0) +
      (if 4 < k.val + 1 then (a 4 : ℤ) else 0) + (if 5 < k.val + 1 then (a 5 : ℤ) else 0)), ?_⟩
    fin_cases k <;> simp [cumProb] <;> ring
  have hP := problF_err (p := fun k => (a k : ℚ) / 10 ^ 9) (fun j => by positivity) (by
    have : ((∑ k, a k : ℕ) : ℚ) ≤ 10 ^ 9 := by exact_mod_cast ha
    rw [Fin.sum_univ_six] at this
    push_cast at this
    simp only [cumProb]
    norm_num
    linarith)
  have hv := variateF_err h0 h1
  have key : ∀ k, (variateF s ≤ dataxPROBLF (fun k => f64 (a k / 10 ^ 9)) k ↔
      variate s ≤ dataxPROBL (fun k => a k / 10 ^ 9) k) := by
    intro k
    refine (lt_iff_of_apart hv (hP k) ?_).2
    obtain ⟨T, hT⟩ := hc k
    have := variate_apart h T
    rw [← hT] at this
    refine lt_of_lt_of_le ?_ this
    norm_num
  unfold lineState
  simp only [key]

/-- Every random state of the program is 64 times an odd number. -/
theorem seeds_mod (userSeed : ℤ) (NUNITS NLINES : ℕ) :
    (∀ (hist : List (UnitData NUNITS)) (i : Fin NUNITS),
      unitSeeds (fun i : Fin NUNITS => (programSeeds userSeed NUNITS NLINES).1 i) hist i % 128 = 64) ∧
    (∀ (hist : List (Fin 6 → Fin NLINES → ℚ)) (l : Fin NLINES),
      lineSeeds (fun l : Fin NLINES => (programSeeds userSeed NUNITS NLINES).2 l) hist l % 128 = 64) := by
  have e : (2 : ℤ) ^ 31 = 2147483648 := by norm_num
  obtain ⟨a1, a2⟩ := C13_streams (JSEED := 123456) (by norm_num) (by norm_num) NUNITS NLINES
  have odd : ∀ a b : ℕ, (9649599 ^ a * 65539 ^ b : ℤ) % 2 = 1 := by
    intro a b
    rw [Int.mul_emod, Int.odd_iff.1 (Odd.pow (by decide)),
      Int.odd_iff.1 (Odd.pow (by decide))]
    rfl
  have fin : ∀ (a b : ℕ) (x : ℤ), x = (123456 * (9649599 ^ a * 65539 ^ b)) % 2147483648 → x % 128 = 64 := by
    intro a b x hx
    have := odd a b
    generalize (9649599 : ℤ) ^ a * 65539 ^ b = c at this hx
    omega
  refine ⟨?_, ?_⟩
  · intro hist i
    simp only [programSeeds]
    have h := a1 i i.2
    rw [e] at h
    have hx := unitSeeds_eq hist (fun i : Fin NUNITS => (seeder 123456 NUNITS NLINES).1 i) i
      (by rw [h]; omega) (by rw [h]; omega)
    refine fin (i + 1) hist.length _ ?_
    rw [hx, h, Int.mul_emod, Int.emod_emod_of_dvd _ (dvd_refl _), ← Int.mul_emod, mul_assoc]
  · intro hist l
    simp only [programSeeds]
    have h := a2 l l.2
    rw [e] at h
    have hx := lineSeeds_eq hist (fun l : Fin NLINES => (seeder 123456 NUNITS NLINES).2 l) l
      (by rw [h]; omega) (by rw [h]; omega)
    refine fin (NUNITS + l + 1) hist.length _ ?_
    rw [hx, h, Int.mul_emod, Int.emod_emod_of_dvd _ (dvd_refl _), ← Int.mul_emod, mul_assoc]

/-- C95. The states of units and lines drawn in a run of the program. Whatever has been drawn before, with outage rates
and line state probabilities written with at most nine decimals, the next draw in binary64 arithmetic gives every unit
and every line the state that exact arithmetic gives it, and leaves the same random states; the available capacity is
the exact one rounded once. -/
theorem C95_states (userSeed : ℤ) (NUNITS NLINES : ℕ) (hist : List (UnitData NUNITS))
    (lhist : List (Fin 6 → Fin NLINES → ℚ)) (a b : Fin NUNITS → ℕ) (hab : ∀ i, a i + b i ≤ 10 ^ 9)
    (q : Fin NLINES → Fin 6 → ℕ) (hq : ∀ l, ∑ k, q l k ≤ 10 ^ 9) (RATING DERATE PLNDST : Fin NUNITS → ℚ)
    (hpl : ∀ i, PLNDST i = 0 ∨ PLNDST i = 1) :
    let S := unitSeeds (fun i : Fin NUNITS => (programSeeds userSeed NUNITS NLINES).1 i) hist
    let L := lineSeeds (fun l : Fin NLINES => (programSeeds userSeed NUNITS NLINES).2 l) lhist
    let gF := gstateF S (fun i => dataxPROBGF (f64 (a i / 10 ^ 9)) (f64 (b i / 10 ^ 9))) RATING DERATE PLNDST
    let g := gstate S (fun i => dataxPROBG (a i / 10 ^ 9) (b i / 10 ^ 9)) RATING DERATE PLNDST
    gF.1 = g.1 ∧ gF.2.1 = g.2.1 ∧ (∀ i, gF.2.2 i = f64 (g.2.2 i)) ∧
      lstateF L (fun k l => dataxPROBLF (fun k => f64 (q l k / 10 ^ 9)) k) =
        lstate L (fun k l => dataxPROBL (fun k => q l k / 10 ^ 9) k) := by
  intro S L gF g
  obtain ⟨m1, m2⟩ := seeds_mod userSeed NUNITS NLINES
  have st : ∀ x : ℤ, x % 128 = 64 → 0 ≤ mul31 65539 x ∧ mul31 65539 x < 2 ^ 31 ∧ mul31 65539 x % 128 = 64 := by
    intro x hx; rw [mul31_eq]; omega
  have hpct : gF.2.1 = g.2.1 := by
    funext i
    obtain ⟨h0, h1, h2⟩ := st (S i) (m1 hist i)
    exact C95_unit (a i) (b i) (hab i) h0 h1 h2 (DERATE i)
  refine ⟨rfl, hpct, fun i => ?_, ?_⟩
  · have h := congrFun hpct i
    have e1 : gF.2.2 i = f64 (f64 (gF.2.1 i * RATING i) * PLNDST i) := rfl
    have e2 : g.2.2 i = g.2.1 i * RATING i * PLNDST i := rfl
    rw [e1, e2, h]
    rcases hpl i with h | h <;> rw [h]
    · simp [f64_zero]
    · rw [mul_one, mul_one, f64_f64]
  · refine Prod.ext rfl ?_
    funext l
    obtain ⟨h0, h1, h2⟩ := st (L l) (m2 lhist l)
    exact C95_line (q l) (hq l) h0 h1 h2

/-- rates 0.05 and 0.1, probabilities 0.9, 0.06, 0.04 -/
example : (∀ i : Fin 2, (fun _ => 50000000 : Fin 2 → ℕ) i + (fun _ => 100000000 : Fin 2 → ℕ) i ≤ 10 ^ 9) ∧
    ∑ k, (![900000000, 60000000, 40000000, 0, 0, 0] : Fin 6 → ℕ) k ≤ 10 ^ 9 := by decide

/-- The hypotheses about the generator are needed: for the outage rate 0.1954405 and another state of a generator of
this kind the two arithmetics draw different states. -/
theorem C95_other_seed_refuted : ∃ s : ℤ, 0 < s ∧ s < 2 ^ 31 ∧
    unitPct (dataxPROBGF (f64 0) (f64 0.1954405) 0) (dataxPROBGF (f64 0) (f64 0.1954405) 1) 1 (variateF s) ≠
      unitPct (dataxPROBG 0 0.1954405 0) (dataxPROBG 0 0.1954405 1) 1 (variate s) :=
  ⟨1727778323, by norm_num, by norm_num, by decide +kernel⟩

end Narp.Props
