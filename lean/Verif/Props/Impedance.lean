import Verif.Props.Network
import Mathlib.Tactic.LinearCombination

/-!
# C36 and C51: the impedance matrix, its updates, and when it exists
-/

namespace Narp.Props
open Narp.Spec BigOperators Matrix

variable {n m : ℕ}

/-- The admittance matrix of the network without the reference area. -/
def reduced (LP : LEnds n m) (b : Fin m → ℚ) (NR : Fin (n + 1)) : Matrix (Fin n) (Fin n) ℚ :=
  fun a c => nodal LP b (NR.succAbove a) (NR.succAbove c)

/-- All admittances have the same sign (they are negative in this program's data). -/
def SameSign (b : Fin m → ℚ) : Prop := (∀ i, b i < 0) ∨ ∀ i, 0 < b i

/-- Angles of all areas from those of the others, zero at the reference area. -/
def extend (NR : Fin (n + 1)) (v : Fin n → ℚ) : Fin (n + 1) → ℚ := NR.insertNth (α := fun _ => ℚ) 0 v

theorem extend_ref (NR : Fin (n + 1)) (v : Fin n → ℚ) : extend NR v NR = 0 := by
  simp [extend]

theorem extend_other (NR : Fin (n + 1)) (v : Fin n → ℚ) (a : Fin n) : extend NR v (NR.succAbove a) = v a := by
  simp [extend]

theorem nodal_mulVec (LP : LEnds n m) (hp : Proper LP) (b : Fin m → ℚ) (θ : Fin (n + 1) → ℚ) (a : Fin (n + 1)) :
    ∑ c, nodal LP b a c * θ c = ∑ i, b i * inc LP i a * (θ (LP i).1 - θ (LP i).2) := by
  simp only [nodal_eq LP hp, Finset.sum_mul]
  rw [Finset.sum_comm]
  refine Finset.sum_congr rfl fun i _ => ?_
  rw [← inc_dot, Finset.mul_sum]
  exact Finset.sum_congr rfl fun c _ => by ring

theorem reduced_mulVec (LP : LEnds n m) (b : Fin m → ℚ) (NR : Fin (n + 1)) (v : Fin n → ℚ) (a : Fin n) :
    (reduced LP b NR *ᵥ v) a = ∑ c, nodal LP b (NR.succAbove a) c * extend NR v c := by
  rw [Fin.sum_univ_succAbove _ NR, extend_ref, mul_zero, zero_add]
  simp only [extend_other]
  rfl

/-- The quadratic form of the network is the sum of the line terms. -/
theorem quad (LP : LEnds n m) (hp : Proper LP) (b : Fin m → ℚ) (NR : Fin (n + 1)) (v : Fin n → ℚ) :
    ∑ a, v a * (reduced LP b NR *ᵥ v) a =
      ∑ i, b i * (extend NR v (LP i).1 - extend NR v (LP i).2) ^ 2 := by
  have h : ∑ a, v a * (reduced LP b NR *ᵥ v) a =
      ∑ x, extend NR v x * ∑ c, nodal LP b x c * extend NR v c := by
    rw [Fin.sum_univ_succAbove _ NR, extend_ref, zero_mul, zero_add]
    exact Finset.sum_congr rfl fun a _ => by rw [extend_other, reduced_mulVec]
  rw [h]
  simp only [nodal_mulVec LP hp, Finset.mul_sum]
  rw [Finset.sum_comm]
  refine Finset.sum_congr rfl fun i _ => ?_
  have := inc_dot LP i (extend NR v)
  calc ∑ x, extend NR v x * (b i * inc LP i x * (extend NR v (LP i).1 - extend NR v (LP i).2))
      = b i * (extend NR v (LP i).1 - extend NR v (LP i).2) * ∑ x, inc LP i x * extend NR v x := by
        rw [Finset.mul_sum]
        exact Finset.sum_congr rfl fun x _ => by ring
    _ = _ := by rw [this]; ring

/-- In a connected network with admittances of one sign the reduced matrix is non-singular. -/
theorem reduced_det_ne {LP : LEnds n m} (hp : Proper LP) {b : Fin m → ℚ} (hb : SameSign b) {NR : Fin (n + 1)}
    (hr : Reaches LP NR) : (reduced LP b NR).det ≠ 0 := by
  intro hdet
  obtain ⟨v, hv, h0⟩ := Matrix.exists_mulVec_eq_zero_iff.2 hdet
  apply hv
  have hq := quad LP hp b NR v
  rw [h0] at hq
  simp only [Pi.zero_apply, mul_zero, Finset.sum_const_zero] at hq
  have hz : ∀ i, b i * (extend NR v (LP i).1 - extend NR v (LP i).2) ^ 2 = 0 := by
    rcases hb with h | h
    · have := (Finset.sum_eq_zero_iff_of_nonpos (s := Finset.univ)
        (f := fun i => b i * (extend NR v (LP i).1 - extend NR v (LP i).2) ^ 2)
        (fun i _ => mul_nonpos_of_nonpos_of_nonneg (h i).le (sq_nonneg _))).1 hq.symm
      exact fun i => this i (Finset.mem_univ i)
    · have := (Finset.sum_eq_zero_iff_of_nonneg (s := Finset.univ)
        (f := fun i => b i * (extend NR v (LP i).1 - extend NR v (LP i).2) ^ 2)
        (fun i _ => mul_nonneg (h i).le (sq_nonneg _))).1 hq.symm
      exact fun i => this i (Finset.mem_univ i)
  have hne : ∀ i, b i ≠ 0 := fun i => by
    rcases hb with h | h
    · exact (h i).ne
    · exact (h i).ne'
  have heq : ∀ i, extend NR v (LP i).1 = extend NR v (LP i).2 := fun i => by
    have := (mul_eq_zero.1 (hz i)).resolve_left (hne i)
    have := pow_eq_zero_iff (two_ne_zero) |>.1 this
    linarith
  have hall : ∀ a, extend NR v a = 0 := fun a => by
    have := hr a
    induction this with
    | refl => exact extend_ref NR v
    | tail _ h ih =>
      obtain ⟨i, h | h⟩ := h
      · rw [← h.2, ← heq i, h.1]; exact ih
      · rw [← h.1, heq i, h.2]; exact ih
  funext a
  rw [← extend_other NR v a, hall]
  rfl

open Classical in
/-- If some area cannot be reached from the reference area the reduced matrix is singular. -/
theorem reduced_det_zero {LP : LEnds n m} (hp : Proper LP) (b : Fin m → ℚ) {NR : Fin (n + 1)}
    (hr : ¬ Reaches LP NR) : (reduced LP b NR).det = 0 := by
  unfold Reaches at hr
  push Not at hr
  obtain ⟨z, hz⟩ := hr
  set R := fun a => Relation.ReflTransGen (fun x y => ∃ i, joins LP i x y) NR a with hR
  have hlink : ∀ i, R (LP i).1 ↔ R (LP i).2 := fun i =>
    ⟨fun h => h.tail ⟨i, Or.inl ⟨rfl, rfl⟩⟩, fun h => h.tail ⟨i, Or.inr ⟨rfl, rfl⟩⟩⟩
  have hNR : R NR := Relation.ReflTransGen.refl
  obtain ⟨z', hz'⟩ := Fin.exists_succAbove_eq (show z ≠ NR by rintro rfl; exact hz hNR)
  let v : Fin n → ℚ := fun a => if R (NR.succAbove a) then 0 else 1
  have hv : ∀ x, extend NR v x = if R x then 0 else 1 := fun x => by
    by_cases h : x = NR
    · subst h
      rw [extend_ref, if_pos hNR]
    · obtain ⟨c, rfl⟩ := Fin.exists_succAbove_eq h
      rw [extend_other]
  refine Matrix.exists_mulVec_eq_zero_iff.1 ⟨v, fun h0 => ?_, ?_⟩
  · have := congrFun h0 z'
    simp only [v, hz', Pi.zero_apply] at this
    rw [if_neg (show ¬ R z from hz)] at this
    exact one_ne_zero this
  · funext a
    rw [reduced_mulVec, nodal_mulVec LP hp]
    refine Finset.sum_eq_zero fun i _ => ?_
    rw [hv, hv]
    by_cases h : R (LP i).1
    · rw [if_pos h, if_pos ((hlink i).1 h)]; ring
    · rw [if_neg h, if_neg (fun h' => h ((hlink i).2 h'))]; ring

theorem reduced_symm (LP : LEnds n m) (hp : Proper LP) (b : Fin m → ℚ) (NR : Fin (n + 1)) :
    (reduced LP b NR)ᵀ = reduced LP b NR := by
  ext a c
  exact nodal_symm LP hp b _ _

theorem blk_admitr {LP : LEnds n m} (hp : Proper LP) (b : Fin m → ℚ) (NR : Fin (n + 1)) :
    blk (admitrB (admitb LP b) NR) = reduced LP b NR := by
  funext a c
  unfold blk reduced
  rw [(C37_reduced _ NR).1, C34_nodal hp]

theorem npInv_ok {A : Matrix (Fin n) (Fin n) ℚ} (h : A.det ≠ 0) :
    ∃ Z, npInv A = .ok Z ∧ A * Z = 1 := by
  refine ⟨_, if_neg h, ?_⟩
  rw [Matrix.mul_smul, Matrix.mul_adjugate, smul_smul, inv_mul_cancel₀ h, one_smul]

theorem npInv_spec {A Z : Matrix (Fin n) (Fin n) ℚ} (h : npInv A = .ok Z) : A.det ≠ 0 ∧ A * Z = 1 := by
  unfold npInv at h
  split at h
  · cases h
  · rename_i hd
    cases h
    refine ⟨hd, ?_⟩
    rw [Matrix.mul_smul, Matrix.mul_adjugate, smul_smul, inv_mul_cancel₀ hd, one_smul]

theorem blk_pad (Z : Matrix (Fin n) (Fin n) ℚ) : blk (padM Z) = Z := by
  funext a c
  simp [blk, padM]

/-! ### The dimension computed from the line data -/

theorem foldl_max_leN (l : List ℕ) : ∀ x y, l.foldl max x ≤ y ↔ x ≤ y ∧ ∀ z ∈ l, z ≤ y := by
  induction l with
  | nil => intro x y; simp
  | cons a l ih =>
    intro x y
    rw [List.foldl_cons, ih]
    simp only [List.mem_cons, forall_eq_or_imp, max_le_iff, and_assoc]

theorem le_foldl_maxN (l : List ℕ) (x : ℕ) : x ≤ l.foldl max x ∧ ∀ z ∈ l, z ≤ l.foldl max x := by
  have := (foldl_max_leN l x (l.foldl max x)).1 le_rfl
  exact this

theorem lineDim_eq {LP : LEnds n m} : lineDim LP = .ok (n + 1) ↔ ∃ i, touches LP i (Fin.last n) := by
  unfold lineDim
  have hb : ∀ i, max (LP i).1.val (LP i).2.val ≤ n := fun i => by
    have := (LP i).1.isLt; have := (LP i).2.isLt; omega
  constructor
  · intro h
    split at h
    · cases h
    · rename_i x xs hx
      simp only [Except.ok.injEq] at h
      by_contra hc
      unfold touches at hc
      push Not at hc
      have hlt : ∀ z ∈ x :: xs, z ≤ n - 1 ∧ z < n := fun z hz => by
        rw [← hx] at hz
        obtain ⟨i, -, rfl⟩ := List.mem_map.1 hz
        have h1 := (hc i).1
        have h2 := (hc i).2
        have := (LP i).1.isLt
        have := (LP i).2.isLt
        have e1 : (LP i).1.val ≠ n := fun e => h1 (Fin.ext e)
        have e2 : (LP i).2.val ≠ n := fun e => h2 (Fin.ext e)
        omega
      have hx0 := hlt x (by simp)
      have := (foldl_max_leN xs x (n - 1)).2 ⟨hx0.1, fun z hz => (hlt z (by simp [hz])).1⟩
      omega
  · rintro ⟨i, hi⟩
    have hmem : n ∈ (List.finRange m).map (fun i => max (LP i).1.val (LP i).2.val) := by
      refine List.mem_map.2 ⟨i, List.mem_finRange i, ?_⟩
      have := hb i
      rcases hi with h | h
      · have : (LP i).1.val = n := by rw [h]; rfl
        omega
      · have : (LP i).2.val = n := by rw [h]; rfl
        omega
    have hall : ∀ z ∈ (List.finRange m).map (fun i => max (LP i).1.val (LP i).2.val), z ≤ n := fun z hz => by
      obtain ⟨i, -, rfl⟩ := List.mem_map.1 hz
      exact hb i
    split
    · rename_i hx; rw [hx] at hmem; cases hmem
    · rename_i x xs hx
      rw [hx] at hmem hall
      have h1 := (foldl_max_leN xs x n).2 ⟨hall x (by simp), fun z hz => hall z (by simp [hz])⟩
      have h2 := le_foldl_maxN xs x
      have : n ≤ xs.foldl max x := by
        rcases List.mem_cons.1 hmem with e | e
        · have := h2.1; omega
        · exact h2.2 n e
      congr 1
      omega

theorem reaches_touch {LP : LEnds n m} {NR a : Fin (n + 1)} (hr : Reaches LP NR) (hn : 0 < n) :
    ∃ i, touches LP i a := by
  have key : ∀ x, x ≠ NR → ∃ i, touches LP i x := fun x hx => by
    cases hr x with
    | refl => exact absurd rfl hx
    | tail _ h =>
      obtain ⟨i, h | h⟩ := h
      · exact ⟨i, Or.inr h.2⟩
      · exact ⟨i, Or.inl h.1⟩
  by_cases ha : a = NR
  · subst ha
    obtain ⟨x, hx⟩ : ∃ x : Fin (n + 1), x ≠ a :=
      ⟨a.succAbove ⟨0, hn⟩, Fin.succAbove_ne a _⟩
    have := hr x
    rcases Relation.ReflTransGen.cases_head this with h | ⟨c, ⟨i, h⟩, -⟩
    · exact absurd h.symm hx
    · rcases h with h | h
      · exact ⟨i, Or.inl h.1⟩
      · exact ⟨i, Or.inr h.2⟩
  · exact key a ha

/-- C51: with at least two areas, lines between different areas and admittances of one sign, the network
matrices can be built if and only if every area is connected with the reference area; otherwise the
program stops with an error. -/
theorem C51_connected {LP : LEnds n m} (hn : 0 < n) (hp : Proper LP) {b : Fin m → ℚ} (hb : SameSign b)
    (NR : Fin (n + 1)) : (∃ o, tm1 LP b NR = .ok o) ↔ Reaches LP NR := by
  constructor
  · rintro ⟨o, ho⟩
    by_contra hr
    have hd := reduced_det_zero hp b hr
    unfold tm1 at ho
    cases hl : lineDim LP with
    | error e => rw [hl] at ho; cases ho
    | ok d =>
      rw [hl] at ho
      simp only [bind, Except.bind] at ho
      split at ho
      · rw [blk_admitr hp] at ho
        unfold npInv at ho
        rw [if_pos hd] at ho
        cases ho
      · cases ho
  · intro hr
    have hdim : lineDim LP = .ok (n + 1) := lineDim_eq.2 (reaches_touch hr hn)
    obtain ⟨Z, hZ, -⟩ := npInv_ok (reduced_det_ne hp hb hr)
    refine ⟨{ BLP0 := b, BB := admitrB (admitb LP b) NR, LT := admitrLT id NR, ZB := padM Z }, ?_⟩
    unfold tm1
    rw [hdim]
    simp only [bind, Except.bind, if_true, blk_admitr hp, hZ]
    rfl

/-- What the network matrices are when they can be built: `ZB` is the inverse of the reduced admittance
matrix (padded with a zero row and column) and `LT` is the map of C37. -/
theorem C51_inverse {LP : LEnds n m} (hp : Proper LP) {b : Fin m → ℚ} {NR : Fin (n + 1)} {o : Tm1Out n m}
    (h : tm1 LP b NR = .ok o) : o.BLP0 = b ∧ blk o.BB = reduced LP b NR ∧
      reduced LP b NR * blk o.ZB = 1 ∧ o.LT = admitrLT id NR ∧ o.BB = admitrB (admitb LP b) NR ∧
      ∀ x, o.ZB (Fin.last n) x = 0 ∧ o.ZB x (Fin.last n) = 0 := by
  unfold tm1 at h
  cases hl : lineDim LP with
  | error e => rw [hl] at h; cases h
  | ok d =>
    rw [hl] at h
    simp only [bind, Except.bind] at h
    split at h
    · cases hZ : npInv (blk (admitrB (admitb LP b) NR)) with
      | error e => rw [hZ] at h; cases h
      | ok Z =>
        rw [hZ] at h
        cases h
        have := (npInv_spec hZ).2
        refine ⟨rfl, blk_admitr hp b NR, ?_, rfl, rfl, fun x => ⟨?_, ?_⟩⟩
        · rw [← blk_admitr hp b NR]
          show _ * blk (padM Z) = 1
          rw [blk_pad]; exact this
        · simp [padM]
        · simp [padM]
    · cases h

/-! ### Rank-one updates -/

/-- Sherman-Morrison: if `Z` is the (symmetric) inverse of `A` and `A + β v vᵀ` is not singular, its inverse
is `Z - (Z v)(Z v)ᵀ / (vᵀ Z v + 1/β)`. -/
theorem sherman {A Z : Matrix (Fin n) (Fin n) ℚ} (hAZ : A * Z = 1) (hZ : Zᵀ = Z) {v : Fin n → ℚ} {β : ℚ}
    (hβ : β ≠ 0) (hdet : (A + β • vecMulVec v v).det ≠ 0) :
    (v ⬝ᵥ (Z *ᵥ v) + 1 / β ≠ 0) ∧
    (A + β • vecMulVec v v) * (Z - (1 / (v ⬝ᵥ (Z *ᵥ v) + 1 / β)) • vecMulVec (Z *ᵥ v) (Z *ᵥ v)) = 1 := by
  have hAw : A *ᵥ (Z *ᵥ v) = v := by rw [Matrix.mulVec_mulVec, hAZ, Matrix.one_mulVec]
  have hvZ : v ᵥ* Z = Z *ᵥ v := by
    conv_lhs => rw [← hZ]
    rw [Matrix.vecMul_transpose]
  generalize hw : Z *ᵥ v = w at *
  generalize hs : v ⬝ᵥ w = s
  have hD : s + 1 / β ≠ 0 := by
    intro h0
    apply hdet
    refine Matrix.exists_mulVec_eq_zero_iff.1 ⟨w, fun h => ?_, ?_⟩
    · rw [h] at hs
      rw [dotProduct_zero] at hs
      rw [← hs, zero_add] at h0
      exact hβ (by simpa using h0)
    · rw [Matrix.add_mulVec, hAw, Matrix.smul_mulVec, Matrix.vecMulVec_mulVec, hs]
      funext a
      simp only [Pi.add_apply, Pi.smul_apply, Pi.zero_apply, smul_eq_mul, MulOpposite.smul_eq_mul_unop,
        MulOpposite.unop_op]
      have : s * β = -1 := by
        field_simp at h0
        linarith
      calc v a + β * (v a * s) = v a * (1 + s * β) := by ring
        _ = 0 := by rw [this]; ring
  refine ⟨hD, ?_⟩
  rw [Matrix.add_mul, Matrix.mul_sub, Matrix.mul_sub, hAZ, Matrix.mul_smul, Matrix.mul_vecMulVec, hAw,
    Matrix.smul_mul, Matrix.vecMulVec_mul, hvZ, Matrix.smul_mul, Matrix.mul_smul,
    Matrix.vecMulVec_mul_vecMulVec, hs]
  ext a c
  simp only [Matrix.add_apply, Matrix.sub_apply, Matrix.smul_apply, vecMulVec_apply, Pi.smul_apply,
    smul_eq_mul]
  have key : β - 1 / (s + 1 / β) - β * (1 / (s + 1 / β)) * s = 0 := by
    generalize hD' : s + 1 / β = D at hD
    have hs' : s = D - 1 / β := by rw [← hD']; ring
    rw [hs']
    field_simp
    ring
  linear_combination (v a * w c) * key

theorem inv_symm {A Z : Matrix (Fin n) (Fin n) ℚ} (hA : Aᵀ = A) (h : A * Z = 1) : Zᵀ = Z := by
  have h' : Zᵀ * A = 1 := by
    have := congrArg Matrix.transpose h
    rw [Matrix.transpose_mul, hA, Matrix.transpose_one] at this
    exact this
  calc Zᵀ = Zᵀ * (A * Z) := by rw [h, Matrix.mul_one]
    _ = Z := by rw [← Matrix.mul_assoc, h', Matrix.one_mul]

/-- The vector of a line between the areas `p` and `q` of the reduced network. -/
def ev (p q : Fin n) : Fin n → ℚ := fun a => (if a = p then 1 else 0) - if a = q then 1 else 0

/-- The vector of a line between the area `p` and the reference area. -/
def e1 (p : Fin n) : Fin n → ℚ := fun a => if a = p then 1 else 0

theorem mulVec_ev (Z : Matrix (Fin n) (Fin n) ℚ) (p q a : Fin n) : (Z *ᵥ ev p q) a = Z a p - Z a q := by
  simp only [Matrix.mulVec, dotProduct, ev, mul_sub, Finset.sum_sub_distrib, mul_ite, mul_one, mul_zero]
  simp

theorem ev_dot (w : Fin n → ℚ) (p q : Fin n) : ev p q ⬝ᵥ w = w p - w q := by
  simp only [dotProduct, ev, sub_mul, Finset.sum_sub_distrib, ite_mul, one_mul, zero_mul]
  simp

theorem mulVec_e1 (Z : Matrix (Fin n) (Fin n) ℚ) (p a : Fin n) : (Z *ᵥ e1 p) a = Z a p := by
  simp [Matrix.mulVec, dotProduct, e1]

theorem e1_dot (w : Fin n → ℚ) (p : Fin n) : e1 p ⬝ᵥ w = w p := by
  simp [dotProduct, e1]

theorem blk_admitm (BB : NMat n) {p q : Fin n} (hpq : p ≠ q) (β : ℚ) :
    blk (admitm BB p.castSucc q.castSucc β) = blk BB + β • vecMulVec (ev p q) (ev p q) := by
  have hqp := hpq.symm
  funext a c
  simp only [blk, admitm, put_apply, Matrix.add_apply, Matrix.smul_apply, vecMulVec_apply, smul_eq_mul, ev,
    Fin.castSucc_inj]
  by_cases h1 : a = p
  · subst h1
    by_cases h2 : c = a
    · subst h2; simp [hpq]
    · by_cases h3 : c = q
      · subst h3; simp [hpq, hqp]; ring
      · simp [hpq, h2, h3]
  · by_cases h2 : a = q
    · subst h2
      by_cases h3 : c = p
      · subst h3; simp [hpq, hqp]; ring
      · by_cases h4 : c = a
        · subst h4; simp [hqp]
        · simp [hqp, h3, h4]
    · simp [h1, h2]

theorem blk_admref (BB : NMat n) (p : Fin n) (β : ℚ) :
    blk (admref BB p.castSucc β) = blk BB + β • vecMulVec (e1 p) (e1 p) := by
  funext a c
  simp only [blk, admref, put_apply, Matrix.add_apply, Matrix.smul_apply, vecMulVec_apply, smul_eq_mul, e1,
    Fin.castSucc_inj]
  by_cases h1 : a = p <;> by_cases h2 : c = p <;> simp [h1, h2]

theorem blk_ximpa {ZB : NMat n} (hs : (blk ZB)ᵀ = blk ZB) (p q : Fin n) (ζ : ℚ) :
    blk (ximpa ZB ζ p.castSucc q.castSucc) = blk ZB -
      (1 / (ev p q ⬝ᵥ (blk ZB *ᵥ ev p q) - ζ)) • vecMulVec (blk ZB *ᵥ ev p q) (blk ZB *ᵥ ev p q) := by
  funext a c
  have hpq : ZB q.castSucc p.castSucc = ZB p.castSucc q.castSucc :=
    congrFun (congrFun hs p) q
  simp only [Matrix.sub_apply, Matrix.smul_apply, vecMulVec_apply, smul_eq_mul, mulVec_ev, ev_dot]
  simp only [blk, ximpa]
  rw [hpq]
  have e : ZB p.castSucc p.castSucc - ZB p.castSucc q.castSucc -
      (ZB p.castSucc q.castSucc - ZB q.castSucc q.castSucc) - ζ =
      ZB p.castSucc p.castSucc + ZB q.castSucc q.castSucc - 2 * ZB p.castSucc q.castSucc - ζ := by ring
  rw [e]
  ring

theorem blk_ximpar (ZB : NMat n) (p : Fin n) (ζ : ℚ) :
    blk (ximpar ZB ζ p.castSucc) = blk ZB -
      (1 / (e1 p ⬝ᵥ (blk ZB *ᵥ e1 p) - ζ)) • vecMulVec (blk ZB *ᵥ e1 p) (blk ZB *ᵥ e1 p) := by
  funext a c
  simp only [Matrix.sub_apply, Matrix.smul_apply, vecMulVec_apply, smul_eq_mul, mulVec_e1, e1_dot]
  simp only [blk, ximpar]
  ring

/-- C36: when the admittance of a line between two non-reference areas changes by `β`, the updated impedance
matrix is the inverse of the updated admittance matrix, whenever the latter is not singular. -/
theorem C36_line {BB ZB : NMat n} (hB : (blk BB)ᵀ = blk BB) (h : blk BB * blk ZB = 1) {p q : Fin n}
    (hpq : p ≠ q) {β : ℚ} (hβ : β ≠ 0) (hdet : (blk (admitm BB p.castSucc q.castSucc β)).det ≠ 0) :
    blk (admitm BB p.castSucc q.castSucc β) * blk (ximpa ZB (-1 / β) p.castSucc q.castSucc) = 1 := by
  have hZ := inv_symm hB h
  rw [blk_admitm BB hpq] at hdet ⊢
  rw [blk_ximpa hZ]
  have := (sherman h hZ hβ hdet).2
  rw [show ev p q ⬝ᵥ (blk ZB *ᵥ ev p q) - -1 / β = ev p q ⬝ᵥ (blk ZB *ᵥ ev p q) + 1 / β by ring]
  exact this

/-- C36: the same for a line at the reference area, which changes one diagonal element. -/
theorem C36_ref {BB ZB : NMat n} (hB : (blk BB)ᵀ = blk BB) (h : blk BB * blk ZB = 1) {p : Fin n}
    {β : ℚ} (hβ : β ≠ 0) (hdet : (blk (admref BB p.castSucc β)).det ≠ 0) :
    blk (admref BB p.castSucc β) * blk (ximpar ZB (-1 / β) p.castSucc) = 1 := by
  have hZ := inv_symm hB h
  rw [blk_admref BB] at hdet ⊢
  rw [blk_ximpar]
  have := (sherman h hZ hβ hdet).2
  rw [show e1 p ⬝ᵥ (blk ZB *ᵥ e1 p) - -1 / β = e1 p ⬝ᵥ (blk ZB *ᵥ e1 p) + 1 / β by ring]
  exact this

/-! ### The update loop over the lines -/

/-- Writes at different places: what is found at a place written. -/
theorem scatter_hit {α ι β : Type} [DecidableEq α] {key : ι → α} (hk : Function.Injective key) (val : ι → β)
    (l : List ι) : ∀ (f : α → β), l.Nodup → ∀ i ∈ l,
    (l.foldl (fun f i => fun a => if a = key i then val i else f a) f) (key i) = val i := by
  induction l with
  | nil => intro f _ i hi; cases hi
  | cons j l ih =>
    intro f hnd i hi
    rw [List.foldl_cons]
    rw [List.nodup_cons] at hnd
    by_cases h : i ∈ l
    · exact ih _ hnd.2 i h
    · have hij : i = j := (List.mem_cons.1 hi).resolve_right h
      subst hij
      have miss : ∀ (l : List ι) (f : α → β), i ∉ l →
          (l.foldl (fun f i => fun a => if a = key i then val i else f a) f) (key i) = f (key i) := by
        intro l
        induction l with
        | nil => intro f _; rfl
        | cons k l ih =>
          intro f h
          rw [List.foldl_cons, ih _ (fun h' => h (List.mem_cons_of_mem _ h'))]
          exact if_neg (fun e => h (by rw [hk e]; exact List.mem_cons_self))
      rw [miss l _ h]
      exact if_pos rfl

theorem scatter_miss {α ι β : Type} [DecidableEq α] (key : ι → α) (val : ι → β)
    (l : List ι) : ∀ (f : α → β) (a : α), (∀ i ∈ l, a ≠ key i) →
    (l.foldl (fun f i => fun a => if a = key i then val i else f a) f) a = f a := by
  induction l with
  | nil => intro f a _; rfl
  | cons j l ih =>
    intro f a h
    rw [List.foldl_cons, ih _ a (fun i hi => h i (List.mem_cons_of_mem _ hi))]
    exact if_neg (h j List.mem_cons_self)

theorem LT_cast (NR : Fin (n + 1)) (a : Fin n) : admitrLT id NR a.castSucc = NR.succAbove a :=
  (C37_map NR).2.2.1 a

theorem LT_last (NR : Fin (n + 1)) : admitrLT id NR (Fin.last n) = NR := (C37_map NR).2.1

/-- The position table inverts the index map. -/
theorem ieq_other (NR : Fin (n + 1)) (a : Fin n) : ieq (admitrLT id NR) NR (NR.succAbove a) = a.castSucc := by
  unfold ieq
  rw [if_neg (Fin.succAbove_ne NR a)]
  have := scatter_hit (key := fun i : Fin n => admitrLT id NR i.castSucc)
    (fun x y h => by simp only [LT_cast] at h; exact Fin.succAbove_right_injective h)
    (fun i : Fin n => i.castSucc) (List.finRange n) (fun _ => 0) (List.nodup_finRange n) a (List.mem_finRange a)
  rw [LT_cast] at this
  exact this

theorem ieq_ref (NR : Fin (n + 1)) : ieq (admitrLT id NR) NR NR = Fin.last n := by
  unfold ieq; exact if_pos rfl

/-- The vector of line `i` in the reduced network. -/
def rinc (LP : LEnds n m) (NR : Fin (n + 1)) (i : Fin m) : Fin n → ℚ := fun a => inc LP i (NR.succAbove a)

theorem reduced_update {LP : LEnds n m} (hp : Proper LP) (b : Fin m → ℚ) (NR : Fin (n + 1)) (i : Fin m) (δ : ℚ) :
    reduced LP (Function.update b i (b i + δ)) NR =
      reduced LP b NR + δ • vecMulVec (rinc LP NR i) (rinc LP NR i) := by
  ext a c
  simp only [reduced, Matrix.add_apply, Matrix.smul_apply, vecMulVec_apply, smul_eq_mul, rinc]
  rw [nodal_eq LP hp, nodal_eq LP hp]
  have h : ∀ j, Function.update b i (b i + δ) j = b j + if j = i then δ else 0 := fun j => by
    by_cases hj : j = i
    · subst hj; simp
    · simp [hj]
  simp only [h, add_mul, Finset.sum_add_distrib, ite_mul, zero_mul]
  simp
  ring

theorem rinc_line {LP : LEnds n m} {NR : Fin (n + 1)} {i : Fin m} {p q : Fin n}
    (h1 : (LP i).1 = NR.succAbove p) (h2 : (LP i).2 = NR.succAbove q) : rinc LP NR i = ev p q := by
  funext a
  simp only [rinc, inc, ev, h1, h2, Fin.succAbove_right_injective.eq_iff]

theorem rinc_ref {LP : LEnds n m} {NR : Fin (n + 1)} {i : Fin m} {p : Fin n}
    (h : ((LP i).1 = NR.succAbove p ∧ (LP i).2 = NR) ∨ ((LP i).1 = NR ∧ (LP i).2 = NR.succAbove p)) :
    vecMulVec (rinc LP NR i) (rinc LP NR i) = vecMulVec (e1 p) (e1 p) := by
  ext a c
  simp only [vecMulVec_apply, rinc, inc, e1]
  rcases h with ⟨h1, h2⟩ | ⟨h1, h2⟩
  · simp only [h1, h2, Fin.succAbove_right_injective.eq_iff, Fin.succAbove_ne, if_false, sub_zero]
  · simp only [h1, h2, Fin.succAbove_right_injective.eq_iff, Fin.succAbove_ne, if_false, zero_sub,
      neg_mul_neg]

/-- `ZB` is the padded inverse of the reduced matrix of the network with admittances `b`. -/
structure ZOk (LP : LEnds n m) (NR : Fin (n + 1)) (b : Fin m → ℚ) (ZB : NMat n) : Prop where
  inv : reduced LP b NR * blk ZB = 1
  last : ∀ x, ZB (Fin.last n) x = 0 ∧ ZB x (Fin.last n) = 0

theorem blk_setBlk (M Z : NMat n) : blk (setBlk M Z) = blk Z := by
  funext a c
  simp [blk, setBlk]

theorem setBlk_last (M Z : NMat n) (x : Fin (n + 1)) :
    setBlk M Z (Fin.last n) x = M (Fin.last n) x ∧ setBlk M Z x (Fin.last n) = M x (Fin.last n) := by
  simp [setBlk]

/-- One impedance update for a line between non-reference areas. -/
theorem ZOk.line {LP : LEnds n m} (hp : Proper LP) {NR : Fin (n + 1)} {b : Fin m → ℚ} {ZB : NMat n}
    (h : ZOk LP NR b ZB) {i : Fin m} {p q : Fin n} (h1 : (LP i).1 = NR.succAbove p)
    (h2 : (LP i).2 = NR.succAbove q) {δ : ℚ} (hδ : δ ≠ 0)
    (hdet : (reduced LP (Function.update b i (b i + δ)) NR).det ≠ 0) :
    ZOk LP NR (Function.update b i (b i + δ)) (setBlk ZB (ximpa ZB (-1 / δ) p.castSucc q.castSucc)) := by
  have hZ := inv_symm (reduced_symm LP hp b NR) h.inv
  refine ⟨?_, fun x => ?_⟩
  · rw [reduced_update hp, rinc_line h1 h2] at hdet ⊢
    rw [blk_setBlk, blk_ximpa hZ]
    have := (sherman h.inv hZ hδ hdet).2
    rw [show ev p q ⬝ᵥ (blk ZB *ᵥ ev p q) - -1 / δ = ev p q ⬝ᵥ (blk ZB *ᵥ ev p q) + 1 / δ by ring]
    exact this
  · rw [(setBlk_last _ _ x).1, (setBlk_last _ _ x).2]
    exact h.last x

/-- One impedance update for a line at the reference area. -/
theorem ZOk.ref {LP : LEnds n m} (hp : Proper LP) {NR : Fin (n + 1)} {b : Fin m → ℚ} {ZB : NMat n}
    (h : ZOk LP NR b ZB) {i : Fin m} {p : Fin n}
    (hi : ((LP i).1 = NR.succAbove p ∧ (LP i).2 = NR) ∨ ((LP i).1 = NR ∧ (LP i).2 = NR.succAbove p))
    {δ : ℚ} (hδ : δ ≠ 0) (hdet : (reduced LP (Function.update b i (b i + δ)) NR).det ≠ 0) :
    ZOk LP NR (Function.update b i (b i + δ)) (setBlk ZB (ximpar ZB (-1 / δ) p.castSucc)) := by
  have hZ := inv_symm (reduced_symm LP hp b NR) h.inv
  refine ⟨?_, fun x => ?_⟩
  · rw [reduced_update hp, rinc_ref hi] at hdet ⊢
    rw [blk_setBlk, blk_ximpar]
    have := (sherman h.inv hZ hδ hdet).2
    rw [show e1 p ⬝ᵥ (blk ZB *ᵥ e1 p) - -1 / δ = e1 p ⬝ᵥ (blk ZB *ᵥ e1 p) + 1 / δ by ring]
    exact this
  · rw [(setBlk_last _ _ x).1, (setBlk_last _ _ x).2]
    exact h.last x

theorem update_twice (b : Fin m → ℚ) (i : Fin m) (x y : ℚ) :
    Function.update (Function.update b i (b i + x)) i ((Function.update b i (b i + x)) i + y)
      = Function.update b i (b i + x + y) := by
  simp

theorem sameSign_update {b : Fin m → ℚ} {i : Fin m} {x : ℚ} (hb : SameSign b) (hx : b i < 0 ↔ x < 0)
    (h0 : x ≠ 0) : SameSign (Function.update b i x) := by
  rcases hb with h | h
  · left
    intro j
    by_cases hj : j = i
    · subst hj; simp only [Function.update_self]; exact hx.1 (h j)
    · rw [Function.update_of_ne hj]; exact h j
  · right
    intro j
    by_cases hj : j = i
    · subst hj
      simp only [Function.update_self]
      rcases lt_trichotomy x 0 with h1 | h1 | h1
      · exact absurd (hx.2 h1) (not_lt.2 (h j).le)
      · exact absurd h1 h0
      · exact h1
    · rw [Function.update_of_ne hj]; exact h j

/-- One pass of the loop: the impedance matrix follows the new admittance of the line. -/
theorem lineStep_Z {LP : LEnds n m} (hp : Proper LP) {NR : Fin (n + 1)} (hr : Reaches LP NR)
    {b b0 bt : Fin m → ℚ} (hst : SameSign bt) {i : Fin m} (hti : bt i = b0 i) (hsgn : b0 i < 0 ↔ b i < 0)
    (hbi : b i ≠ 0) {s : NMat n × NMat n} (h : ZOk LP NR bt s.2) :
    ZOk LP NR (Function.update bt i (b i)) (lineStep LP b b0 (ieq (admitrLT id NR) NR) NR s i).2 := by
  have h00 : b0 i ≠ 0 := by
    rw [← hti]
    rcases hst with h | h
    · exact (h i).ne
    · exact (h i).ne'
  -- the two intermediate networks
  have hs1 : SameSign (Function.update bt i (bt i + b i)) := by
    rw [hti]
    apply sameSign_update hst
    · rw [hti]
      constructor
      · intro h'; have := hsgn.1 h'; linarith
      · intro h'
        by_contra hc
        have h1 : 0 < b0 i := lt_of_le_of_ne (not_lt.1 hc) h00.symm
        have h2 : 0 < b i := lt_of_le_of_ne (not_lt.1 (fun h'' => hc (hsgn.2 h''))) hbi.symm
        linarith
    · intro h0
      rcases lt_or_gt_of_ne h00 with h1 | h1
      · have := hsgn.1 h1; linarith
      · have h2 : 0 < b i := lt_of_le_of_ne (not_lt.1 (fun h'' => absurd (hsgn.2 h'') (not_lt.2 h1.le))) hbi.symm
        linarith
  have hs2 : SameSign (Function.update bt i (b i)) := by
    apply sameSign_update hst _ hbi
    rw [hti]; exact hsgn
  have hd1 := reduced_det_ne hp hs1 hr
  have hd2 := reduced_det_ne hp hs2 hr
  have e2 : Function.update (Function.update bt i (bt i + b i)) i
      ((Function.update bt i (bt i + b i)) i + -b0 i) = Function.update bt i (b i) := by
    rw [update_twice, hti]
    congr 1
    ring
  unfold lineStep
  split
  · rename_i he
    rw [he, ← hti, Function.update_eq_self]
    exact h
  · split
    · rename_i hne hnr
      obtain ⟨p, hp1⟩ := Fin.exists_succAbove_eq hnr.1
      obtain ⟨q, hq1⟩ := Fin.exists_succAbove_eq hnr.2
      simp only [← hp1, ← hq1, ieq_other]
      have a1 := h.line hp hp1.symm hq1.symm hbi hd1
      have a2 := a1.line hp hp1.symm hq1.symm (neg_ne_zero.2 h00) (by rw [e2]; exact hd2)
      rw [e2] at a2
      exact a2
    · rename_i hne hnr
      have hcase : ∃ p : Fin n, (if (LP i).1 = NR then (LP i).2 else (LP i).1) = NR.succAbove p ∧
          (((LP i).1 = NR.succAbove p ∧ (LP i).2 = NR) ∨ ((LP i).1 = NR ∧ (LP i).2 = NR.succAbove p)) := by
        by_cases h1 : (LP i).1 = NR
        · have h2 : (LP i).2 ≠ NR := fun e => hp i (h1.trans e.symm)
          obtain ⟨p, hp1⟩ := Fin.exists_succAbove_eq h2
          exact ⟨p, by rw [if_pos h1, hp1], Or.inr ⟨h1, hp1.symm⟩⟩
        · have h2 : (LP i).2 = NR := by
            by_contra hc
            exact hnr ⟨h1, hc⟩
          obtain ⟨p, hp1⟩ := Fin.exists_succAbove_eq h1
          exact ⟨p, by rw [if_neg h1, hp1], Or.inl ⟨hp1.symm, h2⟩⟩
      obtain ⟨p, hNI, hends⟩ := hcase
      simp only [hNI, ieq_other, List.foldl_cons, List.foldl_nil]
      have a1 := h.ref hp hends hbi hd1
      have a2 := a1.ref hp hends (neg_ne_zero.2 h00) (by rw [e2]; exact hd2)
      rw [e2] at a2
      exact a2

theorem lineUpdates_Z {LP : LEnds n m} (hp : Proper LP) {NR : Fin (n + 1)} (hr : Reaches LP NR)
    {b b0 : Fin m → ℚ} (hsgn : ∀ i, b0 i < 0 ↔ b i < 0) (hb : ∀ i, b i ≠ 0) (l : List (Fin m)) :
    ∀ (bt : Fin m → ℚ) (s : NMat n × NMat n), l.Nodup → SameSign bt → (∀ i ∈ l, bt i = b0 i) → ZOk LP NR bt s.2 →
    ZOk LP NR (fun i => if i ∈ l then b i else bt i)
      (l.foldl (lineStep LP b b0 (ieq (admitrLT id NR) NR) NR) s).2 := by
  induction l with
  | nil => intro bt s _ _ _ h; simpa using h
  | cons i l ih =>
    intro bt s hnd hst hbt h
    rw [List.nodup_cons] at hnd
    have hti := hbt i List.mem_cons_self
    have h1 := lineStep_Z hp hr hst hti (hsgn i) (hb i) h
    have hst' : SameSign (Function.update bt i (b i)) := by
      apply sameSign_update hst _ (hb i)
      rw [hti]; exact hsgn i
    have := ih _ _ hnd.2 hst' (fun j hj => by
      rw [Function.update_of_ne (fun e => hnd.1 (by rw [← e]; exact hj))]
      exact hbt j (List.mem_cons_of_mem _ hj)) h1
    rw [List.foldl_cons]
    convert this using 1
    funext j
    by_cases hj : j = i
    · subst hj
      simp [hnd.1]
    · simp [hj]

/-- C36 (whole network): starting from the impedance matrix of the intact network, after the update loop the
impedance matrix is the inverse of the reduced admittance matrix of the network with the admittances in the
sampled line states, for any combination of changed lines, at the reference area or not. -/
theorem C36_network {LP : LEnds n m} (hp : Proper LP) {NR : Fin (n + 1)} (hr : Reaches LP NR)
    {b b0 : Fin m → ℚ} (hb0 : SameSign b0) (hsgn : ∀ i, b0 i < 0 ↔ b i < 0) (hb : ∀ i, b i ≠ 0)
    {BB ZB : NMat n} (h : reduced LP b0 NR * blk ZB = 1)
    (hl : ∀ x, ZB (Fin.last n) x = 0 ∧ ZB x (Fin.last n) = 0) :
    reduced LP b NR * blk (lineUpdates LP b b0 (ieq (admitrLT id NR) NR) NR (BB, ZB)).2 = 1 := by
  have := lineUpdates_Z hp hr hsgn hb (List.finRange m) b0 (BB, ZB) (List.nodup_finRange m) hb0
    (fun _ _ => rfl) ⟨h, hl⟩
  simp only [List.mem_finRange, if_true] at this
  exact this.inv

/-- Every line whose admittance changes runs between two non-reference areas. -/
def ChangesAway (LP : LEnds n m) (NR : Fin (n + 1)) (b b0 : Fin m → ℚ) : Prop :=
  ∀ i, b i ≠ b0 i → (LP i).1 ≠ NR ∧ (LP i).2 ≠ NR

theorem lineStep_B {LP : LEnds n m} (hp : Proper LP) {NR : Fin (n + 1)}
    {b b0 bt : Fin m → ℚ} {i : Fin m} (hti : bt i = b0 i) (haway : b i ≠ b0 i → (LP i).1 ≠ NR ∧ (LP i).2 ≠ NR)
    {s : NMat n × NMat n} (h : blk s.1 = reduced LP bt NR) :
    blk (lineStep LP b b0 (ieq (admitrLT id NR) NR) NR s i).1 = reduced LP (Function.update bt i (b i)) NR := by
  unfold lineStep
  split
  · rename_i he
    rw [he, ← hti, Function.update_eq_self]
    exact h
  · rename_i hne
    rw [if_pos (haway hne)]
    obtain ⟨p, hp1⟩ := Fin.exists_succAbove_eq (haway hne).1
    obtain ⟨q, hq1⟩ := Fin.exists_succAbove_eq (haway hne).2
    have hpq : p ≠ q := fun e => hp i (by rw [← hp1, ← hq1, e])
    simp only [← hp1, ← hq1, ieq_other]
    have e : Function.update bt i (b i) = Function.update bt i (bt i + (b i - b0 i)) := by
      rw [hti]; congr 1; ring
    rw [e, reduced_update hp, rinc_line hp1.symm hq1.symm]
    by_cases hb : b i = 0
    · rw [if_neg (by simpa using hb)]
      simp only [zupd]
      rw [blk_admitm _ hpq, h, hb]
      ring_nf
    · rw [if_pos hb]
      simp only [zupd]
      rw [blk_admitm _ hpq, blk_admitm _ hpq, h, add_assoc, ← add_smul]
      congr 2
      ring

theorem lineUpdates_B {LP : LEnds n m} (hp : Proper LP) {NR : Fin (n + 1)}
    {b b0 : Fin m → ℚ} (haway : ChangesAway LP NR b b0) (l : List (Fin m)) :
    ∀ (bt : Fin m → ℚ) (s : NMat n × NMat n), l.Nodup → (∀ i ∈ l, bt i = b0 i) → blk s.1 = reduced LP bt NR →
    blk (l.foldl (lineStep LP b b0 (ieq (admitrLT id NR) NR) NR) s).1 =
      reduced LP (fun i => if i ∈ l then b i else bt i) NR := by
  induction l with
  | nil => intro bt s _ _ h; simpa using h
  | cons i l ih =>
    intro bt s hnd hbt h
    rw [List.nodup_cons] at hnd
    have hti := hbt i List.mem_cons_self
    have h1 := lineStep_B hp hti (haway i) h
    have := ih _ _ hnd.2 (fun j hj => by
      rw [Function.update_of_ne (fun e => hnd.1 (by rw [← e]; exact hj))]
      exact hbt j (List.mem_cons_of_mem _ hj)) h1
    rw [List.foldl_cons, this]
    congr 1
    funext j
    by_cases hj : j = i
    · subst hj
      simp [hnd.1]
    · simp [hj]

/-- C36 (whole network, admittance matrix): if no line at the reference area changes, the admittance matrix
after the update loop is that of the network in the sampled line states. -/
theorem C36_admittance_partial {LP : LEnds n m} (hp : Proper LP) {NR : Fin (n + 1)} {b b0 : Fin m → ℚ}
    (haway : ChangesAway LP NR b b0) {BB ZB : NMat n} (h : blk BB = reduced LP b0 NR) :
    blk (lineUpdates LP b b0 (ieq (admitrLT id NR) NR) NR (BB, ZB)).1 = reduced LP b NR := by
  have := lineUpdates_B hp haway (List.finRange m) b0 (BB, ZB) (List.nodup_finRange m) (fun _ _ => rfl) h
  simp only [List.mem_finRange, if_true] at this
  exact this

/-- `triB` with line 0, which is at the reference area 0, in a reduced state. -/
def triB1 : Fin 4 → ℚ := ![-60, -60, -80, -20]

/-- C36, refuted for the admittance matrix when a line at the reference area changes: the new admittance is
added twice and the old one never removed, so the matrix handed to the re-dispatch is not that of the
network (-200 - 60 - 60 = -320 instead of -140 at the first area). -/
theorem C36_admittance_refuted :
    blk (lineUpdates triLP triB1 triB (ieq (admitrLT id 0) 0) 0
      (admitrB (admitb triLP triB) 0, 0)).1 0 0 = -320 ∧
    reduced triLP triB1 0 0 0 = -140 := by
  decide +kernel

theorem tri_reaches : Reaches triLP 0 := by
  intro a
  fin_cases a
  · exact Relation.ReflTransGen.refl
  · exact Relation.ReflTransGen.single ⟨0, Or.inl ⟨rfl, rfl⟩⟩
  · exact Relation.ReflTransGen.single ⟨2, Or.inr ⟨rfl, rfl⟩⟩

theorem tri_proper : Proper triLP := by unfold Proper; decide

theorem tri_sign : SameSign triB ∧ SameSign triB1 ∧ (∀ i, triB i < 0 ↔ triB1 i < 0) ∧ ∀ i, triB1 i ≠ 0 := by
  refine ⟨Or.inl ?_, Or.inl ?_, ?_, ?_⟩ <;> decide +kernel

example : ∃ o, tm1 triLP triB 0 = .ok o := (C51_connected (by decide) tri_proper tri_sign.1 0).2 tri_reaches

/-- Four areas, area 3 without a line; and area 2 without one. -/
def cutLP : LEnds 3 2 := ![(0, 1), (1, 2)]
/-- see `cutLP` -/
def cutLP' : LEnds 3 2 := ![(0, 1), (1, 3)]

example : (∀ o, tm1 cutLP (fun _ => -1) 0 ≠ .ok o) ∧ ∀ o, tm1 cutLP' (fun _ => -1) 0 ≠ .ok o := by
  have h : ∀ r : Except PyErr (Tm1Out 3 2), (r.toBool = false) → ∀ o, r ≠ .ok o := by
    rintro r hr o rfl; cases hr
  exact ⟨h _ (by decide +kernel), h _ (by decide +kernel)⟩

end Narp.Props
