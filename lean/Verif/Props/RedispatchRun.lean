import Verif.Props.Redispatch

/-!
# Runs of the re-dispatch on concrete networks (C42, C56, C58)

The solver is followed pass by pass. The inversion of the basis is skipped: by `C41_reinvert` it changes nothing.
-/

namespace Narp.Props
open Narp Spec BigOperators Matrix

/-- A pass without the inversion. -/
def fastNone {m q : ℕ} (p : LpProb m q) (s : LpSt m q) : Except PyErr (LpRes m q) :=
  if s.IR = 1 then .ok (lpPhaseEnd p s) else lpRescan p { s with IR := 1 }

def fastStep {m q : ℕ} (p : LpProb m q) (s : LpSt m q) : Except PyErr (LpRes m q) :=
  match lpScan p s with
  | (CM, some IND) => if CM < 0 then (lpPivot p s IND).map .next else fastNone p s
  | _ => fastNone p s

theorem lpStep_fast {m q : ℕ} {p : LpProb m q} {b : Fin (m + 1) → ℚ} {s : LpSt m q} (h : LpInv p b s) :
    lpStep p b s = fastStep p s := by
  have : lpNone p b s = fastNone p s := by
    unfold lpNone fastNone
    rw [lpReinvert_eq p b s h]
  unfold lpStep fastStep
  rw [this]
  rfl

/-- The pass from `s` leads to `t`, as a test. -/
def fastNextIs {m q : ℕ} (p : LpProb m q) (s t : LpSt m q) : Bool :=
  match fastStep p s with
  | .ok (.next u) => lpSame u t
  | _ => false

def fastExitIs {m q : ℕ} (p : LpProb m q) (s t : LpSt m q) : Bool :=
  match fastStep p s with
  | .ok (.exit u) => lpSame u t
  | _ => false

theorem fastNextIs_eq {m q : ℕ} {p : LpProb m q} {s t : LpSt m q} (h : fastNextIs p s t = true) :
    fastStep p s = .ok (.next t) := by
  unfold fastNextIs at h
  split at h
  · rename_i u hu; rw [hu, lpSame_eq h]
  · cases h

theorem fastExitIs_eq {m q : ℕ} {p : LpProb m q} {s t : LpSt m q} (h : fastExitIs p s t = true) :
    fastStep p s = .ok (.exit t) := by
  unfold fastExitIs at h
  split at h
  · rename_i u hu; rw [hu, lpSame_eq h]
  · cases h

theorem lpLoop_next {m q : ℕ} {p : LpProb m q} {b : Fin (m + 1) → ℚ} {s t : LpSt m q} (h : LpInv p b s)
    (hs : fastNextIs p s t = true) (f : ℕ) : lpLoop p b (f + 1) s = lpLoop p b f t ∧ LpInv p b t := by
  have e := (lpStep_fast h).trans (fastNextIs_eq hs)
  refine ⟨?_, lpStep_next p b s t h e⟩
  conv_lhs => unfold lpLoop
  rw [e]

theorem lpLoop_last {m q : ℕ} {p : LpProb m q} {b : Fin (m + 1) → ℚ} {s t : LpSt m q} (h : LpInv p b s)
    (hs : fastExitIs p s t = true) (f : ℕ) : lpLoop p b (f + 1) s = some (.ok t) := by
  unfold lpLoop
  rw [(lpStep_fast h).trans (fastExitIs_eq hs)]

/-- A state from lists. -/
def mkSt {m q : ℕ} (p : LpProb m q) (T : List (List ℚ)) (B : List ℚ) (I : Fin (m + 1) → Fin q) (IPH IR : ℤ)
    (IPIV : Option (Fin (m + 1))) : LpSt m q :=
  let X : Fin q → ℚ := if IPH = 1 then p.XOBI 0 else cost2 p
  { TAB := fun i j => (T.getD i.val []).getD j.val 0
    BS := fun i => B.getD i.val 0
    CB := fun k => X (I k)
    IBAS := I
    IBASF := fun j => if ∃ k, I k = j then 1 else 0
    XOB := X
    IPH := IPH
    IR := IR
    IPIV := IPIV }

/-! ### Two areas -/

/-- Two areas, a line of 50 MW; area 0 has 100 MW to spare, area 1 lacks 100 MW. -/
def duoX : LpIn 1 1 where
  BB := !![-100, 0; 0, 0]
  INJ := ![-100, 100]
  INJB := ![100, -100]
  NR := 0
  LT := admitrLT id 0
  BLP := fun _ => ⟨-100, 50, 50⟩
  LP := ![(0, 1)]
  BN := ⟨![300, 200], ![100, -100], ![1000, 1000], ![1000, 1000]⟩
  LOD := ![300, 200]
  NLS := 1

abbrev duoP := connlsProb duoX

/-- The final state. -/
def duoEnd (IR : ℤ) : LpSt (4 * 1 + 3 + 2 * 1) (lpN 1 1) := mkSt duoP
  [[0, 0, -1, 0, 0, 0, 0, 0, 1, 0], [0, 1, -1, 0, 0, 0, 0, 0, 0, 1], [1, 0, 1, 0, 0, 0, 0, 0, -1, 0],
   [0, 0, 1, 1, 0, 0, 0, 0, 0, 0], [0, 0, 1, 0, 1, 0, 0, 0, 0, 0], [0, 0, -1, 0, 0, 1, 0, 0, 0, 0],
   [0, 0, -1, 0, 0, 0, 1, 0, 0, 0], [0, 0, 1, 0, 0, 0, 0, 1, 0, 0], [0, 0, 1, 0, 0, 0, 0, 0, 0, -1],
   [0, 0, 1/100, 0, 0, 0, 0, 0, 0, 0]]
  [50, 50, 50, 100, 1050, 950, 950, 1050, 50, 1/2] (![2, 5, 4, 7, 8, 9, 10, 11, 3, 0] : Fin 10 → Fin 14) 2 IR (some 2)

def duo1 : LpSt (4 * 1 + 3 + 2 * 1) (lpN 1 1) := mkSt duoP
  [[1, 0, 0, 0, 0, 0, 0, 0, 0, 0], [0, 1, 0, 0, 0, 0, 0, 0, 0, 0], [0, 0, 1, 0, 0, 0, 0, 0, 0, -1],
   [0, 0, 0, 1, 0, 0, 0, 0, 0, 1], [0, 0, 0, 0, 1, 0, 0, 0, 0, 1], [0, 0, 0, 0, 0, 1, 0, 0, 0, -1],
   [0, 0, 0, 0, 0, 0, 1, 0, 0, -1], [0, 0, 0, 0, 0, 0, 0, 1, 0, 1], [0, 0, 0, 0, 0, 0, 0, 0, 1, -1],
   [0, 0, 0, 0, 0, 0, 0, 0, 0, 1/100]]
  [100, 100, 50, 50, 1000, 1000, 1000, 1000, 100, 0] (![4, 5, 6, 7, 8, 9, 10, 11, 12, 0] : Fin 10 → Fin 14) 1 0 (some 9)

def duo2 : LpSt (4 * 1 + 3 + 2 * 1) (lpN 1 1) := mkSt duoP
  [[1, 0, 0, 0, 0, 0, 0, 0, 0, 0], [0, 1, 0, 0, 0, 0, 0, 0, 0, 0], [0, 0, 1, 0, 0, 0, 0, 0, 0, -1],
   [0, 0, 0, 1, 0, 0, 0, 0, 0, 1], [0, 0, 0, 0, 1, 0, 0, 0, 0, 1], [0, 0, 0, 0, 0, 1, 0, 0, 0, -1],
   [0, 0, 0, 0, 0, 0, 1, 0, 0, -1], [0, 0, 0, 0, 0, 0, 0, 1, 0, 1], [-1, 0, 0, 0, 0, 0, 0, 0, 1, -1],
   [0, 0, 0, 0, 0, 0, 0, 0, 0, 1/100]]
  [100, 100, 50, 50, 1000, 1000, 1000, 1000, 0, 0] (![2, 5, 6, 7, 8, 9, 10, 11, 12, 0] : Fin 10 → Fin 14) 1 0 (some 0)

def duo3 (IPH IR : ℤ) : LpSt (4 * 1 + 3 + 2 * 1) (lpN 1 1) := mkSt duoP
  [[1, 0, 0, 0, 0, 0, 0, 0, 0, 0], [1, 1, 0, 0, 0, 0, 0, 0, -1, 1], [1, 0, 1, 0, 0, 0, 0, 0, -1, 0],
   [-1, 0, 0, 1, 0, 0, 0, 0, 1, 0], [-1, 0, 0, 0, 1, 0, 0, 0, 1, 0], [1, 0, 0, 0, 0, 1, 0, 0, -1, 0],
   [1, 0, 0, 0, 0, 0, 1, 0, -1, 0], [-1, 0, 0, 0, 0, 0, 0, 1, 1, 0], [-1, 0, 0, 0, 0, 0, 0, 0, 1, -1],
   [-1/100, 0, 0, 0, 0, 0, 0, 0, 1/100, 0]]
  [100, 100, 50, 50, 1000, 1000, 1000, 1000, 0, 0] (![2, 5, 6, 7, 8, 9, 10, 11, 3, 0] : Fin 10 → Fin 14) IPH IR (some 8)

theorem duo_ok : LpInOk duoX where
  pos := by decide
  lt := rfl
  proper := by unfold Proper; decide
  inj := by decide
  fwd := by intro i; norm_num [duoX]
  bwd := by intro i; norm_num [duoX]
  imp := by decide
  exp := by decide
  bb := by decide +kernel

theorem duo_linp : linp duoP (connlsBasis 1 1) (connlsRhs duoX) 6 = some (.ok (duoEnd 1)) := by
  have i0 := lpReach_inv duoP (connlsBasis 1 1) (connlsRhs duoX) (connls_unit duo_ok.toLpShape) _ .start
  obtain ⟨e0, i1⟩ := lpLoop_next (t := duo1) i0 (by decide +kernel) 5
  obtain ⟨e1, i2⟩ := lpLoop_next (t := duo2) i1 (by decide +kernel) 4
  obtain ⟨e2, i3⟩ := lpLoop_next (t := duo3 1 0) i2 (by decide +kernel) 3
  obtain ⟨e3, i4⟩ := lpLoop_next (t := duo3 2 1) i3 (by decide +kernel) 2
  obtain ⟨e4, i5⟩ := lpLoop_next (t := duoEnd 0) i4 (by decide +kernel) 1
  have e5 := lpLoop_last (t := duoEnd 1) i5 (by decide +kernel) 0
  exact e0.trans (e1.trans (e2.trans (e3.trans (e4.trans e5))))

theorem duo_redispatch : redispatch 6 0 duoX = .ok (lpResult duoX (duoEnd 1)) := by
  unfold redispatch
  rw [if_neg (by decide), if_neg (by decide), duo_linp]
  exact if_neg (fun h => h rfl)

theorem duo_numbers : (lpResult duoX (duoEnd 1)).1 = ![50, -150] ∧ (lpResult duoX (duoEnd 1)).2.1 = ![0, 0] ∧
    (lpResult duoX (duoEnd 1)).2.2 = ![50] := by decide +kernel

/-- The hypotheses of `C56_dispatch_partial` are met: here is its conclusion for this network. -/
example : ∃ θ p, IsDispatch duoX.LP (fun _ => -100) (fun _ => 50) (fun _ => 50) 0 ![1000, 1000] ![1000, 1000]
    ![100, -100] θ p ∧ (∀ a : Fin 2, a ≠ 1 → ![(50 : ℚ), -150] a = p a) := by
  obtain ⟨t, ht, h⟩ := C56_dispatch_partial duo_ok rfl duo_redispatch
  have e : t = duoEnd 1 := by
    have := ht.symm.trans duo_linp
    cases this; rfl
  subst e
  obtain ⟨θ, p, hd, _, h1, _⟩ := h (by decide +kernel) (by decide +kernel)
  refine ⟨θ, p, hd, fun a ha => ?_⟩
  rw [← duo_numbers.1]
  exact (h1 a (by have : duoX.LT 0 = 1 := by decide +kernel
                  rw [this]; exact ha)).1

/-- **C42 (refuted).** Two areas: whatever is dispatched, at least 50 MW remain unserved in area 1, and the solver finds
the flow of 50 MW; yet the reported unserved load of area 1 is 0, and its reported injection is -150 MW. -/
theorem C42_refuted : ∃ (x : LpIn 1 1) (fuel : ℕ) (c1 c2 : Fin 2 → ℚ) (F : Fin 1 → ℚ), LpInOk x ∧ x.BN.c2 = x.INJB ∧
    redispatch fuel 0 x = .ok (c1, c2, F) ∧
    (∀ θ p, IsDispatch x.LP (fun k => (x.BLP k).adm) (fun k => (x.BLP k).fwd) (fun k => (x.BLP k).bwd) x.NR x.BN.c3
      x.BN.c4 x.INJB θ p → 50 ≤ unserved x.INJB p 1) ∧
    F 0 = 50 ∧ c1 1 = -150 ∧ c2 1 = 0 := by
  refine ⟨duoX, 6, _, _, _, duo_ok, rfl, duo_redispatch, fun θ p hd => ?_, ?_, ?_, ?_⟩
  · have hb := hd.balance 1
    have hl := hd.lines 0
    unfold unserved
    refine le_trans ?_ (le_max_right _ _)
    have e : netOut duoX.LP (dcFlow duoX.LP (fun k => (duoX.BLP k).adm) θ) 1 =
        -dcFlow duoX.LP (fun k => (duoX.BLP k).adm) θ 0 := by
      unfold netOut
      rw [Fin.sum_univ_one, Fin.sum_univ_one, if_neg (by decide), if_pos (by decide)]; ring
    rw [e] at hb
    have h1 := hl.2
    have e1 : (duoX.BLP 0).fwd = 50 := rfl
    have e2 : duoX.INJB 1 = -100 := rfl
    rw [e1] at h1
    rw [e2, ← hb]
    linarith
  · exact congrFun duo_numbers.2.2 0
  · exact congrFun duo_numbers.1 1
  · exact congrFun duo_numbers.2.1 1

end Narp.Props
