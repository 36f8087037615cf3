import Verif.Props.Conls
import Verif.Props.RedispatchRun

/-!
# The program for loss sharing on concrete networks (C92, C93)
-/

namespace Narp.Props
open Narp Spec BigOperators Matrix

theorem share_ok : ShareOk duoX where
  toLpInOk := duo_ok
  load := by decide
  gen := by decide +kernel

abbrev shareP := conlsProb duoX

def share1 : LpSt (5 * 1 + 4 + 2 * 1) (shN 1 1) := mkSt shareP
  [[1, 0, 0, 0, 0, 0, 0, 0, 0, 0, 0, 0], [0, 1, 0, 0, 0, 0, 0, 0, 0, 0, 0, 0],
   [0, 0, 1, 0, 0, 0, 0, 0, 0, 0, 0, 0], [0, 0, 0, 1, 0, 0, 0, 0, 0, 0, 0, 0],
   [0, 0, 0, 0, 1, 0, 0, 0, 0, 0, 0, 0], [0, 0, 0, 0, 0, 1, 0, 0, 0, 0, 0, 0],
   [0, 0, 0, 0, 0, 0, 1, 0, 0, 0, 0, 0], [0, 0, 0, 0, 0, 0, 0, 1, 0, 0, 0, 0],
   [0, 0, 0, 0, 0, 0, 0, 0, 1, 0, 0, 0], [0, 0, 0, 0, 0, 0, 0, 0, 0, 1, 0, 0],
   [-1, 0, 0, 0, 0, 0, 0, 0, 0, 0, 1, 0], [0, 0, 0, 0, 0, 0, 0, 0, 0, 0, 0, 1]]
  [200, 300, 100, 400, 50, 50, 1000, 1000, 1000, 1000, 0, 300]
  (![2, 7, 8, 9, 10, 11, 12, 13, 14, 15, 16, 17] : Fin 12 → Fin 18) 1 0 (some 0)

def share2 : LpSt (5 * 1 + 4 + 2 * 1) (shN 1 1) := mkSt shareP
  [[1, 0, 0, 0, 0, 0, 0, 0, 0, 0, 0, 0], [0, 1, 0, 0, 0, 0, 0, 0, 0, 0, 0, 0],
   [0, 0, 1, 0, 0, 0, 0, 0, 0, 0, 0, 0], [0, 0, 0, 1, 0, 0, 0, 0, 0, 0, 0, 0],
   [0, 0, 0, 0, 1, 0, 0, 0, 0, 0, 0, 0], [0, 0, 0, 0, 0, 1, 0, 0, 0, 0, 0, 0],
   [0, 0, 0, 0, 0, 0, 1, 0, 0, 0, 0, 0], [0, 0, 0, 0, 0, 0, 0, 1, 0, 0, 0, 0],
   [0, 0, 0, 0, 0, 0, 0, 0, 1, 0, 0, 0], [0, 0, 0, 0, 0, 0, 0, 0, 0, 1, 0, 0],
   [-1, 0, 0, 0, 0, 0, 0, 0, 0, 0, 1, 0], [0, -1, 0, 0, 0, 0, 0, 0, 0, 0, 0, 1]]
  [200, 300, 100, 400, 50, 50, 1000, 1000, 1000, 1000, 0, 0]
  (![2, 3, 8, 9, 10, 11, 12, 13, 14, 15, 16, 17] : Fin 12 → Fin 18) 1 0 (some 1)

def share3 : LpSt (5 * 1 + 4 + 2 * 1) (shN 1 1) := mkSt shareP
  [[1, 0, 0, 0, 0, 0, 0, 0, 0, 0, 0, 0], [0, 1, 0, 0, 0, 0, 0, 0, 0, 0, 0, 0],
   [1, 0, 1, 0, 0, 0, 0, 0, 0, 0, -1, 0], [0, 0, 0, 1, 0, 0, 0, 0, 0, 0, 0, 0],
   [0, 0, 0, 0, 1, 0, 0, 0, 0, 0, 0, 0], [0, 0, 0, 0, 0, 1, 0, 0, 0, 0, 0, 0],
   [0, 0, 0, 0, 0, 0, 1, 0, 0, 0, 0, 0], [0, 0, 0, 0, 0, 0, 0, 1, 0, 0, 0, 0],
   [0, 0, 0, 0, 0, 0, 0, 0, 1, 0, 0, 0], [0, 0, 0, 0, 0, 0, 0, 0, 0, 1, 0, 0],
   [-1, 0, 0, 0, 0, 0, 0, 0, 0, 0, 1, 0], [0, -1, 0, 0, 0, 0, 0, 0, 0, 0, 0, 1]]
  [200, 300, 100, 400, 50, 50, 1000, 1000, 1000, 1000, 0, 0]
  (![2, 3, 8, 9, 10, 11, 12, 13, 14, 15, 4, 17] : Fin 12 → Fin 18) 1 0 (some 10)

def share4 : LpSt (5 * 1 + 4 + 2 * 1) (shN 1 1) := mkSt shareP
  [[1, 0, 0, 0, 0, 0, 0, 0, 0, 0, 0, 0], [0, 1, 0, 0, 0, 0, 0, 0, 0, 0, 0, 0],
   [1, 1, 1, 0, 0, 0, 0, 0, 0, 0, -1, -1], [0, 0, 0, 1, 0, 0, 0, 0, 0, 0, 0, 0],
   [0, -1, 0, 0, 1, 0, 0, 0, 0, 0, 0, 1], [0, 1, 0, 0, 0, 1, 0, 0, 0, 0, 0, -1],
   [0, 1, 0, 0, 0, 0, 1, 0, 0, 0, 0, -1], [0, -1, 0, 0, 0, 0, 0, 1, 0, 0, 0, 1],
   [0, -1, 0, 0, 0, 0, 0, 0, 1, 0, 0, 1], [0, 1, 0, 0, 0, 0, 0, 0, 0, 1, 0, -1],
   [-1, -1, 0, 0, 0, 0, 0, 0, 0, 0, 1, 1], [0, -1/100, 0, 0, 0, 0, 0, 0, 0, 0, 0, 1/100]]
  [200, 300, 100, 400, 50, 50, 1000, 1000, 1000, 1000, 0, 0]
  (![2, 3, 8, 9, 10, 11, 12, 13, 14, 15, 4, 1] : Fin 12 → Fin 18) 1 0 (some 11)

def share5 : LpSt (5 * 1 + 4 + 2 * 1) (shN 1 1) := mkSt shareP
  [[1, 0, 0, 0, 0, 0, 0, 0, 0, 0, 0, 0], [0, 1, 0, 0, 0, 0, 0, 0, 0, 0, 0, 0],
   [1, 1, 1, 0, 0, 0, 0, 0, 0, 0, -1, -1], [0, 0, 0, 1, 0, 0, 0, 0, 0, 0, 0, 0],
   [0, -1, 0, 0, 1, 0, 0, 0, 0, 0, 0, 1], [0, 1, 0, 0, 0, 1, 0, 0, 0, 0, 0, -1],
   [0, 1, 0, 0, 0, 0, 1, 0, 0, 0, 0, -1], [0, -1, 0, 0, 0, 0, 0, 1, 0, 0, 0, 1],
   [0, -1, 0, 0, 0, 0, 0, 0, 1, 0, 0, 1], [0, 1, 0, 0, 0, 0, 0, 0, 0, 1, 0, -1],
   [-1, -1, 0, 0, 0, 0, 0, 0, 0, 0, 1, 1], [0, -1/100, 0, 0, 0, 0, 0, 0, 0, 0, 0, 1/100]]
  [200, 300, 100, 400, 50, 50, 1000, 1000, 1000, 1000, 0, 0]
  (![2, 3, 8, 9, 10, 11, 12, 13, 14, 15, 4, 1] : Fin 12 → Fin 18) 2 1 (some 11)

def share6 : LpSt (5 * 1 + 4 + 2 * 1) (shN 1 1) := mkSt shareP
  [[0, -1, -1, 0, 0, 0, 0, 0, 0, 0, 1, 1], [0, 1, 0, 0, 0, 0, 0, 0, 0, 0, 0, 0],
   [1, 1, 1, 0, 0, 0, 0, 0, 0, 0, -1, -1], [0, 0, 0, 1, 0, 0, 0, 0, 0, 0, 0, 0],
   [0, -1, 0, 0, 1, 0, 0, 0, 0, 0, 0, 1], [0, 1, 0, 0, 0, 1, 0, 0, 0, 0, 0, -1],
   [0, 1, 0, 0, 0, 0, 1, 0, 0, 0, 0, -1], [0, -1, 0, 0, 0, 0, 0, 1, 0, 0, 0, 1],
   [0, -1, 0, 0, 0, 0, 0, 0, 1, 0, 0, 1], [0, 1, 0, 0, 0, 0, 0, 0, 0, 1, 0, -1],
   [0, 0, 1, 0, 0, 0, 0, 0, 0, 0, 0, 0], [0, -1/100, 0, 0, 0, 0, 0, 0, 0, 0, 0, 1/100]]
  [100, 300, 100, 400, 50, 50, 1000, 1000, 1000, 1000, 100, 0]
  (![2, 3, 6, 9, 10, 11, 12, 13, 14, 15, 4, 1] : Fin 12 → Fin 18) 2 0 (some 2)

def share7 : LpSt (5 * 1 + 4 + 2 * 1) (shN 1 1) := mkSt shareP
  [[0, 0, -1, 0, 0, 0, 0, 0, 0, 0, 1, 0], [0, 1, 0, 0, 0, 0, 0, 0, 0, 0, 0, 0],
   [1, 0, 1, 0, 0, 0, 0, 0, 0, 0, -1, 0], [0, 1, 0, 1, 0, 0, 0, 0, 0, 0, 0, -1],
   [0, 0, 0, 0, 1, 0, 0, 0, 0, 0, 0, 0], [0, 0, 0, 0, 0, 1, 0, 0, 0, 0, 0, 0],
   [0, 0, 0, 0, 0, 0, 1, 0, 0, 0, 0, 0], [0, 0, 0, 0, 0, 0, 0, 1, 0, 0, 0, 0],
   [0, 0, 0, 0, 0, 0, 0, 0, 1, 0, 0, 0], [0, 0, 0, 0, 0, 0, 0, 0, 0, 1, 0, 0],
   [0, 0, 1, 0, 0, 0, 0, 0, 0, 0, 0, 0], [0, -1, 0, 0, 0, 0, 0, 0, 0, 0, 0, 1]]
  [100, 300, 100, 400, 50, 50, 1000, 1000, 1000, 1000, 100, 0]
  (![2, 3, 6, 9, 10, 11, 12, 13, 14, 15, 4, 5] : Fin 12 → Fin 18) 2 0 (some 11)

def share8 : LpSt (5 * 1 + 4 + 2 * 1) (shN 1 1) := mkSt shareP
  [[0, 0, -1, 0, -1, 0, 0, 0, 0, 0, 1, 0], [0, 1, 0, 0, 0, 0, 0, 0, 0, 0, 0, 0],
   [1, 0, 1, 0, 1, 0, 0, 0, 0, 0, -1, 0], [0, 1, 0, 1, -1, 0, 0, 0, 0, 0, 0, -1],
   [0, 0, 0, 0, 1/100, 0, 0, 0, 0, 0, 0, 0], [0, 0, 0, 0, 1, 1, 0, 0, 0, 0, 0, 0],
   [0, 0, 0, 0, 1, 0, 1, 0, 0, 0, 0, 0], [0, 0, 0, 0, -1, 0, 0, 1, 0, 0, 0, 0],
   [0, 0, 0, 0, -1, 0, 0, 0, 1, 0, 0, 0], [0, 0, 0, 0, 1, 0, 0, 0, 0, 1, 0, 0],
   [0, 0, 1, 0, 0, 0, 0, 0, 0, 0, 0, 0], [0, -1, 0, 0, 1, 0, 0, 0, 0, 0, 0, 1]]
  [50, 300, 150, 350, 1/2, 100, 1050, 950, 950, 1050, 100, 50]
  (![2, 3, 6, 9, 0, 11, 12, 13, 14, 15, 4, 5] : Fin 12 → Fin 18) 2 0 (some 4)

def share9 : LpSt (5 * 1 + 4 + 2 * 1) (shN 1 1) := mkSt shareP
  [[0, 0, -1, 0, -1, 0, 0, 0, 0, 0, 1, 0], [0, 1, 0, 0, 0, 0, 0, 0, 0, 0, 0, 0],
   [1, 0, 1, 0, 1, 0, 0, 0, 0, 0, -1, 0], [0, 0, 0, 1, -1, 0, 0, 0, 0, 0, 0, -1],
   [0, 0, 0, 0, 1/100, 0, 0, 0, 0, 0, 0, 0], [0, 0, 0, 0, 1, 1, 0, 0, 0, 0, 0, 0],
   [0, 0, 0, 0, 1, 0, 1, 0, 0, 0, 0, 0], [0, 0, 0, 0, -1, 0, 0, 1, 0, 0, 0, 0],
   [0, 0, 0, 0, -1, 0, 0, 0, 1, 0, 0, 0], [0, 0, 0, 0, 1, 0, 0, 0, 0, 1, 0, 0],
   [0, 0, 1, 0, 0, 0, 0, 0, 0, 0, 0, 0], [0, 0, 0, 0, 1, 0, 0, 0, 0, 0, 0, 1]]
  [50, 300, 150, 50, 1/2, 100, 1050, 950, 950, 1050, 100, 350]
  (![2, 7, 6, 9, 0, 11, 12, 13, 14, 15, 4, 5] : Fin 12 → Fin 18) 2 0 (some 1)

def share10 : LpSt (5 * 1 + 4 + 2 * 1) (shN 1 1) := mkSt shareP
  [[0, 0, -1, 0, -1, 0, 0, 0, 0, 0, 1, 0], [0, 1, 0, 0, 0, 0, 0, 0, 0, 0, 0, 0],
   [1, 0, 1, 0, 1, 0, 0, 0, 0, 0, -1, 0], [0, 0, 0, 1, -1, 0, 0, 0, 0, 0, 0, -1],
   [0, 0, 0, 0, 1/100, 0, 0, 0, 0, 0, 0, 0], [0, 0, 0, 0, 1, 1, 0, 0, 0, 0, 0, 0],
   [0, 0, 0, 0, 1, 0, 1, 0, 0, 0, 0, 0], [0, 0, 0, 0, -1, 0, 0, 1, 0, 0, 0, 0],
   [0, 0, 0, 0, -1, 0, 0, 0, 1, 0, 0, 0], [0, 0, 0, 0, 1, 0, 0, 0, 0, 1, 0, 0],
   [0, 0, 1, 0, 0, 0, 0, 0, 0, 0, 0, 0], [0, 0, 0, 0, 1, 0, 0, 0, 0, 0, 0, 1]]
  [50, 300, 150, 50, 1/2, 100, 1050, 950, 950, 1050, 100, 350]
  (![2, 7, 6, 9, 0, 11, 12, 13, 14, 15, 4, 5] : Fin 12 → Fin 18) 2 1 (some 1)

theorem share_linp : linp shareP (conlsBasis 1 1) (conlsRhs duoX) 10 = some (.ok share10) := by
  have i0 := lpReach_inv shareP (conlsBasis 1 1) (conlsRhs duoX) (conls_unit share_ok) _ .start
  obtain ⟨e0, i1⟩ := lpLoop_next (t := share1) i0 (by decide +kernel) 9
  obtain ⟨e1, i2⟩ := lpLoop_next (t := share2) i1 (by decide +kernel) 8
  obtain ⟨e2, i3⟩ := lpLoop_next (t := share3) i2 (by decide +kernel) 7
  obtain ⟨e3, i4⟩ := lpLoop_next (t := share4) i3 (by decide +kernel) 6
  obtain ⟨e4, i5⟩ := lpLoop_next (t := share5) i4 (by decide +kernel) 5
  obtain ⟨e5, i6⟩ := lpLoop_next (t := share6) i5 (by decide +kernel) 4
  obtain ⟨e6, i7⟩ := lpLoop_next (t := share7) i6 (by decide +kernel) 3
  obtain ⟨e7, i8⟩ := lpLoop_next (t := share8) i7 (by decide +kernel) 2
  obtain ⟨e8, i9⟩ := lpLoop_next (t := share9) i8 (by decide +kernel) 1
  have e9 := lpLoop_last (t := share10) i9 (by decide +kernel) 0
  exact e0.trans (e1.trans (e2.trans (e3.trans (e4.trans (e5.trans (e6.trans (e7.trans (e8.trans e9))))))))

/-- The hypotheses of `C92_optimal` are met: area 1 sheds 50 MW, area 0 nothing, and this is the least. -/
example : ∃ θ g s, IsSharing duoX.LP (fun _ => -100) (fun _ => 50) (fun _ => 50) 0 ![1000, 1000] ![1000, 1000]
    ![300, 200] (fun a => duoX.LOD a + duoX.INJB a) θ g s ∧ s 0 = 0 ∧ s 1 = 50 := by
  obtain ⟨θ, g, s, hd, hs, _⟩ := C92_optimal share_ok share_linp (by decide +kernel) (by decide +kernel)
  refine ⟨θ, g, s, hd, ?_, ?_⟩
  · have := hs 1
    rw [show duoX.LT 1 = 0 by decide +kernel] at this
    rw [this]; decide +kernel
  · have := hs 0
    rw [show duoX.LT 0 = 1 by decide +kernel] at this
    rw [this]; decide +kernel

/-- The hypotheses of `C92_sound` are met. -/
example : ∃ y, Spec.LpFeasible (conlsProb duoX).A (conlsRhs duoX) y ∧
    (∀ j : Fin (shN 1 1), (conlsProb duoX).N1 ≤ j.val → y j = 0) := by
  obtain ⟨y, h1, h2, _⟩ := C92_complete share_ok (C92_feasible share_ok)
  exact ⟨y, h1, h2⟩

/-- Area 0 may export 10 MW and import 1000 MW, and has 100 MW to spare. -/
def tightX : LpIn 1 1 := { duoX with BN := ⟨![300, 200], ![100, -100], ![1000, 1000], ![10, 1000]⟩ }

theorem tight_ok : ShareOk tightX where
  pos := by decide
  lt := rfl
  proper := by unfold Proper; decide
  inj := by decide
  fwd := by intro i; norm_num [tightX, duoX]
  bwd := by intro i; norm_num [tightX, duoX]
  imp := by decide
  exp := by decide
  bb := by decide +kernel
  load := by decide
  gen := by decide +kernel

/-- **C93 (refuted).** The two programs read the area limits the other way round: here every dispatch of the program
without loss sharing exports at most 10 MW from area 0, and the program with loss sharing has a solution in which area 0
generates 350 MW, serves its load of 300 MW and exports 50 MW. -/
theorem C93_limits_refuted : ∃ x : LpIn 1 1, ShareOk x ∧
    (∀ θ p, IsDispatch x.LP (fun k => (x.BLP k).adm) (fun k => (x.BLP k).fwd) (fun k => (x.BLP k).bwd) x.NR x.BN.c3
      x.BN.c4 x.INJB θ p → p 0 ≤ 10) ∧
    ∃ y, Spec.LpFeasible (conlsProb x).A (conlsRhs x) y ∧
      (∀ j : Fin (shN 1 1), (conlsProb x).N1 ≤ j.val → y j = 0) ∧ x.LT 1 = 0 ∧
      nth y (3 * 1 + 1 + 1) - (x.LOD 0 - nth y (2 * 1 + 1)) = 50 := by
  refine ⟨tightX, tight_ok, fun θ p hd => (hd.areas 0).2, ?_⟩
  obtain ⟨y, h1, h2, h3, _⟩ := C92_complete (x := tightX) (θ := ![0, 1/2]) (g := ![350, 100]) (s := ![0, 50]) tight_ok
    ⟨rfl, by decide +kernel, by decide +kernel, by decide +kernel, by decide +kernel, by decide +kernel⟩
  have e : tightX.LT 1 = 0 := by decide +kernel
  refine ⟨y, h1, h2, e, ?_⟩
  have := h3 1
  rw [e] at this
  have a1 : nth y (2 * 1 + 1) = 0 := this.1
  have a2 : nth y (3 * 1 + 1 + 1) = 350 := this.2
  rw [a1, a2]
  decide +kernel

variable {n l : ℕ} {x : LpIn n l}

/-- **C93 (equal limits).** Where the import and the export limit of every area are the same number - as they are in
every run from the input cards (`C64_limits_run`) - the program with loss sharing does read them as the other one
does: its solutions are exactly the dispatches with loss sharing under import limits `c3` and export limits `c4`. -/
theorem C93_equal_limits_partial (h : ShareOk x) (hlim : x.BN.c3 = x.BN.c4) (T : ℚ) :
    (∃ y, Spec.LpFeasible (conlsProb x).A (conlsRhs x) y ∧ (∀ j : Fin (shN n l), (conlsProb x).N1 ≤ j.val → y j = 0) ∧
      Spec.lpCost ((conlsProb x).XOBI 1) y = T) ↔
    ∃ θ g s, IsSharing x.LP (fun k => (x.BLP k).adm) (fun k => (x.BLP k).fwd) (fun k => (x.BLP k).bwd) x.NR x.BN.c3
      x.BN.c4 x.LOD (fun a => x.LOD a + x.INJB a) θ g s ∧ ∑ a, s a = T := by
  constructor
  · rintro ⟨y, h1, h2, rfl⟩
    obtain ⟨θ, g, s, _, _, hs, hc⟩ := C92_sound h y h1 h2
    rw [hlim] at hs ⊢
    exact ⟨θ, g, s, hs, hc.symm⟩
  · rintro ⟨θ, g, s, hs, rfl⟩
    rw [hlim] at hs
    rw [← hlim] at hs
    obtain ⟨y, h1, h2, _, hc, _⟩ := C92_complete h (θ := θ) (g := g) (s := s) (by rw [hlim] at hs ⊢; exact hs)
    exact ⟨y, h1, h2, hc⟩

/-- Non-vacuity. -/
example : ShareOk duoX ∧ duoX.BN.c3 = duoX.BN.c4 := ⟨share_ok, by funext a; fin_cases a <;> rfl⟩

end Narp.Props
