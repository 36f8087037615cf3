import Verif.Model.Capacity

/-!
# Load data: `xldnew`, `dpeak`, `wpeakf`, `plhr`, `resca`, order of steps of `input_processing`

`H j h` is the load of area `j` in hour `h`.
-/

namespace Narp
open BigOperators

/-- numpy's `max` of a 1-D array (0 for an empty one, where numpy raises).
(dpeak.py:64, wpeakf.py:46, xldnew.py:41) -/
def npMax : List ℚ → ℚ
  | [] => 0
  | x :: xs => xs.foldl max x

/-- Scan of numpy's `argmax`: `best` so far found at `bi`, next position `i`. (dpeak.py:65-66) -/
def argmaxGo (best : ℚ) (bi i : ℕ) : List ℚ → ℕ
  | [] => bi
  | y :: ys => if best < y then argmaxGo y i (i + 1) ys else argmaxGo best bi (i + 1) ys

/-- numpy's `argmax` of a 1-D array: first position of the maximum. (dpeak.py:65-66, plhr.py:24) -/
def npArgmax : List ℚ → ℕ
  | [] => 0
  | x :: xs => argmaxGo x 0 1 xs

/-- numpy's `argmax` of a boolean array: first `True`, or 0 if there is none. (resca.py:40) -/
def npArgmaxBool (l : List Bool) : ℕ := if l.any id then l.findIdx id else 0

/-- `dpeak.py:57-68` for `D` days of `hpd` hours: MAXHR, DYLOAD, MAXDAY. The F-order reshape makes
element `[area, j, d]` the load of hour `d * hpd + j`. -/
def dpeak {n : ℕ} (hpd D : ℕ) (H : Fin n → ℕ → ℚ) :
    (Fin n → ℕ → ℕ) × (Fin n → ℕ → ℚ) × (Fin n → ℕ) :=
  let reshaped := fun a d => (List.range hpd).map fun j => H a (d * hpd + j)
  let DYLOAD := fun a d => npMax (reshaped a d)
  let MAXHR := fun a d => npArgmax (reshaped a d) + hpd * d
  let MAXDAY := fun a => npArgmax ((List.range D).map fun d => DYLOAD a d)
  (MAXHR, DYLOAD, MAXDAY)

/-- The scan `dpeak.py:25-31` (and `34-39`) over positions `pos`: `none` is minus infinity. -/
def peakScan (f : ℕ → ℚ) (pos : List ℕ) : Option ℚ × ℕ :=
  pos.foldl (fun s p =>
    match s.1 with
    | none => (some (f p), p)
    | some x => if f p ≤ x then s else (some (f p), p)) (none, 0)

/-- `dpeak.py:4-41` (`_dpeak`). (Minus infinity, which is left only when there are no hours, is
written 0.) -/
def dpeak' {n : ℕ} (hpd D : ℕ) (H : Fin n → ℕ → ℚ) :
    (Fin n → ℕ → ℕ) × (Fin n → ℕ → ℚ) × (Fin n → ℕ) :=
  let scan := fun a d => peakScan (H a) ((List.range hpd).map fun j => d * hpd + j)
  let DYLOAD := fun a d => (scan a d).1.getD 0
  let MAXHR := fun a d => (scan a d).2
  let MAXDAY := fun a => (peakScan (DYLOAD a) (List.range D)).2
  (MAXHR, DYLOAD, MAXDAY)

/-- `plhr.py:20-28`. -/
def plhr {n : ℕ} (H : Fin n → ℕ → ℚ) : ℕ → ℕ := fun d =>
  npArgmax ((List.range 24).map fun j => ∑ a, H a (d * 24 + j)) + 24 * d

/-- `wpeakf.py:46-48` for one area (365 daily peaks). -/
def wpeakf (D : ℕ → ℚ) : ℕ → ℚ := fun w =>
  let x := npMax ((List.range 7).map fun j => D (w * 7 + j))
  if w = 51 then max x (D 364) else x

/-- The body of the loop `wpeakf.py:27-30`; `none` is minus infinity. -/
def wpeakStep (D : ℕ → ℚ) (w : ℕ) (X : Option ℚ) (j : ℕ) : Option ℚ :=
  match X with
  | none => some (D (w * 7 + j))
  | some x => if D (w * 7 + j) > x then some (D (w * 7 + j)) else X

/-- `wpeakf.py:20-31` (`_wpeakf`) for one area. -/
def wpeakf' (D : ℕ → ℚ) : ℕ → ℚ := fun w =>
  let JW := if w = 51 then 8 else 7
  ((List.range JW).foldl (wpeakStep D w) none).getD 0

/-- A line of the load file: a header `AREA:...` with its characters, or a data line with its
numbers. (xldnew.py:28-36) -/
inductive LeeiLine where
  | header (chars : List Char)
  | data (vals : List ℚ)

/-- State of the reading loop: `areaIdx` (unbound at first), `hourIdx`, HRLOAD. (xldnew.py:26-36) -/
structure LeeiSt where
  areaIdx : Option ℤ
  hourIdx : ℕ
  H : ℕ → ℕ → ℚ

/-- `int(c)` for one character. (xldnew.py:30) -/
def digit (c : Char) : Except PyErr ℤ :=
  if '0' ≤ c ∧ c ≤ '9' then .ok ((c.toNat : ℤ) - 48) else .error .valueError

/-- One iteration of the loop `xldnew.py:28-36`. A row of 12 numbers is stored; beyond the
8760th hour the slice is empty and the assignment raises. A row with a single number is broadcast over the slice;
any other number of values raises. -/
def leeiLine (NOAREA : ℕ) (s : LeeiSt) : LeeiLine → Except PyErr LeeiSt
  | .header cs => do
    match cs[6]? with
    | none => .error .indexError
    | some c => do
      let d ← digit c
      return { s with areaIdx := some (d - 1), hourIdx := 0 }
  | .data vals => do
    match s.areaIdx with
    | none => .error .unboundLocal
    | some a => do
      let k ← pyIdx NOAREA a
      let row := vals.drop (vals.length - 12)
      if row.length = 12 ∧ s.hourIdx + 12 ≤ 8760 then
        return { s with
          hourIdx := s.hourIdx + 12
          H := fun j h => if j = k ∧ s.hourIdx ≤ h ∧ h < s.hourIdx + 12
            then row.getD (h - s.hourIdx) 0 else s.H j h }
      else if row.length = 1 then
        return { s with
          hourIdx := s.hourIdx + 12
          H := fun j h => if j = k ∧ s.hourIdx ≤ h ∧ h < s.hourIdx + 12 ∧ h < 8760
            then row.getD 0 0 else s.H j h }
      else .error .valueError

/-- `xldnew.py:26-36`: the raw loads. -/
def leeiRead (NOAREA : ℕ) (lines : List LeeiLine) : Except PyErr (ℕ → ℕ → ℚ) :=
  (lines.foldlM (leeiLine NOAREA) ⟨none, 0, fun _ _ => 0⟩).map (·.H)

/-- `xldnew.py:39-43`: `np.amax(..., initial=0.001)` over the 8760 hours, then scaling. -/
def leeiScale (PKLOAD : ℕ → ℚ) (H : ℕ → ℕ → ℚ) : ℕ → ℕ → ℚ := fun j h =>
  H j h / ((List.range 8760).map (H j)).foldl max (1/1000) * PKLOAD j

/-- `xldnew.py:4-45`. -/
def xldnew (NOAREA : ℕ) (lines : List LeeiLine) (PKLOAD : ℕ → ℚ) : Except PyErr (ℕ → ℕ → ℚ) :=
  (leeiRead NOAREA lines).map (leeiScale PKLOAD)

/-- Season index used by `resca.py:40`. -/
def rescaIPER (QTR : Fin 3 → ℚ) (IDAY : ℕ) : ℕ :=
  npArgmaxBool ((List.finRange 3).map fun k => decide (QTR k > (IDAY : ℚ) * 24))

/-- Season index used by `resca.py:84-94` (`_resca`). -/
def rescaIPER' (QTR : Fin 3 → ℚ) (IDAY : ℕ) : ℕ :=
  let IHR : ℚ := (IDAY : ℚ) * 24
  let i := 0
  let i := if IHR > QTR 0 then 1 else i
  let i := if IHR > QTR 1 then 2 else i
  if IHR > QTR 2 then 3 else i

/-- `resca.py:36-45`, column 1 of SUSTAT. -/
def resca {n m : ℕ} (S1 : Fin n → ℚ) (MAXDAY : Fin n → ℕ) (QTR : Fin 3 → ℚ) (CAPOWN : Fin n → Fin m → ℚ)
    (RATES : Fin m → ℕ → ℚ) (JENT : Fin n → Fin n → ℤ) (INTCH : ℤ → ℕ → ℚ) : Fin n → ℚ := fun i =>
  let IDAY := MAXDAY i
  let s := (List.finRange m).foldl (fun s j => s + CAPOWN i j * RATES j (rescaIPER QTR IDAY)) (S1 i)
  let s := s - ((((List.finRange n).map fun j => JENT i j).filter (· ≠ -1)).map fun c => INTCH c IDAY).sum
  s + ((((List.finRange n).map fun j => JENT j i).filter (· ≠ -1)).map fun c => INTCH c IDAY).sum

/-- `resca.py:81-107` (`_resca`), column 1 of SUSTAT. -/
def resca' {n m : ℕ} (S1 : Fin n → ℚ) (MAXDAY : Fin n → ℕ) (QTR : Fin 3 → ℚ) (CAPOWN : Fin n → Fin m → ℚ)
    (RATES : Fin m → ℕ → ℚ) (JENT : Fin n → Fin n → ℤ) (INTCH : ℤ → ℕ → ℚ) : Fin n → ℚ := fun i =>
  let IDAY := MAXDAY i
  let s := (List.finRange m).foldl (fun s j => s + CAPOWN i j * RATES j (rescaIPER' QTR IDAY)) (S1 i)
  (List.finRange n).foldl (fun s j1 =>
    let s := if JENT i j1 ≠ -1 then s - INTCH (JENT i j1) IDAY else s
    if JENT j1 i ≠ -1 then s + INTCH (JENT j1 i) IDAY else s) s

/-- `input_processing.py:78-96`, the load part: scaled loads, interchange added, peaks taken,
interchange removed. Result: HRLOAD as passed on, MAXHR, DYLOAD, MAXDAY, MXPLHR. -/
def loadSteps {n : ℕ} (JENT : Fin n → Fin n → ℤ) (INTCH : ℤ → ℕ → ℚ) (H : Fin n → ℕ → ℚ) :
    (Fin n → ℕ → ℚ) × ((Fin n → ℕ → ℕ) × (Fin n → ℕ → ℚ) × (Fin n → ℕ)) × (ℕ → ℕ) :=
  let H1 := xporta JENT INTCH H
  let pk := dpeak 24 365 H1
  let mx := plhr H1
  (xports JENT INTCH H1, pk, mx)

end Narp
