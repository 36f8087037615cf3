import Verif.Model.Year

/-!
# The final report: `report.py`

Called once, from `year.py:852-913`. Simplifications: what is written to `output.txt` is modelled as rows of
exact numbers (the `%7.2f` roundings, headings and column positions are left out); the number of years is
positive (with 0 numpy would give nan); the square roots of lines 452-457 are kept as radicands (`Sd`), their
value is `Sd.pct`.
-/

namespace Narp
open BigOperators

/-- SUSTAT: per area, and the last row (the pool): peak, capacity, percent reserve, hourly LOLE, peak LOLE,
EUE (`datax.py:75-76`, `resca.py:6-20`). -/
structure Sus (n : ℕ) where
  area : Fin n → Fin 6 → ℚ
  pool : Fin 6 → ℚ

/-- One row of the first table (report.py:122-145 and the like): the sums over the years divided by the number
of years, and the mean shortage. -/
def repRow (INDX : ℤ) (area tier : Option ℕ) (SOLH SGNH SOLP SGNP XYEAR : ℚ) (tag : Tag) : Row :=
  mkRow INDX area tier (SOLH / XYEAR) (xlol SGNH SOLH) (SGNH / XYEAR) (SOLP / XYEAR) (xlol SGNP SOLP) tag

/-- The rows of area `J`, report.py:119-285: the tiers only if there are several, then the weighted averages. -/
def repArea {n : ℕ} (NFCST : ℕ) (INDX : ℤ) (r : RepIn n) (j : Fin n) : List Row :=
  (if NFCST ≠ 1 then
    ((List.finRange 5).take NFCST).flatMap fun (N : Fin 5) =>
      [ repRow INDX (some j.val) (some N.val) (r.CH.SOLGA j N) (r.CH.SGNGA j N) (r.CP.SOLGA j N) (r.CP.SGNGA j N)
          r.IYEAR .GC,
        repRow INDX (some j.val) (some N.val) (r.CH.SOLTA j N) (r.CH.SGNTA j N) (r.CP.SOLTA j N) (r.CP.SGNTA j N)
          r.IYEAR .TC,
        repRow INDX (some j.val) (some N.val) (r.CH.SOLSA j N) (r.CH.SGNSA j N) (r.CP.SOLSA j N) (r.CP.SGNSA j N)
          r.IYEAR .GT ]
  else []) ++
  [ repRow INDX (some j.val) none (r.CH.SWLGA j) (r.CH.SWNGA j) (r.CP.SWLGA j) (r.CP.SWNGA j) r.IYEAR .GC,
    repRow INDX (some j.val) none (r.CH.SWLTA j) (r.CH.SWNTA j) (r.CP.SWLTA j) (r.CP.SWNTA j) r.IYEAR .TC,
    repRow INDX (some j.val) none (r.CH.SWLSA j) (r.CH.SWNSA j) (r.CP.SWLSA j) (r.CP.SWNSA j) r.IYEAR .GT ]

/-- The rows of the pool, report.py:289-450. -/
def repPool {n : ℕ} (NFCST : ℕ) (INDX : ℤ) (r : RepIn n) : List Row :=
  (if NFCST ≠ 1 then
    ((List.finRange 5).take NFCST).flatMap fun (N : Fin 5) =>
      [ repRow INDX none (some N.val) (r.CH.SOLGP N) (r.CH.SGNGP N) (r.CP.SOLGP N) (r.CP.SGNGP N) r.IYEAR .GC,
        repRow INDX none (some N.val) (r.CH.SOLTP N) (r.CH.SGNTP N) (r.CP.SOLTP N) (r.CP.SGNTP N) r.IYEAR .TC,
        repRow INDX none (some N.val) (r.CH.SOLSP N) (r.CH.SGNSP N) (r.CP.SOLSP N) (r.CP.SGNSP N) r.IYEAR .GT ]
  else []) ++
  [ repRow INDX none none r.WH.SWLG r.WH.SWNG r.WP.SWLG r.WP.SWNG r.IYEAR .GC,
    repRow INDX none none r.WH.SWLT r.WH.SWNT r.WP.SWLT r.WP.SWNT r.IYEAR .TC,
    repRow INDX none none r.WH.SWLS r.WH.SWNS r.WP.SWLS r.WP.SWNS r.IYEAR .GT ]

/-- `SSQA[J, 0..2]` before the root, over the number of years (report.py:257, 259, 267, 454): hourly LOLE, EUE,
peak LOLE. -/
def repSSQA {n : ℕ} (r : RepIn n) (j : Fin n) : Fin 3 → ℚ :=
  ![(r.XNEWA j 0 / r.IYEAR - (r.CH.SWLSA j / r.IYEAR) ^ 2) / r.IYEAR,
    (r.XNEWA j 1 / r.IYEAR - (r.CH.SWNSA j / r.IYEAR) ^ 2) / r.IYEAR,
    (r.XNEWA j 2 / r.IYEAR - (r.CP.SWLSA j / r.IYEAR) ^ 2) / r.IYEAR]

/-- `SSQP[0..2]` likewise (report.py:429, 431, 439, 457). -/
def repSSQP {n : ℕ} (r : RepIn n) : Fin 3 → ℚ :=
  ![(r.XNEWP 0 / r.IYEAR - (r.WH.SWLS / r.IYEAR) ^ 2) / r.IYEAR,
    (r.XNEWP 1 / r.IYEAR - (r.WH.SWNS / r.IYEAR) ^ 2) / r.IYEAR,
    (r.XNEWP 2 / r.IYEAR - (r.WP.SWLS / r.IYEAR) ^ 2) / r.IYEAR]

/-- report.py:283-285 and 459-461: columns 3, 4, 5 of SUSTAT. -/
def repMeans {n : ℕ} (r : RepIn n) (S : Sus n) : Sus n where
  area := fun j => ![S.area j 0, S.area j 1, S.area j 2, r.CH.SWLSA j / r.IYEAR, r.CP.SWLSA j / r.IYEAR,
    r.CH.SWNSA j / r.IYEAR]
  pool := ![S.pool 0, S.pool 1, S.pool 2, r.WH.SWLS / r.IYEAR, r.WP.SWLS / r.IYEAR, r.WH.SWNS / r.IYEAR]

/-- A standard deviation in percent of a magnitude: `√V / M * 100` if `M > 0`, else 0 (report.py:454, 457, 492-500). -/
structure Sd where
  V : ℚ
  M : ℚ
  deriving DecidableEq, Repr

/-- A row of the summary (report.py:502-531, 550-581): peak, capacity, percent reserve; magnitude and deviation
of the hourly LOLE and the EUE (not in daily mode) and of the peak LOLE. `name = none` is the pool ("ERCOT"). -/
structure SumRow where
  name : Option String
  peak : ℚ
  cap : ℚ
  res : ℚ
  hourly : Option ((ℚ × Sd) × (ℚ × Sd))
  lole : ℚ × Sd
  deriving DecidableEq, Repr

/-- The row printed for the values `s` of SUSTAT and the radicands `V`. (report.py:487-530) -/
def sumRow (INDX : ℤ) (name : Option String) (s : Fin 6 → ℚ) (V : Fin 3 → ℚ) : SumRow where
  name := name
  peak := s 0
  cap := s 1
  res := s 2
  hourly := if INDX ≠ 1 then some ((s 3, ⟨V 0, s 3⟩), (s 5, ⟨V 1, s 5⟩)) else none
  lole := (s 4, ⟨V 2, s 4⟩)

/-- Body of the loop report.py:487-535. -/
def sumBody {n : ℕ} (INDX : ℤ) (NAMA : Fin n → String) (r : RepIn n) (s : Sus n × List SumRow) (i : Fin n) :
    Sus n × List SumRow :=
  let ai := s.1.area i
  let ai := if ai 0 > 0 then Function.update ai 2 ((ai 1 - ai 0) / ai 0 * 100) else ai          -- lines 488-489
  let pool := Function.update s.1.pool 0 (s.1.pool 0 + ai 0)                                     -- line 534
  let pool := Function.update pool 1 (pool 1 + ai 1)                                             -- line 535
  (⟨Function.update s.1.area i ai, pool⟩, s.2 ++ [sumRow INDX (some (NAMA i)) ai (repSSQA r i)])

/-- report.py:487-538. Lines 537-538 use the loop variable `i`, which is the last area; without areas it has no
value. -/
def repSummary {n : ℕ} (INDX : ℤ) (NAMA : Fin n → String) (r : RepIn n) (S : Sus n) :
    Except PyErr (Sus n × List SumRow) :=
  let s := (List.finRange n).foldl (sumBody INDX NAMA r) (repMeans r S, [])
  match (List.finRange n).getLast? with
  | none => .error .unboundLocal
  | some i =>
    let ai := s.1.area i
    let pool := if ai 0 > 0 then Function.update s.1.pool 2 ((ai 1 - ai 0) / ai 0 * 100) else s.1.pool
    .ok (⟨s.1.area, pool⟩, s.2 ++ [sumRow INDX none pool (repSSQP r)])

/-- A row of a distribution table (report.py:611-625). -/
structure DistRow where
  cls : ℕ
  dp : ℚ
  pdp : ℚ
  hl : ℚ
  phl : ℚ
  limit : ℤ
  eue : ℚ
  peue : ℚ
  deriving DecidableEq, Repr

/-- The distribution table of area `i`, report.py:583-599 and 611-625. Line 598 divides the peak counts by the
sum of the hourly counts. -/
def repDist {n : ℕ} (LSTEP : ℤ) (h : Hist n) (i : Fin n) : List DistRow :=
  let SUMHL := ∑ j, h.HLOLE i j
  let SUMEUE := ∑ j, h.EUES i j
  (List.finRange 22).map fun j =>
    ⟨j.val, h.DPLOLE i j, h.DPLOLE i j / SUMHL, h.HLOLE i j, h.HLOLE i j / SUMHL, j.val * LSTEP, h.EUES i j,
      h.EUES i j / SUMEUE⟩

/-- What the report writes, and the table counter it returns. (report.py:4-628) -/
structure Report (n : ℕ) where
  years : ℤ
  rows : List Row
  summary : List SumRow
  dist : Fin n → List DistRow
  tables : List ℤ
  SUSTAT : Sus n
  ITAB : ℤ

/-- `report.py:96-628`. `tables` are the table numbers printed (lines 100, 463, 602). -/
def report {n : ℕ} (NFCST : ℕ) (INDX LSTEP ITAB : ℤ) (NAMA : Fin n → String) (r : RepIn n) (S : Sus n) :
    Except PyErr (Report n) :=
  match repSummary INDX NAMA r S with
  | .error e => .error e
  | .ok (S', rows) => .ok
    { years := r.IYEAR
      rows := (List.finRange n).flatMap (repArea NFCST INDX r) ++ repPool NFCST INDX r
      summary := rows
      dist := repDist LSTEP r.hist
      tables := (ITAB + 1) :: (ITAB + 2) :: (List.finRange n).map fun i => ITAB + 2 + (i.val + 1)
      SUSTAT := S'
      ITAB := ITAB + 2 + n }

end Narp
