import Verif.Model.Stats
import Verif.Model.EventList
import Mathlib.Algebra.BigOperators.Fin

/-!
# The yearly event: `year.py`, `cvchk.py`, `intm.py`, `rstart.py`

`n` areas. The counters of one kind (hourly, peak) are a `Cnt n`, the sums over the years a `Cum n`.
Simplifications: text output is modelled as a list of table rows; console prints are dropped; the final
report is modelled in `Report.lean` (it does not change any state except the table counter `ITAB`, whose
change there is not modelled). Numbers that Python prints with `%d` are kept exact.
-/

namespace Narp
open BigOperators

/-- `year.py:146-149`: weights of the forecast tiers. -/
def XPROB (NFCST : ℕ) : Fin 5 → ℚ :=
  if NFCST = 1 then ![1, 0.2417, 0.383, 0.2417, 0.0668] else ![0.0668, 0.2417, 0.383, 0.2417, 0.0668]

/-- `x[:NFCST] @ XPROB[:NFCST]` (year.py:192 and the like). -/
def wavg (NFCST : ℕ) (x : Fin 5 → ℚ) : ℚ := ∑ t : Fin 5, if t.val < NFCST then x t * XPROB NFCST t else 0

/-- The sums over the years of one kind of statistics: fifth letter H or P dropped, so that `SOLTA` is
SOLTHA resp. SOLTPA. The pool's weighted sums (`SWLTHP` and the like) are not here: they are local
variables of `year`, see `PoolW`. (year.py:187-236) -/
structure Cum (n : ℕ) where
  SOLTA : Fin n → Fin 5 → ℚ
  SOLGA : Fin n → Fin 5 → ℚ
  SOLSA : Fin n → Fin 5 → ℚ
  SGNTA : Fin n → Fin 5 → ℚ
  SGNGA : Fin n → Fin 5 → ℚ
  SGNSA : Fin n → Fin 5 → ℚ
  SWLTA : Fin n → ℚ
  SWLGA : Fin n → ℚ
  SWLSA : Fin n → ℚ
  SWNTA : Fin n → ℚ
  SWNGA : Fin n → ℚ
  SWNSA : Fin n → ℚ
  SOLTP : Fin 5 → ℚ
  SOLGP : Fin 5 → ℚ
  SOLSP : Fin 5 → ℚ
  SGNTP : Fin 5 → ℚ
  SGNGP : Fin 5 → ℚ
  SGNSP : Fin 5 → ℚ

/-- `narpMain.py:134-181` -/
def Cum.zero (n : ℕ) : Cum n where
  SOLTA := fun _ _ => 0
  SOLGA := fun _ _ => 0
  SOLSA := fun _ _ => 0
  SGNTA := fun _ _ => 0
  SGNGA := fun _ _ => 0
  SGNSA := fun _ _ => 0
  SWLTA := fun _ => 0
  SWLGA := fun _ => 0
  SWLSA := fun _ => 0
  SWNTA := fun _ => 0
  SWNGA := fun _ => 0
  SWNSA := fun _ => 0
  SOLTP := fun _ => 0
  SOLGP := fun _ => 0
  SOLSP := fun _ => 0
  SGNTP := fun _ => 0
  SGNGP := fun _ => 0
  SGNSP := fun _ => 0

/-- `S[:NFCST] = T[:NFCST] + G[:NFCST]` into an integer array of zeros (year.py:174-186, 197, 213, 222, 248,
257, 273, 282): the float sum is truncated. -/
def sumTG (NFCST : ℕ) (T G : Fin 5 → ℚ) : Fin 5 → ℚ :=
  fun t => if t.val < NFCST then (pyInt (T t + G t) : ℚ) else 0

/-- `S[:NFCST] += x[:NFCST]` (year.py:187-191) -/
def addTo (NFCST : ℕ) (S x : Fin 5 → ℚ) : Fin 5 → ℚ := fun t => if t.val < NFCST then S t + x t else S t

/-- year.py:186-210 (hourly), 213-236 (peak) for the areas; 248-250, 257-260, 273-276, 282-285 for the
pool. -/
def accum {n : ℕ} (NFCST : ℕ) (c : Cnt n) (s : Cum n) : Cum n where
  SOLTA := fun j => addTo NFCST (s.SOLTA j) (c.LOLTA j)
  SOLGA := fun j => addTo NFCST (s.SOLGA j) (c.LOLGA j)
  SOLSA := fun j => addTo NFCST (s.SOLSA j) (sumTG NFCST (c.LOLTA j) (c.LOLGA j))
  SGNTA := fun j => addTo NFCST (s.SGNTA j) (c.MGNTA j)
  SGNGA := fun j => addTo NFCST (s.SGNGA j) (c.MGNGA j)
  SGNSA := fun j => addTo NFCST (s.SGNSA j) (sumTG NFCST (c.MGNTA j) (c.MGNGA j))
  SWLTA := fun j => s.SWLTA j + wavg NFCST (c.LOLTA j)
  SWLGA := fun j => s.SWLGA j + wavg NFCST (c.LOLGA j)
  SWLSA := fun j => s.SWLSA j + wavg NFCST (sumTG NFCST (c.LOLTA j) (c.LOLGA j))
  SWNTA := fun j => s.SWNTA j + wavg NFCST (c.MGNTA j)
  SWNGA := fun j => s.SWNGA j + wavg NFCST (c.MGNGA j)
  SWNSA := fun j => s.SWNSA j + wavg NFCST (sumTG NFCST (c.MGNTA j) (c.MGNGA j))
  SOLTP := addTo NFCST s.SOLTP c.LOLTP
  SOLGP := addTo NFCST s.SOLGP c.LOLGP
  SOLSP := addTo NFCST s.SOLSP (sumTG NFCST c.LOLTP c.LOLGP)
  SGNTP := addTo NFCST s.SGNTP c.MGNTP
  SGNGP := addTo NFCST s.SGNGP c.MGNGP
  SGNSP := addTo NFCST s.SGNSP (sumTG NFCST c.MGNTP c.MGNGP)

/-- The pool's weighted sums of one kind, `SWLTHP` and the like. (year.py:265-295) -/
structure PoolW where
  SWLT : ℚ
  SWLG : ℚ
  SWLS : ℚ
  SWNT : ℚ
  SWNG : ℚ
  SWNS : ℚ
  deriving DecidableEq

/-- year.py:252-254, 261-270, 277-279, 286-295. The sums are passed in as numbers, and the numbers that
`events` passes are always the initial zeros (`narpMain.py:159-181`): the results are not returned. -/
def poolW {n : ℕ} (NFCST : ℕ) (c : Cnt n) : PoolW where
  SWLT := 0 + wavg NFCST c.LOLTP
  SWLG := 0 + wavg NFCST c.LOLGP
  SWLS := 0 + wavg NFCST (sumTG NFCST c.LOLTP c.LOLGP)
  SWNT := 0 + wavg NFCST c.MGNTP
  SWNG := 0 + wavg NFCST c.MGNGP
  SWNS := 0 + wavg NFCST (sumTG NFCST c.MGNTP c.MGNGP)

/-- `a[j, k] += 1` for a histogram row of 22 classes. (year.py:243-245) -/
def hit {n : ℕ} (a : Fin n → Fin 22 → ℚ) (j : Fin n) (k : ℕ) : Fin n → Fin 22 → ℚ :=
  fun j' k' => if j' = j ∧ k'.val = k then a j' k' + 1 else a j' k'

/-- The three histograms. (year.py:239-245) -/
structure Hist (n : ℕ) where
  HLOLE : Fin n → Fin 22 → ℚ
  DPLOLE : Fin n → Fin 22 → ℚ
  EUES : Fin n → Fin 22 → ℚ

/-- Body of the loop year.py:239-245. With `LSTEP = 0` numpy gives nan or inf, which `int` rejects
(ValueError or OverflowError, here both `valueError`). -/
def histBody {n : ℕ} (NFCST : ℕ) (NORR : Fin 5) (LSTEP : ℤ) (H P : Cnt n) (h : Hist n) (j : Fin n) :
    Except PyErr (Hist n) := do
  if NFCST ≤ NORR.val then throw .indexError                         -- LOLSHA has NFCST columns
  let IPHOUR := min 22 (pyInt (sumTG NFCST (H.LOLTA j) (H.LOLGA j) NORR) + 1)
  let IPDP := min 22 (pyInt (sumTG NFCST (P.LOLTA j) (P.LOLGA j) NORR) + 1)
  if LSTEP = 0 then throw .valueError
  let IPEUE := min 22 (pyInt (sumTG NFCST (H.MGNTA j) (H.MGNGA j) NORR / LSTEP + 1))
  let kh ← pyIdx 22 (IPHOUR - 1)
  let kd ← pyIdx 22 (IPDP - 1)
  let ke ← pyIdx 22 (IPEUE - 1)
  return ⟨hit h.HLOLE j kh, hit h.DPLOLE j kd, hit h.EUES j ke⟩

/-- The loop year.py:239-245. -/
def histLoop {n : ℕ} (NFCST : ℕ) (NORR : Fin 5) (LSTEP : ℤ) (H P : Cnt n) (h : Hist n) : Except PyErr (Hist n) :=
  (List.finRange n).foldlM (histBody NFCST NORR LSTEP H P) h

/-- The remark column of the annual table (year.py:142): generation, transmission, both. -/
inductive Tag where
  | GC | TC | GT
  deriving DecidableEq, Repr

/-- A row of the annual table. `area = none`: pool; `tier = none`: average over the tiers. `hourly` is LOLE,
XLOL and EUE, absent in daily mode; `peak` is LOLE and XLOL. (year.py:328-608) -/
structure Row where
  area : Option ℕ
  tier : Option ℕ
  hourly : Option (ℚ × ℚ × ℚ)
  peak : ℚ × ℚ
  tag : Tag
  deriving DecidableEq, Repr

/-- `MGN / LOL` if `LOL > 0`, else 0 (year.py:330-333 and the like). -/
def xlol (MGN LOL : ℚ) : ℚ := if LOL > 0 then MGN / LOL else 0

/-- One printed row (year.py:340-358 and the like). -/
def mkRow (INDX : ℤ) (area tier : Option ℕ) (LOLH XH MGNH LOLP XP : ℚ) (tag : Tag) : Row :=
  ⟨area, tier, if INDX ≠ 1 then some (LOLH, XH, MGNH) else none, (LOLP, XP), tag⟩

/-- The rows of area `J`, year.py:328-481. In daily mode the total rows of the tiers carry the remark TC
(line 417). -/
def areaRows {n : ℕ} (NFCST : ℕ) (INDX : ℤ) (H P : Cnt n) (j : Fin n) : List Row :=
  let LS := sumTG NFCST (H.LOLTA j) (H.LOLGA j)
  let MS := sumTG NFCST (H.MGNTA j) (H.MGNGA j)
  let LSP := sumTG NFCST (P.LOLTA j) (P.LOLGA j)
  let MSP := sumTG NFCST (P.MGNTA j) (P.MGNGA j)
  let W := wavg NFCST
  (((List.finRange 5).take NFCST).flatMap fun (N : Fin 5) =>
    [ mkRow INDX (some j.val) (some N.val) (H.LOLGA j N) (xlol (H.MGNGA j N) (H.LOLGA j N)) (H.MGNGA j N)
        (P.LOLGA j N) (xlol (P.MGNGA j N) (P.LOLGA j N)) .GC,
      mkRow INDX (some j.val) (some N.val) (H.LOLTA j N) (xlol (H.MGNTA j N) (H.LOLTA j N)) (H.MGNTA j N)
        (P.LOLTA j N) (xlol (P.MGNTA j N) (P.LOLTA j N)) .TC,
      mkRow INDX (some j.val) (some N.val) (LS N) (xlol (MS N) (LS N)) (MS N)
        (LSP N) (xlol (MSP N) (LSP N)) (if INDX ≠ 1 then .GT else .TC) ]) ++
  [ mkRow INDX (some j.val) none (W (H.LOLGA j)) (xlol (W (H.MGNGA j)) (W (H.LOLGA j))) (W (H.MGNGA j))
      (W (P.LOLGA j)) (xlol (W (P.MGNGA j)) (W (P.LOLGA j))) .GC,
    mkRow INDX (some j.val) none (W (H.LOLTA j)) (xlol (W (H.MGNTA j)) (W (H.LOLTA j))) (W (H.MGNTA j))
      (W (P.LOLTA j)) (xlol (W (P.MGNTA j)) (W (P.LOLTA j))) .TC,
    mkRow INDX (some j.val) none (W LS) (xlol (W MS) (W LS)) (W MS) (W LSP) (xlol (W MSP) (W LSP)) .GT ]

/-- Body of the loop year.py:485-547 over the tiers of the pool. The state is what the variables XMGNH and
XMGNP hold (`none`: no value yet) and the rows written. Lines 486-494 leave the old values when the count is
zero. -/
def poolTier {n : ℕ} (NFCST : ℕ) (INDX : ℤ) (H P : Cnt n) (s : (Option ℚ × Option ℚ) × List Row) (N : Fin 5) :
    Except PyErr ((Option ℚ × Option ℚ) × List Row) := do
  let LS := sumTG NFCST H.LOLTP H.LOLGP
  let MS := sumTG NFCST H.MGNTP H.MGNGP
  let LSP := sumTG NFCST P.LOLTP P.LOLGP
  let MSP := sumTG NFCST P.MGNTP P.MGNGP
  let XMGNH := if H.LOLGP N > 0 then some (H.MGNGP N / H.LOLGP N) else s.1.1
  let XMGNP := if P.LOLGP N > 0 then some (P.MGNGP N / P.LOLGP N) else s.1.2
  let xh ← if INDX ≠ 1 then (match XMGNH with | some x => .ok x | none => .error .unboundLocal) else .ok 0
  let xp ← match XMGNP with | some x => .ok x | none => .error .unboundLocal
  return ((some (xlol (MS N) (LS N)), some (xlol (MSP N) (LSP N))), s.2 ++
    [ mkRow INDX none (some N.val) (H.LOLGP N) xh (H.MGNGP N) (P.LOLGP N) xp .GC,
      mkRow INDX none (some N.val) (H.LOLTP N) (xlol (H.MGNTP N) (H.LOLTP N)) (H.MGNTP N)
        (P.LOLTP N) (xlol (P.MGNTP N) (P.LOLTP N)) .TC,
      mkRow INDX none (some N.val) (LS N) (xlol (MS N) (LS N)) (MS N) (LSP N) (xlol (MSP N) (LSP N)) .GT ])

/-- The annual table, year.py:309-607. -/
def annualTable {n : ℕ} (NFCST : ℕ) (INDX : ℤ) (H P : Cnt n) : Except PyErr (List Row) := do
  let rows := (List.finRange n).flatMap (areaRows NFCST INDX H P)
  let lastP := (rows.getLast?).map fun r => r.peak.2                -- XMGNP as the area loop left it
  let s ← ((List.finRange 5).take NFCST).foldlM (poolTier NFCST INDX H P) ((none, lastP), rows)
  let w := poolW NFCST H
  let wp := poolW NFCST P
  return s.2 ++
    [ mkRow INDX none none w.SWLG (xlol w.SWNG w.SWLG) w.SWNG wp.SWLG (xlol wp.SWNG wp.SWLG) .GC,
      mkRow INDX none none w.SWLT (xlol w.SWNT w.SWLT) w.SWNT wp.SWLT (xlol wp.SWNT wp.SWLT) .TC,
      mkRow INDX none none w.SWLS (xlol w.SWNS w.SWLS) w.SWNS wp.SWLS (xlol wp.SWNS wp.SWLS) .GT ]

/-- `A[:NFCST, :NOAREA] = 0` on an array with one row per area and five columns (year.py:637-644). -/
def resetA {n : ℕ} (NFCST : ℕ) (a : Fin n → Fin 5 → ℚ) : Fin n → Fin 5 → ℚ :=
  fun j t => if j.val < NFCST ∧ t.val < n then 0 else a j t

/-- `A[:NFCST] = 0` (year.py:646-653). -/
def resetP (NFCST : ℕ) (a : Fin 5 → ℚ) : Fin 5 → ℚ := fun t => if t.val < NFCST then 0 else a t

/-- year.py:637-653 for one kind. -/
def resetCnt {n : ℕ} (NFCST : ℕ) (c : Cnt n) : Cnt n where
  LOLTA := resetA NFCST c.LOLTA
  LOLGA := resetA NFCST c.LOLGA
  LOLTP := resetP NFCST c.LOLTP
  LOLGP := resetP NFCST c.LOLGP
  MGNTA := resetA NFCST c.MGNTA
  MGNGA := resetA NFCST c.MGNGA
  MGNTP := resetP NFCST c.MGNTP
  MGNGP := resetP NFCST c.MGNGP

/-- `√V < X` in Python: `pow(V, 0.5)` of a negative numpy float is nan, and nan compares false. That this is
the comparison with the real square root is `sqrtLt_iff` in `Props/Year.lean`. (cvchk.py:37, 56) -/
def sqrtLt (V X : ℚ) : Bool := decide (0 ≤ V ∧ 0 < X ∧ V < X * X)

/-- `cvchk.py:22-61`; returns RFLAG, SSQ, XLAST. Line 37 computes the square root before line 48 returns, which
cannot fail for numpy floats (nan). -/
def cvchk (CLOCK FINISH : ℚ) (IYEAR : ℤ) (CVTEST SUM XLAST SSQ : ℚ) : ℤ × ℚ × ℚ :=
  let RFLAG : ℤ := if CLOCK ≥ FINISH then 1 else 0                   -- line 22
  let DIFF := SUM - XLAST
  let XLAST := SUM
  let SSQ := SSQ + DIFF ^ 2                                          -- lines 24-26
  if IYEAR < 5 then (RFLAG, SSQ, XLAST)                              -- lines 30-31
  else
    let XMEAN := SUM / IYEAR                                         -- line 33
    let XX := if CVTEST ≠ 0 then CVTEST * XMEAN else 0.025 * XMEAN   -- line 35
    let V := ((SSQ / IYEAR) - XMEAN ^ 2) / IYEAR                     -- line 37
    if XMEAN = 0 then (RFLAG, SSQ, XLAST)                            -- lines 48-49
    else if sqrtLt V XX then (1, SSQ, XLAST)                         -- lines 56-57
    else (RFLAG, SSQ, XLAST)

/-- The constant inputs of `year`. (year.py:9-109, the arguments that are not changed) -/
structure YearIn where
  NFCST : ℕ
  NORR : Fin 5
  LSTEP : ℤ
  IOJ : ℤ
  INDX : ℤ
  KWHERE : ℤ
  KVWHEN : ℤ
  KVSTAT : ℤ
  KVTYPE : ℤ
  KVLOC : ℤ
  CVTEST : ℚ
  FINISH : ℚ
  INTV : ℤ

/-- What is written to the snapshot file (`intm.py:82-141`, called at year.py:723-782 and 790-849). `α` stands
for LT, BB, ZB. `WOLSHA` is all zeros then (year.py:615) and is left out. -/
structure Snap (n : ℕ) (α : Type) where
  ATRIB : ℚ
  CLOCK : ℚ
  cal : Cal
  XLAST : ℚ
  SSQ : ℚ
  ITAB : ℤ
  INTVT : ℤ
  IGSEED : ℤ
  ILSEED : ℤ
  net : α
  CH : Cum n
  CP : Cum n
  hist : Hist n
  XNEWA : Fin n → Fin 3 → ℚ
  XNEWP : Fin 3 → ℚ
  LSFLG : Fin n → ℚ

/-- What `year` passes to the final report and what is not kept elsewhere (year.py:852-913). -/
structure RepIn (n : ℕ) where
  IYEAR : ℤ
  CH : Cum n
  CP : Cum n
  WH : PoolW
  WP : PoolW
  hist : Hist n
  XNEWA : Fin n → Fin 3 → ℚ
  XNEWP : Fin 3 → ℚ

/-- The variables that `year` updates, besides the annual counters; `dump` is the snapshot file, `rows` the
annual table last printed, `rep` what was given to the final report.
(year.py:9-109, the arguments that are changed) -/
structure YearSt (n : ℕ) (α : Type) where
  CH : Cum n
  CP : Cum n
  hist : Hist n
  XNEWA : Fin n → Fin 3 → ℚ
  XNEWP : Fin 3 → ℚ
  SSQ : ℚ
  XLAST : ℚ
  INTVT : ℤ
  ITAB : ℤ
  dump : Option (Snap n α)
  rows : List Row
  rep : Option (RepIn n)

/-- `year.py:664-717`: the statistic tested for convergence. -/
def selSum {n : ℕ} (c : YearIn) (CH CP : Cum n) (WH WP : PoolW) : Except PyErr ℚ :=
  let C := if c.KVWHEN = 1 then CH else CP
  let W := if c.KVWHEN = 1 then WH else WP
  if c.KWHERE = 1 then
    match pyIdx n c.KVLOC with
    | .error e => .error e
    | .ok k =>
      if h : k < n then
        if c.KVSTAT = 1 then
          if c.KVTYPE = 1 then .ok (C.SWLSA ⟨k, h⟩) else .ok (C.SOLSA ⟨k, h⟩ c.NORR)
        else
          if c.KVTYPE = 1 then .ok (C.SWNSA ⟨k, h⟩) else .ok (C.SGNSA ⟨k, h⟩ c.NORR)
      else .error .indexError
  else
    if c.KVSTAT = 1 then
      if c.KVTYPE = 1 then .ok W.SWLS else .ok (C.SOLSP c.NORR)
    else
      if c.KVTYPE = 1 then .ok W.SWNS else .ok (C.SGNSP c.NORR)

/-- year.py:297-303: the squares of the weighted annual values (hourly LOLE, hourly EUE, peak LOLE). -/
def newA {n : ℕ} (NFCST : ℕ) (H P : Cnt n) (X : Fin n → Fin 3 → ℚ) : Fin n → Fin 3 → ℚ :=
  fun j k => X j k + (![wavg NFCST (sumTG NFCST (H.LOLTA j) (H.LOLGA j)),
    wavg NFCST (sumTG NFCST (H.MGNTA j) (H.MGNGA j)),
    wavg NFCST (sumTG NFCST (P.LOLTA j) (P.LOLGA j))] k) ^ 2

/-- year.py:301-303. -/
def newP (wh wp : PoolW) (X : Fin 3 → ℚ) : Fin 3 → ℚ :=
  fun k => X k + (![wh.SWLS, wh.SWNS, wp.SWLS] k) ^ 2

/-- `intm.py:4-144`, called with the seeds `123, 123` (year.py:734-735, 801-802); `ATRIB[1]` is 4 then. -/
def intm {n : ℕ} {α : Type} (CLOCK : ℚ) (cal : Cal) (y : YearSt n α) (net : α) (LSFLG : Fin n → ℚ) : Snap n α where
  ATRIB := 4
  CLOCK := CLOCK
  cal := cal
  XLAST := y.XLAST
  SSQ := y.SSQ
  ITAB := y.ITAB
  INTVT := y.INTVT
  IGSEED := 123
  ILSEED := 123
  net := net
  CH := y.CH
  CP := y.CP
  hist := y.hist
  XNEWA := y.XNEWA
  XNEWP := y.XNEWP
  LSFLG := LSFLG

/-- The snapshot part of `year`, year.py:722-849. -/
def yearSave {n : ℕ} {α : Type} (c : YearIn) (CLOCK : ℚ) (IYEAR : ℤ) (cal : Cal) (net : α) (LSFLG : Fin n → ℚ)
    (y : YearSt n α) : YearSt n α :=
  if IYEAR = y.INTVT then
    { y with dump := some (intm CLOCK cal y net LSFLG), INTVT := y.INTVT + c.INTV }
  else if IYEAR = pyInt (c.FINISH / 8760) then
    { y with dump := some (intm CLOCK cal y net LSFLG) }
  else y

/-- year.py:309-607: the annual table is written when `IOJ` is set. -/
def yearRows {n : ℕ} (c : YearIn) (H P : Cnt n) (old : List Row) : Except PyErr (List Row) :=
  if c.IOJ ≠ 0 then annualTable c.NFCST c.INDX H P else .ok old

/-- year.py:851-913: what is passed to the final report. -/
def yearReport {n : ℕ} {α : Type} (c : YearIn) (CLOCK : ℚ) (IYEAR RFLAG : ℤ) (wh wp : PoolW) (y : YearSt n α) :
    YearSt n α :=
  if RFLAG = 1 ∨ CLOCK ≥ c.FINISH then
    { y with rep := some ⟨IYEAR, y.CH, y.CP, wh, wp, y.hist, y.XNEWA, y.XNEWP⟩ }
  else y

/-- `year.py:156-915`: the new hourly and peak counters, the new state and RFLAG. `cal` is the calendar after
the next year end has been filed. -/
def yearBody {n : ℕ} {α : Type} (c : YearIn) (CLOCK : ℚ) (cal : Cal) (net : α) (LSFLG : Fin n → ℚ) (H P : Cnt n)
    (y : YearSt n α) : Except PyErr ((Cnt n × Cnt n) × YearSt n α × ℤ) := do
  let IYEAR := pyInt ((CLOCK + 1) / 8760)                            -- line 156
  let hist ← histLoop c.NFCST c.NORR c.LSTEP H P y.hist              -- lines 238-245
  let wh := poolW c.NFCST H
  let wp := poolW c.NFCST P
  let rows ← yearRows c H P y.rows                                   -- lines 309-607
  let y := { y with
    CH := accum c.NFCST H y.CH
    CP := accum c.NFCST P y.CP
    hist := hist
    XNEWA := newA c.NFCST H P y.XNEWA
    XNEWP := newP wh wp y.XNEWP
    ITAB := if c.IOJ ≠ 0 then y.ITAB + 1 else y.ITAB
    rows := rows }
  let SUM ← selSum c y.CH y.CP wh wp                                 -- lines 664-717
  let r := cvchk CLOCK c.FINISH IYEAR c.CVTEST SUM y.XLAST y.SSQ     -- line 719
  let y := yearSave c CLOCK IYEAR cal net LSFLG { y with SSQ := r.2.1, XLAST := r.2.2 }
  return ((resetCnt c.NFCST H, resetCnt c.NFCST P), yearReport c CLOCK IYEAR r.1 wh wp y, r.1)

/-- The state in which `narpMain.py:99-183` starts. -/
def YearSt.init (n : ℕ) (α : Type) (INTVT ITAB : ℤ) : YearSt n α where
  CH := Cum.zero n
  CP := Cum.zero n
  hist := ⟨fun _ _ => 0, fun _ _ => 0, fun _ _ => 0⟩
  XNEWA := fun _ _ => 0
  XNEWP := fun _ => 0
  SSQ := 0
  XLAST := 0
  INTVT := INTVT
  ITAB := ITAB
  dump := none
  rows := []
  rep := none

end Narp
