import Verif.Model.Report
import Verif.Model.ReadB
import Mathlib.Analysis.SpecialFunctions.Pow.NNReal

/-!
# The text of the annual tables and of the final report

What `year.py` and `report.py` write to `output.txt`, character by character. Numbers are exact (rational; the standard
deviations real), so `%.2f` rounds the exact number; the rounding of the arithmetic before is not modelled here.
The file itself, which is opened for appending, is in `Output.lean`.
-/

namespace Narp

section Number
variable {K : Type} [Field K] [LinearOrder K] [FloorRing K]

/-- The nearest whole number, of two equally near ones the even one (C's `printf`, on which Python's `%f` rests).
(report.py:138, every `%.2f`) -/
def nearest (x : K) : ℤ :=
  if x - ⌊x⌋ < 1 / 2 then ⌊x⌋ else if 1 / 2 < x - ⌊x⌋ then ⌊x⌋ + 1 else if ⌊x⌋ % 2 = 0 then ⌊x⌋ else ⌊x⌋ + 1

/-- The digits of `n` in front of `acc`; `fuel` bounds their number. (report.py:139, inside `%d`) -/
def natTextAux : ℕ → ℕ → List Char → List Char
  | 0, _, acc => acc
  | fuel + 1, n, acc =>
    if n / 10 = 0 then Nat.digitChar (n % 10) :: acc else natTextAux fuel (n / 10) (Nat.digitChar (n % 10) :: acc)

/-- `str(n)` of a whole number `n ≥ 0`. (report.py:139, `%d`) -/
def natText (n : ℕ) : List Char := natTextAux (n + 1) n []

/-- `str(k)` of a whole number. (report.py:139, `%d`) -/
def intText (k : ℤ) : List Char := if k < 0 then '-' :: natText k.natAbs else natText k.natAbs

/-- The last `p` decimal digits of `r`. (report.py:138, inside `%.2f`) -/
def lastDigits (p r : ℕ) : List Char := (List.range p).reverse.map fun i => Nat.digitChar (r / 10 ^ i % 10)

/-- `"%.pf" % x`. (report.py:138) -/
def fixedText (p : ℕ) (x : K) : List Char :=
  let k := (nearest (|x| * 10 ^ p)).toNat
  (if x < 0 then ['-'] else []) ++ natText (k / 10 ^ p) ++ (if p = 0 then [] else '.' :: lastDigits p (k % 10 ^ p))

end Number

/-- A field of width `w` after the separator `sep`: the text is padded with spaces on the left, and a longer text is not cut.
(report.py:138) -/
def cell (sep : List Char) (w : ℕ) (t : List Char) : List Char := sep ++ (List.replicate (w - t.length) ' ' ++ t)

/-- `k` spaces. (report.py:138) -/
def sp (k : ℕ) : List Char := List.replicate k ' '

/-- `k` tabs. (report.py:103) -/
def tb (k : ℕ) : List Char := List.replicate k '\t'

/-- The remarks XG, XT, XS (report.py:96, year.py:142). -/
def Tag.text : Tag → List Char
  | .GC => ['G', 'C']
  | .TC => ['T', 'C']
  | .GT => ['G', 'T']

/-- The area and tier of a row of the final report: `"  %2d  %2d"` (report.py:138), `"  %2d  %s"` with "AV" (line 215), without an
area for the pool (lines 307, 388). They are counted from 1. -/
def repKey (r : Row) : List (List Char) :=
  (match r.area with
   | some j => [cell (sp 2) 2 (natText (j + 1)), cell (sp 2) 2 (match r.tier with | some N => natText (N + 1) | none => ['A', 'V'])]
   | none => [cell (sp 6) 2 (match r.tier with | some N => natText (N + 1) | none => ['A', 'V'])])

/-- The figures of a row of the final report: report.py:138, 143, 307, 312, 388, 393. The averages of the pool have three
decimals in hourly mode (line 388). -/
def repFigures (r : Row) : List (List Char) :=
  (match r.hourly with
   | some (a, b, c) =>
     let p := if r.area.isNone && r.tier.isNone then 3 else 2
     [cell (sp 5) 7 (fixedText p a), cell (sp 2) 8 (fixedText 2 b), cell (sp 3) 7 (fixedText 0 c),
      cell (sp 5) 7 (fixedText p r.peak.1), cell (sp 2) 8 (fixedText 2 r.peak.2)]
   | none => [cell (sp 9) 8 (fixedText 2 r.peak.1), cell (sp 2) 8 (fixedText 2 r.peak.2)]) ++
  [cell (sp 12) 0 r.tag.text]

/-- A row of the first table of the final report, with the line end before it (report.py:136-450). -/
def repRowText (r : Row) : List Char := '\n' :: (repKey r ++ repFigures r).flatten

/-- The value of a standard deviation in percent; `none` is nan (report.py:452-457, 492-500). -/
noncomputable def Sd.pct (s : Sd) : Option ℝ :=
  if s.M > 0 then (if 0 ≤ s.V then some (Real.sqrt (s.V : ℝ) / (s.M : ℝ) * 100) else none) else some 0

/-- `"%.pf"` of a standard deviation. (report.py:487-530) -/
noncomputable def sdText (p : ℕ) (s : Sd) : List Char :=
  match s.pct with
  | some x => fixedText p x
  | none => ['n', 'a', 'n']

/-- The figures of a row of the summary: `"%7.0f     %8.0f     %5.1f     %7.3f    %7.3f    %8.0f   %8.0f   %7.3f   %7.3f"` in hourly
mode (report.py:503, 551), else `"%7.0f     %8.0f     %5.1f     %7.3f   %7.3f"` (line 522), for the pool with a further space
(line 571). -/
noncomputable def sumCells (q : SumRow) : List (List Char) :=
  [cell (sp 4) 7 (fixedText 0 q.peak), cell (sp 5) 8 (fixedText 0 q.cap), cell (sp 5) 5 (fixedText 1 q.res)] ++
  (match q.hourly with
   | some (a, b) => [cell (sp 5) 7 (fixedText 3 a.1), cell (sp 4) 7 (sdText 3 a.2), cell (sp 4) 8 (fixedText 0 b.1),
       cell (sp 3) 8 (sdText 0 b.2), cell (sp 3) 7 (fixedText 3 q.lole.1), cell (sp 3) 7 (sdText 3 q.lole.2)]
   | none => [cell (sp 5) 7 (fixedText 3 q.lole.1), cell (sp (if q.name.isSome then 3 else 4)) 7 (sdText 3 q.lole.2)])

/-- A row of the summary (report.py:502-531 for the areas, 550-581 for the pool). -/
noncomputable def sumRowText (q : SumRow) : List Char :=
  (match q.name with
   | some s => '\n' :: (sp 10 ++ s.toList ++ sp 1)                               -- one of the five spaces before the peak
   | none => '\n' :: '\n' :: (sp 10 ++ ['E', 'R', 'C', 'O', 'T'])) ++ (sumCells q).flatten

/-- A row of a distribution table, with the line end after it (report.py:611-625). -/
def distRowText (d : DistRow) : List Char :=
  [cell [] 4 (natText d.cls), cell (tb 2) 6 (fixedText 0 d.dp), cell (tb 3) 5 (fixedText 3 d.pdp), cell (tb 3) 6 (fixedText 0 d.hl),
    cell (tb 3) 5 (fixedText 3 d.phl), cell (tb 3) 6 (intText d.limit), cell (tb 2) 6 (fixedText 0 d.eue),
    cell (tb 3 ++ [' ']) 6 (fixedText 4 d.peue)].flatten ++ ['\n']

/-- report.py:100-114. -/
def repHead (INDX ITAB IYEAR : ℤ) : List Char :=
  "\n                        TABLE ".toList ++ intText ITAB ++ "\n".toList ++
  "\n\t\t\t FINAL RESULTS AFTER ".toList ++ intText IYEAR ++ " REPLICATIONS \n".toList ++
  (if INDX ≠ 1 then
    "\n  AREA FORECAST    HOURLY STATISTICS            PEAK STATISTICS           REMARKS".toList ++
    "\n  NO   NO        HLOLE    XLOL       EUE       LOLE      XLOL".toList ++
    "\n                (HRS/YR)  (MW)      (MWH)     (DAYS/YR)  (MW)".toList
  else
    "\n  AREA FORECAST    PEAK STATISTICS           REMARKS".toList ++ "\n  NO   NO        LOLE       XLOL".toList ++
    "\n                   (DAYS/YR)   MW".toList)

/-- report.py:463-485. -/
def sumHead (INDX ITAB : ℤ) : List Char :=
  "\n\n\t\t\t\t                            TABLE ".toList ++ cell [] 4 (intText ITAB) ++ " \n".toList ++
  "\n \t\t\t\t\t\t\t\t\t\t SUMMARY OF RESULTS \n\n".toList ++
  (if INDX ≠ 1 then
    "          AREA       PEAK        INSTALLED   AREA           HLOLE                   EUE                LOLE\n".toList ++
    "                                                       ----------------        ----------------     ----------------\n".toList ++
    "                                 CAPACITY    PCT RES   MAGN      PCT SD        MAGN      PCT SD     MAGN      PCT SD".toList
  else
    "          AREA       PEAK        INSTALLED   AREA   ".toList ++
    "                                                       ----------------\n".toList ++
    "                                 CAPACITY    PCT RES     MAGN       PCT SD".toList)

/-- report.py:603-610. `area` is counted from 1. -/
def distHead (ITAB : ℤ) (area : ℕ) : List Char :=
  "\n\n\t\t\t\t\t\t\t\t\t\t\t TABLE ".toList ++ cell [] 5 (intText ITAB) ++ "\n\n".toList ++
  "\t\t\t\t\t\t\t\t PROBABILITY DISTRIBUTIONS FOR AREA ".toList ++ cell [] 3 (natText area) ++ "\n\n\n".toList ++
  "\t\t DAILY PEAK LOLES PER YEAR \t\t\t HOURLY LOLES PER YEAR \t\t\t\t ANNUAL UNSERVED ENERGY (MWH)\n\n".toList ++
  "NUMBER\t OBSERVATIONS\t PROBABILITY".toList ++ "\t OBSERVATIONS\t PROBABILITY\t".toList ++
  "LIMIT (MWH)\t OBSERVATIONS\t PROBABILITY \n".toList

/-- All that `report` appends to `output.txt` (report.py:98-627); `ITAB` is the table number before the call, `R` is what it
computes (`report`). -/
noncomputable def reportText {n : ℕ} (NFCST : ℕ) (INDX ITAB : ℤ) (r : RepIn n) (R : Report n) : List Char :=
  repHead INDX (ITAB + 1) R.years ++
  ((List.finRange n).flatMap fun j => (repArea NFCST INDX r j).flatMap repRowText ++ ['\n']) ++
  "\n\n           POOL STATISTICS \n".toList ++ (repPool NFCST INDX r).flatMap repRowText ++
  sumHead INDX (ITAB + 2) ++ R.summary.flatMap sumRowText ++
  (List.finRange n).flatMap fun i => distHead (ITAB + 2 + (i.val + 1)) (i.val + 1) ++ (R.dist i).flatMap distRowText

/-- `"%d" % x` of a float drops the fraction. (year.py:342) -/
def truncText (x : ℚ) : List Char := intText (if x < 0 then -⌊-x⌋ else ⌊x⌋)

/-- The area and tier of a row of an annual table (year.py:342, 432, 498, 561). They are counted from 0. -/
def annKey (r : Row) : List (List Char) :=
  (match r.area with
   | some j => [cell (sp 2) 2 (natText j), cell (sp 2) 2 (match r.tier with | some N => natText N | none => ['A', 'V'])]
   | none => [cell (sp 6) 2 (match r.tier with | some N => natText N | none => ['A', 'V'])])

/-- The figures of a row of an annual table (year.py:342, 356, 432, 437, 498, 503, 561, 566). -/
def annFigures (r : Row) : List (List Char) :=
  (match r.hourly, r.tier, r.area with
   | some (a, b, c), some _, some _ => [cell (sp 4) 4 (truncText a), cell (sp 4) 8 (fixedText 2 b), cell (sp 2) 8 (truncText c),
       cell (sp 5) 4 (truncText r.peak.1), cell (sp 5) 8 (fixedText 2 r.peak.2)]
   | some (a, b, c), some _, none => [cell (sp 5) 4 (truncText a), cell (sp 5) 8 (fixedText 2 b), cell (sp 2) 8 (truncText c),
       cell (sp 5) 4 (truncText r.peak.1), cell (sp 5) 8 (fixedText 2 r.peak.2)]
   | some (a, b, c), none, _ => [cell (sp 5) 7 (fixedText 2 a), cell (sp 2) 8 (fixedText 2 b), cell (sp 3) 7 (fixedText 0 c),
       cell (sp 5) 7 (fixedText 2 r.peak.1), cell (sp 2) 8 (fixedText 2 r.peak.2)]
   | none, _, _ => [cell (sp 9) 8 (fixedText 2 r.peak.1), cell (sp 2) 8 (fixedText 2 r.peak.2)]) ++
  [cell (sp 12) 0 r.tag.text]

/-- A row of an annual table (year.py:341-607): the rows of the areas have line ends before and after, those of the pool
have none. -/
def annRowText (r : Row) : List Char :=
  match r.area with
  | some _ => '\n' :: ((annKey r ++ annFigures r).flatten ++ ['\n'])
  | none => (annKey r ++ annFigures r).flatten

/-- year.py:310-326. -/
def annHead (INDX IYEAR : ℤ) : List Char :=
  " \n ".toList ++ " \n TABLE \n ".toList ++ " \n RESULTS AFTER ".toList ++ intText IYEAR ++ " REPLICATIONS \n".toList ++
  (if INDX ≠ 1 then
    " \n  AREA FORECAST    HOURLY STATISTICS     PEAK STATISTICS    REMARKS\n".toList ++
    " \n NO   NO         HLOLE    XLOL     EUE       LOLE       XLOL\n".toList ++
    "\n                (HRS/YR)   (MW)      (MWH)     (DAYS/YR)  (MW)\n".toList
  else
    "\n  AREA FORECAST    PEAK STATISTICS            REMARKS\n".toList ++ "\n  NO   NO          LOLE       XLOL\n".toList ++
    "\n                   (DAYS/YR)   MW\n".toList)

/-- All that `year` appends to `output.txt` for the rows of an annual table (year.py:309-607). -/
def annualText (INDX IYEAR : ℤ) (rows : List Row) : List Char :=
  annHead INDX IYEAR ++ (rows.filter (·.area.isSome)).flatMap annRowText ++ "\n  POOL STATISTICS \n".toList ++
  (rows.filter (·.area.isNone)).flatMap annRowText

end Narp
