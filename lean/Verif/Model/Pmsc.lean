import Verif.Model.Py
import Verif.Model.Names

/-!
# `pmsc`: automatic scheduling of planned maintenance, and `smaint` around it

Modelled: everything that decides what `pmsc` returns and what it leaves in `ID`. Not modelled: the text
written to `output.txt` (it never reads back) and the two pieces of code that no run reaches:

* the treatment of pre-scheduled units (pmsc.py:255-299, under `NPS > 0`): reaching it is an `assertion`
  error here, and `Narp.Props.pmsc_nps` proves that no run does;
* the search for a starting week (pmsc.py:495-682): its first statement that matters,
  `range(I1, IX + 1)` (pmsc.py:495), raises `TypeError` because `IX` is a numpy float (`DURLOS` is a float
  array), so entering the loop body is a `typeError` here.

`sl` stands for `CAPLOS[j] - XM * np.log(R)` (pmsc.py:244-245) as a function of the capacity, `XM` being the
"M factor" of the outage table (`pmlolp`, modelled in `Model/Outage.lean`); it is left arbitrary, so that
no assumption on the logarithm or on rounding is made.
-/

namespace Narp

/-- A row of `ID` (pmsc.py:27-36, datax.py:181-189): unit, plant, area, start week and duration (weeks) of
the two planned outages, and 1 if the maintenance is pre-scheduled, 0 if the program must set it. -/
structure IdRow where
  unit : ℤ
  plant : ℤ
  area : ℤ
  s1 : ℤ
  d1 : ℤ
  s2 : ℤ
  d2 : ℤ
  pre : ℤ
  deriving DecidableEq, Repr

/-- A row of the local arrays (`ID1`, `CAPLOS`, `DURLOS`, `LOCREW`) after pmsc.py:134-137: `ix` = `ID1[:,0]`
(local unit number), `plant` = `ID1[:,1]` = `LOCREW`, the starts `h1`, `h2` in hours, the durations `w1`,
`w2` in weeks, the pre-scheduled flag and the capacity. -/
structure LocRow where
  ix : ℕ
  plant : ℤ
  h1 : ℤ
  w1 : ℤ
  h2 : ℤ
  w2 : ℤ
  pre : ℤ
  cap : ℚ
  deriving DecidableEq, Repr

/-- The contents of a row never written (`np.zeros`, pmsc.py:90-94). -/
def LocRow.zero : LocRow := ⟨0, 0, 0, 0, 0, 0, 0, 0⟩

/-- The units of area `IA` with their position in `ID` (pmsc.py:113-115). -/
def pmscArea (IA : ℤ) (ID : List IdRow) : List (IdRow × ℕ) :=
  ID.zipIdx.filter fun p => p.1.area = IA

/-- pmsc.py:117-137: the local rows; `cap i` is `max(RATES[i, :4])`. -/
def pmscGather (IA : ℤ) (ID : List IdRow) (cap : ℕ → ℚ) : List LocRow :=
  (pmscArea IA ID).zipIdx.map fun q =>
    let r := q.1.1
    { ix := q.2, plant := r.plant, h1 := r.s1 * 168 - 168, w1 := r.d1,
      h2 := r.s2 * 168 - 168, w2 := r.d2, pre := r.pre, cap := cap q.1.2 }

/-- `NR0` (pmsc.py:120). -/
def pmscNR0 (IA : ℤ) (ID : List IdRow) : List ℤ := (pmscArea IA ID).map (·.1.unit)

/-- `N`, the highest plant number (pmsc.py:76,118). -/
def pmscN (rows : List LocRow) : ℕ := (rows.foldl (fun (m : ℤ) (r : LocRow) => max m r.plant) 0).toNat

/-- `CDUR` (pmsc.py:161). -/
def cdur (r : LocRow) : ℚ := r.cap * max (r.w1 : ℚ) (r.w2 : ℚ)

/-- pmsc.py:157-163: the first unit with the largest capacity × duration above -5. -/
def pmscPick (rows : List LocRow) : Option LocRow :=
  (rows.foldl (fun (b : ℚ × Option LocRow) r => if b.1 < cdur r then (cdur r, some r) else b)
    (-5, none)).2

/-- pmsc.py:155-177 for one plant, whose units still to be placed are `rows`: they are moved to the sorted
arrays one by one. If no product exceeds -5, Python fails: `JT` is unbound, or it is stale and the same unit is
written again and again until the arrays overflow; both are `unboundLocal` here. -/
def pmscPlant : ℕ → List LocRow → Except PyErr (List LocRow)
  | 0, _ => .ok []
  | n + 1, rows =>
    if rows.isEmpty then .ok []
    else match pmscPick rows with
      | none => .error .unboundLocal
      | some r => do
        let rest ← pmscPlant n (rows.filter fun x => x.ix ≠ r.ix)
        .ok (r :: rest)

/-- pmsc.py:151-177: plants 0 .. N-1 in order (plant N is not visited). The rows written, from row 1 on. -/
def pmscSort (rows : List LocRow) : Except PyErr (List LocRow) :=
  (List.range (pmscN rows)).foldlM (fun acc (i : ℕ) => do
    let p ← pmscPlant rows.length (rows.filter fun r => r.plant = i)
    .ok (acc ++ p)) []

/-- Row `k` of the arrays after pmsc.py:179-183: row 0 was never written (`i1` is incremented before each
write, pmsc.py:168). -/
def pmscRow (sorted : List LocRow) (k : ℕ) : LocRow :=
  if k = 0 then LocRow.zero else sorted.getD (k - 1) LocRow.zero

/-- `NPS` (pmsc.py:233-239): how many of the first `M` rows are pre-scheduled, up to the first that is not. -/
def pmscNPS (M : ℕ) (row : ℕ → LocRow) : ℕ :=
  ((List.range M).takeWhile fun k => (row k).pre ≠ 0).length

/-- `SCHLOS[j]` (pmsc.py:245-247). -/
def schLos (sl : ℚ → ℚ) (c : ℚ) : ℚ := if sl c ≤ 0 then c else sl c

/-- `SCHLOS[j] * (DURLOS[j, 0] + DURLOS[j, 1])` (pmsc.py:301, 428). -/
def mwWeeks (sl : ℚ → ℚ) (r : LocRow) : ℚ := schLos sl r.cap * ((r.w1 : ℚ) + (r.w2 : ℚ))

/-- State of the loop pmsc.py:241-302: `i` (starts at -1), `LTEM`, `MWTOT`, `MWI`. -/
structure TotSt where
  i : ℤ
  ltem : ℤ
  tot : ℕ → ℚ
  mwi : ℕ → ℤ

/-- One pass of pmsc.py:243-302 for `NPS = 0`; `MWTOT[-1]` is the last entry. -/
def pmscTotStep (NU : ℕ) (sl : ℚ → ℚ) (row : ℕ → LocRow) (s : TotSt) (j : ℕ) : TotSt :=
  let s1 := if s.ltem ≠ (row j).plant then
      { i := s.i + 1, ltem := (row j).plant, tot := Function.update s.tot j 0,
        mwi := Function.update s.mwi j (row j).plant }
    else s
  let ii := if s1.i < 0 then NU - 1 else s1.i.toNat
  { s1 with tot := Function.update s1.tot ii (s1.tot ii + mwWeeks sl (row j)) }

/-- pmsc.py:241-302 for `NPS = 0`. -/
def pmscTot (NU M : ℕ) (sl : ℚ → ℚ) (row : ℕ → LocRow) : TotSt :=
  (List.range M).foldl (pmscTotStep NU sl row) ⟨-1, 0, fun _ => 0, fun _ => 0⟩

/-- pmsc.py:415-421: the entry with the largest total below `N` (`i` keeps its value if none is positive). -/
def pmscArgmax (N : ℕ) (tot : ℕ → ℚ) (i : ℕ) : ℕ :=
  ((List.range N).foldl (fun (b : ℚ × ℕ) k => if b.1 ≥ tot k then b else (tot k, k)) (0, i)).2

/-- `N1` and `N2` (pmsc.py:438-444): the first and last row with `MWEEK ≠ 0` (`M` and -1 if there is none). -/
def pmscSpan (M : ℕ) (mweek : ℕ → ℚ) : ℕ × ℤ :=
  (List.range M).foldl (fun (b : ℕ × ℤ) j =>
    let n2 := if mweek j ≠ 0 then (j : ℤ) else b.2
    (if mweek j = 0 ∧ n2 = -1 then b.1 + 1 else b.1, n2)) (0, -1)

/-- One pass of the loop over plants (pmsc.py:414-686), on `i` and `MWTOT`. Reaching a unit with
`MWEEK ≠ 0` in `range(N1, N2)` is the `TypeError` of pmsc.py:495. -/
def pmscSchedStep (NU M N : ℕ) (sl : ℚ → ℚ) (row : ℕ → LocRow) (mwi : ℕ → ℤ) (s : ℕ × (ℕ → ℚ)) :
    Except PyErr (ℕ × (ℕ → ℚ)) :=
  if NU < N then .error .indexError                                     -- MWTOT[K], line 418
  else
    let i := pmscArgmax N s.2 s.1
    if NU ≤ i then .error .indexError                                   -- MWI[i], line 424
    else
      let mweek : ℕ → ℚ := fun k => if (row k).plant = mwi i then mwWeeks sl (row k) else 0
      if s.2 i = 0 then .ok (i, s.2)                                    -- lines 431-432
      else
        let sp := pmscSpan M mweek
        if (List.range M).any fun ja => decide (sp.1 ≤ ja ∧ (ja : ℤ) < sp.2 ∧ mweek ja ≠ 0)
        then .error .typeError
        else .ok (i, Function.update s.2 i 0)

/-- pmsc.py:413-686. -/
def pmscSched (NU M N : ℕ) (sl : ℚ → ℚ) (row : ℕ → LocRow) (t : TotSt) : Except PyErr Unit := do
  let _ ← (List.range N).foldlM (fun s _ => pmscSchedStep NU M N sl row t.mwi s) (N, t.tot)
  .ok ()

/-- A row of `ID` with the two start weeks overwritten (pmsc.py:864-869). -/
def IdRow.setStarts (r : IdRow) (s1 s2 : ℤ) : IdRow := { r with s1 := s1, s2 := s2 }

/-- pmsc.py:861-869 for one row: back to `ID`. A unit number that is no row of `ID` is an IndexError
(negative unit numbers are not modelled: they are errors here). -/
def pmscWrite (NR0 : List ℤ) (ID : List IdRow) (r : LocRow) : Except PyErr (List IdRow) :=
  match NR0[r.ix]? with
  | none => .error .indexError
  | some u =>
    if 0 ≤ u ∧ u < ID.length then
      .ok (ID.modify u.toNat fun x => x.setStarts (r.h1 / 168 + 1) (r.h2 / 168 + 1))
    else .error .indexError

/-- The maintenance columns of a unit card (`inputB_dict["ZZUD"]["ID"]`, readInputB.py): the pre-scheduled
flag, then begin week (1-based, 0 = none) and duration of the two planned outages. (readInputB.py:330-342) -/
structure UnitCard where
  pre : ℤ
  w1 : ℤ
  d1 : ℤ
  w2 : ℤ
  d2 : ℤ
  deriving DecidableEq, Repr

/-- The table `ID` built by `datax` (datax.py:180-189): unit and plant number are both the unit's index. -/
def dataxID (NAT NAR : List ℕ) (cards : List UnitCard) : List IdRow :=
  (NAT.zip (NAR.zip cards)).map fun p =>
    { unit := p.1, plant := p.1, area := p.2.1, s1 := p.2.2.w1 - 1, d1 := p.2.2.d1,
      s2 := p.2.2.w2 - 1, d2 := p.2.2.d2, pre := p.2.2.pre }

/-- `pmsc` (pmsc.py:72-871): the table number and `ID` after scheduling area `IA`. -/
def pmsc (IA : ℤ) (ID : List IdRow) (ITAB : ℤ) (cap : ℕ → ℚ) (sl : ℚ → ℚ) :
    Except PyErr (List IdRow × ℤ) :=
  let rows := pmscGather IA ID cap
  let M := rows.length
  if M = 0 then .ok (ID, ITAB)                                          -- lines 131-132
  else do
    let sorted ← pmscSort rows
    let row := pmscRow sorted
    if pmscNPS M row ≠ 0 then .error .assertion
    else do
      pmscSched ID.length M (pmscN rows) sl row (pmscTot ID.length M sl row)
      let ID' ← (List.range M).foldlM (fun D k => pmscWrite (pmscNR0 IA ID) D (row k)) ID
      .ok (ID', ITAB + 1)

/-- The columns `smaint` uses for its table. (smaint.py:88-96) -/
def IdRow.maint (r : IdRow) : MaintRow := ⟨r.unit, r.s1, r.d1, r.s2, r.d2⟩

/-- `smaint.py:63-83`: the areas in turn. `sl` may differ from area to area. -/
def pmscAll (NOAREA : ℕ) (ID : List IdRow) (ITAB : ℤ) (cap : ℕ → ℚ) (sl : ℕ → ℚ → ℚ) :
    Except PyErr (List IdRow × ℤ) :=
  (List.range NOAREA).foldlM (fun (s : List IdRow × ℤ) (a : ℕ) => pmsc a s.1 s.2 cap (sl a)) (ID, ITAB)

/-- `smaint` (smaint.py:63-98): the planned outage table, the table number, and `ID` as left behind. -/
def smaint (NOAREA : ℕ) (ID : List IdRow) (ITAB : ℤ) (cap : ℕ → ℚ) (sl : ℕ → ℚ → ℚ) :
    Except PyErr ((ℕ → ℕ → ℤ) × ℤ × List IdRow) := do
  let (ID', ITAB') ← pmscAll NOAREA ID ITAB cap sl
  let T ← smaintTable (ID'.map IdRow.maint)
  .ok (T, ITAB', ID')

end Narp
