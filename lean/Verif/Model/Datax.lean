import Verif.Model.Names
import Verif.Model.Random
import Verif.Model.Load
import Verif.Model.Pmsc
import Verif.Model.Connls
import Verif.Model.Transm
import Verif.Model.Program
import Verif.Model.Report

/-!
# From the input cards to the simulation: `dataf1`, `datax`, `input_processing`, `narpMain`

A card is a record of the columns that `readInputB` returns (the parsing of the texts that the program parses itself is in
Model/ReadB.lean; the splitting of a csv file into columns by pandas is not modelled). There are
`n + 1` areas, `m` units and `l` lines; an input without any area is left out. `ZZDD` cards (line derating) are
read but used nowhere, and left out. Columns that nothing reads (`IREM`, `IREPD`) are left out as well.
-/

namespace Narp

/-- A name on a card. (readInputB.py:171-478, the name columns) -/
abbrev Name := List Char

/-- A row of `ZZLD` (readInputB.py:171-247): serial number, name, peak (MW), load forecast uncertainty (percent),
outage window and forbidden period (weeks), sum of flows constraint. -/
structure AreaCard where
  sn : ℤ
  name : Name
  peak : ℚ
  lfu : ℚ
  window : Fin 4 → ℤ
  flowLimit : ℚ

/-- A row of `ZZUD` (readInputB.py:250-345): serial number, name, area, capacity per season, derated and full
forced outage rate, percent derating, maintenance columns. -/
structure GenCard where
  sn : ℤ
  name : Name
  loc : Name
  cap : Fin 4 → ℚ
  dfor : ℚ
  fout : ℚ
  der : ℚ
  maint : UnitCard

/-- A row of `ZZTD` (readInputB.py:348-398): serial number, line number, end areas; per state admittance, capacity
forward and backward, probability. -/
structure LineCard where
  sn : ℤ
  number : ℤ
  src : Name
  dst : Name
  adm : Fin 6 → ℚ
  cap : Fin 6 → ℚ
  capr : Fin 6 → ℚ
  prob : Fin 6 → ℚ

/-- A row of `ZZFC` (readInputB.py:401-444). -/
structure ContractCard where
  src : Name
  dst : Name
  beg : ℤ
  fin : ℤ
  mw : ℚ

/-- A row of `ZZOD` (readInputB.py:447-478): unit and one percentage (a single column). -/
structure OwnCard where
  unit : Name
  percent : ℚ

/-- The card `ZZMC` (readInputB.py:22-168). -/
structure MiscCard where
  JSEED : ℤ
  NLS : ℤ
  IW : Fin 3 → ℤ
  KWHERE : ℤ
  KVWHEN : ℤ
  KVSTAT : ℤ
  KVTYPE : ℤ
  KVLOC : ℤ
  CVTEST : ℚ
  FINISH : ℤ
  JSTEP : ℤ
  JFREQ : ℤ
  MAXEUE : ℚ
  IOI : ℤ
  IOJ : ℤ
  INTV : ℤ

/-- The whole input: the cards and the load file. (readInputB.py:527-545, xldnew.py:23-24) -/
structure Cards (n m l : ℕ) where
  areas : Fin (n + 1) → AreaCard
  units : Fin m → GenCard
  lines : Fin l → LineCard
  contracts : List ContractCard
  owns : List OwnCard
  misc : MiscCard
  leei : List LeeiLine

/-- `PKLOAD` (datax.py:36-38, xldnew.py:35), by position. -/
def Cards.peaks {n m l : ℕ} (c : Cards n m l) (j : ℕ) : ℚ := if h : j < n + 1 then (c.areas ⟨j, h⟩).peak else 0

/-- The name columns that `pind` resolves. (pind.py:16-69) -/
def Cards.names {n m l : ℕ} (c : Cards n m l) : NameTables Name where
  ldNAR := List.ofFn fun i => (c.areas i).name
  udNAT := List.ofFn fun i => (c.units i).name
  udNAR := List.ofFn fun i => (c.units i).loc
  tdLineID := List.ofFn fun i => (c.lines i).number
  tdNAR := List.ofFn fun i => (c.lines i).src
  tdNAE := List.ofFn fun i => (c.lines i).dst
  fcNAR := c.contracts.map ContractCard.src
  fcNAE := c.contracts.map ContractCard.dst
  odNAT := c.owns.map OwnCard.unit

/-- An index column used as an index into an axis of length `N`: an entry outside raises.
(datax.py:98-99, 154-157) -/
def column (N k : ℕ) (col : List ℕ) : Except PyErr (Fin k → Fin N) :=
  if h : col.length = k ∧ ∀ x ∈ col, x < N then
    .ok fun i => ⟨col[i.val]'(by rw [h.1]; exact i.isLt), h.2 _ (List.getElem_mem _)⟩
  else .error .indexError

/-- `e.strip("'") + "  "` (dataf1.py:19). -/
def areaLabel (x : Name) : String :=
  let y := x.dropWhile (· = '\'')
  String.ofList (((y.reverse.dropWhile (· = '\'')).reverse) ++ [' ', ' '])

/-- A row of `BLPA` (datax.py:163-169): zero admittances become -0.5, zero capacities 1. -/
def dataxBLPA (c : LineCard) (s : Fin 6) : LnPar where
  adm := if c.adm s = 0 then -1 / 2 else c.adm s
  fwd := if c.cap s = 0 then 1 else c.cap s
  bwd := if c.capr s = 0 then 1 else c.capr s

/-- `LINENO` (datax.py:151, 157): of several lines between the same areas the last one is kept. -/
def dataxLINENO {n l : ℕ} (LP : LEnds n l) (number : Fin l → ℤ) : Fin (n + 1) → Fin (n + 1) → ℤ :=
  (List.finRange l).foldl (fun L k => fun a b => if a = (LP k).1 ∧ b = (LP k).2 then number k else L a b)
    fun _ _ => -1

/-- `NORR`, `NFCST` (datax.py:60-65). -/
def dataxTiers {n : ℕ} (FU : Fin n → ℚ) : Fin 5 × ℕ := if ∃ j, FU j ≠ 0 then (2, 5) else (0, 1)

/-- `QTR` (datax.py:25-28). -/
def dataxQTR (IW : Fin 3 → ℤ) : Fin 3 → ℚ := fun k => (IW k : ℚ) * 168 + 1 / 2

/-- The estimate hour.py:156-167: its result is not used, but reading the row of a line number beyond the number of
lines raises. `M` are the margins. -/
def helpCheck {n l : ℕ} (LINENO : Fin n → Fin n → ℤ) (M : Fin n → ℤ) : Except PyErr Unit :=
  match (List.finRange n).filter fun j => M j < 0 with
  | [it] => if ∃ j, 0 < M j ∧ (l : ℤ) ≤ LINENO j it then .error .indexError else .ok ()
  | _ => .ok ()

/-- hour.py:153-195: the estimate, then the transmission module. -/
def netCall {n l : ℕ} (LINENO : Fin (n + 1) → Fin (n + 1) → ℤ) (fuel : ℕ) (IOI : ℤ) (LP : LEnds n l)
    (BLPA : Fin l → Fin 6 → LnPar) (NR : Fin (n + 1)) (NLS : ℤ) (t : TransIn (n + 1) l) (w : NetSt n l) :
    Except PyErr ((ℤ × (Fin (n + 1) → ℚ)) × NetSt n l) := do
  helpCheck (l := l) LINENO (marginInt fun j => t.SYSCON j - t.CAPREQ j)
  hourTransm (redispatch fuel IOI) LP BLPA NR NLS t w

/-- What the simulation starts from. (narpMain.py:30-116) -/
structure Setup (n m l : ℕ) where
  hour : HourIn (n + 1) m l (NetSt n l)
  year : YearIn
  JPLOUT : List (List ℤ)
  RATES : List (List ℚ)
  NAMA : Fin (n + 1) → String
  SUSTAT : Sus (n + 1)
  net : NetSt n l
  INTVT : ℤ
  ITAB : ℤ

/-- Index columns after name resolution: area and number of each unit, end areas and number of each line.
(pind.py:16-69, datax.py:98-99, 154-156) -/
structure Wiring (n m l : ℕ) where
  NAT : Fin m → Fin m
  NAR : Fin m → Fin (n + 1)
  LP : LEnds n l
  number : Fin l → ℤ

/-- dataf1.py:17-21 and the index columns: without unit cards the unpacking of line 17 raises. -/
def wiring {n m l : ℕ} (c : Cards n m l) : Except PyErr (Wiring n m l) := do
  if m = 0 then throw .valueError
  let t ← pind c.names
  let NAT ← column m m t.udNAT
  let NAR ← column (n + 1) m t.udNAR
  let a ← column (n + 1) l t.tdNAR
  let b ← column (n + 1) l t.tdNAE
  return { NAT := NAT, NAR := NAR, LP := fun k => (a k, b k), number := fun k => t.tdLineID.getD k 0 }

/-- datax.py:120-142: with any contract card, the loop of lines 121-123 unpacks 1-tuples; with any ownership card,
line 142 indexes a one-dimensional array with two indices. -/
def cardErrors {n m l : ℕ} (c : Cards n m l) : Except PyErr Unit :=
  if c.contracts ≠ [] then .error .valueError
  else if c.owns ≠ [] then .error .indexError
  else .ok ()

/-- The constant input of the hourly event (datax.py:92-169, input_processing.py:76-96). `H` are the scaled loads;
there are no contracts (`JENT = -1`, `INTCH = 0`). -/
def setupHour {n m l : ℕ} (c : Cards n m l) (w : Wiring n m l) (fuel : ℕ) (H : Fin (n + 1) → ℕ → ℚ) :
    HourIn (n + 1) m l (NetSt n l) where
  JSTEP := c.misc.JSTEP
  JFREQ := c.misc.JFREQ
  MXPLHR := (loadSteps (fun _ _ => -1) (fun _ _ => 0) H).2.2
  PROBG := fun i => dataxPROBG (c.units i).dfor (c.units i).fout
  DERATE := fun i => dataxDERATE (c.units i).der
  CAPOWN := dataxCAPOWN w.NAR w.NAT
  CAPCON := dataxCAPCON w.NAR w.NAT
  PROBL := fun s k => dataxPROBL (c.lines k).prob s
  JENT := fun _ _ => -1
  INTCH := fun _ _ => 0
  NFCST := (dataxTiers fun j => (c.areas j).lfu).2
  HRLOAD := (loadSteps (fun _ _ => -1) (fun _ _ => 0) H).1
  FCTERR := fun j => dataxFCTERR (c.areas j).lfu
  transm := netCall (dataxLINENO w.LP w.number) fuel c.misc.IOI w.LP (fun k => dataxBLPA (c.lines k)) 0 c.misc.NLS

/-- The constant input of the yearly event (datax.py:191-206, narpMain.py:86, 101-103). -/
def setupYear {n m l : ℕ} (c : Cards n m l) : YearIn where
  NFCST := (dataxTiers fun j => (c.areas j).lfu).2
  NORR := (dataxTiers fun j => (c.areas j).lfu).1
  LSTEP := ⌊c.misc.MAXEUE / 20⌋
  IOJ := c.misc.IOJ
  INDX := if c.misc.JSTEP = 24 then 1 else 0
  KWHERE := c.misc.KWHERE
  KVWHEN := c.misc.KVWHEN
  KVSTAT := c.misc.KVSTAT
  KVTYPE := c.misc.KVTYPE
  KVLOC := c.misc.KVLOC - 1
  CVTEST := c.misc.CVTEST
  FINISH := c.misc.FINISH * 8760
  INTV := c.misc.INTV

/-- The network arrays at the start (datax.py:58, 67-71, narpMain.py:112-115). -/
def setupNet {n m l : ℕ} (c : Cards n m l) : NetSt n l where
  BN := ⟨fun _ => 0, fun _ => 0, fun j => (c.areas j).flowLimit, fun j => (c.areas j).flowLimit⟩
  BLP0 := fun _ => 0
  BB := 0
  LT := fun _ => 0
  ZB := 0

/-- `SUSTAT` after datax.py:75-76 and `resca` (input_processing.py:96). -/
def setupSus {n m l : ℕ} (c : Cards n m l) (w : Wiring n m l) (H : Fin (n + 1) → ℕ → ℚ) : Sus (n + 1) where
  area := fun j => ![(c.areas j).peak,
    resca (fun _ => 0) (loadSteps (fun _ _ => -1) (fun _ _ => 0) H).2.1.2.2 (dataxQTR c.misc.IW)
      (dataxCAPOWN w.NAR w.NAT) (fun i s => if h : s < 4 then (c.units i).cap ⟨s, h⟩ else 0)
      (fun _ _ => -1) (fun _ _ => 0) j, 0, 0, 0, 0]
  pool := fun _ => 0

/-- The table of planned outages as an array of 52 rows and `1 + NUNITS` columns (smaint.py:85-86). -/
def planRows (m : ℕ) (T : ℕ → ℕ → ℤ) : List (List ℤ) :=
  (List.range 52).map fun w => (List.range (m + 1)).map (T w)

/-- The largest capacity of a unit (pmsc.py:124). -/
def maxCap {n m l : ℕ} (c : Cards n m l) (i : ℕ) : ℚ :=
  if h : i < m then npMax ((List.finRange 4).map (c.units ⟨i, h⟩).cap) else 0

/-- The rows of `ID` (datax.py:180-189). -/
def setupID {n m l : ℕ} (c : Cards n m l) (w : Wiring n m l) : List IdRow :=
  dataxID (List.ofFn fun i => (w.NAT i).val) (List.ofFn fun i => (w.NAR i).val) (List.ofFn fun i => (c.units i).maint)

/-- dataf1.py, input_processing.py and narpMain.py:30-116: from the input to the start of the simulation. `sl` is
explained in `Model/Pmsc.lean`, `fuel` in `Model/Connls.lean`. -/
def setup {n m l : ℕ} (sl : ℕ → ℚ → ℚ) (fuel : ℕ) (c : Cards n m l) : Except PyErr (Setup n m l) := do
  let w ← wiring c
  cardErrors c
  let H ← xldnew (n + 1) c.leei c.peaks
  let H' : Fin (n + 1) → ℕ → ℚ := fun j h => H j h
  let (T, ITAB, _) ← smaint (n + 1) (setupID c w) 6 (maxCap c) sl
  return {
    hour := setupHour c w fuel H'
    year := setupYear c
    JPLOUT := planRows m T
    RATES := List.ofFn fun i => List.ofFn (c.units i).cap
    NAMA := fun j => areaLabel (c.areas j).name
    SUSTAT := setupSus c w H'
    net := setupNet c
    INTVT := c.misc.INTV
    ITAB := ITAB }

/-- What of the network is written to the snapshot file (intm.py:94-96). -/
def snapNet {n l : ℕ} (w : NetSt n l) : (Fin (n + 1) → Fin (n + 1)) × NMat n × NMat n := (w.LT, w.BB, w.ZB)

/-- The main loop on this input (narpMain.py:185-315). -/
def Setup.cfg {n m l : ℕ} (s : Setup n m l) :
    Cfg (World (n + 1) m l (NetSt n l) ((Fin (n + 1) → Fin (n + 1)) × NMat n × NMat n)) :=
  narpCfg s.hour s.year s.JPLOUT s.RATES snapNet

/-- The state in which the main loop starts (narpMain.py:90-183). -/
def Setup.start {n m l : ℕ} (s : Setup n m l) (JSEED : ℤ) :
    St (World (n + 1) m l (NetSt n l) ((Fin (n + 1) → Fin (n + 1)) × NMat n × NMat n)) :=
  narpInit s.hour.JSTEP m (worldInit (fun i => (programSeeds JSEED m l).1 i) (fun k => (programSeeds JSEED m l).2 k)
    s.net s.INTVT s.ITAB)

/-- The report at the end of the run (year.py:852-913). -/
def Setup.report {n m l : ℕ} (s : Setup n m l) (ITAB : ℤ) (r : RepIn (n + 1)) : Except PyErr (Report (n + 1)) :=
  Narp.report s.year.NFCST s.year.INDX s.year.LSTEP ITAB s.NAMA r s.SUSTAT

end Narp
