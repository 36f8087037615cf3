import Verif.Model.Datax

/-!
# Reading the text of the input: `float`, the load file, the `META DATA` column of the line cards, the card `ZZMC`

A text is a list of characters. The parsing of a csv file into columns is done by pandas and not modelled: a table
is the list of its rows, already with a type per column, except for `META DATA`, which the program parses itself.
-/

namespace Narp

/-- White space of `str.strip`, `str.split` and `float` (ASCII only; a text with other Unicode white space is not
modelled). (xldnew.py:34, readInputB.py:387) -/
def isSpace (c : Char) : Bool :=
  c = ' ' || c = '\t' || c = '\n' || c = '\r' || c = '\x0b' || c = '\x0c' || (28 ≤ c.toNat && c.toNat ≤ 31)

/-- A decimal digit. (xldnew.py:34, readInputB.py:387, inside `float`) -/
def isDig (c : Char) : Bool := '0' ≤ c && c ≤ '9'

/-- `str.strip()` (xldnew.py:34, readInputB.py:387). -/
def strip (cs : List Char) : List Char := ((cs.dropWhile isSpace).reverse.dropWhile isSpace).reverse

/-- Cutting a text at every character that satisfies `p`. (xldnew.py:34, readInputB.py:387) -/
def cutAt (p : Char → Bool) : List Char → List (List Char)
  | [] => [[]]
  | c :: cs =>
    if p c then [] :: cutAt p cs
    else match cutAt p cs with
      | w :: ws => (c :: w) :: ws
      | [] => [[c]]

/-- `str.split()` (xldnew.py:34): the runs of characters between white space. -/
def words (cs : List Char) : List (List Char) := (cutAt isSpace cs).filter (· ≠ [])

/-- The number written by a run of digits. (xldnew.py:34, readInputB.py:387, inside `float`) -/
def natOf (cs : List Char) : ℕ := cs.foldl (fun n c => 10 * n + (c.toNat - 48)) 0

/-- An optional sign: is it a minus sign, and what follows. (xldnew.py:34, readInputB.py:387, inside `float`) -/
def signOf : List Char → Bool × List Char
  | '-' :: r => (true, r)
  | '+' :: r => (false, r)
  | r => (false, r)

/-- The exponent part of a number: nothing, or `e` with an optional sign and digits.
(xldnew.py:34, readInputB.py:387, inside `float`) -/
def expOf (cs : List Char) : Except PyErr ℚ :=
  match cs with
  | [] => .ok 1
  | e :: r =>
    if e = 'e' ∨ e = 'E' then
      let (neg, d) := signOf r
      if d = [] ∨ d.all isDig = false then .error .valueError
      else .ok (if neg then 1 / 10 ^ natOf d else 10 ^ natOf d)
    else .error .valueError

/-- An optional point with digits: the digits, and what follows.
(xldnew.py:34, readInputB.py:387, inside `float`) -/
def fracOf : List Char → List Char × List Char
  | '.' :: r => (r.takeWhile isDig, r.dropWhile isDig)
  | r => ([], r)

/-- Python's `float` on a text (xldnew.py:34, readInputB.py:387), as an exact number. Not modelled: `inf`, `nan` and
digits grouped by underscores, which are rejected here. -/
def pyFloat (cs : List Char) : Except PyErr ℚ := do
  let (neg, r) := signOf (strip cs)
  let ip := r.takeWhile isDig
  let r := r.dropWhile isDig
  let (fp, r) := fracOf r
  if ip = [] ∧ fp = [] then throw .valueError
  let e ← expOf r
  let q := (natOf (ip ++ fp) : ℚ) / 10 ^ fp.length * e
  return if neg then -q else q

/-- Reading a text file: `\r\n` and `\r` become `\n` (the default of `open`, xldnew.py:23). -/
def newlines : List Char → List Char
  | [] => []
  | '\r' :: '\n' :: cs => '\n' :: newlines cs
  | '\r' :: cs => '\n' :: newlines cs
  | c :: cs => c :: newlines cs

/-- `f.readlines()` (xldnew.py:24): each line keeps its `\n`. -/
def pyLines : List Char → List (List Char)
  | [] => []
  | c :: cs =>
    if c = '\n' then ['\n'] :: pyLines cs
    else match pyLines cs with
      | [] => [[c]]
      | l :: ls => (c :: l) :: ls

/-- The test of xldnew.py:29 and the numbers of xldnew.py:33-35. -/
def leeiParse (line : List Char) : Except PyErr LeeiLine :=
  if line.take 4 = ['A', 'R', 'E', 'A'] then .ok (.header line)
  else (words (strip line)).mapM pyFloat |>.map .data

/-- `xldnew.py:23-36` on the text of the file. -/
def leeiText (NOAREA : ℕ) (txt : List Char) : Except PyErr (ℕ → ℕ → ℚ) :=
  ((pyLines (newlines txt)).foldlM (fun s line => do
    let l ← leeiParse line
    leeiLine NOAREA s l) ⟨none, 0, fun _ _ => 0⟩).map LeeiSt.H

/-- `xldnew.py:4-45` on the text of the file. -/
def xldnewText (NOAREA : ℕ) (txt : List Char) (PKLOAD : ℕ → ℚ) : Except PyErr (ℕ → ℕ → ℚ) :=
  (leeiText NOAREA txt).map (leeiScale PKLOAD)

/-- A row of `ZZTD.csv` (readInputB.py:348-398). -/
structure LineRow where
  sn : ℤ
  number : ℤ
  src : Name
  dst : Name
  metaData : List Char

/-- One iteration of the loop readInputB.py:386-391: 24 numbers, as 6 rows of 4. -/
def readLine (r : LineRow) : Except PyErr LineCard := do
  let v ← (cutAt (· = ',') (strip r.metaData)).mapM pyFloat
  if v.length = 24 then
    return { sn := r.sn, number := r.number, src := r.src, dst := r.dst
             adm := fun s => v.getD (4 * s.val) 0
             cap := fun s => v.getD (4 * s.val + 1) 0
             capr := fun s => v.getD (4 * s.val + 2) 0
             prob := fun s => v.getD (4 * s.val + 3) 0 }
  else throw .valueError

/-- A row of `ZZDD.csv` (readInputB.py:481-524). -/
structure DerateRow where
  sn : ℤ
  number : ℤ
  units : Fin 4 → Name
  forward : ℚ
  backward : ℚ

/-- The files of the input. The tables of areas, units and lines have at least the rows that are counted
(`n + 1`, `m`, `l`); `load` is the text of the load file. (readInputB.py:527-545, narpMain.py:84) -/
structure Files (n m l : ℕ) where
  areas : Fin (n + 1) → AreaCard
  units : Fin m → GenCard
  lines : Fin l → LineRow
  contracts : List ContractCard
  owns : List OwnCard
  misc : List MiscCard
  derates : List DerateRow
  load : List Char

/-- `Series.item()` (readInputB.py:41-166): the only element; any other number of rows raises. -/
def item {α : Type} : List α → Except PyErr α
  | [x] => .ok x
  | _ => .error .valueError

/-- `mapM` over the indices of a table. (readInputB.py:386-391) -/
def tableM {α β : Type} {k : ℕ} (f : α → Except PyErr β) (t : Fin k → α) : Except PyErr (Fin k → β) :=
  match (List.ofFn t).mapM f with
  | .error e => .error e
  | .ok v => if h : v.length = k then .ok fun i => v[i.val]'(by rw [h]; exact i.isLt) else .error .indexError

/-- `readInputB.py:527-545` and the reading of the load file (xldnew.py:23-35). (The program reads the load file
after it has checked the cards, so that with several faults in the input another one of them may be reported.) -/
def readFiles {n m l : ℕ} (f : Files n m l) : Except PyErr (Cards n m l) := do
  let misc ← item f.misc
  let lines ← tableM readLine f.lines
  let leei ← (pyLines (newlines f.load)).mapM leeiParse
  return { areas := f.areas, units := f.units, lines := lines, contracts := f.contracts, owns := f.owns,
           misc := misc, leei := leei }

/-- `dataf1` and what follows, from the files (dataf1.py:6-25). -/
def setupFiles {n m l : ℕ} (sl : ℕ → ℚ → ℚ) (fuel : ℕ) (f : Files n m l) : Except PyErr (Setup n m l) := do
  let c ← readFiles f
  setup sl fuel c

end Narp
