import Mathlib.Data.Nat.Digits.Defs
import Mathlib.Algebra.Order.Field.Rat

/-!
# Specification of the text of the input (C74 - C77)

What a decimal number, a row of numbers, a file of lines and a load file look like, and what they say.
-/

namespace Narp.Spec

/-- A decimal number as it is written: sign (`some true` is a minus), digits before the point, whether there is a
point, digits after it, exponent (capital `E`?, sign, digits). The most significant digit comes first. -/
structure Dec where
  sign : Option Bool
  whole : List (Fin 10)
  point : Bool
  frac : List (Fin 10)
  exp : Option (Bool × Option Bool × List (Fin 10))

/-- There is at least one digit, digits after the point only if there is a point, and an exponent has digits. -/
structure Dec.WF (d : Dec) : Prop where
  digit : d.whole ≠ [] ∨ d.frac ≠ []
  frac : d.frac ≠ [] → d.point = true
  exp : ∀ x, d.exp = some x → x.2.2 ≠ []

/-- A sign as it is written. -/
def signText : Option Bool → List Char
  | none => []
  | some true => ['-']
  | some false => ['+']

/-- Digits as they are written. -/
def digitsText (ds : List (Fin 10)) : List Char := ds.map fun d => Nat.digitChar d.val

/-- The exponent as it is written. -/
def expText : Option (Bool × Option Bool × List (Fin 10)) → List Char
  | none => []
  | some (cap, s, e) => (if cap then 'E' else 'e') :: (signText s ++ digitsText e)

/-- The number as it is written. -/
def Dec.text (d : Dec) : List Char :=
  signText d.sign ++ (digitsText d.whole ++ ((if d.point then '.' :: digitsText d.frac else []) ++ expText d.exp))

/-- The number that a row of digits denotes in base ten. -/
def digitsValue (ds : List (Fin 10)) : ℕ := Nat.ofDigits 10 (ds.reverse.map Fin.val)

/-- Minus one after a minus sign, one otherwise. -/
def signValue (s : Option Bool) : ℤ := if s = some true then -1 else 1

/-- The power of ten of an exponent. -/
def expValue : Option (Bool × Option Bool × List (Fin 10)) → ℚ
  | none => 1
  | some (_, s, e) => (10 : ℚ) ^ (signValue s * digitsValue e)

/-- The number that is meant. -/
def Dec.value (d : Dec) : ℚ :=
  signValue d.sign * (digitsValue d.whole + (digitsValue d.frac : ℚ) / 10 ^ d.frac.length) * expValue d.exp

/-- Characters that separate numbers on a line: the space, the tab and the other ASCII control characters that
count as white space (11, 12, 28 - 31), but not the line ends. -/
def blanks : List Char := [' ', '\t', '\x0b', '\x0c', '\x1c', '\x1d', '\x1e', '\x1f']

/-- Blanks between numbers on a line. -/
def Blank (cs : List Char) : Prop := ∀ c ∈ cs, c ∈ blanks

/-- `RowText ds line`: the line consists of the numbers `ds`, separated by blanks, with any blanks before and
after. -/
inductive RowText : List Dec → List Char → Prop
  | blank {s} : Blank s → RowText [] s
  | number {s d ds t} : Blank s → d.WF → RowText ds t → (∀ c ∈ t.head?, c ∈ blanks) →
      RowText (d :: ds) (s ++ d.text ++ t)

/-- `FileText ls txt`: the text consists of the lines `ls`, each ended in the way of Unix or of Windows, where the
last one may lack its end. -/
inductive FileText : List (List Char) → List Char → Prop
  | empty : FileText [] []
  | last {l} : l ≠ [] → '\n' ∉ l → '\r' ∉ l → FileText [l] l
  | line {l e ls t} : '\n' ∉ l → '\r' ∉ l → e = ['\n'] ∨ e = ['\r', '\n'] → FileText ls t →
      FileText (l :: ls) (l ++ e ++ t)

/-- A section of a load file: number of the area (one digit), what follows it in the heading, and the rows; a row
has some numbers that are not loads (a date) and then the loads of half a day. -/
structure LoadSection where
  area : Fin 10
  tail : List Char
  rows : List (List Dec × List Dec)

/-- The lines of a section: a heading `AREA:A<number>`, then the rows. -/
def LoadSection.Text (s : LoadSection) (ls : List (List Char)) : Prop :=
  ∃ ds, ls = ("AREA:A".toList ++ Nat.digitChar s.area.val :: s.tail) :: ds ∧
    List.Forall₂ (fun r line => RowText (r.1 ++ r.2) line) s.rows ds

/-- A year of half days of twelve hours. -/
def LoadSection.Year (s : LoadSection) : Prop := s.rows.length = 730 ∧ ∀ r ∈ s.rows, r.2.length = 12

/-- The load in hour `h` of the year. -/
def LoadSection.load (s : LoadSection) (h : ℕ) : ℚ :=
  (((s.rows.map fun r => r.2.map Dec.value).getD (h / 12) []).getD (h % 12) 0)

/-- The text of a load file with these sections. -/
def LoadText (secs : List LoadSection) (txt : List Char) : Prop :=
  ∃ lss, List.Forall₂ LoadSection.Text secs lss ∧ FileText lss.flatten txt

/-- `CommaText ds txt`: the numbers `ds` with commas between them and any blanks around each. -/
inductive CommaText : List Dec → List Char → Prop
  | last {s d t} : Blank s → Blank t → d.WF → CommaText [d] (s ++ d.text ++ t)
  | more {s d t ds u} : Blank s → Blank t → d.WF → CommaText ds u → CommaText (d :: ds) (s ++ d.text ++ t ++ ',' :: u)

end Narp.Spec
