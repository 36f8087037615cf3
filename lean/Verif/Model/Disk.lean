import Verif.Model.Py

/-!
# Writing and reading the snapshot file: `intm.py:142-143`, `rstart.py:22-25`

The pickle format itself is not modelled. What is used of it: the writer produces a sequence of bytes, and the reader
takes one byte after the other and knows from what it has read when it is done (the opcode STOP ends a pickle).
-/

namespace Narp

/-- A reader of the pickle kind: after each byte it goes on, stops with a value, or rejects.
(rstart.py:22-23, `pickle.load`) -/
structure Reader (V : Type) where
  σ : Type
  init : σ
  /-- the state after a byte: `.inl` goes on, `.inr (some v)` is the STOP opcode, `.inr none` an error -/
  feed : σ → UInt8 → σ ⊕ Option V

/-- Reading from state `q`: running out of input is an error (`EOFError`, `UnpicklingError`); bytes after STOP are
ignored. Returns the value and the number of bytes not read. (rstart.py:22-23) -/
def Reader.go {V : Type} (R : Reader V) (q : R.σ) : List UInt8 → Option (V × ℕ)
  | [] => none
  | b :: bs =>
    match R.feed q b with
    | .inl q' => R.go q' bs
    | .inr (some v) => some (v, bs.length)
    | .inr none => none

/-- `rstart.py:22-25`: `open(DUMPED_file, "rb")` raises when there is no file, `pickle.load` reads it. -/
def rstart {V : Type} (R : Reader V) (file : Option (List UInt8)) : Option V :=
  match file with
  | none => none
  | some bytes => (R.go R.init bytes).map Prod.fst

/-- `intm.py:142-143`: the states of the file `DUMP.pkl` that a crash during the call can leave: `open(..., "wb")`
truncates the file, then the bytes are written in order (in pieces of any size), and the file is closed. The old
content is one of the states: the crash may come before `open`. -/
def dumpStates (old : Option (List UInt8)) (bytes : List UInt8) : List (Option (List UInt8)) :=
  old :: (List.range (bytes.length + 1)).map fun k => some (bytes.take k)

end Narp
