import Verif.Model.Py

/-!
# The event calendar: `initfl`, `filem`, `remove`, `initl`, `_initl`

The calendar is one array of words (`EVNTS`, 100 words). An event occupies a slot of four words:
`[successor pointer, time, type, unused]`. `IPOINT` points to the first event, `MFA` to the first
free slot; pointers are word offsets, `-1` ends the list.
-/

namespace Narp

/-- What the Python variables `EVNTS, MFA, IPOINT, NUMINQ` hold. (initfl.py:16-25, initl.py:77-120) -/
structure Cal where
  E : List ℚ
  MFA : ℤ
  IPOINT : ℤ
  NUMINQ : ℤ
  deriving DecidableEq, Repr

/-- `initfl.py:16-25`. `NUMINQ` is not initialised there: the callers (`initl.py:6`, tests) pass 0. -/
def initfl : Cal where
  E := (List.range 100).map fun (i : ℕ) => if i % 4 = 0 ∧ i < 96 then ((i : ℚ) + 4) else 0
  MFA := 0
  IPOINT := -1
  NUMINQ := 0

/-- The search loop `filem.py:39-45`: returns the last visited pointers `(K, j)`; `j = -1` is the
early exit of line 42. The walk only depends on `j`, which takes at most `2 * len(EVNTS)` in-range
values, so running out of that much fuel means that Python would loop for ever. -/
def filemWalk (E : List ℚ) (t : ℚ) : ℕ → ℤ → ℤ → Except PyErr (ℤ × ℤ)
  | 0, _, _ => .error .diverge
  | fuel + 1, K, j => do
    let tj ← rd E (j + 1)
    if t > tj then
      let nx ← rd E j
      let j' := pyInt nx
      if j' = -1 then return (j, -1)
      else filemWalk E t fuel j j'
    else return (K, j)

/-- `filem.py:1-60`: file the event `(time t, type ty)` (`ATRIB`). -/
def filem (c : Cal) (t ty : ℚ) : Except PyErr Cal := do
  let new := c.MFA
  let E ← wr c.E (new + 1) t            -- line 27
  let E ← wr E (new + 2) ty             -- line 28
  let nq := c.NUMINQ + 1                -- line 29
  let mfa ← rd E c.MFA                  -- line 32
  let mfa := pyInt mfa
  if c.IPOINT > -1 then
    let j := c.IPOINT
    let tj ← rd E (j + 1)
    if t > tj then                      -- line 38
      let (K, j) ← filemWalk E t (2 * E.length + 1) 0 j
      if j = -1 then
        let E ← wr E K (new : ℚ)        -- line 43
        let E ← wr E new (-1)           -- line 44
        return { E := E, MFA := mfa, IPOINT := c.IPOINT, NUMINQ := nq }
      else
        let E ← wr E new (j : ℚ)        -- line 47
        let E ← wr E K (new : ℚ)        -- line 49
        return { E := E, MFA := mfa, IPOINT := c.IPOINT, NUMINQ := nq }
    else
      let E ← wr E new (j : ℚ)          -- line 55
      return { E := E, MFA := mfa, IPOINT := new, NUMINQ := nq }
  else
    let E ← wr E new (-1)               -- line 59
    return { E := E, MFA := mfa, IPOINT := new, NUMINQ := nq }

/-- `remove.py:4-49`: take the first event off the calendar; returns it as `(time, type)`
(`ATRIB`). The branch `IPOINT < 0` returns `None` (line 32), which the caller `contrl.py:241`
cannot unpack: a `TypeError`. -/
def remove (c : Cal) : Except PyErr ((ℚ × ℚ) × Cal) := do
  if c.NUMINQ ≤ 0 then .error .sysExit
  else if c.IPOINT < 0 then .error .typeError
  else
    let a0 ← rd c.E (c.IPOINT + 1)      -- line 35
    let a1 ← rd c.E (c.IPOINT + 2)      -- line 36
    let E ← wr c.E (c.IPOINT + 1) 0     -- line 42
    let E ← wr E (c.IPOINT + 2) 0       -- line 43
    let nx ← rd E c.IPOINT              -- line 47
    return ((a0, a1), { E := E, MFA := c.IPOINT, IPOINT := pyInt nx, NUMINQ := c.NUMINQ - 1 })

/-- `initl.py:6-74` (`_initl`): seven `filem` calls on an empty calendar. Season ends are `QTR`. -/
def initlLoop (JSTEP : ℚ) (Q0 Q1 Q2 : ℚ) (c : Cal) : Except PyErr Cal := do
  let c ← filem c (1/2) 3
  let c ← filem c Q0 3
  let c ← filem c Q1 3
  let c ← filem c Q2 3
  let c ← filem c 8760 4
  let c ← filem c (1/2) 2
  filem c JSTEP 1

/-- `initl.py:77-120` (`initl`): the constant table. It takes no `QTR`. -/
def initl (JSTEP : ℚ) (E : List ℚ) : Cal where
  E := [24, 1/2, 3, 0,
        8, 4369/2, 3, 0,
        12, 8737/2, 3, 0,
        16, 13105/2, 3, 0,
        -1, 8760, 4, 0,
        0, 1/2, 2, 0,
        4, JSTEP, 1, 0] ++ E.drop 28
  MFA := 28
  IPOINT := 20
  NUMINQ := 7

end Narp
