import Mathlib.Data.Multiset.AddSub
import Verif.Model.EventList

/-!
# Specification of the event calendar

An event is a time and a kind. The abstract state of the calendar is the multiset of pending events.
-/

namespace Narp.Spec

/-- An event of the simulation: when, and which kind (1 hourly, 2 weekly, 3 quarterly, 4 yearly). -/
structure Ev where
  time : ℚ
  kind : ℚ
  deriving DecidableEq, Repr

/-- `e` is a next event: it is pending and no pending event is earlier. -/
def IsNext (pending : Multiset Ev) (e : Ev) : Prop :=
  e ∈ pending ∧ ∀ x ∈ pending, e.time ≤ x.time

/-- A history of "take the next event, then schedule one": `PairRun P sched out P'` says that
starting with pending events `P`, scheduling the events `sched` one after each take, the events
`out` were delivered and `P'` are pending at the end. -/
inductive PairRun : Multiset Ev → List Ev → List Ev → Multiset Ev → Prop
  | done (P) : PairRun P [] [] P
  | step {P P' : Multiset Ev} {sched out : List Ev} {e : Ev} (s : Ev) :
      IsNext P e → PairRun (s ::ₘ P.erase e) sched out P' → PairRun P (s :: sched) (e :: out) P'

/-- Operations on a calendar. -/
inductive Op where
  | schedule (e : Ev)
  | take
  deriving DecidableEq, Repr

/-- A history of arbitrary operations of a priority queue. -/
inductive OpRun : Multiset Ev → List Op → List Ev → Multiset Ev → Prop
  | done (P) : OpRun P [] [] P
  | schedule {P P' : Multiset Ev} {ops : List Op} {out : List Ev} (s : Ev) :
      OpRun (s ::ₘ P) ops out P' → OpRun P (.schedule s :: ops) out P'
  | take {P P' : Multiset Ev} {ops : List Op} {out : List Ev} {e : Ev} :
      IsNext P e → OpRun (P.erase e) ops out P' → OpRun P (.take :: ops) (e :: out) P'

/-- How the words of the calendar are read: following the links from pointer `ip`, the slots and
events `l` are met, and the last link is `-1`. -/
def Chain (E : List ℚ) : ℤ → List (ℕ × Ev) → Prop
  | ip, [] => ip = -1
  | ip, (p, e) :: r =>
      ip = p ∧ 4 ∣ p ∧ p + 4 ≤ E.length ∧ E.getD (p + 1) 0 = e.time ∧ E.getD (p + 2) 0 = e.kind ∧
        ∃ nx : ℤ, E.getD p 0 = nx ∧ Chain E nx r

/-- The calendar `c` holds exactly the events `q`, in this order, in pairwise different slots of the
array; the order is chronological; and the counter is right. -/
structure Holds (c : Cal) (q : List Ev) : Prop where
  chain : ∃ l : List (ℕ × Ev), Chain c.E c.IPOINT l ∧ (l.map Prod.fst).Nodup ∧ l.map Prod.snd = q
  sorted : q.Pairwise fun a b => a.time ≤ b.time
  count : c.NUMINQ = q.length

end Narp.Spec

namespace Narp

/-- Drive the real calendar: `contrl.py:241` (`remove`) followed by one `filem` by the event handler,
once for every event to schedule. Returns the delivered events. -/
def runPairs : List Spec.Ev → Cal → Except PyErr (List Spec.Ev × Cal)
  | [], c => .ok ([], c)
  | s :: r, c => do
    let (a, c) ← remove c
    let c ← filem c s.time s.kind
    let (out, c) ← runPairs r c
    return (⟨a.1, a.2⟩ :: out, c)

/-- Drive the real calendar with arbitrary operations. -/
def runOps : List Spec.Op → Cal → Except PyErr (List Spec.Ev × Cal)
  | [], c => .ok ([], c)
  | .schedule s :: r, c => do
    let c ← filem c s.time s.kind
    runOps r c
  | .take :: r, c => do
    let (a, c) ← remove c
    let (out, c) ← runOps r c
    return (⟨a.1, a.2⟩ :: out, c)

end Narp
