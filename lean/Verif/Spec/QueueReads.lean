import Verif.Model.QueueReads
import Verif.Spec.Queue

/-!
# Specification: queries of the queue while it is processed
-/

namespace FAS.Spec

/-- Indices and entries of a queue are in the range of their types, and there are not more entries than the queue has. -/
structure SaneQueue (a : ArchId) (q : Queue) : Prop where
  readIdx : q.readIdx < 256
  writeIdx : q.nextWriteIdx < 256
  entries : q.queueEntries ≤ a.queueLen
  ticks : ∀ i, (q.entry i).ticks < 65536
  steps : ∀ i, (q.entry i).steps < 256

/-- The queue after some events. -/
def afterEvents (a : ArchId) : Queue → List QueueEv → Queue
  | q, [] => q
  | q, ev :: evs => afterEvents a (ev.exec a q) evs

/-- The queue at the accesses 0, 1, 2, … of a query: `evs t` are the events after access `t`. -/
def duringQuery (a : ArchId) (q : Queue) (evs : Nat → List QueueEv) : Nat → Queue
  | 0 => q
  | t + 1 => afterEvents a (duringQuery a q evs t) (evs t)

/-- The commands offered to the queue by the events. -/
def offeredBy : List QueueEv → List Cmd
  | [] => []
  | .offer c _ :: evs => c :: offeredBy evs
  | _ :: evs => offeredBy evs

/-- The commands offered to the queue before access `t`. -/
def offered (evs : Nat → List QueueEv) : Nat → List Cmd
  | 0 => []
  | t + 1 => offered evs t ++ offeredBy (evs t)

end FAS.Spec
