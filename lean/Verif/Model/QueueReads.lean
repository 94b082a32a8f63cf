import Verif.Model.Queue

/-!
# Queries of the queue, which read the entries without protection

`ticksInQueue()`, `hasTicksInQueue()` and `getActualTicksWithDirection()` copy both indices in a critical section, and read the entries afterwards with
interrupts enabled. Here every single access is a step of its own: `w t` is the queue at the time of access number `t`. The other definitions of these functions
(Model/Queue.lean) are those of a call without interruption.
-/

namespace FAS

namespace Queue

/-- Loop of `ticksInQueue()`, src/StepperISR.cpp:248-257: `e->ticks`, `e->steps` and `e->ticks` are read one after the other (the third access is not made
for less than two steps). Returns the result and the number of accesses. -/
def ticksReads (a : ArchId) (w : Nat → Queue) (wp : Nat) : Nat → Nat → Nat → Nat → Nat × Nat
  | 0, t, _, ticks => (ticks, t)
  | n + 1, t, rp, ticks =>
    if wp = rp then (ticks, t)
    else
      let ticks := u32 (ticks + ((w t).slot a rp).ticks)
      let steps := ((w (t + 1)).slot a rp).steps
      let ticks := if steps > 1 then u32 (ticks + u32 (((w (t + 2)).slot a rp).ticks * (steps - 1))) else ticks
      ticksReads a w wp n (t + 3) (u8 (rp + 1)) ticks

/-- `ticksInQueue()`, src/StepperISR.cpp:238-259. Both indices are read in the critical section (access 0). -/
def ticksInQueueReads (a : ArchId) (w : Nat → Queue) : Nat × Nat :=
  if (w 0).nextWriteIdx = (w 0).readIdx then (0, 1)
  else ticksReads a w (w 0).nextWriteIdx 256 1 (u8 ((w 0).readIdx + 1)) 0

/-- Loop of `hasTicksInQueue()`, src/StepperISR.cpp:270-280. `fas_max` is a macro (src/fas_arch/common.h:58), which reads `e->steps` a second time if it is above 1. -/
def hasTicksReads (a : ArchId) (w : Nat → Queue) (wp : Nat) : Nat → Nat → Nat → Nat → Bool × Nat
  | 0, t, _, _ => (false, t)
  | n + 1, t, rp, minTicks =>
    if wp = rp then (false, t)
    else
      let ticks := ((w t).slot a rp).ticks
      let steps := if ((w (t + 1)).slot a rp).steps > 1 then ((w (t + 2)).slot a rp).steps else 1
      let tmp := u32 (ticks * steps)
      if tmp ≥ minTicks then (true, t + 3)
      else hasTicksReads a w wp n (t + 3) (u8 (rp + 1)) (minTicks - tmp)

/-- `hasTicksInQueue()`, src/StepperISR.cpp:261-282. -/
def hasTicksInQueueReads (a : ArchId) (w : Nat → Queue) (minTicks : Nat) : Bool × Nat :=
  if (w 0).nextWriteIdx = (w 0).readIdx then (false, 1)
  else hasTicksReads a w (w 0).nextWriteIdx 256 1 (u8 ((w 0).readIdx + 1)) minTicks

/-- `getActualTicksWithDirection()`, src/StepperISR.cpp:284-310: `hasSteps`, `countUp`, `ticks`, `moreThanOneStep` of the command in process, and `hasSteps` of the next
one are read one after the other. -/
def actualTicksReads (a : ArchId) (w : Nat → Queue) : ActualTicks :=
  let rp := (w 0).readIdx
  let wp := (w 0).nextWriteIdx
  if wp = rp then ⟨true, some 0, none⟩
  else if ((w 1).slot a rp).hasSteps then
    let up := ((w 2).slot a rp).countUp
    let ticks := ((w 3).slot a rp).ticks
    if ((w 4).slot a rp).moreThanOneStep then ⟨true, some ticks, some up⟩
    else if wp ≠ u8 (rp + 1) then ⟨((w 5).slot a (u8 (rp + 1))).hasSteps, some ticks, some up⟩
    else ⟨false, some ticks, some up⟩
  else ⟨false, none, none⟩

end Queue

/-- What interrupts and other tasks do with the queue between two accesses: the command in process has `steps` steps left (src/StepperISR_avr.cpp:171,
StepperISR_due.cpp:354, StepperISR_idf4_esp32_rmt.cpp:196), it is completed (`read_idx++`), the queue is emptied by a force stop (`read_idx = next_write_idx`), or a command is offered
to the queue. -/
inductive QueueEv where
  | count (steps : Nat)
  | complete
  | drop
  | offer (c : Cmd) (start : Bool)

/-- Effect of an event, see `QueueEv`. The number of steps of an entry is never increased (simplification: the other members of the entry in process, which are
not read by the queries, stay the same). -/
def QueueEv.exec (a : ArchId) (q : Queue) : QueueEv → Queue
  | .count n =>
    if q.isQueueEmpty then q
    else { q with entry := fun i => if i = q.readIdx % a.queueLen then { q.entry i with steps := min n (q.entry i).steps } else q.entry i }
  | .complete => if q.isQueueEmpty then q else q.complete
  | .drop => q.drop
  | .offer c st => (q.add a c st).q

end FAS
