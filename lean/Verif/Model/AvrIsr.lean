import Verif.Model.Queue

/-!
# The AVR backend: timer compare unit, step interrupt, start and force stop

Models src/StepperISR_avr.cpp for one channel together with the application side
`StepperQueue::addQueueEntry` split into its three phases, so that step interrupts can occur in between.

Hardware abstraction: time is counted in timer ticks without wrap (`OCR += ticks` on the 16 bit timer is an
exact distance, because ticks ≤ 65535 and the interrupt is assumed to be served before the next compare event).
The output compare unit in mode "one" produces the L→H transition at the compare event; modes "zero" and
"disconnected" produce no transition to high.
-/

namespace FAS

/-- A step pulse (L→H transition) at a time with the level of the direction pin at that moment. -/
structure Pulse where
  time : Nat
  dir : Bool
deriving DecidableEq, Repr

/-- Program counter of `addQueueEntry` (src/StepperISR.cpp:5-151): `idle`, after filling the slot (before line 134),
after the critical section (before line 146). `cmd` is the argument. -/
inductive AddPc where
  | idle
  | prepared (next : QueueEnd) (cmd : Cmd) (start : Bool)
  | committed (start : Bool)
deriving DecidableEq

/-- State of one AVR channel. `q.running` is `_isRunning` and `noMore` is `_noMoreCommands`
(src/StepperISR.h:88-94), `irq` is the compare interrupt enable bit, `one` tells whether the compare output
mode is "one" (src/StepperISR_avr.cpp:12-30), `ocr` is the time of the next compare event. `pulses` is the log
of the emitted pulses, newest first. -/
structure Avr where
  q : Queue
  noMore : Bool
  irq : Bool
  one : Bool
  ocr : Nat
  pc : AddPc
  pulses : List Pulse

namespace Avr

/-- State after `init` (src/StepperISR_avr.cpp:102-136, src/StepperISR.cpp:312-349). -/
def init (a : ArchId) : Avr where
  q := Queue.init a
  noMore := false
  irq := false
  one := false
  ocr := 0
  pc := .idle
  pulses := []

/-- `e->steps--` on the entry in process, src/StepperISR_avr.cpp:171. -/
def decSteps (a : ArchId) (q : Queue) : Queue :=
  let i := q.readIdx % a.queueLen
  let e := q.entry i
  { q with entry := fun j => if j = i then { e with steps := e.steps - 1 } else q.entry j }

/-- `Stepper_ToggleDirection` if the entry requests it, src/StepperISR_avr.cpp:33-38,195-197. -/
def toggleFor (e : Entry) (q : Queue) : Queue := if e.toggleDir then { q with dirLevel := !q.dirLevel } else q

/-- The interrupt service routine, src/StepperISR_avr.cpp:146-205. -/
def isrBody (a : ArchId) (s : Avr) : Avr :=
  if s.q.readIdx = s.q.nextWriteIdx then
    { s with irq := false, one := false, q := { s.q with running := false }, noMore := false }
  else
    let e := s.q.slot a s.q.readIdx
    if e.steps > 1 then
      { s with q := decSteps a s.q, one := true, ocr := s.ocr + e.ticks }
    else if s.noMore then
      { s with noMore := false, q := toggleFor e s.q, one := decide (e.steps ≠ 0),
               ocr := s.ocr + (if e.steps ≠ 0 then 10 else e.ticks) }
    else if e.repeatEntry then
      { s with q := toggleFor e s.q, one := decide (e.steps ≠ 0), ocr := s.ocr + e.ticks }
    else
      let q1 := s.q.complete
      if q1.readIdx = q1.nextWriteIdx then
        { s with q := q1, noMore := true, one := false, ocr := s.ocr + e.ticks }
      else
        let e1 := q1.slot a q1.readIdx
        { s with q := toggleFor e1 q1, one := decide (e1.steps ≠ 0), ocr := s.ocr + e.ticks }

/-- A compare event: the output unit creates the pulse, if in mode "one", then the interrupt runs
(src/StepperISR_avr.cpp:138-145: "The interrupt is called on compare event, which eventually generates a
L->H transition"). -/
def compare (a : ArchId) (s : Avr) : Avr :=
  isrBody a (if s.one then { s with pulses := ⟨s.ocr, s.q.dirLevel⟩ :: s.pulses } else s)

/-- `startQueue()` at time `now`, src/StepperISR_avr.cpp:239-285. -/
def startQueue (a : ArchId) (now : Nat) (s : Avr) : Avr :=
  let e := s.q.slot a s.q.readIdx
  { s with q := toggleFor e { s.q with running := true }, one := decide (e.steps ≠ 0), irq := true, ocr := now + 10 }

/-- `StepperQueue::forceStop()`, src/StepperISR_avr.cpp:287-314. Note that `_noMoreCommands` is not cleared. -/
def forceStop (s : Avr) : Avr :=
  { s with irq := false, one := false, q := { s.q with running := false, readIdx := s.q.nextWriteIdx } }

/-- Part of `FastAccelStepper::forceStopAndNewPosition` concerning the queue, src/FastAccelStepper.cpp:674-689. -/
def forceStopAndNewPosition (newPos : Int) (s : Avr) : Avr :=
  let s1 := forceStop { s with q := { s.q with ignoreCommands := true } }
  { s1 with q := { s1.q with qend := { s1.q.qend with pos := newPos } } }

/-- Events of a schedule. -/
inductive Ev where
  /-- a compare event with its interrupt -/
  | compare
  /-- first phase of addQueueEntry(cmd, start) -/
  | addBegin (c : Cmd) (start : Bool)
  /-- second phase (critical section) -/
  | addCommit
  /-- third phase: eventually start, at the given time -/
  | addFinish (now : Nat)
  /-- addQueueEntry(NULL, true) at the given time -/
  | startNull (now : Nat)
  /-- forceStopAndNewPosition(pos) -/
  | forceStop (newPos : Int)
  /-- fill_queue with active ramp re-enables the queue, src/FastAccelStepper.cpp:375 -/
  | clearIgnore
  /-- polling of the external direction pin by the cyclic task; `agree` = the callback confirms the requested
  state. `FastAccelStepper::externalDirPinChangeCompletedIfNeeded`, src/FastAccelStepper.cpp:335-352 -/
  | extPoll (agree : Bool)

/-- `clearRepeatingFlag()`, src/StepperISR.h:133-135. -/
def clearRepeatingFlag (a : ArchId) (q : Queue) : Queue :=
  let i := q.readIdx % a.queueLen
  let e := q.entry i
  { q with entry := fun j => if j = i then { e with repeatEntry := false } else q.entry j }

/-- Executes an event. Events which are not possible in the state (interrupt disabled, phase not reached) leave
the state unchanged. Phases: src/StepperISR.cpp:8-131, 134-144, 146-151. -/
def step (a : ArchId) (s : Avr) : Ev → Avr
  | .compare => if s.irq then compare a s else s
  | .addBegin c start =>
    match s.pc with
    | .idle =>
      if !s.q.ready then s
      else if s.q.isQueueFull a then s
      else if Queue.commandRateTicks c < a.minCmdTicks then s
      else { s with q := (s.q.prepare a c).1, pc := .prepared (s.q.prepare a c).2 c start }
    | _ => s
  | .addCommit =>
    match s.pc with
    | .prepared next _ start =>
      let r := s.q.commit next
      { s with q := r.1, pc := if r.2 then .committed start else .idle }
    | _ => s
  | .addFinish now =>
    match s.pc with
    | .committed start =>
      if !s.q.running && start then startQueue a now { s with pc := .idle } else { s with pc := .idle }
    | _ => s
  | .startNull now =>
    match s.pc with
    | .idle => if (s.q.addNull true).start then startQueue a now s else s
    | _ => s
  | .forceStop p =>
    match s.pc with
    | .idle => forceStopAndNewPosition p s
    | _ => s
  | .clearIgnore => { s with q := { s.q with ignoreCommands := false } }
  | .extPoll agree =>
    if s.q.dirPin != pinUndefined && pinIsExternal s.q.dirPin && (s.q.slot a s.q.readIdx).repeatEntry && agree then
      { s with q := clearRepeatingFlag a s.q }
    else s

/-- Executes a schedule. -/
def run (a : ArchId) (s : Avr) (evs : List Ev) : Avr := evs.foldl (step a) s

end Avr
end FAS
