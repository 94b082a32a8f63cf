import Verif.Model.AvrIsr

/-!
# The SAM Due backend

Models src/StepperISR_due.cpp for one channel together with the phases of `addQueueEntry`.

Hardware abstraction: the PWM channel produces one pulse per period while it is enabled and connected to the step pin
(`attached`); the rising edge causes the pin interrupt (`Queue##Q##ISR`). While a pause is processed, the pin is disconnected and the
end of each period causes the PWM interrupt (`irq`). The PWM interrupts within 100 µs after the last pulse are ignored by the code
(lines 205-215) and do not appear as events. Periods and times are in Model/DueTime.lean.
-/

namespace FAS

/-- A step pulse: level of the direction pin at the rising edge, and direction of the command in process (if any). -/
structure DuePulse where
  level : Bool
  up : Option Bool
deriving DecidableEq, Repr

/-- State of one channel. `q.running` is `_hasISRactive`, `pause` is `_pauseCommanded` (src/StepperISR.h:99-104), `attached` tells that
the step pin is driven by the enabled PWM channel, `irq` that the PWM interrupt of the enabled channel is enabled. `pulses` is the log of
pulses, newest first. -/
structure Due where
  q : Queue
  pause : Bool
  attached : Bool
  irq : Bool
  pc : AddPc
  pulses : List DuePulse

namespace Due

/-- State after `init()`, src/StepperISR_due.cpp:457-527, src/StepperISR.cpp:341-344. -/
def init : Due where
  q := Queue.init .sam
  pause := false
  attached := false
  irq := false
  pc := .idle
  pulses := []

/-- `--e->steps`, src/StepperISR_due.cpp:354 (`steps` is an `uint8_t`). -/
def decSteps (q : Queue) : Queue :=
  let i := q.readIdx % ArchId.sam.queueLen
  let e := q.entry i
  { q with entry := fun j => if j = i then { e with steps := subU8 e.steps 1 } else q.entry j }

/-- Toggles the direction pin if the command at the read index requests it, and deletes the request:
src/StepperISR_due.cpp:364-367, 402-404. -/
def toggleHead (q : Queue) : Queue :=
  let i := q.readIdx % ArchId.sam.queueLen
  let e := q.entry i
  if e.toggleDir then
    { q with
      dirLevel := !q.dirLevel
      entry := fun j => if j = i then { e with toggleDir := false } else q.entry j }
  else q

/-- A pulse with its interrupt `Queue##Q##ISR()`, src/StepperISR_due.cpp:327-408. -/
def pulse (s : Due) : Due :=
  let s := { s with pulses := ⟨s.q.dirLevel, if s.q.readIdx = s.q.nextWriteIdx then none else some (s.q.slot .sam s.q.readIdx).countUp⟩ :: s.pulses }
  if !s.q.running || s.pause then s
  else if s.q.readIdx = s.q.nextWriteIdx then s
  else
    let q1 := decSteps s.q
    if (q1.slot .sam q1.readIdx).steps ≠ 0 then { s with q := q1 }
    else
      let q2 := (toggleHead q1).complete
      if q2.readIdx = q2.nextWriteIdx then { s with q := { q2 with running := false }, attached := false }
      else
        let e := q2.slot .sam q2.readIdx
        if e.steps = 0 || !e.hasSteps then { s with q := q2, pause := true, irq := true, attached := false }
        else { s with q := toggleHead q2 }

/-- The PWM interrupt at the end of a period, `PWM_Handler()`, src/StepperISR_due.cpp:177-302. -/
def period (s : Due) : Due :=
  if !s.pause then { s with irq := false }
  else if s.q.readIdx = s.q.nextWriteIdx then s
  else
    let q1 := s.q.complete
    if q1.readIdx = q1.nextWriteIdx then
      { s with q := { q1 with running := false }, pause := false, irq := false, attached := false }
    else if (q1.slot .sam q1.readIdx).steps > 0 then { s with q := q1, pause := false, irq := false, attached := true }
    else { s with q := q1 }

/-- `startQueue()`, src/StepperISR_due.cpp:605-687. -/
def startQueue (s : Due) : Due :=
  let e := s.q.slot .sam s.q.readIdx
  if e.steps > 0 || e.hasSteps then { s with q := { s.q with running := true }, attached := true, irq := false }
  else { s with q := { s.q with running := true }, attached := false, irq := true, pause := true }

/-- `forceStop()`, src/StepperISR_due.cpp:689-698: the channel is disabled, so that there are neither pulses nor interrupts.
`_pauseCommanded` keeps its value. -/
def forceStop (s : Due) : Due :=
  { s with q := { s.q with readIdx := s.q.nextWriteIdx, running := false }, attached := false, irq := false }

/-- Part of `FastAccelStepper::forceStopAndNewPosition` concerning the queue, src/FastAccelStepper.cpp:674-689. -/
def forceStopAndNewPosition (newPos : Int) (s : Due) : Due :=
  let s1 := forceStop { s with q := { s.q with ignoreCommands := true } }
  { s1 with q := { s1.q with qend := { s1.q.qend with pos := newPos } } }

/-- Events of a schedule. -/
inductive Ev where
  /-- the PWM channel emits a pulse -/
  | pulse
  /-- the PWM channel interrupts at the end of a period -/
  | period
  /-- first phase of addQueueEntry(cmd, start) -/
  | addBegin (c : Cmd) (start : Bool)
  /-- second phase (critical section) -/
  | addCommit
  /-- third phase: eventually start -/
  | addFinish
  /-- addQueueEntry(NULL, true) -/
  | startNull
  /-- forceStopAndNewPosition(pos) -/
  | forceStop (newPos : Int)
  /-- fill_queue with active ramp re-enables the queue, src/FastAccelStepper.cpp:375 -/
  | clearIgnore
deriving DecidableEq

/-- Executes an event. Events which are not possible in the state leave it unchanged. Phases of `addQueueEntry`:
src/StepperISR.cpp:8-131, 134-144, 146-151. -/
def step (s : Due) : Ev → Due
  | .pulse => if s.attached then pulse s else s
  | .period => if s.irq then period s else s
  | .addBegin c start =>
    match s.pc with
    | .idle =>
      if !s.q.ready then s
      else if s.q.isQueueFull .sam then s
      else if Queue.commandRateTicks c < ArchId.sam.minCmdTicks then s
      else { s with q := (s.q.prepare .sam c).1, pc := .prepared (s.q.prepare .sam c).2 c start }
    | _ => s
  | .addCommit =>
    match s.pc with
    | .prepared next _ start =>
      let r := s.q.commit next
      { s with q := r.1, pc := if r.2 then .committed start else .idle }
    | _ => s
  | .addFinish =>
    match s.pc with
    | .committed start => if !s.q.running && start then startQueue { s with pc := .idle } else { s with pc := .idle }
    | _ => s
  | .startNull =>
    match s.pc with
    | .idle => if (s.q.addNull true).start then startQueue s else s
    | _ => s
  | .forceStop p =>
    match s.pc with
    | .idle => forceStopAndNewPosition p s
    | _ => s
  | .clearIgnore => { s with q := { s.q with ignoreCommands := false } }

/-- Executes a schedule. -/
def run (s : Due) (evs : List Ev) : Due := evs.foldl step s

end Due
end FAS
