import Verif.Model.AvrIsr

/-!
# Several steppers on one AVR timer

On AVR all steppers share one timer module (src/AVRStepperPins.h, `FAS_TIMER_MODULE`): the output mode of all
channels is held in the register `TCCRnA` and the interrupt enable bits of all channels and of the timer overflow in
`TIMSKn`. `Stepper_One`, `Stepper_Zero`, `Stepper_Disconnect`, `EnableCompareInterrupt`, `DisableCompareInterrupt` and
`EnableOverflowInterrupt` (src/StepperISR_avr.cpp:14-30, 79-80, 96-97) are each a load of the register, a change of some
bits and a store: both registers are outside of the range of the single instruction bit operations.
Within an interrupt service routine interrupts are disabled, so there these three steps are atomic. In
`startQueue()`, `forceStop()` and `init()`, which are called by the application or by the cyclic task with interrupts
enabled, a step interrupt of any channel can occur between the load and the store, and if the caller is the
application, the whole cyclic task, too.

This model has the state of every channel (`Avr`, Model/AvrIsr.lean: `one` and `irq` are the channel's bits in the two
registers), the overflow interrupt enable bit and the stack of the interrupted activities: the application at the
bottom, above it the cyclic task, if running.

Simplifications: output modes "zero" and "disconnected" are not distinguished (see Model/AvrIsr.lean); the direction
pin of every stepper is configured from the beginning; the number of channels is not limited (the code has two or
three).
-/

namespace FAS

/-- A load-modify-store operation on a shared register by an activity working on one channel. -/
inductive RegOp where
  /-- `Stepper_One` (`true`) or `Stepper_Zero`/`Stepper_Disconnect` (`false`) of the own channel: `TCCRnA`,
  src/StepperISR_avr.cpp:14-25. The change of the WGM bits in `ConfigureTimer`, src/StepperISR_avr.cpp:85-86,
  is such an operation, too. -/
  | mode (v : Bool)
  /-- `EnableCompareInterrupt`/`DisableCompareInterrupt` of the own channel: `TIMSKn`, src/StepperISR_avr.cpp:79-80 -/
  | mask (v : Bool)
  /-- `EnableOverflowInterrupt`: `TIMSKn`, src/StepperISR_avr.cpp:96 -/
  | ovf
deriving DecidableEq

/-- What an activity is about. -/
inductive JobKind where
  /-- `startQueue()` at the end of addQueueEntry(cmd, true), src/StepperISR.cpp:146-151 -/
  | addFinish
  /-- `startQueue()` in addQueueEntry(NULL, true), src/StepperISR.cpp:8-16 -/
  | startNull
  /-- forceStopAndNewPosition(pos) -/
  | forceStop (newPos : Int)
  /-- `init()`, called by stepperConnectToPin() -/
  | connect
deriving DecidableEq

/-- Content of a register as loaded by an activity: the bits of the channels, and the overflow enable bit. -/
structure Loaded where
  bits : Nat → Bool
  ovf : Bool

/-- An activity in progress: its channel, the register operations still to be done, and the loaded value, if the
first of these operations has done its load. -/
structure Job where
  kind : JobKind
  chan : Nat
  ops : List RegOp
  loaded : Option Loaded

/-- All channels of the timer. `stack` holds for the application (last element) and for every running invocation of
the cyclic task (in front) the activity in progress, if any. Only the first element can proceed. `conn` tells, which
channels have been connected. -/
structure AvrTimer where
  ch : Nat → Avr
  conn : Nat → Bool
  ovf : Bool
  stack : List (Option Job)

namespace AvrTimer

/-- Replaces the state of one channel. -/
def setCh (m : AvrTimer) (i : Nat) (s : Avr) : AvrTimer := { m with ch := fun j => if j = i then s else m.ch j }

/-- The state before any stepper is connected, src/StepperISR_avr.cpp:99-103. The direction pins are those, which are
configured later. -/
def fresh (a : ArchId) (pin : Nat → Nat) (hi : Nat → Bool) : AvrTimer where
  ch i := { Avr.init a with q := (Queue.init a).setDirPin (pin i) (hi i) }
  conn _ := false
  ovf := false
  stack := [none]

/-- The load of a register operation. -/
def load (m : AvrTimer) : RegOp → Loaded
  | .mode _ => ⟨fun j => (m.ch j).one, m.ovf⟩
  | .mask _ => ⟨fun j => (m.ch j).irq, m.ovf⟩
  | .ovf => ⟨fun j => (m.ch j).irq, m.ovf⟩

/-- Change and store of a register operation of channel `i`: all other bits are stored as they have been loaded. -/
def store (m : AvrTimer) (i : Nat) (l : Loaded) : RegOp → AvrTimer
  | .mode v => { m with ch := fun j => { m.ch j with one := if j = i then v else l.bits j } }
  | .mask v => { m with ch := fun j => { m.ch j with irq := if j = i then v else l.bits j }, ovf := l.ovf }
  | .ovf => { m with ch := fun j => { m.ch j with irq := l.bits j }, ovf := true }

/-- `startQueue()` up to the first register operation, src/StepperISR_avr.cpp:239-252, 261-285: `_isRunning` is set, the
direction pin is toggled, if requested, and the compare value is moved 32768 ticks away. -/
def startBegin (a : ArchId) (now : Nat) (s : Avr) : Avr :=
  { s with q := Avr.toggleFor (s.q.slot a s.q.readIdx) { s.q with running := true }, ocr := now + 32768 }

/-- The register operations of `AVR_START_QUEUE`, src/StepperISR_avr.cpp:246-255. -/
def startOps (a : ArchId) (s : Avr) : List RegOp := [.mode (decide ((s.q.slot a s.q.readIdx).steps ≠ 0)), .mask true]

/-- The register operations of `FORCE_STOP`, src/StepperISR_avr.cpp:287-295. -/
def stopOps : List RegOp := [.mask false, .mode false]

/-- The register operations of `AVR_INIT`, src/StepperISR_avr.cpp:105-117. -/
def connectOps : List RegOp := [.mode false, .mask false, .mode false, .ovf]

/-- The last step of an activity: `startQueue` sets the compare value with interrupts disabled
(src/StepperISR_avr.cpp:257-259); `forceStop` marks the queue as stopped and empties it (src/StepperISR_avr.cpp:310-313)
and forceStopAndNewPosition sets the position (src/FastAccelStepper.cpp:687). The flag `ignore_commands`
(src/FastAccelStepper.cpp:678) is set here only, a simplification. -/
def finish (now : Nat) : JobKind → Avr → Avr
  | .addFinish, s => { s with ocr := now + 10, pc := .idle }
  | .startNull, s => { s with ocr := now + 10 }
  | .forceStop p, s =>
    { s with q := { s.q with running := false, readIdx := s.q.nextWriteIdx, ignoreCommands := true
                             qend := { s.q.qend with pos := p } } }
  | .connect, s => s

/-- Events of a schedule. -/
inductive Ev where
  /-- compare event of a channel and its step interrupt -/
  | compare (i : Nat)
  /-- an API call, or a phase of addQueueEntry, for a stepper by the running context -/
  | api (i : Nat) (ev : Avr.Ev)
  /-- stepperConnectToPin by the application -/
  | connect (i : Nat)
  /-- the next step of the activity of the running context, at the given time -/
  | proceed (now : Nat)
  /-- the timer overflow interrupt starts the cyclic task -/
  | taskBegin
  /-- the cyclic task ends -/
  | taskEnd

/-- The running context begins an activity. -/
def begin (m : AvrTimer) (j : Job) : AvrTimer := { m with stack := some j :: m.stack.tail }

/-- One step of an activity. -/
def proceed (m : AvrTimer) (now : Nat) (j : Job) : AvrTimer :=
  match j.ops, j.loaded with
  | op :: _, none => { m with stack := some { j with loaded := some (m.load op) } :: m.stack.tail }
  | op :: ops, some l => { m.store j.chan l op with stack := some { j with ops := ops, loaded := none } :: m.stack.tail }
  | [], _ =>
    { m.setCh j.chan (finish now j.kind (m.ch j.chan)) with
      stack := none :: m.stack.tail
      conn := if j.kind = .connect then fun i => if i = j.chan then true else m.conn i else m.conn }

/-- An API call (or phase of addQueueEntry) by the running context, if this has no other activity in progress:
calls which start or stop the queue begin an activity, src/StepperISR.cpp:8-16, 146-151,
src/FastAccelStepper.cpp:674-689; all others do not access the shared registers. -/
def api (a : ArchId) (m : AvrTimer) (i : Nat) (ev : Avr.Ev) : AvrTimer :=
  let s := m.ch i
  match ev, s.pc with
  | .compare, _ => m
  | .addFinish now, .committed start =>
    if !s.q.running && start then
      (m.setCh i (startBegin a now s)).begin ⟨.addFinish, i, startOps a s, none⟩
    else m.setCh i (s.step a ev)
  | .startNull now, .idle =>
    if (s.q.addNull true).start then
      (m.setCh i (startBegin a now s)).begin ⟨.startNull, i, startOps a s, none⟩
    else m
  | .forceStop p, .idle => m.begin ⟨.forceStop p, i, stopOps, none⟩
  | _, _ => m.setCh i (s.step a ev)

/-- Executes an event; events which are not possible leave the state unchanged. The cyclic task:
src/StepperISR_avr.cpp:211-235. Its first statement and its last one are executed with interrupts disabled. -/
def step (a : ArchId) (m : AvrTimer) : Ev → AvrTimer
  | .compare i => m.setCh i ((m.ch i).step a .compare)
  | .api i ev =>
    match m.stack.head? with
    | some none => if m.conn i then api a m i ev else m
    | _ => m
  | .connect i =>
    match m.stack with
    | [none] => if m.conn i then m else m.begin ⟨.connect, i, connectOps, none⟩
    | _ => m
  | .proceed now =>
    match m.stack.head? with
    | some (some j) => m.proceed now j
    | _ => m
  | .taskBegin => if m.ovf then { m with ovf := false, stack := none :: m.stack } else m
  | .taskEnd =>
    match m.stack with
    | none :: c :: rest => { m with ovf := true, stack := c :: rest }
    | _ => m

/-- Executes a schedule. -/
def run (a : ArchId) (m : AvrTimer) (evs : List Ev) : AvrTimer := evs.foldl (step a) m

end AvrTimer
end FAS
