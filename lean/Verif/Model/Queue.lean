import Verif.Model.Basic

/-!
# The portable command queue (`StepperQueue`)

Models src/StepperISR.h and src/StepperISR.cpp. The backend specific part of the class (timer set-up,
interrupt routines) is in `Model/AvrIsr.lean`, `Model/Rmt*.lean`, `Model/Due.lean`.
-/

namespace FAS

/-- `struct queue_entry`, src/StepperISR.h:11-31. `pos16` is `end_pos_last16` or `start_pos_last16`,
depending on the architecture. `repeatEntry`/`dirPinState` stay `false` on architectures without
SUPPORT_EXTERNAL_DIRECTION_PIN. -/
structure Entry where
  steps : Nat
  toggleDir : Bool
  countUp : Bool
  moreThanOneStep : Bool
  hasSteps : Bool
  repeatEntry : Bool
  dirPinState : Bool
  ticks : Nat
  pos16 : Nat
deriving DecidableEq, Repr

/-- `struct queue_end_s`, src/fas_arch/common.h:50-54. -/
structure QueueEnd where
  pos : Int
  countUp : Bool
  dir : Bool
deriving DecidableEq, Repr

/-- The portable members of `class StepperQueue`, src/StepperISR.h:33-110. `entry` is the array
`entry[QUEUE_LEN]`, `running` the value returned by the backend's `isRunning()`, `ready` the value
returned by the backend's `isReadyForCommands()` and `dirLevel` the physical level of the direction
pin as driven by this queue (`digitalWrite`). -/
structure Queue where
  entry : Nat → Entry
  ignoreCommands : Bool
  readIdx : Nat
  nextWriteIdx : Nat
  dirHighCountsUp : Bool
  dirPin : Nat
  running : Bool
  ready : Bool
  dirLevel : Bool
  qend : QueueEnd
  maxSpeedInTicks : Nat

/-- Content of a never written array slot (static storage, zero initialised),
src/StepperISR.h:11-31. -/
def Entry.zero : Entry := ⟨0, false, false, false, false, false, false, 0, 0⟩

/-- `StepperQueue::_initVars()`, src/StepperISR.cpp:312-349. The direction pin level is that of a
fresh output (LOW). `ready` is true for the backends AVR, SAM and TEST (src/StepperISR.h:94,102,108). -/
def Queue.init (a : ArchId) : Queue where
  entry := fun _ => Entry.zero
  ignoreCommands := false
  readIdx := 0
  nextWriteIdx := 0
  dirHighCountsUp := true
  dirPin := pinUndefined
  running := false
  ready := true
  dirLevel := false
  qend := ⟨0, true, true⟩
  maxSpeedInTicks := match a with
    | .testPc => a.ticksPerS / 50000
    | _ => a.ticksPerS / 1000

namespace Queue

/-- `entry[idx & QUEUE_LEN_MASK]`, src/StepperISR.h:9 and e.g. src/StepperISR.cpp:83. -/
def slot (a : ArchId) (q : Queue) (idx : Nat) : Entry := q.entry (idx % a.queueLen)

/-- `queueEntries()`, src/StepperISR.h:116-123. -/
def queueEntries (q : Queue) : Nat := subU8 q.nextWriteIdx q.readIdx

/-- `isQueueFull()`, src/StepperISR.h:124. -/
def isQueueFull (a : ArchId) (q : Queue) : Bool := q.queueEntries == a.queueLen

/-- `isQueueEmpty()`, src/StepperISR.h:125. -/
def isQueueEmpty (q : Queue) : Bool := q.queueEntries == 0

/-- The `command_rate_ticks` computation, src/StepperISR.cpp:71-74. -/
def commandRateTicks (c : Cmd) : Nat := if c.steps > 1 then u32 (c.ticks * c.steps) else c.ticks

/-- The position computation `next_queue_end.pos + (cmd->count_up ? steps : -steps)`,
src/StepperISR.cpp:126. Signed overflow (formally undefined) is modelled as two's complement wrap,
which README.md documents as the intended behaviour. -/
def nextPos (pos : Int) (c : Cmd) : Int := i32 (pos + (if c.countUp then (c.steps : Int) else -(c.steps : Int)))

/-- First phase of `addQueueEntry` for an accepted command, src/StepperISR.cpp:81-131: fills the slot
at the write index (not yet visible for the interrupt) and eventually drives the direction pin.
Returns the queue and the prepared `next_queue_end`. -/
def prepare (a : ArchId) (q : Queue) (c : Cmd) : Queue × QueueEnd :=
  let dir := (c.countUp == q.dirHighCountsUp)
  let external := pinIsExternal q.dirPin
  let setNow := q.dirPin != pinUndefined && (q.isQueueEmpty && !q.running && !external)
  let change := q.dirPin != pinUndefined && !(q.isQueueEmpty && !q.running && !external)
      && (dir != q.qend.dir)
  let useRepeat := a.externalDir && external
  let qend : QueueEnd := if setNow then { q.qend with dir := dir } else q.qend
  let next : QueueEnd := { pos := nextPos qend.pos c, countUp := c.countUp, dir := dir }
  let e : Entry := {
    steps := c.steps
    toggleDir := change && !useRepeat
    countUp := c.countUp
    moreThanOneStep := decide (c.steps > 1)
    hasSteps := decide (c.steps > 0)
    repeatEntry := change && useRepeat
    dirPinState := a.externalDir && dir
    ticks := c.ticks
    pos16 := if a.startPosField then (qend.pos % 65536).toNat else (next.pos % 65536).toNat }
  ({ q with
      entry := fun i => if i = q.nextWriteIdx % a.queueLen then e else q.entry i
      dirLevel := if setNow then dir else q.dirLevel
      qend := qend }, next)

/-- Second phase, the critical section, src/StepperISR.cpp:134-144. The Boolean result tells, if the
function continues (`true`) or returns AQE_DEVICE_NOT_READY. -/
def commit (q : Queue) (next : QueueEnd) : Queue × Bool :=
  if q.ignoreCommands then (q, true)
  else if q.ready then
    ({ q with nextWriteIdx := u8 (q.nextWriteIdx + 1), qend := next }, true)
  else (q, false)

/-- Result of a portable queue operation: new state, return code and whether the backend's
`startQueue()` is called as last action. -/
structure AddResult where
  q : Queue
  code : Int
  start : Bool

/-- `StepperQueue::addQueueEntry(cmd, start)` with `cmd ≠ NULL`, src/StepperISR.cpp:5-151 (TRACE output
omitted). -/
def add (a : ArchId) (q : Queue) (c : Cmd) (start : Bool) : AddResult :=
  if !q.ready then ⟨q, AQE_DEVICE_NOT_READY, false⟩
  else if q.isQueueFull a then ⟨q, AQE_QUEUE_FULL, false⟩
  else if commandRateTicks c < a.minCmdTicks then ⟨q, AQE_ERROR_TICKS_TOO_LOW, false⟩
  else
    let (q1, next) := q.prepare a c
    let (q2, ok) := q1.commit next
    if !ok then ⟨q2, AQE_DEVICE_NOT_READY, false⟩
    else ⟨q2, AQE_OK, !q2.running && start⟩

/-- `StepperQueue::addQueueEntry(NULL, start)`, src/StepperISR.cpp:11-22. -/
def addNull (q : Queue) (start : Bool) : AddResult :=
  if !q.ready then ⟨q, AQE_DEVICE_NOT_READY, false⟩
  else if start && !q.running then
    if q.nextWriteIdx = q.readIdx then ⟨q, AQE_ERROR_EMPTY_QUEUE_TO_START, false⟩
    else ⟨q, AQE_OK, true⟩
  else ⟨q, AQE_OK, false⟩

/-- `StepperQueue::getCurrentPosition()`, src/StepperISR.cpp:153-236, from a consistent snapshot. `doneP`
is the hardware pulse count `_getPerformedPulses()` used on ESP32 only (src/StepperISR.cpp:169,182).
The cases 2, 7, 8, 13 ("TODO: ERROR") make no correction. -/
def getCurrentPosition (a : ArchId) (q : Queue) (doneP : Nat) : Int :=
  let pos := toU32 q.qend.pos
  let e := q.slot a q.readIdx
  if q.readIdx = q.nextWriteIdx then i32 pos
  else
    let pos16 := pos % 65536
    let t := pos16 / 4096 % 16 / 4 * 4 + e.pos16 / 16384
    let pos1 :=
      if t = 1 ∨ t = 6 ∨ t = 11 ∨ t = 12 then u32 (pos + 0x4000)
      else if t = 4 ∨ t = 9 ∨ t = 14 ∨ t = 3 then subU32 pos 0x4000
      else pos
    let pos2 := pos1 / 65536 * 65536 + e.pos16
    if e.steps ≠ 0 then
      let adjust : Int :=
        if e.countUp then (if a.startPosField then (doneP : Int) else -(e.steps : Int))
        else (if a.startPosField then -(doneP : Int) else (e.steps : Int))
      i32 (pos2 + adjust)
    else i32 pos2

/-- Loop of `ticksInQueue`, src/StepperISR.cpp:248-257. The first argument bounds the number of
iterations: the `uint8_t` index meets `wp` after at most 255 increments. -/
def ticksLoop (a : ArchId) (q : Queue) : Nat → Nat → Nat → Nat
  | 0, _, ticks => ticks
  | n + 1, rp, ticks =>
    if q.nextWriteIdx = rp then ticks
    else
      let e := q.slot a rp
      let ticks := u32 (ticks + e.ticks)
      let ticks := if e.steps > 1 then u32 (ticks + u32 (e.ticks * (e.steps - 1))) else ticks
      ticksLoop a q n (u8 (rp + 1)) ticks

/-- `StepperQueue::ticksInQueue()`, src/StepperISR.cpp:238-259. -/
def ticksInQueue (a : ArchId) (q : Queue) : Nat :=
  if q.nextWriteIdx = q.readIdx then 0
  else ticksLoop a q 256 (u8 (q.readIdx + 1)) 0

/-- Loop of `hasTicksInQueue`, src/StepperISR.cpp:270-280; first argument as in `ticksLoop`. -/
def hasTicksLoop (a : ArchId) (q : Queue) : Nat → Nat → Nat → Bool
  | 0, _, _ => false
  | n + 1, rp, minTicks =>
    if q.nextWriteIdx = rp then false
    else
      let e := q.slot a rp
      let tmp := u32 (e.ticks * max e.steps 1)
      if tmp ≥ minTicks then true
      else hasTicksLoop a q n (u8 (rp + 1)) (minTicks - tmp)

/-- `StepperQueue::hasTicksInQueue()`, src/StepperISR.cpp:261-282. -/
def hasTicksInQueue (a : ArchId) (q : Queue) (minTicks : Nat) : Bool :=
  if q.nextWriteIdx = q.readIdx then false
  else hasTicksLoop a q 256 (u8 (q.readIdx + 1)) minTicks

/-- Result of `getActualTicksWithDirection`: the returned flag and the written fields
(`none` = not written by the call), src/fas_arch/common.h:44-48. -/
structure ActualTicks where
  valid : Bool
  ticks : Option Nat
  countUp : Option Bool
deriving DecidableEq, Repr

/-- `StepperQueue::getActualTicksWithDirection()`, src/StepperISR.cpp:284-310. -/
def getActualTicksWithDirection (a : ArchId) (q : Queue) : ActualTicks :=
  if q.nextWriteIdx = q.readIdx then ⟨true, some 0, none⟩
  else
    let e := q.slot a q.readIdx
    if e.hasSteps then
      if e.moreThanOneStep then ⟨true, some e.ticks, some e.countUp⟩
      else if q.nextWriteIdx ≠ u8 (q.readIdx + 1) then
        ⟨(q.slot a (u8 (q.readIdx + 1))).hasSteps, some e.ticks, some e.countUp⟩
      else ⟨false, some e.ticks, some e.countUp⟩
    else ⟨false, none, none⟩

/-- `setDirPin`, src/StepperISR.h:176-191 (port addresses omitted). -/
def setDirPin (q : Queue) (pin : Nat) (highCountsUp : Bool) : Queue :=
  { q with dirPin := pin, dirHighCountsUp := highCountsUp }

/-- The part common to all backends of completing the command in process:
`read_idx` is incremented (src/StepperISR_avr.cpp:186, StepperISR_idf4_esp32_rmt.cpp:193,
StepperISR_due.cpp:242,378, StepperISR_idf4_esp32_mcpwm_pcnt.cpp:276). -/
def complete (q : Queue) : Queue := { q with readIdx := u8 (q.readIdx + 1) }

/-- The part common to all backends of `forceStop()`: all pending commands are dropped
(src/StepperISR_avr.cpp:313, StepperISR_due.cpp:691, StepperISR_idf4_esp32_rmt.cpp:502,
StepperISR_idf4_esp32_mcpwm_pcnt.cpp:540). -/
def drop (q : Queue) : Queue := { q with running := false, readIdx := q.nextWriteIdx }

end Queue
end FAS

namespace FAS

/-- The queue together with the hardware pulse counter of the command in process
(`_getPerformedPulses()`, ESP32 only; 0 otherwise), src/StepperISR.h:60-68. -/
structure Hw where
  q : Queue
  doneP : Nat

namespace Hw

/-- One unit of hardware progress on the command in process, the behaviour all backends share:
a pause completes; a step is emitted and either counted down in the entry (`e->steps--`,
src/StepperISR_avr.cpp:170, StepperISR_due.cpp:354) or counted by the pulse counter (ESP32), and the last step
completes the command (`read_idx` incremented). This is the generic environment of the portable
queue code; the exact AVR interrupt is modelled in `Model/AvrIsr.lean`. -/
def advance (a : ArchId) (h : Hw) : Hw :=
  if h.q.isQueueEmpty then h
  else
    let i := h.q.readIdx % a.queueLen
    let e := h.q.entry i
    if e.steps = 0 then { q := h.q.complete, doneP := 0 }
    else if a.startPosField then
      if h.doneP + 1 < e.steps then { h with doneP := h.doneP + 1 }
      else { q := h.q.complete, doneP := 0 }
    else if e.steps > 1 then
      { h with q := { h.q with entry := fun j => if j = i then { e with steps := e.steps - 1 } else h.q.entry j } }
    else { q := h.q.complete, doneP := 0 }

/-- The operations of a history on one queue. `setRunning`, `setReady` stand for arbitrary behaviour of
the backend, `setIgnore` for forceStop()/fill_queue() (src/FastAccelStepper.cpp:375,667,676), `dropAll` for
`StepperQueue::forceStop()`. -/
inductive Op where
  | add (c : Cmd) (start : Bool)
  | addNull (start : Bool)
  | advance
  | dropAll
  | setRunning (b : Bool)
  | setReady (b : Bool)
  | setIgnore (b : Bool)
  | setDirPin (pin : Nat) (highCountsUp : Bool)

/-- Executes one operation, returns the new state and the return code (0 for operations without one).
The start request is passed on to `running` (src/StepperISR.cpp:19,152: `startQueue()`). -/
def step (a : ArchId) (h : Hw) : Op → Hw × Int
  | .add c s =>
    let r := h.q.add a c s
    ({ h with q := if r.start then { r.q with running := true } else r.q }, r.code)
  | .addNull s =>
    let r := h.q.addNull s
    ({ h with q := if r.start then { r.q with running := true } else r.q }, r.code)
  | .advance => (h.advance a, 0)
  | .dropAll => ({ q := h.q.drop, doneP := 0 }, 0)
  | .setRunning b => ({ h with q := { h.q with running := b } }, 0)
  | .setReady b => ({ h with q := { h.q with ready := b } }, 0)
  | .setIgnore b => ({ h with q := { h.q with ignoreCommands := b } }, 0)
  | .setDirPin p b => ({ h with q := h.q.setDirPin p b }, 0)

/-- Executes a history, collecting the return codes. -/
def run (a : ArchId) : Hw → List Op → Hw × List Int
  | h, [] => (h, [])
  | h, op :: ops =>
    let r := step a h op
    let r' := run a r.1 ops
    (r'.1, r.2 :: r'.2)

/-- State after `init` (src/StepperISR.cpp:312-349). -/
def init (a : ArchId) : Hw := { q := Queue.init a, doneP := 0 }

end Hw
end FAS
