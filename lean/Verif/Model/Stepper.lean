import Verif.Model.Ramp

/-!
# `FastAccelStepper`

Models src/FastAccelStepper.cpp:228-1062 and the inline functions of src/FastAccelStepper.h, except the
engine (see `Model/Engine.lean`) and the pulse counter functions. Not modelled: the `blocking`
variants (they only wait for `isRunning()`), debug output.
-/

namespace FAS

/-- The callback set by `setExternalCallForPin`, src/FastAccelStepper.cpp:41-44: `none` if not set. Each
operation gets its own callback, so the answers may change from call to call. -/
abbrev ExtPin := Option (Nat → Bool → Bool)

/-- A `digitalWrite` or a call of the external callback with pin and level (true = HIGH). -/
abbrev PinWrite := Nat × Bool

/-- The members of `class FastAccelStepper`, src/FastAccelStepper.h:814-830, together with its queue
`fas_queue[_queue_num]`. `_dirPin` and `_dirHighCountsUp` are not stored twice: they always equal the
members of the queue (all four are only written in `init()` and `setDirectionPin()`,
src/FastAccelStepper.cpp:512-513,531-542 and src/StepperISR.cpp:312-349). -/
structure Stepper where
  hw : Hw
  rg : RampGen
  autoEnable : Bool
  dirChangeDelayTicks : Nat
  onDelayTicks : Nat
  offDelayCount : Nat
  counter : Nat
  stepPin : Nat
  enHigh : Nat
  enLow : Nat
  forwardPlanning : Nat

/-- MAX_ON_DELAY_TICKS, src/FastAccelStepper.h:254. -/
def ArchId.maxOnDelayTicks (a : ArchId) : Nat := 65535 * (a.queueLen - 1)

/-! Return codes of setDelayToEnable, src/FastAccelStepper.h:326-328. -/
/-- DELAY_OK, src/FastAccelStepper.h:326 -/
def DELAY_OK : Int := 0
/-- DELAY_TOO_LOW, src/FastAccelStepper.h:327 -/
def DELAY_TOO_LOW : Int := -1
/-- DELAY_TOO_HIGH, src/FastAccelStepper.h:328 -/
def DELAY_TOO_HIGH : Int := -2

/-! Return codes of moveTimed, src/FastAccelStepper.h:660-663. -/
/-- MOVE_TIMED_OK, src/FastAccelStepper.h:660 -/
def MOVE_TIMED_OK : Int := 0
/-- MOVE_TIMED_BUSY, src/FastAccelStepper.h:661 -/
def MOVE_TIMED_BUSY : Int := 5
/-- MOVE_TIMED_EMPTY, src/FastAccelStepper.h:662 -/
def MOVE_TIMED_EMPTY : Int := 6
/-- MOVE_TIMED_TOO_LARGE_ERROR, src/FastAccelStepper.h:663 -/
def MOVE_TIMED_TOO_LARGE_ERROR : Int := -4

/-- Progress of the hardware between two calls of the queue's `addQueueEntry`: a number of
`Hw.advance` units and the value of `isRunning()` afterwards. Arbitrary values over-approximate
what any backend does. -/
structure Gap where
  advances : Nat
  running : Bool

/-- One unit of hardware progress (see `Hw.advance`): an entry with `repeat_entry` set is executed again
instead of being completed (src/StepperISR_avr.cpp:73-77,184, StepperISR_idf5_esp32_rmt.cpp:179). -/
def Hw.advanceRep (a : ArchId) (h : Hw) : Hw :=
  if (h.q.slot a h.q.readIdx).repeatEntry then h else h.advance a

/-- `n` units of hardware progress. -/
def Hw.advances (a : ArchId) : Nat → Hw → Hw
  | 0, h => h
  | n + 1, h => Hw.advances a n (h.advanceRep a)

/-- Effect of a gap. -/
def Hw.gap (a : ArchId) (h : Hw) (g : Gap) : Hw :=
  let h := h.advances a g.advances
  { h with q := { h.q with running := g.running } }

namespace Stepper

/-- `init()`, src/FastAccelStepper.cpp:499-527. -/
def init (a : ArchId) (stepPin : Nat) : Stepper where
  hw := Hw.init a
  rg := RampGen.init
  autoEnable := false
  dirChangeDelayTicks := 0
  onDelayTicks := 0
  offDelayCount := 1
  counter := 0
  stepPin := stepPin
  enHigh := pinUndefined
  enLow := pinUndefined
  forwardPlanning := a.ticksPerS / 50

/-- `_dirPin`, src/FastAccelStepper.h:291. -/
def dirPin (s : Stepper) : Nat := s.hw.q.dirPin

/-- `isQueueRunning()`, src/FastAccelStepper.cpp:885-887. -/
def isQueueRunning (s : Stepper) : Bool := s.hw.q.running

/-- `isQueueEmpty()`, src/FastAccelStepper.cpp:882-884. -/
def isQueueEmpty (s : Stepper) : Bool := s.hw.q.isQueueEmpty

/-- `isRunning()`, src/FastAccelStepper.cpp:888-891. -/
def isRunning (s : Stepper) : Bool := s.hw.q.running || s.rg.isActive || !s.isQueueEmpty

/-- `isRampGeneratorActive()`, src/FastAccelStepper.h:741. -/
def isRampGeneratorActive (s : Stepper) : Bool := s.rg.isActive

/-- `isStopping()`, src/FastAccelStepper.h:546. -/
def isStopping (s : Stepper) : Bool := s.rg.isStopping

/-! ## Configuration -/

/-- `setDirectionPin()`, src/FastAccelStepper.cpp:529-554. `us : uint16_t`. -/
def setDirectionPin (a : ArchId) (ext : ExtPin) (s : Stepper) (pin : Nat) (highCountsUp : Bool)
    (us : Nat) : Stepper × List PinWrite :=
  let writes :=
    if pin ≠ pinUndefined then
      if pinIsExternal pin then (if ext.isSome then [(pin, highCountsUp)] else [])
      else [(pin, highCountsUp)]
    else []
  let q := s.hw.q.setDirPin pin highCountsUp
  let q := if pin ≠ pinUndefined ∧ !pinIsExternal pin then { q with dirLevel := highCountsUp } else q
  let delay :=
    if us ≠ 0 then
      let us := if us > a.maxDirDelayUs then a.maxDirDelayUs else us
      let us := if us < a.minDirDelayUs then a.minDirDelayUs else us
      u16 (us * (a.ticksPerS / 1000000))
    else 0
  ({ s with hw := { s.hw with q := q }, dirChangeDelayTicks := delay }, writes)

/-- `setEnablePin()`, src/FastAccelStepper.cpp:555-586. -/
def setEnablePin (ext : ExtPin) (s : Stepper) (pin : Nat) (lowActive : Bool) : Stepper × List PinWrite :=
  if lowActive then
    let s := { s with enLow := pin }
    if pin ≠ pinUndefined then
      if pinIsExternal pin then (s, if ext.isSome then [(pin, true)] else [])
      else ((if s.enHigh = pin then { s with enHigh := pinUndefined } else s), [(pin, true)])
    else (s, [])
  else
    let s := { s with enHigh := pin }
    if pin ≠ pinUndefined then
      if pinIsExternal pin then (s, if ext.isSome then [(pin, false)] else [])
      else ((if s.enLow = pin then { s with enLow := pinUndefined } else s), [(pin, false)])
    else (s, [])

/-- `setAutoEnable()`, src/FastAccelStepper.cpp:587-592. -/
def setAutoEnable (s : Stepper) (b : Bool) : Stepper :=
  { s with autoEnable := b, offDelayCount := if b ∧ s.offDelayCount = 0 then 1 else s.offDelayCount }

/-- `setDelayToEnable()`, src/FastAccelStepper.cpp:593-605. `us : uint32_t`. -/
def setDelayToEnable (a : ArchId) (s : Stepper) (us : Nat) : Stepper × Int :=
  let ticks := usToTicks a us
  if ticks > 0 ∧ ticks < a.minCmdTicks then (s, DELAY_TOO_LOW)
  else if ticks > a.maxOnDelayTicks then (s, DELAY_TOO_HIGH)
  else ({ s with onDelayTicks := ticks }, DELAY_OK)

/-- `setDelayToDisable()`, src/FastAccelStepper.cpp:606-613. `ms : uint16_t`. -/
def setDelayToDisable (a : ArchId) (s : Stepper) (ms : Nat) : Stepper :=
  let n := ms / a.delayMsBase
  let n := if ms > 0 ∧ n < 2 then 2 else n
  { s with offDelayCount := max n 1 }

/-- `setForwardPlanningTimeInMs()`, src/FastAccelStepper.h:615-618. `ms : uint8_t`. -/
def setForwardPlanningTimeInMs (a : ArchId) (s : Stepper) (ms : Nat) : Stepper :=
  { s with forwardPlanning := u32 (ms * (a.ticksPerS / 1000)) }

/-- One enable pin being driven by `enableOutputs()`/`disableOutputs()`,
src/FastAccelStepper.cpp:695-704: success flag and pin writes. -/
def driveEnablePin (ext : ExtPin) (pin : Nat) (level : Bool) : Bool × List PinWrite :=
  if pin ≠ pinUndefined then
    if pinIsExternal pin then
      match ext with
      | some f => (f pin level == level, [(pin, level)])
      | none => (true, [])
    else (true, [(pin, level)])
  else (true, [])

/-- `enableOutputs()`, src/FastAccelStepper.cpp:720-743. -/
def enableOutputs (ext : ExtPin) (s : Stepper) : Bool × List PinWrite :=
  let r1 := driveEnablePin ext s.enLow false
  let r2 := driveEnablePin ext s.enHigh true
  (r1.1 && r2.1, r1.2 ++ r2.2)

/-- `disableOutputs()`, src/FastAccelStepper.cpp:690-719. -/
def disableOutputs (ext : ExtPin) (s : Stepper) : Stepper × Bool × List PinWrite :=
  if s.isRunning && s.autoEnable then (s, false, [])
  else
    let r1 := driveEnablePin ext s.enLow true
    let r2 := driveEnablePin ext s.enHigh false
    let ok := r1.1 && r2.1
    ((if ok then { s with counter := 0 } else s), ok, r1.2 ++ r2.2)

/-! ## Adding commands -/

/-- State of a running `addQueueEntry` call: the stepper, the number of queue calls so far, the
commands accepted by the queue so far and the pin writes. -/
structure Call where
  s : Stepper
  n : Nat
  accepted : List Cmd
  writes : List PinWrite

/-- A call of `q->addQueueEntry(cmd, start)` within `addQueueEntry`; hardware progress `gaps n`
happens before the `n`-th queue call. `startQueue()` sets `running`. -/
def Call.add (a : ArchId) (gaps : Nat → Gap) (k : Call) (c : Cmd) (start : Bool) : Call × Int :=
  let hw := k.s.hw.gap a (gaps k.n)
  let r := hw.q.add a c start
  let q := if r.start then { r.q with running := true } else r.q
  ({ k with
    s := { k.s with hw := { hw with q := q } }
    n := k.n + 1
    accepted := if r.code = AQE_OK ∧ !hw.q.ignoreCommands then k.accepted ++ [c] else k.accepted },
   r.code)

/-- A call of `q->addQueueEntry(NULL, start)` within `addQueueEntry`. -/
def Call.addNull (a : ArchId) (gaps : Nat → Gap) (k : Call) (start : Bool) : Call × Int :=
  let hw := k.s.hw.gap a (gaps k.n)
  let r := hw.q.addNull start
  let q := if r.start then { r.q with running := true } else r.q
  ({ k with s := { k.s with hw := { hw with q := q } }, n := k.n + 1 }, r.code)

/-- The pauses of the on-delay loop, src/FastAccelStepper.cpp:272-284. The first argument bounds the
number of iterations (the delay gets smaller with each one). -/
def onDelayPauses : Nat → Nat → List Nat
  | 0, _ => []
  | n + 1, delay =>
    if delay > 0 then
      let ticks := delay / 2
      let t16 := if ticks > 65535 then 65535 else if ticks < 32768 then u16 delay else u16 ticks
      t16 :: onDelayPauses n (delay - t16)
    else []

/-- Adding the on-delay pauses, results ignored, src/FastAccelStepper.cpp:280-283. -/
def Call.addPauses (a : ArchId) (gaps : Nat → Gap) (countUp : Bool) : Call → List Nat → Call
  | k, [] => k
  | k, t :: ts => Call.addPauses a gaps countUp (k.add a gaps ⟨t, 0, countUp⟩ false).1 ts

/-- The auto enable block of `addQueueEntry`, src/FastAccelStepper.cpp:252-291. The result is the return
code, if the function returns here. -/
def Call.autoEnable (a : ArchId) (ext : ExtPin) (gaps : Nat → Gap) (k : Call) (c : Cmd) (start : Bool) :
    Call × Option Int :=
  if k.s.autoEnable ∧ k.s.counter = 0 then
    let e := k.s.enableOutputs ext
    let k := { k with writes := k.writes ++ e.2 }
    if !e.1 then (k, some AQE_WAIT_FOR_ENABLE_PIN_ACTIVE)
    else if k.s.onDelayTicks > 0 then
      let delay :=
        if k.s.onDelayTicks < k.s.dirChangeDelayTicks ∧ k.s.hw.q.qend.countUp ≠ c.countUp
        then k.s.dirChangeDelayTicks else k.s.onDelayTicks
      let k := k.addPauses a gaps c.countUp (onDelayPauses delay delay)
      let r := k.addNull a gaps start
      (r.1, if r.2 ≠ AQE_OK then some r.2 else none)
    else (k, none)
  else (k, none)

/-- The direction change block of `addQueueEntry`, src/FastAccelStepper.cpp:292-322. -/
def Call.dirChange (a : ArchId) (gaps : Nat → Gap) (k : Call) (c : Cmd) (start : Bool) :
    Call × Option Int :=
  if k.s.hw.q.qend.countUp ≠ c.countUp then
    if pinIsExternal k.s.dirPin then
      if (k.s.hw.gap a (gaps k.n)).q.queueEntries > a.queueLen - 2 then
        ({ k with s := { k.s with hw := k.s.hw.gap a (gaps k.n) }, n := k.n + 1 }, some AQE_QUEUE_FULL)
      else
        let k := { k with s := { k.s with hw := k.s.hw.gap a (gaps k.n) }, n := k.n + 1 }
        let p : Cmd := ⟨u16 (usToTicks a 500), 0, c.countUp⟩
        let r := k.add a gaps p start
        if r.2 ≠ AQE_OK then (r.1, some r.2)
        else
          let r := r.1.add a gaps p start
          (r.1, if r.2 ≠ AQE_OK then some r.2 else none)
    else if k.s.dirChangeDelayTicks ≠ 0 ∧ c.steps ≠ 0 then
      let r := k.add a gaps ⟨k.s.dirChangeDelayTicks, 0, c.countUp⟩ start
      (r.1, if r.2 ≠ AQE_OK then some r.2 else none)
    else (k, none)
  else (k, none)

/-- Adding the command itself, src/FastAccelStepper.cpp:323-332. -/
def Call.final (a : ArchId) (gaps : Nat → Gap) (k : Call) (c : Cmd) (start : Bool) : Call × Int :=
  let r := k.add a gaps c start
  if r.1.s.autoEnable ∧ r.2 = AQE_OK then
    ({ r.1 with s := { r.1.s with counter := r.1.s.offDelayCount } }, r.2)
  else r

/-- `addQueueEntry(cmd, start)` with `cmd ≠ NULL`, src/FastAccelStepper.cpp:228-333. `busy` is the result
of `isDirPinBusy(_dirPin, _queue_num)`. The ramp generator and `ignore_commands` do not change during the
call. -/
def addQueueEntry (a : ArchId) (ext : ExtPin) (gaps : Nat → Gap) (busy : Bool) (s : Stepper) (c : Cmd)
    (start : Bool) : Call × Int :=
  let k : Call := ⟨s, 0, [], []⟩
  if c.ticks < s.hw.q.maxSpeedInTicks then (k, AQE_ERROR_TICKS_TOO_LOW)
  else if s.dirPin ≠ pinUndefined ∧ !s.isQueueRunning ∧ busy then (k, AQE_DIR_PIN_IS_BUSY)
  else if s.dirPin = pinUndefined ∧ !c.countUp then (k, AQE_ERROR_NO_DIR_PIN_TO_TOGGLE)
  else
    match k.autoEnable a ext gaps c start with
    | (k, some code) => (k, code)
    | (k, none) =>
      match k.dirChange a gaps c start with
      | (k, some code) => (k, code)
      | (k, none) => k.final a gaps c start

/-- `addQueueEntry(NULL, start)`, src/FastAccelStepper.cpp:231-233. -/
def startQueue (s : Stepper) (start : Bool) : Stepper × Int :=
  let r := s.hw.q.addNull start
  let q := if r.start then { r.q with running := true } else r.q
  ({ s with hw := { s.hw with q := q } }, r.code)

/-! ## The cyclic task -/

/-- The environment of the additions in one `fill_queue`/`moveTimed` call: callback answers and
hardware progress for the `i`-th `addQueueEntry`. `iterations` bounds the number of iterations of the
loop of `fill_queue` in the model; theorems hold for any value, and `C49` shows which one is never
reached. -/
structure Env where
  iterations : Nat
  ext : Nat → ExtPin
  gaps : Nat → Nat → Gap
  busy : Nat → Bool

/-- Local variables of `fill_queue`. -/
structure Fill where
  s : Stepper
  cmd : NextCommand
  delayedStart : Bool
  needDelayedStart : Bool
  ticksPrepared : Nat
  accepted : List Cmd

/-- Condition of the while loop of `fill_queue`, src/FastAccelStepper.cpp:388-391. -/
def Fill.cond (a : ArchId) (f : Fill) : Bool :=
  !f.s.hw.q.isQueueFull a &&
    (decide (f.ticksPrepared < f.s.forwardPlanning) || decide (f.s.hw.q.queueEntries ≤ 1)) &&
    f.s.rg.isActive

/-- One iteration of the while loop of `fill_queue`, src/FastAccelStepper.cpp:396-445. The flag tells
whether the loop goes on. `none`: undefined behaviour in the ramp generator. -/
def Fill.body (a : ArchId) (env : Env) (i : Nat) (f : Fill) : Option (Fill × Bool) :=
  match f.s.rg.getNextCommand a f.s.hw.q.qend f.cmd with
  | none => none
  | some (rg, cmd) =>
    let s := { f.s with rg := rg }
    if cmd.command.ticks ≠ 0 then
      let r := s.addQueueEntry a (env.ext i) (env.gaps i) (env.busy i) cmd.command (!f.delayedStart)
      let acc := f.accepted ++ r.1.accepted
      if r.2 = AQE_OK then
        let t :=
          if cmd.command.steps ≤ 1 then cmd.command.ticks
          else u32 (cmd.command.ticks * cmd.command.steps)
        some ({ s := { r.1.s with rg := r.1.s.rg.afterCommandEnqueued cmd }, cmd := cmd
                delayedStart := f.delayedStart, needDelayedStart := f.delayedStart
                ticksPrepared := u32 (f.ticksPrepared + t), accepted := acc }, true)
      else if (0 : Int) < r.2 then
        some ({ f with s := r.1.s, cmd := cmd, accepted := acc }, false)
      else
        some ({ f with
                s := { r.1.s with rg := r.1.s.rg.stopRamp }, cmd := cmd, delayedStart := false
                accepted := acc }, true)
    else
      some ({ f with
              s := { s with rg := s.rg.afterCommandEnqueued cmd }, cmd := cmd
              needDelayedStart := f.delayedStart }, false)

/-- The while loop of `fill_queue`, src/FastAccelStepper.cpp:388-446. The first argument bounds the
number of iterations; the Boolean of the result tells if this bound has been hit. -/
def Fill.loop (a : ArchId) (env : Env) : Nat → Nat → Fill → Option (Fill × Bool)
  | 0, _, f => some (f, f.cond a)
  | n + 1, i, f =>
    if f.cond a then
      match f.body a env i with
      | none => none
      | some (f', true) => Fill.loop a env n (i + 1) f'
      | some (f', false) => some (f', false)
    else some (f, false)

/-- `fill_queue()`, src/FastAccelStepper.cpp:363-450. `junk` is the initial content of the local
variable `cmd`. The second component lists the commands accepted by the queue. -/
def fillQueue (a : ArchId) (env : Env) (junk : NextCommand) (s : Stepper) :
    Option (Stepper × List Cmd) :=
  if !s.rg.isActive then some (s, [])
  else if s.rg.parameters.checkValidConfig ≠ MOVE_OK then some (s, [])
  else
    let s := { s with hw := { s.hw with q := { s.hw.q with ignoreCommands := false } } }
    let f : Fill :=
      { s := s, cmd := junk, delayedStart := !s.hw.q.running, needDelayedStart := false
        ticksPrepared := s.hw.q.ticksInQueue a, accepted := [] }
    match Fill.loop a env env.iterations 0 f with
    | none => none
    | some (f, _) =>
      if f.needDelayedStart then some ((f.s.startQueue true).1, f.accepted)
      else some (f.s, f.accepted)

/-! ## Auto disable -/

/-- `updateAutoDisable()`, src/FastAccelStepper.cpp:452-461. -/
def updateAutoDisable (s : Stepper) : Stepper :=
  if s.counter > 1 ∧ !s.isRunning then { s with counter := s.counter - 1 } else s

/-- `agreeWithAutoDisable()`, src/FastAccelStepper.cpp:463-475. -/
def agreeWithAutoDisable (s : Stepper) : Bool := !s.isRunning && !decide (s.counter > 1)

/-- `needAutoDisable()`, src/FastAccelStepper.cpp:477-488. -/
def needAutoDisable (s : Stepper) : Bool := decide (s.counter = 1) && !s.isRunning

/-- `usesAutoEnablePin()`, src/FastAccelStepper.cpp:490-497. -/
def usesAutoEnablePin (s : Stepper) (pin : Nat) : Bool :=
  decide (pin ≠ pinUndefined) && (decide (pin = s.enHigh) || decide (pin = s.enLow))

/-! ## Moves -/

/-- `runForward()`, `runBackward()`, src/FastAccelStepper.cpp:614-615. -/
def startRun (s : Stepper) (countUp : Bool) : Stepper × Int :=
  let r := s.rg.startRun countUp
  ({ s with rg := r.1 }, r.2)

/-- `moveTo()`, src/FastAccelStepper.cpp:616-624 (not blocking). -/
def moveTo (s : Stepper) (position : Int) : Stepper × Int :=
  let r := s.rg.moveTo position s.hw.q.qend
  ({ s with rg := r.1 }, r.2)

/-- `move()`, src/FastAccelStepper.cpp:625-636 (not blocking). -/
def move (s : Stepper) (m : Int) : Stepper × Int :=
  if m < 0 ∧ s.dirPin = pinUndefined then (s, MOVE_ERR_NO_DIRECTION_PIN)
  else
    let r := s.rg.move m
    ({ s with rg := r.1 }, r.2)

/-- `keepRunning()`, src/FastAccelStepper.cpp:637. -/
def keepRunning (s : Stepper) : Stepper := { s with rg := s.rg.setKeepRunning }

/-- `stopMove()`, src/FastAccelStepper.cpp:638. -/
def stopMove (s : Stepper) : Stepper := { s with rg := s.rg.initiateStop }

/-- `applySpeedAcceleration()`, src/FastAccelStepper.cpp:639-641. -/
def applySpeedAcceleration (s : Stepper) : Stepper := { s with rg := s.rg.applySpeedAcceleration }

/-- `setAcceleration()`, src/FastAccelStepper.h:434-436. -/
def setAcceleration (s : Stepper) (accel : Int) : Stepper × Int :=
  let r := s.rg.setAcceleration accel
  ({ s with rg := r.1 }, r.2)

/-- `getAcceleration()`, src/FastAccelStepper.h:437, src/RampGenerator.h:64. -/
def getAcceleration (s : Stepper) : Nat := s.rg.acceleration

/-- `setLinearAcceleration()`, src/FastAccelStepper.h:466-468. -/
def setLinearAcceleration (s : Stepper) (steps : Nat) : Stepper :=
  { s with rg := { s.rg with parameters := s.rg.parameters.setCubicAccelerationSteps steps } }

/-- `setJumpStart()`, src/FastAccelStepper.h:484. -/
def setJumpStart (s : Stepper) (steps : Nat) : Stepper :=
  { s with rg := { s.rg with parameters := s.rg.parameters.setJumpStart steps } }

/-- `forceStop()`, src/FastAccelStepper.cpp:665-673. -/
def forceStop (s : Stepper) : Stepper :=
  { s with
    hw := { s.hw with q := { s.hw.q with ignoreCommands := true } }
    rg := s.rg.forceStop }

/-- `forceStopAndNewPosition()`, src/FastAccelStepper.cpp:674-689; the backend's `forceStop()` is
`Queue.drop`. -/
def forceStopAndNewPosition (s : Stepper) (pos : Int) : Stepper :=
  let q := ({ s.hw.q with ignoreCommands := true }).drop
  { s with
    hw := { q := { q with qend := { q.qend with pos := pos } }, doneP := 0 }
    rg := s.rg.stopRamp.setTargetPosition pos }

/-! ## Speed -/

/-- `getMaxSpeedInTicks()`, src/FastAccelStepper.cpp:796-798. -/
def getMaxSpeedInTicks (s : Stepper) : Nat := s.hw.q.maxSpeedInTicks

/-- `getMaxSpeedInUs()`, src/FastAccelStepper.cpp:799-803. -/
def getMaxSpeedInUs (a : ArchId) (s : Stepper) : Nat := u16 (s.getMaxSpeedInTicks / (a.ticksPerS / 1000000))

/-- `getMaxSpeedInHz()`, src/FastAccelStepper.cpp:804-808. `none`: division by zero with a speed limit of 0. -/
def getMaxSpeedInHz (a : ArchId) (s : Stepper) : Option Nat :=
  if s.getMaxSpeedInTicks = 0 then none else some (a.ticksPerS / s.getMaxSpeedInTicks)

/-- `getMaxSpeedInMilliHz()`, src/FastAccelStepper.cpp:809-813. All `uint32_t`. `none`: division by zero. -/
def getMaxSpeedInMilliHz (a : ArchId) (s : Stepper) : Option Nat :=
  if s.getMaxSpeedInTicks = 0 then none
  else some (u32 (u32 (250 * a.ticksPerS) / s.getMaxSpeedInTicks * 4))

/-- `setAbsoluteSpeedLimit()`, src/FastAccelStepper.cpp:815-817, src/StepperISR.h:193. -/
def setAbsoluteSpeedLimit (s : Stepper) (ticks : Nat) : Stepper :=
  { s with hw := { s.hw with q := { s.hw.q with maxSpeedInTicks := ticks } } }

/-- `StepperQueue::adjustSpeedToStepperCount()`, src/StepperISR_avr.cpp:346-361,
src/StepperISR_esp32.cpp:122-124, src/StepperISR_due.cpp:712-714,
extras/tests/pc_based/StepperISR_test.cpp:17-19: called for each stepper once a stepper is connected. -/
def adjustSpeedToStepperCount (a : ArchId) (steppers : Nat) (s : Stepper) : Stepper :=
  s.setAbsoluteSpeedLimit <|
    match a with
    | .testPc | .esp32 => 80
    | .sam => 420
    | .avr328 | .avr2560 | .avr32u4 =>
      if steppers = 1 then 320 else if steppers = 2 then 426 else 800

/-- `setSpeedInTicks()`, src/FastAccelStepper.cpp:819-828. -/
def setSpeedInTicks (s : Stepper) (ticks : Nat) : Stepper × Int :=
  if ticks < s.getMaxSpeedInTicks then (s, -1)
  else if ticks = ticksForStoppedMotor then (s, -1)
  else
    ({ s with rg := { s.rg with parameters := s.rg.parameters.setSpeedInTicks ticks } }, 0)

/-- `setSpeedInUs()`, src/FastAccelStepper.cpp:829-835. -/
def setSpeedInUs (a : ArchId) (s : Stepper) (us : Nat) : Stepper × Int :=
  if us ≥ ticksToUs a 0xffffffff then (s, -1) else s.setSpeedInTicks (usToTicks a us)

/-- `setSpeedInHz()`, src/FastAccelStepper.cpp:836-842. -/
def setSpeedInHz (a : ArchId) (s : Stepper) (hz : Nat) : Stepper × Int :=
  if hz = 0 then (s, -1) else s.setSpeedInTicks (RampGen.divForHz a hz)

/-- `setSpeedInMilliHz()`, src/FastAccelStepper.cpp:843-849. The comparison is done in 64 bit. -/
def setSpeedInMilliHz (a : ArchId) (s : Stepper) (mhz : Nat) : Stepper × Int :=
  if mhz ≤ 1000 * a.ticksPerS / 0xffffffff + 1 then (s, -1)
  else s.setSpeedInTicks (RampGen.divForMilliHz a mhz)

/-- `getSpeedInTicks()`, src/FastAccelStepper.h:394. -/
def getSpeedInTicks (s : Stepper) : Nat := s.rg.parameters.minTravelTicks

/-- `getPeriodInTicksAfterCommandsCompleted()`, src/FastAccelStepper.cpp:747-752. -/
def getPeriodInTicksAfterCommandsCompleted (s : Stepper) : Nat :=
  if s.rg.isActive then s.rg.rw.currTicks else 0

/-- `getPeriodInUsAfterCommandsCompleted()`, src/FastAccelStepper.cpp:753-758. -/
def getPeriodInUsAfterCommandsCompleted (a : ArchId) (s : Stepper) : Nat :=
  if s.rg.isActive then ticksToUs a s.rg.rw.currTicks else 0

/-- `moveByAcceleration()`, src/FastAccelStepper.cpp:642-664. `none`: `-INT32_MIN`. -/
def moveByAcceleration (s : Stepper) (accel : Int) (allowReverse : Bool) : Option (Stepper × Int) :=
  if accel > 0 then some ((s.setAcceleration accel).1.startRun true)
  else if accel < 0 then
    if accel = -2147483648 then none
    else
      let s := (s.setAcceleration (-accel)).1
      if allowReverse ∧ s.dirPin ≠ pinUndefined then some (s.startRun false)
      else some (s.applySpeedAcceleration.stopMove, MOVE_OK)
  else
    let maxSpeed := s.getSpeedInTicks
    let s := (s.setSpeedInTicks s.getPeriodInTicksAfterCommandsCompleted).1
    let s := (s.setAcceleration 1).1
    let s := s.applySpeedAcceleration
    some ((s.setSpeedInTicks maxSpeed).1, MOVE_OK)

/-- `getCurrentSpeedInTicks()`, src/FastAccelStepper.cpp:759-774 with src/RampGenerator.h:97-103. `junk` is
the direction in the caller's (uninitialised) structure, returned if it is not written. -/
def getCurrentSpeedInTicks (a : ArchId) (s : Stepper) (realtime : Bool) (junk : Bool) : Nat × Bool :=
  let r := if realtime then s.hw.q.getActualTicksWithDirection a else ⟨false, none, none⟩
  if !r.valid then
    if s.rg.isActive then (s.rg.rw.currTicks, decide (s.rg.rw.state.dir = .up))
    else (0, r.countUp.getD junk)
  else (r.ticks.getD 0, r.countUp.getD junk)

/-- `getCurrentSpeedInUs()`, src/FastAccelStepper.cpp:775-783. -/
def getCurrentSpeedInUs (a : ArchId) (s : Stepper) (realtime junk : Bool) : Int :=
  let sp := s.getCurrentSpeedInTicks a realtime junk
  let us := i32 (sp.1 / (a.ticksPerS / 1000000) : Nat)
  if sp.2 then us else -us

/-- `getCurrentSpeedInMilliHz()`, src/FastAccelStepper.cpp:784-795. -/
def getCurrentSpeedInMilliHz (a : ArchId) (s : Stepper) (realtime junk : Bool) : Int :=
  let sp := s.getCurrentSpeedInTicks a realtime junk
  if sp.1 > 0 then
    let mhz := i32 (u32 (u32 (250 * a.ticksPerS) / sp.1 * 4) : Nat)
    if sp.2 then mhz else -mhz
  else 0

/-! ## Position -/

/-- `getCurrentPosition()`, src/FastAccelStepper.cpp:911-913. -/
def getCurrentPosition (a : ArchId) (s : Stepper) : Int := s.hw.q.getCurrentPosition a s.hw.doneP

/-- `getPositionAfterCommandsCompleted()`, src/FastAccelStepper.cpp:744-746. -/
def getPositionAfterCommandsCompleted (s : Stepper) : Int := s.hw.q.qend.pos

/-- `setCurrentPosition()`, src/FastAccelStepper.cpp:850-859. -/
def setCurrentPosition (a : ArchId) (s : Stepper) (pos : Int) : Stepper :=
  let delta := i32 (pos - s.getCurrentPosition a)
  if delta ≠ 0 then
    { s with
      hw := { s.hw with
        q := { s.hw.q with qend := { s.hw.q.qend with pos := i32 (s.hw.q.qend.pos + delta) } } }
      rg := s.rg.advanceTargetPosition delta }
  else s

/-- `setPositionAfterCommandsCompleted()`, src/FastAccelStepper.cpp:860-869. -/
def setPositionAfterCommandsCompleted (s : Stepper) (pos : Int) : Stepper :=
  let delta := i32 (pos - s.hw.q.qend.pos)
  let s' := { s with
    hw := { s.hw with q := { s.hw.q with qend := { s.hw.q.qend with pos := pos } } } }
  if delta ≠ 0 then { s' with rg := s'.rg.advanceTargetPosition delta } else s'

/-- `performOneStep()`, src/FastAccelStepper.cpp:892-904 (not blocking). -/
def performOneStep (a : ArchId) (ext : ExtPin) (gaps : Nat → Gap) (busy : Bool) (s : Stepper)
    (countUp : Bool) : Call :=
  if !s.isRunning then
    if countUp ∨ s.dirPin ≠ pinUndefined then
      (s.addQueueEntry a ext gaps busy ⟨u16 a.minCmdTicks, 1, countUp⟩ true).1
    else ⟨s, 0, [], []⟩
  else ⟨s, 0, [], []⟩

/-! ## moveTimed -/

/-- State of a running `moveTimed`: the stepper, number of `addQueueEntry` calls, accepted commands and
`*actual_duration`. -/
structure Timed where
  s : Stepper
  n : Nat
  accepted : List Cmd
  actual : Nat

/-- Adds one command within `moveTimed`, src/FastAccelStepper.cpp:948-955,1001-1008,1047-1058; `d` is the
amount added to `*actual_duration` on success. -/
def Timed.add (a : ArchId) (env : Env) (start : Bool) (t : Timed) (c : Cmd) (d : Nat) : Timed × Int :=
  let r := t.s.addQueueEntry a (env.ext t.n) (env.gaps t.n) (env.busy t.n) c start
  ({ s := r.1.s, n := t.n + 1, accepted := t.accepted ++ r.1.accepted
     actual := if r.2 = AQE_OK then u32 (t.actual + d) else t.actual }, r.2)

/-- Pause loop of `moveTimed`, src/FastAccelStepper.cpp:936-957. The first argument bounds the
iterations. -/
def Timed.pauses (a : ArchId) (env : Env) (start : Bool) (ok : Int) : Nat → Timed → Nat → Timed × Int
  | 0, t, _ => (t, ok)
  | n + 1, t, duration =>
    if duration > 0 then
      let ticks :=
        if duration ≤ 65535 then duration
        else if duration ≥ 131072 then 65535
        else duration / 2
      let r := t.add a env start ⟨u16 ticks, 0, true⟩ (u16 ticks)
      if r.2 ≠ 0 then r else Timed.pauses a env start ok n r.1 (duration - u16 ticks)
    else (t, ok)

/-- Inner loop of the slow branch of `moveTimed`, src/FastAccelStepper.cpp:991-1011: one step followed
by pauses. -/
def Timed.slowStep (a : ArchId) (env : Env) (start countUp : Bool) :
    Nat → Timed → Nat → Nat → Timed × Int
  | 0, t, _, _ => (t, 0)
  | n + 1, t, steps, d =>
    if d > 0 then
      let ticks :=
        if d > 131072 then 65535 else if d > 65535 then u16 (d / 2) else u16 d
      let r := t.add a env start ⟨ticks, steps, countUp⟩ ticks
      if r.2 ≠ 0 then r else Timed.slowStep a env start countUp n r.1 0 (d - ticks)
    else (t, 0)

/-- Outer loop of the slow branch of `moveTimed`, src/FastAccelStepper.cpp:988-1013. -/
def Timed.slow (a : ArchId) (env : Env) (start countUp : Bool) (ok : Int) (rate : Nat) :
    Nat → Timed → Timed × Int
  | 0, t => (t, ok)
  | n + 1, t =>
    let r := t.slowStep a env start countUp rate 1 rate
    if r.2 ≠ 0 then r else Timed.slow a env start countUp ok rate n r.1

/-- Loop of the fast branch of `moveTimed`, src/FastAccelStepper.cpp:1031-1060. -/
def Timed.fast (a : ArchId) (env : Env) (start countUp : Bool) (ok : Int) :
    Nat → Timed → Nat → Nat → Nat → Timed × Int
  | 0, t, _, _, _ => (t, ok)
  | n + 1, t, steps, ticks, missing =>
    if steps > 0 then
      let cs := if steps > 510 then 255 else if steps > 255 then steps / 2 else steps
      let inc := decide (steps ≤ missing)
      let ticks := if inc then u16 (ticks + 1) else ticks
      let missing := if inc then 0 else missing
      let r := t.add a env start ⟨ticks, cs, countUp⟩ (u32 (ticks * steps))
      if r.2 ≠ 0 then r
      else Timed.fast a env start countUp ok n r.1 (steps - cs) ticks missing
    else (t, ok)

/-- `moveTimed()`, src/FastAccelStepper.cpp:914-1062. `steps : int16_t`; `-steps` of -32768 stays
negative (`i16`), then `rate /= steps` divides by its `uint32_t` conversion and neither loop is
entered. A `Timed` result with `actual = none` would be "not written"; the model writes 0 in that case
too (`steps = duration = 0`, line 917). -/
def moveTimed (a : ArchId) (env : Env) (s : Stepper) (steps : Int) (duration : Nat) (start : Bool) :
    Timed × Int :=
  let ok : Int := if s.isQueueEmpty then MOVE_TIMED_EMPTY else MOVE_TIMED_OK
  let t : Timed := ⟨s, 0, [], 0⟩
  if steps = 0 ∧ duration = 0 then
    if start then ({ t with s := (s.startQueue true).1 }, ok) else (t, ok)
  else
    let free := a.queueLen - s.hw.q.queueEntries
    if steps = 0 then
      if duration / 65536 ≥ a.queueLen then (t, MOVE_TIMED_TOO_LARGE_ERROR)
      else if duration / 65536 ≥ free then (t, MOVE_TIMED_BUSY)
      else t.pauses a env start ok duration duration
    else
      let countUp := decide (steps ≥ 0)
      let steps := if steps < 0 then i16 (-steps) else steps
      let rate := duration / toU32 steps
      if rate > 65535 then
        let perStep := u16 (rate / 65536 + 1)
        if perStep ≥ a.queueLen then (t, MOVE_TIMED_TOO_LARGE_ERROR)
        else if steps ≥ a.queueLen then (t, MOVE_TIMED_TOO_LARGE_ERROR)
        else
          let cmds := u8 (steps.toNat * perStep)
          if cmds ≥ a.queueLen then (t, MOVE_TIMED_TOO_LARGE_ERROR)
          else if cmds > free then (t, MOVE_TIMED_BUSY)
          else t.slow a env start countUp ok rate steps.toNat
      else if steps > a.queueLen * 255 then (t, MOVE_TIMED_TOO_LARGE_ERROR)
      else if steps > free * 255 then (t, MOVE_TIMED_BUSY)
      else
        let missing := i16 (subU32 duration (u32 (rate * toU32 steps)) : Nat)
        t.fast a env start countUp ok steps.toNat steps.toNat rate missing.toNat

end Stepper
end FAS
