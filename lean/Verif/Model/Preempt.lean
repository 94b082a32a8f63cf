import Verif.Model.Stepper

/-!
# The move commands, cut where the cyclic task may interrupt them

`moveTo()`, `move()`, `runForward()` and `runBackward()` run with interrupts enabled, except for the access to the
parameters. The task may interrupt them at any point (AVR: timer interrupt, ESP32: task of higher priority), the test
bench does this on purpose (`inject_fill_interrupt`, src/RampGenerator.cpp:86,89). The definitions here are the parts of
the calls between two such points. Simplification: the read of a multi byte variable is one part.
-/

namespace FAS

/-- The byte with the bit fields `force_stop` and `force_immediate_stop`, src/RampConstAcceleration.h:9-11. -/
structure StopByte where
  forceStop : Bool
  forceImmediateStop : Bool
deriving DecidableEq, Repr

namespace RampGen

/-- Read of `isRampGeneratorActive()`, src/RampGenerator.cpp:82. -/
def moveToRead1 (g : RampGen) : Bool := g.isActive

/-- Read of `keep_running` (only if the ramp was active), src/RampGenerator.cpp:82. -/
def moveToRead2 (g : RampGen) : Bool := g.ro.config.parameters.keepRunning

/-- Read of the current target, src/RampGenerator.cpp:82-85, and its comparison, line 88. The Booleans are the values read
before. -/
def moveToRead3 (g : RampGen) (active keepRunning : Bool) (qe : QueueEnd) (position : Int) : Bool :=
  decide ((if active && !keepRunning then g.ro.targetPos else qe.pos) ≠ position)

/-- Write of the target, src/RampGenerator.cpp:87, src/RampCalculator.h:91-100 (with interrupts disabled). -/
def moveToWrite (g : RampGen) (position : Int) : RampGen := { g with parameters := g.parameters.setTargetPosition position }

/-- Write of the distance, src/RampGenerator.cpp:98, src/RampCalculator.h:101-114 (with interrupts disabled). -/
def moveWrite (g : RampGen) (move : Int) : RampGen := { g with parameters := g.parameters.setTargetRelativePosition move }

/-- Write of the direction, src/RampGenerator.cpp:38, src/RampCalculator.h:83-90 (with interrupts disabled). -/
def runWrite (g : RampGen) (countUp : Bool) : RampGen := { g with parameters := g.parameters.setRunning countUp }

/-- `_ro.force_stop = false`, src/RampGenerator.cpp:37,50, first half: a bit field is written by reading its byte, … -/
def stopByte (g : RampGen) : StopByte := ⟨g.ro.forceStop, g.ro.forceImmediateStop⟩

/-- … changing the bit and writing the byte. -/
def clearStop (g : RampGen) (b : StopByte) : RampGen :=
  { g with ro := { g.ro with forceStop := false, forceImmediateStop := b.forceImmediateStop } }

/-- Start of the ramp, src/RampGenerator.cpp:39,52-55, src/RampConstAcceleration.h:56-67. One part: only an idle ramp is
written, and the task does not touch an idle ramp. -/
def startIf (g : RampGen) (changed : Bool) : RampGen :=
  if changed then { g with rw := g.rw.startRampIfNotRunning } else g

end RampGen

namespace Stepper

/-- The first half of an iteration of `fill_queue`, src/FastAccelStepper.cpp:396: the next command is planned. On a second
core, the application may go on meanwhile. -/
def Fill.plan (a : ArchId) (f : Fill) : Option (Fill × NextCommand) :=
  match f.s.rg.getNextCommand a f.s.hw.q.qend f.cmd with
  | none => none
  | some (rg, cmd) => some ({ f with s := { f.s with rg := rg } }, cmd)

/-- The second half of an iteration of `fill_queue`, src/FastAccelStepper.cpp:397-445: the command is put into the queue and the
state of the ramp is written back. -/
def Fill.commit (a : ArchId) (env : Env) (i : Nat) (f : Fill) (cmd : NextCommand) : Fill × Bool :=
  if cmd.command.ticks ≠ 0 then
    let r := f.s.addQueueEntry a (env.ext i) (env.gaps i) (env.busy i) cmd.command (!f.delayedStart)
    let acc := f.accepted ++ r.1.accepted
    if r.2 = AQE_OK then
      let t := if cmd.command.steps ≤ 1 then cmd.command.ticks else u32 (cmd.command.ticks * cmd.command.steps)
      ({ s := { r.1.s with rg := r.1.s.rg.afterCommandEnqueued cmd }, cmd := cmd
         delayedStart := f.delayedStart, needDelayedStart := f.delayedStart
         ticksPrepared := u32 (f.ticksPrepared + t), accepted := acc }, true)
    else if (0 : Int) < r.2 then ({ f with s := r.1.s, cmd := cmd, accepted := acc }, false)
    else
      ({ f with s := { r.1.s with rg := r.1.s.rg.stopRamp }, cmd := cmd, delayedStart := false, accepted := acc }, true)
  else
    ({ f with
       s := { f.s with rg := f.s.rg.afterCommandEnqueued cmd }, cmd := cmd
       needDelayedStart := f.delayedStart }, false)

end Stepper
end FAS
