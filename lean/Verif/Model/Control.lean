import Verif.Model.Preempt

/-!
# The control calls, cut where the cyclic task may interrupt them

`stopMove()`, `forceStop()`, `keepRunning()`, `applySpeedAcceleration()`, `forceStopAndNewPosition()`,
`setCurrentPosition()` and the setters for speed and acceleration. As in Model/Preempt.lean the definitions are the parts
of the calls between two points, where the task may come. Simplification: the access to a multi byte variable is one part.
-/

namespace FAS

/-- The byte with the bit fields of `ramp_parameters_s`, src/RampCalculator.h:53-60. -/
structure FlagByte where
  apply : Bool
  anyChange : Bool
  recalcRampSteps : Bool
  validAcceleration : Bool
  validSpeed : Bool
  moveAbsolute : Bool
  keepRunning : Bool
  keepRunningCountUp : Bool
deriving DecidableEq, Repr

namespace RampParams

/-- Read of the byte, src/RampCalculator.h:53-60. -/
def flagByte (p : RampParams) : FlagByte :=
  ⟨p.apply, p.anyChange, p.recalcRampSteps, p.validAcceleration, p.validSpeed, p.moveAbsolute, p.keepRunning, p.keepRunningCountUp⟩

/-- Write of the byte, src/RampCalculator.h:53-60. -/
def writeFlags (p : RampParams) (b : FlagByte) : RampParams :=
  { p with
    apply := b.apply, anyChange := b.anyChange, recalcRampSteps := b.recalcRampSteps, validAcceleration := b.validAcceleration
    validSpeed := b.validSpeed, moveAbsolute := b.moveAbsolute, keepRunning := b.keepRunning
    keepRunningCountUp := b.keepRunningCountUp }

end RampParams

namespace RampGen

/-- `force_stop = true`, src/RampConstAcceleration.h:25, second half: the byte read before is written with this bit
changed. The first half is `stopByte`. -/
def stopWrite (g : RampGen) (b : StopByte) : RampGen :=
  { g with ro := { g.ro with forceStop := true, forceImmediateStop := b.forceImmediateStop } }

/-- `force_immediate_stop = true`, src/RampConstAcceleration.h:22, second half. -/
def immediateWrite (g : RampGen) (b : StopByte) : RampGen :=
  { g with ro := { g.ro with forceStop := b.forceStop, forceImmediateStop := true } }

/-- `config.parameters.keep_running = true`, src/RampConstAcceleration.h:27, first half: the byte is read, … -/
def keepRead (g : RampGen) : FlagByte := g.ro.config.parameters.flagByte

/-- … and written with the bit changed. -/
def keepWrite (g : RampGen) (b : FlagByte) : RampGen :=
  { g with
    ro := { g.ro with
      config := { g.ro.config with
        parameters := g.ro.config.parameters.writeFlags { b with keepRunning := true } } } }

/-- Read of `force_immediate_stop`, src/RampGenerator.cpp:28. -/
def applyRead1 (g : RampGen) : Bool := g.ro.forceImmediateStop

/-- Read of `any_change`, src/RampCalculator.h:77. -/
def applyRead2 (g : RampGen) : Bool := g.parameters.anyChange

/-- `apply = true` with interrupts disabled, src/RampCalculator.h:78-80, depending on the values read. -/
def applyWrite (g : RampGen) (immediate change : Bool) : RampGen :=
  if !immediate && change then { g with parameters := { g.parameters with apply := true } } else g

/-- `ramp_state = RAMP_STATE_IDLE`, src/RampConstAcceleration.h:43. -/
def rampIdle (g : RampGen) : RampGen := { g with rw := { g.rw with state := RampState.IDLE } }

/-- The other writes of `stopRamp()`, src/RampConstAcceleration.h:44-46. -/
def rampReset (g : RampGen) : RampGen :=
  { g with rw := { g.rw with pauseTicksLeft := 0, performedRampUpSteps := 0, currTicks := ticksForStoppedMotor } }

/-- The test of `setSpeedInTicks()`, src/RampCalculator.h:125. -/
def speedTest (g : RampGen) (ticks : Nat) : Bool := !g.parameters.validSpeed || decide (g.parameters.minTravelTicks ≠ ticks)

/-- The writes of `setSpeedInTicks()` with interrupts disabled, src/RampCalculator.h:126-130. -/
def speedWrite (g : RampGen) (ticks : Nat) (test : Bool) : RampGen :=
  if test then { g with parameters := { g.parameters with minTravelTicks := ticks, validSpeed := true, anyChange := true } } else g

/-- The test of `setAcceleration()`, src/RampCalculator.h:134-135. -/
def accelTest (g : RampGen) (accel : Nat) : Bool :=
  !g.parameters.validAcceleration || decide (g.parameters.pmflAccel ≠ pmflFrom accel)

/-- The writes of `setAcceleration()`: src/RampGenerator.cpp:23, not seen by the task, and src/RampCalculator.h:136-141 with
interrupts disabled. -/
def accelWrite (g : RampGen) (accel : Nat) (test : Bool) : RampGen :=
  let g := { g with acceleration := accel }
  if test then
    { g with
      parameters := { g.parameters with
        validAcceleration := true, anyChange := true, recalcRampSteps := true, pmflAccel := pmflFrom accel } }
  else g

/-- The test of `setLinearAcceleration()`, src/RampCalculator.h:116. -/
def linearTest (g : RampGen) (steps : Nat) : Bool := decide (g.parameters.sH ≠ steps)

/-- The writes of `setLinearAcceleration()` with interrupts disabled, src/RampCalculator.h:117-121. -/
def linearWrite (g : RampGen) (steps : Nat) (test : Bool) : RampGen :=
  if test then { g with parameters := { g.parameters with sH := steps, recalcRampSteps := true, anyChange := true } } else g

end RampGen

namespace Stepper

/-- `ignore_commands = true`, src/FastAccelStepper.cpp:669,678. -/
def ignoreCommands (s : Stepper) : Stepper :=
  { s with hw := { s.hw with q := { s.hw.q with ignoreCommands := true } } }

/-- `q->forceStop()`, src/FastAccelStepper.cpp:684: see `Queue.drop`. -/
def dropQueue (s : Stepper) : Stepper := { s with hw := { q := s.hw.q.drop, doneP := 0 } }

/-- `q->queue_end.pos = new_pos`, src/FastAccelStepper.cpp:687. -/
def posWrite (s : Stepper) (p : Int) : Stepper :=
  { s with hw := { s.hw with q := { s.hw.q with qend := { s.hw.q.qend with pos := p } } } }

/-- The distance by which `setCurrentPosition()` shifts the coordinates, src/FastAccelStepper.cpp:851. -/
def shiftRead (a : ArchId) (s : Stepper) (p : Int) : Int := i32 (p - s.getCurrentPosition a)

/-- The shift with interrupts disabled, src/FastAccelStepper.cpp:852-858. -/
def shiftWrite (s : Stepper) (delta : Int) : Stepper :=
  if delta ≠ 0 then
    { s with
      hw := { s.hw with
        q := { s.hw.q with qend := { s.hw.q.qend with pos := i32 (s.hw.q.qend.pos + delta) } } }
      rg := s.rg.advanceTargetPosition delta }
  else s

end Stepper
end FAS
