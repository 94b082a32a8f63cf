import Verif.Spec.Redirect
import Verif.Spec.Api
import Verif.Spec.Brake

/-!
# A moving motor gets `stopMove()`: C99
-/

namespace FAS.Spec

/-- The braking distance which counts at the next task cycle: `stepsToStop()`, unless the application has changed and applied the acceleration or linear acceleration since the last one.
Then it is what the ramp calculates for the current speed with the new acceleration (see C61: within 1 % of `(v²) / (2 * accel)` without linear acceleration). -/
def brakingSteps (a : ArchId) (s : Stepper) : Nat :=
  if s.rg.parameters.apply = true ∧ s.rg.parameters.recalcRampSteps = true then
    ({ s.rg.ro.config with parameters := s.rg.parameters }.update a).calculateRampSteps a s.rg.rw.currTicks
  else s.rg.stepsToStop

/-- Where `stopMove()` is to stop the motor: the braking distance beyond the end of the commands in the queue, in the direction of the last of them.
If the task has not queued any command of the movement yet (the period of the ramp is that of a stopped motor), the motor is to stay where the queue ends. -/
def stopPosition (a : ArchId) (s : Stepper) : Int :=
  if s.rg.rw.currTicks = ticksForStoppedMotor then s.getPositionAfterCommandsCompleted
  else if s.hw.q.qend.countUp then stepsOn s.getPositionAfterCommandsCompleted (brakingSteps a s)
  else stepsOn s.getPositionAfterCommandsCompleted (-(brakingSteps a s : Int))

/-- The sum of the `move()` calls which the task has not served yet. A `moveTo()` which still waits for the task does not count: the next `move()` discards it (see `C43_pending_moveTo_refuted`). -/
def pendingMove (s : Stepper) : Int :=
  if s.rg.parameters.anyChange = true ∧ s.rg.parameters.moveAbsolute = false then s.rg.parameters.moveValue else 0

/-- Calls with set speeds of `L` to 65535 ticks, accelerations of at most `A` steps/s², any linear acceleration (below 2^32 - 2 steps), and without jump start.
The settings may change at any time, moves, stops, changes of direction and target and of the position are arbitrary. -/
def ApiCall.Mild (L A : Nat) : ApiCall → Prop
  | .config (.speed t) => L ≤ t ∧ t ≤ 65535
  | .config (.acceleration x) => x ≤ A
  | .config (.linear n) => n < 4294967294
  | .config (.jump n) => n = 0
  | _ => True

end FAS.Spec
