import Verif.Spec.Cycles

/-!
# A motor which is moving when it gets a new target: C98
-/

namespace FAS.Spec

/-- The ramp of the stepper is active (accelerating, coasting, braking, reversing, running continuously or about to stop), it has got no force stop which the task has not served yet, and an ordinary
configuration: a direction pin, a direction delay of none or at least the minimum duration of a command, an on-delay of the enable pin of none or one which `setDelayToEnable()` accepts.
`L` ticks is a period which the driver and the hardware can do. -/
structure Moving (a : ArchId) (L : Nat) (s : Stepper) : Prop where
  limit1 : a.minCmdTicks ≤ L
  limit2 : s.getMaxSpeedInTicks ≤ L
  limit3 : L ≤ 32768
  active : s.isRampGeneratorActive = true
  noForceStop : s.rg.ro.forceImmediateStop = false
  dirPin : s.dirPin ≠ pinUndefined
  dirDelay : s.dirChangeDelayTicks = 0 ∨ a.minCmdTicks ≤ s.dirChangeDelayTicks
  enable : EnableDelayed s → a.minCmdTicks ≤ s.onDelayTicks ∧ s.onDelayTicks ≤ a.maxOnDelayTicks ∧ s.dirChangeDelayTicks ≤ 65535
  ready : s.hw.q.ready = true
  readIdx : s.hw.q.readIdx < 256
  writeIdx : s.hw.q.nextWriteIdx < 256
  entries : s.hw.q.queueEntries ≤ a.queueLen
  pos : i32 s.getPositionAfterCommandsCompleted = s.getPositionAfterCommandsCompleted

/-- An upper bound of the steps which the motor needs to stop: `stepsToStop()`, plus 1.01 times the braking distance `(v²) / (2 * accel)` with the new acceleration from a speed of one step in `L` ticks, rounded up. -/
def brakingBound (a : ArchId) (L accel : Nat) (s : Stepper) : Nat := s.rg.stepsToStop + 101 * a.ticksPerS ^ 2 / (200 * accel * L ^ 2) + 2

end FAS.Spec
