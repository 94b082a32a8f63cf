import Verif.Model.Control
import Verif.Spec.Ramp

/-!
# Specification: control calls interrupted by the task
-/

namespace FAS.Spec

/-- What may happen while the application is interrupted: any number of complete task cycles in any environment, progress of the hardware, and the task
counting down for the auto disable. -/
inductive Interruption (a : ArchId) : Stepper → Stepper → Prop where
  | nothing (s : Stepper) : Interruption a s s
  | progress {s s1 : Stepper} (g : Gap) : Interruption a s s1 → Interruption a s { s1 with hw := s1.hw.gap a g }
  | counting {s s1 : Stepper} (n : Nat) : Interruption a s s1 → Interruption a s { s1 with counter := n }
  | task {s s1 s2 : Stepper} (env : Stepper.Env) (junk : NextCommand) (acc : List Cmd) : Interruption a s s1 →
      junk.rw.performedRampUpSteps < 4294967296 → s1.fillQueue a env junk = some (s2, acc) → Interruption a s s2

/-- `stopMove()` beginning in state `s`, with an interruption leading to `s1`, where the byte is read, and one leading to `s2`, where it is written. -/
structure StopMoveCall (a : ArchId) (s s1 s2 s' : Stepper) : Prop where
  before : Interruption a s s1
  between : Interruption a s1 s2
  result : s' = { s2 with rg := s2.rg.stopWrite s1.rg.stopByte }

/-- `forceStop()`, interrupted after each access. -/
structure ForceStopCall (a : ArchId) (s s1 s2 s' : Stepper) : Prop where
  before : Interruption a s.ignoreCommands s1
  between : Interruption a s1 s2
  result : s' = { s2 with rg := s2.rg.immediateWrite s1.rg.stopByte }

/-- `keepRunning()`, interrupted after each access. -/
structure KeepRunningCall (a : ArchId) (s s1 s2 s' : Stepper) : Prop where
  before : Interruption a s s1
  between : Interruption a s1 s2
  result : s' = { s2 with rg := s2.rg.keepWrite s1.rg.keepRead }

/-- `applySpeedAcceleration()`, interrupted after each access. -/
structure ApplySettingsCall (a : ArchId) (s s1 s2 s' : Stepper) : Prop where
  before : Interruption a s s1
  between : Interruption a s1 s2
  result : s' = { s2 with rg := s2.rg.applyWrite s.rg.applyRead1 s1.rg.applyRead2 }

/-- `forceStopAndNewPosition(p)`, interrupted after each access. -/
structure NewPositionCall (a : ArchId) (p : Int) (s s1 s2 s3 s4 s5 s' : Stepper) : Prop where
  ignored : Interruption a s.ignoreCommands s1
  idle : Interruption a { s1 with rg := s1.rg.rampIdle } s2
  reset : Interruption a { s2 with rg := s2.rg.rampReset } s3
  dropped : Interruption a s3.dropQueue s4
  position : Interruption a (s4.posWrite p) s5
  result : s' = { s5 with rg := s5.rg.setTargetPosition p }

/-- `setCurrentPosition(p)`, interrupted after the position has been read. -/
structure SetPositionCall (a : ArchId) (p : Int) (s s1 s' : Stepper) : Prop where
  between : Interruption a s s1
  result : s' = s1.shiftWrite (s.shiftRead a p)

/-- The setters with the speed, the acceleration or the linear acceleration tested in state `s`, and interrupted before they write in state `s1`. -/
inductive SetterCall (a : ArchId) (s s1 : Stepper) : ConfigCall → Stepper → Prop where
  | speed (t : Nat) : s.getMaxSpeedInTicks ≤ t → t ≠ ticksForStoppedMotor → Interruption a s s1 →
      SetterCall a s s1 (.speed t) { s1 with rg := s1.rg.speedWrite t (s.rg.speedTest t) }
  | acceleration (x : Int) : 0 < x → Interruption a s s1 →
      SetterCall a s s1 (.acceleration x) { s1 with rg := s1.rg.accelWrite x.toNat (s.rg.accelTest x.toNat) }
  | linear (n : Nat) : Interruption a s s1 → SetterCall a s s1 (.linear n) { s1 with rg := s1.rg.linearWrite n (s.rg.linearTest n) }

/-- The speed, acceleration, linear acceleration and jump start in a set of parameters. -/
def settings (p : RampParams) : Nat × Int × Nat × Nat := (p.minTravelTicks, p.pmflAccel, p.sH, p.sJump)

end FAS.Spec
