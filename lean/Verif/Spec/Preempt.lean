import Verif.Model.Preempt
import Verif.Spec.Ramp
import Verif.Spec.Cycles

/-!
# Specification: move commands interrupted by the task
-/

namespace FAS.Spec

/-- What may happen while the application is interrupted: any number of complete task cycles in any environment, and hardware progress. In none of the task
cycles the queue rejects a command with an error. -/
inductive Meanwhile (a : ArchId) : Stepper → Stepper → Prop where
  | nothing (s : Stepper) : Meanwhile a s s
  | elapse {s s1 s2 : Stepper} : Meanwhile a s s1 → Elapses a s1 s2 → Meanwhile a s s2
  | task {s s1 s2 : Stepper} (env : Stepper.Env) (junk : NextCommand) (acc : List Cmd) : Meanwhile a s s1 →
      junk.rw.performedRampUpSteps < 4294967296 → s1.fillQueue a env junk = some (s2, acc) → ¬ AbortedRamp a env junk s1 → Meanwhile a s s2

/-- A call of `moveTo(p)` with success, interrupted wherever this is possible. `changed`: the call considers `p` to be different from the present target. -/
def InterruptedMoveTo (a : ArchId) (p : Int) (changed : Bool) (s s' : Stepper) : Prop :=
  ∃ s1 s2 s3 s4 s5 s6 : Stepper,
    s.rg.parameters.checkValidConfig = MOVE_OK ∧
    Meanwhile a s s1 ∧
    Meanwhile a s1 s2 ∧
    changed = s2.rg.moveToRead3 s.rg.moveToRead1 s1.rg.moveToRead2 s2.hw.q.qend p ∧
    Meanwhile a s2 s3 ∧
    Meanwhile a { s3 with rg := s3.rg.moveToWrite p } s4 ∧
    Meanwhile a s4 s5 ∧
    Meanwhile a { s5 with rg := s5.rg.clearStop s4.rg.stopByte } s6 ∧
    s' = { s6 with rg := s6.rg.startIf changed }

/-- A call of `move(m)` with success, interrupted wherever this is possible. -/
def InterruptedMove (a : ArchId) (m : Int) (s s' : Stepper) : Prop :=
  ∃ s3 s4 s5 s6 : Stepper,
    s.rg.parameters.checkValidConfig = MOVE_OK ∧
    Meanwhile a s s3 ∧
    Meanwhile a { s3 with rg := s3.rg.moveWrite m } s4 ∧
    Meanwhile a s4 s5 ∧
    Meanwhile a { s5 with rg := s5.rg.clearStop s4.rg.stopByte } s6 ∧
    s' = { s6 with rg := s6.rg.startIf (decide (m ≠ 0)) }

/-- A call of `runForward()` or `runBackward()` with success, interrupted wherever this is possible. -/
def InterruptedRun (a : ArchId) (up : Bool) (s s' : Stepper) : Prop :=
  ∃ s3 s4 s5 s6 : Stepper,
    s.rg.parameters.checkValidConfig = MOVE_OK ∧
    Meanwhile a s s3 ∧
    Meanwhile a s3 s4 ∧
    Meanwhile a { s4 with rg := s4.rg.clearStop s3.rg.stopByte } s5 ∧
    Meanwhile a { s5 with rg := s5.rg.runWrite up } s6 ∧
    s' = { s6 with rg := s6.rg.startIf true }

/-- The ramp is not asked to stop, and serving it changes neither its target position nor whether it runs continuously. -/
structure OnCourse (a : ArchId) (s : Stepper) : Prop where
  noStop : s.rg.ro.forceStop = false
  target : ∀ qe, (s.rg.prepare a qe).ro.targetPos = s.rg.ro.targetPos
  continuous : ∀ qe, (s.rg.prepare a qe).isRunningContinuously = s.rg.isRunningContinuously

/-- The stepper is on its way to `p` or has arrived there: an active ramp is not about to stop, and each service of it works towards `p`. An idle ramp has
put all steps to `p` into the queue. -/
structure HeadsFor (a : ArchId) (p : Int) (s : Stepper) : Prop where
  arrived : s.isRampGeneratorActive = false → shortestWay p s.getPositionAfterCommandsCompleted = 0
  going : s.isRampGeneratorActive = true → ∀ qe junk g c, s.rg.getNextCommand a qe junk = some (g, c) →
    g.ro.targetPos = p ∧ g.isRunningContinuously = false ∧ g.ro.forceStop = false ∧ g.ro.forceImmediateStop = false

/-- The stepper runs without end in the given direction: the ramp is active, and each service of it works on running in this direction. -/
structure Endless (a : ArchId) (up : Bool) (s : Stepper) : Prop where
  active : s.isRampGeneratorActive = true
  going : ∀ qe junk g c, s.rg.getNextCommand a qe junk = some (g, c) →
    g.isRunningContinuously = true ∧ g.ro.config.parameters.keepRunningCountUp = up ∧ g.ro.forceStop = false ∧ g.ro.forceImmediateStop = false

end FAS.Spec
