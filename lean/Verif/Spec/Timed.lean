import Verif.Spec.Queue
import Verif.Model.Stepper

/-!
# Specification of `moveTimed()`
-/

namespace FAS

/-- `acc` has the commands of the first list in order, and in front of each of them any number of pauses (for the enable or the
direction delay). -/
inductive WithPauses : List Cmd → List Cmd → Prop where
  | nil : WithPauses [] []
  | cons (ps : List Cmd) (c : Cmd) {cs acc : List Cmd} (hp : ∀ p ∈ ps, p.steps = 0) (h : WithPauses cs acc) :
      WithPauses (c :: cs) (ps ++ c :: acc)

/-- Sum of the steps, without direction. -/
def cmdStepSum : List Cmd → Nat
  | [] => 0
  | c :: cs => c.steps + cmdStepSum cs

/-- The call succeeded: the move has been appended to the (possibly empty) queue. -/
def TimedOk (code : Int) : Prop := code = MOVE_TIMED_OK ∨ code = MOVE_TIMED_EMPTY

/-- Nothing needs to be inserted in front of a command with direction `up`, and the queue accepts commands: no pending enable,
no change of direction, the direction pin is not in use by another stepper, the backend is ready. -/
structure Straight (env : Stepper.Env) (s : Stepper) (up : Bool) : Prop where
  ready : s.hw.q.ready = true
  ign : s.hw.q.ignoreCommands = false
  enabled : s.autoEnable = false ∨ (s.counter ≠ 0 ∧ s.offDelayCount ≠ 0)
  dir : s.hw.q.qend.countUp = up
  pin : s.dirPin = pinUndefined → up = true
  free : ∀ i, env.busy i = false

/-- The pauses for `d` ticks need exactly one command per 65536 ticks (rounded up): the parts of 65535 ticks do not add up to one more. -/
def EvenSplit (d : Nat) : Prop := d % 65536 + d / 65536 ≤ 65535

/-- Arguments of `moveTimed()` whose commands are legal and as many as the function calculates: the period is at least the limits for a
command, and the pauses split evenly. -/
structure TimedLegal (a : ArchId) (s : Stepper) (steps : Int) (duration : Nat) : Prop where
  limit : s.hw.q.maxSpeedInTicks ≤ 32768
  pause : steps = 0 → duration ≠ 0 → EvenSplit duration ∧ a.minCmdTicks ≤ duration ∧ s.hw.q.maxSpeedInTicks ≤ duration
  slow : steps ≠ 0 → 65535 < duration / steps.natAbs →
    EvenSplit (duration / steps.natAbs) ∧ duration / steps.natAbs ≠ 131072 ∧ steps.natAbs * (duration / steps.natAbs / 65536 + 1) < 256
  fast : steps ≠ 0 → duration / steps.natAbs ≤ 65535 →
    s.hw.q.maxSpeedInTicks ≤ duration / steps.natAbs ∧ duration / steps.natAbs ≠ 65535 ∧
      a.minCmdTicks ≤ duration / steps.natAbs * min 128 steps.natAbs

end FAS
