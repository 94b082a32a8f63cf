import Verif.Spec.Ramp

/-!
# Specification of the reported current speed
-/

namespace FAS.Spec

/-- Positive up, negative down. -/
def signed (up : Bool) (x : Nat) : Int := if up then x else -x

/-- `us` is the period of `ticks` ticks in microseconds, rounded towards zero. -/
def IsPeriodUs (a : ArchId) (ticks : Nat) (up : Bool) (us : Int) : Prop := us = signed up (ticks / (a.ticksPerS / 1000000))

/-- `mHz` is the speed for a period of `ticks` ticks in steps per 1000 s, with an error of less than 4 towards zero. -/
def IsSpeedMilliHz (a : ArchId) (ticks : Nat) (up : Bool) (mHz : Int) : Prop :=
  ∃ x, mHz = signed up x ∧ x * ticks ≤ 1000 * a.ticksPerS ∧ 1000 * a.ticksPerS < (x + 4) * ticks

/-- The speed can be taken from the queue: nothing to do, or the command in process is followed by another step without pause. -/
def QueueKnowsSpeed : List Cmd → Prop
  | [] => True
  | c :: cs => 2 ≤ c.steps ∨ (c.steps = 1 ∧ ∃ d ∈ cs.head?, 1 ≤ d.steps)

end FAS.Spec
