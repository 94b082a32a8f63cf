import Verif.Spec.Ramp
import Verif.Spec.RampCalc

/-!
# Specification: the speed and the distance in which the motor can stop
-/

namespace FAS.Spec

/-- Steps made in 2 ms with the period `P`, but at least one. -/
def stepsIn2ms (a : ArchId) (P : Nat) : Nat := max 1 (a.ticksPerS / 500 / P)

/-- Calls which leave speed `T` (ticks), acceleration `A` and the `H` steps of linear acceleration alone once they are set. There is no jump start.
Moves, stops, changes of direction and target and of the position are arbitrary. -/
def ApiCall.Steady (T A H : Nat) : ApiCall → Prop
  | .config (.speed t) => t = T
  | .config (.acceleration x) => x = A
  | .config (.linear n) => n = H
  | .config (.jump n) => n = 0
  | _ => True

/-- All histories of a stepper, for which `setLinearAcceleration(H)` is called first: calls with constant settings, services by the task with any environment and
any content of uninitialised memory, and anything which does not touch the ramp generator (as in `RampHist`). Without linear acceleration `H = 0`. -/
inductive SteadyHist (a : ArchId) (T A H : Nat) : Stepper → Prop where
  | start (s : Stepper) (h : s.rg = RampGen.init) : SteadyHist a T A H (s.setLinearAcceleration H)
  | call {s : Stepper} (c : ApiCall) : SteadyHist a T A H s → c.Steady T A H → SteadyHist a T A H (c.exec a s)
  | task {s s' : Stepper} (env : Stepper.Env) (junk : NextCommand) (acc : List Cmd) : SteadyHist a T A H s →
      junk.rw.performedRampUpSteps < 4294967296 → s.fillQueue a env junk = some (s', acc) → SteadyHist a T A H s'
  | other {s s' : Stepper} : SteadyHist a T A H s → s'.rg = s.rg → SteadyHist a T A H s'

end FAS.Spec
