import Verif.Spec.Fill
import Verif.Spec.Clock

/-!
# Specification: the task keeps the queue supplied
-/

namespace FAS.Spec

/-- Nothing but a full queue hinders the task to put commands into the queue: the driver is ready, the direction pin is not in use by another stepper, enabling the motor succeeds,
and the hardware has stopped to take commands from the `m`-th one added in this cycle on (so that the cycle ends, see C49). -/
structure Unrefused (a : ArchId) (env : Stepper.Env) (s : Stepper) (m : Nat) : Prop where
  ready : s.hw.q.ready = true
  dirPin : ∀ i, env.busy i = false
  enable : ∀ i, s.autoEnable = true → (s.enableOutputs (env.ext i)).1 = true
  settles : ∀ i, m ≤ i → ∀ n, (env.gaps i n).advances = 0
  rounds : m + a.queueLen + 1 ≤ env.iterations

/-- The queue has no room for a further command. A turn of an external direction pin takes room for two more. -/
def NoRoom (a : ArchId) (s : Stepper) : Prop :=
  s.hw.q.queueEntries = a.queueLen ∨ (pinIsExternal s.dirPin = true ∧ a.queueLen - 1 ≤ s.hw.q.queueEntries)

/-- Period of the set speed, which the next service of the ramp works with: the one of the latest `setSpeed…()` if it has been applied, else the one before. -/
def speedPeriod (g : RampGen) : Nat := if g.parameters.apply then g.parameters.minTravelTicks else g.ro.config.parameters.minTravelTicks

end FAS.Spec

namespace FAS.AvrHist

/-- The history after further commands have been queued while the motor is running. -/
def queued (t : AvrHist) (cs : List Cmd) : AvrHist := cs.foldl (fun t c => t.accept true c) t

/-- Period of the last command queued since the latest start. -/
def lastTicks (t : AvrHist) : Nat :=
  match t.phases with
  | [] => 0
  | (_, cs) :: _ => lastPeriod cs

end FAS.AvrHist
