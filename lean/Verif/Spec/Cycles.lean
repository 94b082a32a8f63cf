import Verif.Model.Stepper

/-!
# Specification: a move and the task cycles serving it
-/

namespace FAS.Spec

/-- What may happen between two task cycles: the hardware executes commands, outputs are enabled or disabled, the
application waits. The ramp, the end of the queue and the configuration which `addQueueEntry()` looks at are the same, and the indices of the queue
are those of a queue with at most its size of commands. -/
structure Elapses (a : ArchId) (s s' : Stepper) : Prop where
  ramp : s'.rg = s.rg
  queueEnd : s'.hw.q.qend = s.hw.q.qend
  dirPin : s'.hw.q.dirPin = s.hw.q.dirPin
  ready : s'.hw.q.ready = s.hw.q.ready
  limit : s'.hw.q.maxSpeedInTicks = s.hw.q.maxSpeedInTicks
  dirDelay : s'.dirChangeDelayTicks = s.dirChangeDelayTicks
  autoEnable : s'.autoEnable = s.autoEnable
  enableDelay : s'.onDelayTicks = s.onDelayTicks
  readIdx : s'.hw.q.readIdx < 256
  writeIdx : s'.hw.q.nextWriteIdx < 256
  entries : s'.hw.q.queueEntries ≤ a.queueLen

/-- The stepper has a delay between enabling the motor and its first step. -/
def EnableDelayed (s : Stepper) : Prop := s.autoEnable = true ∧ s.onDelayTicks ≠ 0

/-- With a delay of the first step: the motor has not been disabled (by the application) while the queue is running, and the off-delay is not 0
(`setDelayToDisable()` does not set 0). -/
def Powered (s : Stepper) : Prop := EnableDelayed s → s.offDelayCount ≠ 0 ∧ (s.hw.q.running = true → s.counter ≠ 0)

/-- Nothing hinders the task to put a command into the queue: the queue is empty, the direction pin is not in use by another stepper, and if the motor is still to be
enabled, then this succeeds. -/
structure Unhindered (env : Stepper.Env) (s : Stepper) : Prop where
  served : 1 ≤ env.iterations
  empty : s.hw.q.queueEntries = 0
  dirPin : env.busy 0 = false
  enable : s.autoEnable = true → s.counter = 0 → (s.enableOutputs (env.ext 0)).1 = true

/-- Task cycles in any environment, and whatever happens between them. `TaskHist a s0 k cmds s`: stepper `s0` has become `s`, `k` of the task cycles
were not hindered, and the task cycles have put the commands `cmds` into the queue. -/
inductive TaskHist (a : ArchId) (s0 : Stepper) : Nat → List Cmd → Stepper → Prop where
  | start : TaskHist a s0 0 [] s0
  | elapse {k : Nat} {cmds : List Cmd} {s s' : Stepper} : TaskHist a s0 k cmds s → Elapses a s s' → TaskHist a s0 k cmds s'
  | task {k : Nat} {cmds : List Cmd} {s s' : Stepper} (env : Stepper.Env) (junk : NextCommand) (acc : List Cmd) : TaskHist a s0 k cmds s →
      junk.rw.performedRampUpSteps < 4294967296 → Powered s → s.fillQueue a env junk = some (s', acc) → TaskHist a s0 k (cmds ++ acc) s'
  | unhindered {k : Nat} {cmds : List Cmd} {s s' : Stepper} (env : Stepper.Env) (junk : NextCommand) (acc : List Cmd) : TaskHist a s0 k cmds s →
      junk.rw.performedRampUpSteps < 4294967296 → Powered s → s.fillQueue a env junk = some (s', acc) → Unhindered env s → TaskHist a s0 (k + 1) (cmds ++ acc) s'

/-- The stepper is at standstill, has got no force stop which the task has not served yet, and an ordinary configuration: a direction pin, a direction delay of none or at least the minimum duration of
a command, an on-delay of the enable pin of none or one which `setDelayToEnable()` accepts. `L` ticks is a period which the driver and the hardware can do. -/
structure Standing (a : ArchId) (L : Nat) (s : Stepper) : Prop where
  limit1 : a.minCmdTicks ≤ L
  limit2 : s.getMaxSpeedInTicks ≤ L
  limit3 : L ≤ 32768
  idle : s.isRampGeneratorActive = false
  noForceStop : s.rg.ro.forceImmediateStop = false
  dirPin : s.dirPin ≠ pinUndefined
  dirDelay : s.dirChangeDelayTicks = 0 ∨ a.minCmdTicks ≤ s.dirChangeDelayTicks
  enable : EnableDelayed s → a.minCmdTicks ≤ s.onDelayTicks ∧ s.onDelayTicks ≤ a.maxOnDelayTicks ∧ s.dirChangeDelayTicks ≤ 65535
  ready : s.hw.q.ready = true
  readIdx : s.hw.q.readIdx < 256
  writeIdx : s.hw.q.nextWriteIdx < 256
  entries : s.hw.q.queueEntries ≤ a.queueLen
  pos : i32 s.getPositionAfterCommandsCompleted = s.getPositionAfterCommandsCompleted

end FAS.Spec
