import Verif.Model.Stepper

/-!
# Specification of the ramp generator's interface
-/

namespace FAS.Spec

/-- A call of the application which configures the ramp without being a move command. -/
inductive ConfigCall where
  | speed (ticks : Nat)
  | acceleration (accel : Int)
  | linear (steps : Nat)
  | jump (steps : Nat)
  | applySpeedAcceleration

/-- Executes a configuration call on a stepper. -/
def ConfigCall.run (s : Stepper) : ConfigCall → Stepper
  | .speed t => (s.setSpeedInTicks t).1
  | .acceleration a => (s.setAcceleration a).1
  | .linear n => s.setLinearAcceleration n
  | .jump n => s.setJumpStart n
  | .applySpeedAcceleration => s.applySpeedAcceleration

/-- The target of the ramp as a function of the history of `moveTo()` and `move()` calls: `moveTo` replaces it, `move`
adds to it (32 bit positions wrap). The task serves the stepper at arbitrary points with any position at the end of
the queue (`qe`), and what it gets to see is any outcome `rw` of the planner. `pend` tells that the latest `moveTo()` has not
been seen by the task yet. `TargetHist a s D pend`: a history leads to stepper `s`, and the target it means is `D`.

The history starts at an idle stepper which had no move command since its last service. -/
inductive TargetHist (a : ArchId) : Stepper → Int → Bool → Prop where
  | start (s : Stepper) (hi : s.rg.isActive = false) (hf : s.rg.ro.forceImmediateStop = false)
      (hk : s.rg.ro.config.parameters.keepRunning = false) (hk' : s.rg.parameters.keepRunning = false)
      (hm : s.rg.parameters.moveValue = 0) (ha : s.rg.parameters.apply = true → s.rg.parameters.anyChange = true)
      (hc : s.rg.ro.config.parameters.anyChange = false)
      (ht : s.rg.ro.targetPos = i32 s.rg.ro.targetPos) : TargetHist a s s.rg.ro.targetPos false
  | moveTo {s D pend} (p : Int) (hp : i32 p = p) : TargetHist a s D pend → (s.moveTo p).2 = MOVE_OK →
      TargetHist a (s.moveTo p).1 p true
  | move {s D} (m : Int) : TargetHist a s D false → (s.move m).2 = MOVE_OK → TargetHist a (s.move m).1 (i32 (D + m)) false
  | config {s D pend} (c : ConfigCall) : TargetHist a s D pend → TargetHist a (c.run s) D pend
  | serve {s D pend} (qe : QueueEnd) (junk c : NextCommand) (g : RampGen) (rw : RampRw) (hw : Hw) :
      TargetHist a s D pend → s.rg.isActive = true → s.rg.getNextCommand a qe junk = some (g, c) →
      TargetHist a { s with rg := { g with rw := rw }, hw := hw } D false

/-- Expected sign of the acceleration: speed changes towards positive values are positive. `speeding` tells that the
absolute speed grows, `up` that the motor moves forward. -/
def accelSign (speeding up : Bool) : Int := if speeding = up then 1 else -1

/-! ## Motion -/

/-- Signed number of steps from `pos` to `target`, the shorter way round (positions are 32 bit and wrap). -/
def shortestWay (target pos : Int) : Int := i32 (target - pos)

/-- Direction `up` leads towards the target of the ramp (continuous running: it is the requested direction). -/
def Towards (g : RampGen) (pos : Int) (up : Bool) : Prop :=
  if g.isRunningContinuously then up = g.ro.config.parameters.keepRunningCountUp
  else if up then 0 < shortestWay g.ro.targetPos pos else shortestWay g.ro.targetPos pos < 0

instance (g pos up) : Decidable (Towards g pos up) := by unfold Towards; infer_instance

/-- Position after the steps of a command. -/
def posAfter (pos : Int) (c : Cmd) : Int := if c.countUp then pos + c.steps else pos - c.steps

/-- The fields of the ramp generator fit into their C++ types. -/
structure InRange (g : RampGen) : Prop where
  speed : g.parameters.minTravelTicks < 4294967296
  jump : g.parameters.sJump < 4294967296
  usedSpeed : g.ro.config.parameters.minTravelTicks < 4294967296
  usedJump : g.ro.config.parameters.sJump < 4294967296
  brake : g.rw.performedRampUpSteps < 4294967296
  period : g.rw.currTicks < 4294967296

/-- The calls which influence the ramp. (`moveByAcceleration()` is a sequence of these.) -/
inductive ApiCall where
  | config (c : ConfigCall)
  | moveTo (p : Int)
  | move (m : Int)
  | run (up : Bool)
  | keepRunning
  | stopMove
  | forceStop
  | forceStopAndNewPosition (p : Int)
  | setCurrentPosition (p : Int)
  | setPositionAfterCommandsCompleted (p : Int)

/-- Executes a call. -/
def ApiCall.exec (a : ArchId) (s : Stepper) : ApiCall → Stepper
  | .config c => c.run s
  | .moveTo p => (s.moveTo p).1
  | .move m => (s.move m).1
  | .run up => (s.startRun up).1
  | .keepRunning => s.keepRunning
  | .stopMove => s.stopMove
  | .forceStop => s.forceStop
  | .forceStopAndNewPosition p => s.forceStopAndNewPosition p
  | .setCurrentPosition p => s.setCurrentPosition a p
  | .setPositionAfterCommandsCompleted p => s.setPositionAfterCommandsCompleted p

/-- The arguments fit into their C++ types. -/
def ApiCall.Typed : ApiCall → Prop
  | .config (.speed t) => t < 4294967296
  | .config (.jump n) => n < 4294967296
  | _ => True

/-- All histories of a stepper: calls fulfilling `ok`, services by the task with any environment (queue, hardware
progress, other steppers) and any content of uninitialised memory, and anything else which does not touch the ramp
generator (commands put into the queue directly, hardware progress, pin configuration, ...). -/
inductive RampHist (a : ArchId) (ok : ApiCall → Prop) : Stepper → Prop where
  | start (s : Stepper) (h : s.rg = RampGen.init) : RampHist a ok s
  | call {s : Stepper} (c : ApiCall) : RampHist a ok s → ok c → RampHist a ok (c.exec a s)
  | task {s s' : Stepper} (env : Stepper.Env) (junk : NextCommand) (acc : List Cmd) : RampHist a ok s →
      junk.rw.performedRampUpSteps < 4294967296 → s.fillQueue a env junk = some (s', acc) → RampHist a ok s'
  | other {s s' : Stepper} : RampHist a ok s → s'.rg = s.rg → RampHist a ok s'

/-- Consecutive services of the ramp generator: the list has the commands it delivers, with the position and direction
at the end of the queue being whatever they are. -/
inductive Services (a : ArchId) : RampGen → List Cmd → RampGen → Prop where
  | nil (g : RampGen) : Services a g [] g
  | cons {g g1 g2 : RampGen} (qe : QueueEnd) (junk c : NextCommand) (cs : List Cmd) :
      junk.rw.performedRampUpSteps < 4294967296 → g.getNextCommand a qe junk = some (g1, c) → Services a (g1.afterCommandEnqueued c) cs g2 →
      Services a g (c.command :: cs) g2

/-- The command makes steps. -/
def IsStep (c : Cmd) : Prop := c.ticks ≠ 0 ∧ 1 ≤ c.steps

/-- The command is a pause. -/
def IsPause (c : Cmd) : Prop := c.ticks ≠ 0 ∧ c.steps = 0

instance (c : Cmd) : Decidable (IsStep c) := by unfold IsStep; infer_instance

instance (c : Cmd) : Decidable (IsPause c) := by unfold IsPause; infer_instance

/-- Time from a step of the command to the step following it (for the last step of the command: including the pauses
which are still to be put into the queue, see C36). -/
def stepPeriod (c : NextCommand) : Nat := c.command.ticks + c.rw.pauseTicksLeft

/-- The ramp generator together with the end of the queue. -/
structure Drive where
  g : RampGen
  qe : QueueEnd

/-- The task serves the ramp once and the queue takes the command. -/
def Drive.serve (a : ArchId) (junk : NextCommand) (d : Drive) : Option Drive :=
  match d.g.getNextCommand a d.qe junk with
  | none => none
  | some (g, c) =>
    some ⟨g.afterCommandEnqueued c,
      if c.command.ticks = 0 then d.qe
      else { pos := i32 (posAfter d.qe.pos c.command), countUp := c.command.countUp, dir := d.qe.dir }⟩

/-- The task serves the ramp `n` times; an idle ramp is not served any more. `none`: undefined behaviour. -/
def Drive.run (a : ArchId) (junk : Nat → NextCommand) : Nat → Drive → Option Drive
  | 0, d => some d
  | n + 1, d => if d.g.isActive then (d.serve a (junk n)).bind (Drive.run a junk n) else some d

/-- The local variables of `fill_queue` when its loop is entered. -/
def fillStart (a : ArchId) (junk : NextCommand) (s : Stepper) : Stepper.Fill :=
  { s := { s with hw := { s.hw with q := { s.hw.q with ignoreCommands := false } } }, cmd := junk
    delayedStart := !s.hw.q.running, needDelayedStart := false
    ticksPrepared := ({ s.hw.q with ignoreCommands := false } : Queue).ticksInQueue a, accepted := [] }

/-- The states at the begin of the iterations of a task cycle. -/
inductive FillState (a : ArchId) (env : Stepper.Env) (f0 : Stepper.Fill) : Nat → Stepper.Fill → Prop where
  | zero : FillState a env f0 0 f0
  | step {i : Nat} {f f' : Stepper.Fill} : FillState a env f0 i f → f.cond a = true → f.body a env i = some (f', true) →
      FillState a env f0 (i + 1) f'

/-- In this task cycle the queue rejected a command of the ramp generator with an error (negative return code). -/
def AbortedRamp (a : ArchId) (env : Stepper.Env) (junk : NextCommand) (s : Stepper) : Prop :=
  ∃ i f rg cmd, FillState a env (fillStart a junk s) i f ∧ f.cond a = true ∧
    f.s.rg.getNextCommand a f.s.hw.q.qend f.cmd = some (rg, cmd) ∧ cmd.command.ticks ≠ 0 ∧
    (({ f.s with rg := rg } : Stepper).addQueueEntry a (env.ext i) (env.gaps i) (env.busy i) cmd.command
      (!f.delayedStart)).2 < 0

/-- Calls which keep the motor slow: all speeds have a period of at least `L` and at most 65535 ticks, and no jump start. -/
def ApiCall.Slow (L : Nat) : ApiCall → Prop
  | .config (.speed t) => L ≤ t ∧ t ≤ 65535
  | .config (.jump n) => n = 0
  | _ => True

/-- Histories after an accepted `runForward()`/`runBackward()` without other move or stop commands. -/
inductive RunHist (a : ArchId) (up : Bool) : Stepper → Prop where
  | start (s : Stepper) (h : RampHist a ApiCall.Typed s) (hf : s.rg.ro.forceImmediateStop = false)
      (hok : (s.startRun up).2 = MOVE_OK) : RunHist a up (s.startRun up).1
  | config {s : Stepper} (c : ConfigCall) : RunHist a up s → ApiCall.Typed (.config c) → RunHist a up (c.run s)
  | task {s s' : Stepper} (env : Stepper.Env) (junk : NextCommand) (acc : List Cmd) : RunHist a up s →
      junk.rw.performedRampUpSteps < 4294967296 → s.fillQueue a env junk = some (s', acc) → RunHist a up s'
  | other {s s' : Stepper} : RunHist a up s → s'.rg = s.rg → RunHist a up s'

end FAS.Spec
