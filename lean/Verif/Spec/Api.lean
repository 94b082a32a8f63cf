import Verif.Spec.Ramp
import Verif.Spec.Queue

/-!
# Specification of single calls of the API
-/

namespace FAS.Spec

/-- The commands are pauses. -/
def Pauses (cs : List Cmd) : Prop := ∀ c ∈ cs, c.steps = 0

/-- Position after `n` more steps; positions are 32 bit and wrap. -/
def stepsOn (pos n : Int) : Int := i32 (pos + n)

/-- A call which sets a parameter of the ramp. -/
inductive SetCall where
  | speedInTicks (ticks : Nat)
  | speedInUs (us : Nat)
  | speedInHz (hz : Nat)
  | speedInMilliHz (mhz : Nat)
  | acceleration (accel : Int)
  | linearAcceleration (steps : Nat)
  | jumpStart (steps : Nat)

/-- Executes a call which sets a parameter. -/
def SetCall.run (a : ArchId) (s : Stepper) : SetCall → Stepper
  | .speedInTicks t => (s.setSpeedInTicks t).1
  | .speedInUs us => (s.setSpeedInUs a us).1
  | .speedInHz hz => (s.setSpeedInHz a hz).1
  | .speedInMilliHz mhz => (s.setSpeedInMilliHz a mhz).1
  | .acceleration accel => (s.setAcceleration accel).1
  | .linearAcceleration n => s.setLinearAcceleration n
  | .jumpStart n => s.setJumpStart n

/-- Executes several of them. -/
def SetCall.runAll (a : ArchId) (s : Stepper) (cs : List SetCall) : Stepper := cs.foldl (SetCall.run a) s

/-- What happens to a stepper between two move commands. -/
inductive ParamEvent where
  | set (c : SetCall)
  | stopMove
  | keepRunning
  | forceStop
  | task (env : Stepper.Env) (junk : NextCommand)
  | hardware (f : Hw → Hw)

/-- Executes the events; the list has the commands put into the queue by the task. `none`: undefined behaviour. -/
def ParamEvent.run (a : ArchId) : Stepper → List ParamEvent → Option (Stepper × List Cmd)
  | s, [] => some (s, [])
  | s, .set c :: es => ParamEvent.run a (c.run a s) es
  | s, .stopMove :: es => ParamEvent.run a s.stopMove es
  | s, .keepRunning :: es => ParamEvent.run a s.keepRunning es
  | s, .forceStop :: es => ParamEvent.run a s.forceStop es
  | s, .hardware f :: es => ParamEvent.run a { s with hw := f s.hw } es
  | s, .task env junk :: es =>
    match s.fillQueue a env junk with
    | none => none
    | some (s, cmds) => (ParamEvent.run a s es).map (fun r => (r.1, cmds ++ r.2))

/-- The calls which set parameters removed. -/
def withoutSets (es : List ParamEvent) : List ParamEvent := es.filter fun | .set _ => false | _ => true

/-- What can be seen of the stepper: commands, queue and hardware, state and speed of the ramp, target. -/
def visible (r : Stepper × List Cmd) : List Cmd × Hw × RampRw × Int := (r.2, r.1.hw, r.1.rg.rw, r.1.rg.ro.targetPos)

/-- The call makes new parameters valid. -/
inductive ApplyCall (a : ArchId) (s : Stepper) : Stepper → Prop where
  | moveTo (p : Int) : (s.moveTo p).2 = MOVE_OK → ApplyCall a s (s.moveTo p).1
  | move (m : Int) : (s.move m).2 = MOVE_OK → ApplyCall a s (s.move m).1
  | run (up : Bool) : (s.startRun up).2 = MOVE_OK → ApplyCall a s (s.startRun up).1
  | applySpeedAcceleration : s.rg.ro.forceImmediateStop = false → ApplyCall a s s.applySpeedAcceleration
  | moveByAcceleration (x : Int) (rev : Bool) (s' : Stepper) : s.rg.ro.forceImmediateStop = false → (x = 0 → s.rg.parameters.validSpeed = true) →
      s.moveByAcceleration x rev = some (s', MOVE_OK) → ApplyCall a s s'

/-- The ramp generator calculates with this speed, acceleration (in its number format, C30) and length of the linear phase. -/
def CalculatesWith (g : RampGen) (speed accel linear : Nat) : Prop :=
  g.ro.config.parameters.minTravelTicks = speed ∧ g.ro.config.parameters.pmflAccel = pmflFrom accel ∧ g.ro.config.parameters.sH = linear

/-- The direction `keepRunning()` runs to after an accepted call `c`: the one of `runForward()`/`runBackward()`, and forward after `move()` and
`moveTo()`. -/
def keepDirection (s : Stepper) (up : Bool) : ApiCall → Bool
  | .run u => if (s.startRun u).2 = MOVE_OK then u else up
  | .moveTo p => if (s.moveTo p).2 = MOVE_OK then true else up
  | .move m => if (s.move m).2 = MOVE_OK then true else up
  | _ => up

/-- Histories as in `RampHist`, with the direction `keepRunning()` runs to. -/
inductive KeepDir (a : ArchId) : Bool → Stepper → Prop where
  | start (s : Stepper) (h : s.rg = RampGen.init) : KeepDir a true s
  | call {s : Stepper} {up : Bool} (c : ApiCall) : KeepDir a up s → c.Typed → KeepDir a (keepDirection s up c) (c.exec a s)
  | task {s s' : Stepper} {up : Bool} (env : Stepper.Env) (junk : NextCommand) (acc : List Cmd) : KeepDir a up s →
      junk.rw.performedRampUpSteps < 4294967296 → s.fillQueue a env junk = some (s', acc) → KeepDir a up s'
  | other {s s' : Stepper} {up : Bool} : KeepDir a up s → s'.rg = s.rg → KeepDir a up s'

/-- Histories after `keepRunning()` of a moving stepper, whose move command the task has seen, without a further move or stop command. -/
inductive KeepHist (a : ArchId) (up : Bool) : Stepper → Prop where
  | start (s : Stepper) (h : KeepDir a up s) (hp : s.rg.parameters.apply = false) (hs : s.rg.ro.forceStop = false)
      (hf : s.rg.ro.forceImmediateStop = false) : KeepHist a up s.keepRunning
  | set {s : Stepper} (c : ConfigCall) : KeepHist a up s → ApiCall.Typed (.config c) → c ≠ .applySpeedAcceleration → KeepHist a up (c.run s)
  | task {s s' : Stepper} (env : Stepper.Env) (junk : NextCommand) (acc : List Cmd) : KeepHist a up s →
      junk.rw.performedRampUpSteps < 4294967296 → s.fillQueue a env junk = some (s', acc) → KeepHist a up s'
  | other {s s' : Stepper} : KeepHist a up s → s'.rg = s.rg → KeepHist a up s'

end FAS.Spec
