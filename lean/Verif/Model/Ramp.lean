import Verif.Model.Queue
import Verif.Model.RampCalc

/-!
# Ramp generator

Models src/RampConstAcceleration.h/.cpp (the planner `_getNextCommand`) and src/RampGenerator.h/.cpp.
The planner is split in one definition per block of the C++ function. `none` stands for undefined
behaviour (division by zero, `-INT32_MIN`).
-/

namespace FAS

/-- The state part of `ramp_state`, src/FastAccelStepper.h:207-211: `RAMP_STATE_IDLE`=0, `_COAST`=1,
`_ACCELERATE`=2, `_DECELERATE`=4, `_REVERSE`=12. -/
inductive RampPhase where
  | idle | coast | accelerate | decelerate | reverse
deriving DecidableEq, Repr

/-- The direction part of `ramp_state`, src/FastAccelStepper.h:216-217: none=0,
`RAMP_DIRECTION_COUNT_UP`=32, `RAMP_DIRECTION_COUNT_DOWN`=64. -/
inductive RampDir where
  | none | up | down
deriving DecidableEq, Repr

/-- `ramp_state` (`uint8_t`), src/FastAccelStepper.h:195-222, as pair of the two bit fields. -/
structure RampState where
  phase : RampPhase
  dir : RampDir
deriving DecidableEq, Repr

/-- `this_state & RAMP_STATE_ACCELERATING_FLAG`, src/FastAccelStepper.h:212. -/
def RampPhase.isAcc : RampPhase → Bool
  | accelerate => true
  | _ => false

/-- `this_state & RAMP_STATE_DECELERATING_FLAG`, src/FastAccelStepper.h:213. -/
def RampPhase.isDec : RampPhase → Bool
  | decelerate => true
  | reverse => true
  | _ => false

/-- The numeric value returned by `rampState()`, src/FastAccelStepper.h:203-217. -/
def RampState.code (s : RampState) : Nat :=
  (match s.phase with
    | .idle => 0 | .coast => 1 | .accelerate => 2 | .decelerate => 4 | .reverse => 12) +
  (match s.dir with | .none => 0 | .up => 32 | .down => 64)

/-- RAMP_STATE_IDLE, src/FastAccelStepper.h:207. -/
def RampState.IDLE : RampState := ⟨.idle, .none⟩

/-- `struct ramp_ro_s`, src/RampConstAcceleration.h:6-11. `targetPos` (a `uint32_t`) is kept as the
`int32_t` returned by `targetPosition()`, line 17. `incomplete_immediate_stop` is never used. -/
structure RampRo where
  config : RampConfig
  targetPos : Int
  forceStop : Bool
  forceImmediateStop : Bool
deriving DecidableEq, Repr

/-- `struct ramp_rw_s`, src/RampConstAcceleration.h:31-41. -/
structure RampRw where
  state : RampState
  performedRampUpSteps : Nat
  pauseTicksLeft : Nat
  currTicks : Nat
deriving DecidableEq, Repr

/-- `ramp_ro_s::init()`, src/RampConstAcceleration.h:12-16; `target_pos` is 0 (static storage). -/
def RampRo.init : RampRo := ⟨RampConfig.init, 0, false, false⟩

/-- `ramp_rw_s::stopRamp()`, src/RampConstAcceleration.h:42-50. -/
def RampRw.stopped : RampRw := ⟨RampState.IDLE, 0, 0, ticksForStoppedMotor⟩

/-- `startRampIfNotRunning()`, src/RampConstAcceleration.h:56-67. -/
def RampRw.startRampIfNotRunning (rw : RampRw) : RampRw :=
  if rw.state = RampState.IDLE then
    { rw with currTicks := ticksForStoppedMotor, state := ⟨.accelerate, .none⟩ }
  else rw

/-- `class NextCommand`, src/RampConstAcceleration.h:70-74. -/
structure NextCommand where
  command : Cmd
  rw : RampRw
deriving DecidableEq, Repr

namespace Planner

/-- Pause branch of `_getNextCommand`, src/RampConstAcceleration.cpp:66-83: the ticks of the next
pause. -/
def pauseTicks (left : Nat) : Nat := if left > 65535 then min (left / 2) 65535 else left

/-- Requested direction and remaining steps, src/RampConstAcceleration.cpp:87-105. `none`:
`fas_abs(INT32_MIN)`. -/
def target (ro : RampRo) (qe : QueueEnd) : Option (Bool × Nat) :=
  if ro.config.parameters.keepRunning then
    some (ro.config.parameters.keepRunningCountUp, 0xfffffff)
  else
    let delta := i32 (ro.targetPos - qe.pos)
    if delta = -2147483648 then none
    else some (if delta = 0 then !qe.countUp else decide (delta > 0), delta.natAbs)

/-- Planning steps for 2 ms, src/RampConstAcceleration.cpp:146-155. `none`: division by zero. -/
def planningSteps (a : ArchId) (currTicks : Nat) : Option Nat :=
  if currTicks < a.ticksPerS / 1000 then
    if u16 currTicks = 0 then none else some (u16 (a.ticksPerS / 500) / u16 currTicks)
  else some 1

/-- Result of the state selection. -/
structure Sel where
  phase : RampPhase
  remaining : Nat
  planning : Nat
deriving DecidableEq, Repr

/-- State selection, src/RampConstAcceleration.cpp:158-227. -/
def select (a : ArchId) (minTravel currTicks prus remaining planning : Nat) (sameDir : Bool) : Sel :=
  if !sameDir then ⟨.reverse, prus, planning⟩
  else if remaining = prus then ⟨.decelerate, remaining, planning⟩
  else if remaining < prus then ⟨.reverse, prus, planning⟩
  else if minTravel < currTicks then
    if currTicks < 2 * a.minCmdTicks then
      let possible := (remaining - prus) / 4
      let phase :=
        if possible > 0 ∧ u32 (possible * currTicks) < 2 * a.minCmdTicks then RampPhase.coast
        else .accelerate
      let phase := if planning > remaining - prus then RampPhase.decelerate else phase
      ⟨phase, remaining, planning⟩
    else if remaining - prus < 2 * planning then
      if currTicks ≠ ticksForStoppedMotor then ⟨.coast, remaining, u16 (remaining - prus)⟩
      else ⟨.accelerate, remaining, planning⟩
    else ⟨.accelerate, remaining, planning⟩
  else if minTravel > currTicks then
    let planning :=
      if prus ≤ planning then (if prus > 0 then u16 prus else 1) else planning
    ⟨.decelerate, remaining, planning⟩
  else
    let possible := remaining - prus
    if possible < 2 * planning then
      let planning := u16 possible
      let phase :=
        if currTicks < a.minCmdTicks ∧ u32 (currTicks * planning) < a.minCmdTicks
        then RampPhase.decelerate else .coast
      ⟨phase, remaining, planning⟩
    else ⟨.coast, remaining, planning⟩

/-- New period and planning steps, src/RampConstAcceleration.cpp:258-341. -/
def newTicks (a : ArchId) (cfg : RampConfig) (currTicks prus origPlanning : Nat) (s : Sel) :
    Nat × Nat :=
  let minTravel := cfg.parameters.minTravelTicks
  if s.phase.isAcc then
    let decSteps := subU32 s.remaining prus
    let planning :=
      if decSteps < 512 then
        let h := u16 decSteps / 2
        if h < origPlanning then (if h = 0 then 1 else h) else s.planning
      else s.planning
    let d := cfg.calculateTicks a (u32 (prus + planning))
    (if d < minTravel then minTravel else d, planning)
  else if s.phase.isDec then
    if prus = 1 then (minTravel, s.planning)
    else
      let rs := if prus ≤ s.planning then s.planning else prus - s.planning
      let d := cfg.calculateTicks a rs
      (if rs = 1 ∧ minTravel > d then minTravel else d, s.planning)
  else
    let coastSteps := subU32 s.remaining prus
    let planning :=
      if coastSteps < 256 then
        if u16 coastSteps < 2 * origPlanning then u16 coastSteps else s.planning
      else s.planning
    (currTicks, planning)

/-- State, period and planning steps after the minimum command time correction. -/
structure Plan where
  phase : RampPhase
  ticks : Nat
  planning : Nat
deriving DecidableEq, Repr

/-- Minimum command time correction, src/RampConstAcceleration.cpp:344-389. `none`: division by zero
(`remaining > 0` at this point). -/
def minCmd (a : ArchId) (phase : RampPhase) (remaining prus d planning : Nat) : Option Plan :=
  if d < a.minCmdTicks then
    if u32 (d * planning) < a.minCmdTicks then
      if u16 d = 0 then none
      else
        let steps := u16 (a.minCmdTicks + d - 1) / u16 d
        let (planning, phase) :=
          if steps ≥ remaining then (u16 remaining, RampPhase.decelerate) else (planning, phase)
        let steps := max planning steps
        if 2 * steps ≥ remaining then
          if remaining = 0 then none
          else some ⟨.decelerate, (a.minCmdTicks + remaining - 1) / remaining, u16 remaining⟩
        else
          let planning := steps
          let phase :=
            if remaining < u32 (prus + planning) then RampPhase.decelerate else phase
          some ⟨phase, d, planning⟩
    else some ⟨phase, d, planning⟩
  else some ⟨phase, d, planning⟩

/-- Clipping with the current period, src/RampConstAcceleration.cpp:392-406. -/
def clip (phase : RampPhase) (currTicks d : Nat) : Nat :=
  if currTicks ≠ ticksForStoppedMotor then
    if phase.isAcc then min d currTicks
    else if phase.isDec then max d currTicks
    else d
  else d

/-- Number of steps, src/RampConstAcceleration.cpp:424-427. -/
def stepsFor (planning remaining : Nat) : Nat := min 255 (max (min planning remaining) 1)

/-- Steps, ticks and pause of a period, src/RampConstAcceleration.cpp:431-440. -/
structure Split where
  steps : Nat
  ticks : Nat
  pause : Nat
deriving DecidableEq, Repr

/-- Split of a period into step command and pause, src/RampConstAcceleration.cpp:429-440. -/
def split (steps ticks : Nat) : Split :=
  if ticks > 65535 then
    let t := min (ticks / 2) 65535
    ⟨1, t, ticks - t⟩
  else ⟨steps, ticks, 0⟩

/-- performed_ramp_up_steps and next_ticks after the command,
src/RampConstAcceleration.cpp:442-493. -/
def prusAfter (phase : RampPhase) (minTravel maxRampUp prus remaining steps ticks : Nat) : Nat × Nat :=
  if phase.isAcc then (u32 (prus + steps), ticks)
  else if phase.isDec then
    if prus < steps then (0, ticks)
    else if prus > maxRampUp then (prus - steps, ticks)
    else if prus ≥ maxRampUp ∧ u32 (maxRampUp + steps) ≤ remaining ∧ prus - steps < maxRampUp then
      (maxRampUp, minTravel)
    else if remaining > prus then
      if remaining - prus < steps then (remaining - steps, ticks) else (prus, ticks)
    else (prus - steps, ticks)
  else (prus, ticks)

/-- The "ramp complete" outcome, src/RampConstAcceleration.cpp:134-141,229-236. All other members of
the command keep their former content `junk` (the object on the caller's stack is not initialised,
src/FastAccelStepper.cpp:382). -/
def complete (junk : NextCommand) : NextCommand :=
  { command := { junk.command with ticks := 0 }
    rw := { junk.rw with
      pauseTicksLeft := 0, state := RampState.IDLE, currTicks := ticksForStoppedMotor } }

/-- Output of the command, src/RampConstAcceleration.cpp:495-508. -/
def output (phase : RampPhase) (countUp : Bool) (prus steps ticks pause : Nat) : NextCommand :=
  { command := { ticks := u16 ticks, steps := u8 steps, countUp := countUp }
    rw :=
      { state := ⟨phase, if countUp then .up else .down⟩
        performedRampUpSteps := prus
        pauseTicksLeft := pause
        currTicks := u32 (pause + ticks) } }

/-- The part of `_getNextCommand` after the direction has been determined,
src/RampConstAcceleration.cpp:143-508. -/
def plan (a : ArchId) (cfg : RampConfig) (rw : RampRw) (countUp sameDir : Bool) (remaining : Nat)
    (junk : NextCommand) : Option NextCommand := do
  let prus := rw.performedRampUpSteps
  let orig ← planningSteps a rw.currTicks
  let s := select a cfg.parameters.minTravelTicks rw.currTicks prus remaining orig sameDir
  if s.remaining = 0 then return complete junk
  let (d, planning) := newTicks a cfg rw.currTicks prus orig s
  let p ← minCmd a s.phase s.remaining prus d planning
  let next := clip p.phase rw.currTicks p.ticks
  let sp := split (stepsFor p.planning s.remaining) next
  let (prus', next') := prusAfter p.phase cfg.parameters.minTravelTicks cfg.maxRampUpSteps prus
    s.remaining sp.steps sp.ticks
  return output p.phase countUp prus' sp.steps next' sp.pause

/-- `_getNextCommand()`, src/RampConstAcceleration.cpp:61-529. -/
def getNextCommand (a : ArchId) (ro : RampRo) (rw : RampRw) (qe : QueueEnd) (junk : NextCommand) :
    Option NextCommand :=
  if rw.pauseTicksLeft > 0 then
    let t := pauseTicks rw.pauseTicksLeft
    some
      { command := { ticks := u16 t, steps := 0, countUp := qe.countUp }
        rw := { rw with pauseTicksLeft := rw.pauseTicksLeft - t } }
  else do
    let (needCountUp, remaining) ← target ro qe
    let countUp := if rw.performedRampUpSteps = 0 then needCountUp else qe.countUp
    if remaining = 0 ∧ rw.performedRampUpSteps ≤ 1 then return complete junk
    plan a ro.config rw countUp (countUp == needCountUp) remaining junk

end Planner

/-- `class RampGenerator`, src/RampGenerator.h:18-30. -/
structure RampGen where
  parameters : RampParams
  ro : RampRo
  rw : RampRw
  acceleration : Nat
deriving DecidableEq, Repr

namespace RampGen

/-- `init()`, src/RampGenerator.cpp:13-18. `acceleration` is 0 (static storage). -/
def init : RampGen := ⟨RampParams.init, RampRo.init, RampRw.stopped, 0⟩

/-- `isRampGeneratorActive()`, src/RampGenerator.h:84. -/
def isActive (g : RampGen) : Bool := g.rw.state ≠ RampState.IDLE

/-- `setAcceleration()`, src/RampGenerator.cpp:19-26. Returns the new state and the result. -/
def setAcceleration (g : RampGen) (accel : Int) : RampGen × Int :=
  if accel ≤ 0 then (g, -1)
  else
    ({ g with
      acceleration := accel.toNat, parameters := g.parameters.setAcceleration accel.toNat }, 0)

/-- `applySpeedAcceleration()`, src/RampGenerator.cpp:27-31. -/
def applySpeedAcceleration (g : RampGen) : RampGen :=
  if !g.ro.forceImmediateStop then { g with parameters := g.parameters.applyParameters } else g

/-- `startRun()`, src/RampGenerator.cpp:32-47. -/
def startRun (g : RampGen) (countUp : Bool) : RampGen × Int :=
  let res := g.parameters.checkValidConfig
  if res ≠ MOVE_OK then (g, res)
  else
    ({ g with
      ro := { g.ro with forceStop := false }
      parameters := g.parameters.setRunning countUp
      rw := g.rw.startRampIfNotRunning }, MOVE_OK)

/-- `_startMove()`, src/RampGenerator.cpp:49-73. -/
def startMove (g : RampGen) (changed : Bool) : RampGen :=
  { g with
    ro := { g.ro with forceStop := false }
    rw := if changed then g.rw.startRampIfNotRunning else g.rw }

/-- `moveTo()`, src/RampGenerator.cpp:75-92. -/
def moveTo (g : RampGen) (position : Int) (qe : QueueEnd) : RampGen × Int :=
  let res := g.parameters.checkValidConfig
  if res ≠ MOVE_OK then (g, res)
  else
    let currTarget :=
      if g.isActive && !g.ro.config.parameters.keepRunning then g.ro.targetPos else qe.pos
    (({ g with parameters := g.parameters.setTargetPosition position }).startMove
      (currTarget ≠ position), MOVE_OK)

/-- `move()`, src/RampGenerator.cpp:93-101. -/
def move (g : RampGen) (move : Int) : RampGen × Int :=
  let res := g.parameters.checkValidConfig
  if res ≠ MOVE_OK then (g, res)
  else
    (({ g with parameters := g.parameters.setTargetRelativePosition move }).startMove
      (move ≠ 0), MOVE_OK)

/-- `advanceTargetPosition()`, src/RampGenerator.cpp:102-106. -/
def advanceTargetPosition (g : RampGen) (delta : Int) : RampGen :=
  { g with ro := { g.ro with targetPos := i32 (g.ro.targetPos + delta) } }

/-- `setTargetPosition()`, src/RampGenerator.h:35. -/
def setTargetPosition (g : RampGen) (pos : Int) : RampGen :=
  { g with ro := { g.ro with targetPos := pos } }

/-- `forceStop()`, src/RampGenerator.h:78. -/
def forceStop (g : RampGen) : RampGen := { g with ro := { g.ro with forceImmediateStop := true } }

/-- `initiateStop()`, src/RampGenerator.h:79. -/
def initiateStop (g : RampGen) : RampGen := { g with ro := { g.ro with forceStop := true } }

/-- `isStopping()`, src/RampGenerator.h:80-82. -/
def isStopping (g : RampGen) : Bool := g.ro.forceStop && g.isActive

/-- `stepsToStop()`, src/RampGenerator.h:85-90. -/
def stepsToStop (g : RampGen) : Nat := g.rw.performedRampUpSteps

/-- `stopRamp()`, src/RampGenerator.h:91. -/
def stopRamp (g : RampGen) : RampGen := { g with rw := RampRw.stopped }

/-- `setKeepRunning()`, src/RampGenerator.h:92, src/RampConstAcceleration.h:26. -/
def setKeepRunning (g : RampGen) : RampGen :=
  { g with
    ro := { g.ro with
      config := { g.ro.config with
        parameters := { g.ro.config.parameters with keepRunning := true } } } }

/-- `isRunningContinuously()`, src/RampGenerator.h:93. -/
def isRunningContinuously (g : RampGen) : Bool := g.ro.config.parameters.keepRunning

/-- `afterCommandEnqueued()`, src/RampGenerator.cpp:108-117. -/
def afterCommandEnqueued (g : RampGen) (c : NextCommand) : RampGen := { g with rw := c.rw }

/-- Taking over new parameters, src/RampGenerator.cpp:124-142. -/
def takeOver (a : ArchId) (g : RampGen) : RampGen :=
  if g.parameters.apply then
    let cfg := { g.ro.config with parameters := g.parameters }.update a
    let clear :=
      if cfg.parameters.moveAbsolute then decide (g.ro.targetPos ≠ cfg.parameters.moveValue)
      else decide (cfg.parameters.moveValue ≠ 0)
    { g with
      ro := { g.ro with
        config := cfg
        forceImmediateStop := g.ro.forceImmediateStop && !clear }
      parameters := { g.parameters with
        apply := false, anyChange := false, moveValue := 0, moveAbsolute := false,
        recalcRampSteps := false } }
  else g

/-- Jump start and recalculation of the performed ramp steps, src/RampGenerator.cpp:170-205. -/
def startSteps (a : ArchId) (g : RampGen) : RampGen :=
  let currTicks := g.rw.currTicks
  let cfg := g.ro.config
  if currTicks = ticksForStoppedMotor then
    let sJump := cfg.parameters.sJump
    let sJump :=
      if sJump ≠ 0 then
        if cfg.calculateTicks a sJump < cfg.parameters.minTravelTicks then
          cfg.calculateRampSteps a cfg.parameters.minTravelTicks
        else sJump
      else sJump
    { g with rw := { g.rw with performedRampUpSteps := sJump } }
  else if cfg.parameters.recalcRampSteps then
    { g with rw := { g.rw with performedRampUpSteps := cfg.calculateRampSteps a currTicks } }
  else g

/-- Update of the target position, src/RampGenerator.cpp:207-243. -/
def updateTarget (g : RampGen) (wasKeepRunning : Bool) (qe : QueueEnd) : RampGen :=
  let p := g.ro.config.parameters
  let setP := fun (p : RampParams) (target : Int) =>
    { g with
      ro := { g.ro with config := { g.ro.config with parameters := p }, targetPos := target } }
  if g.ro.forceStop then
    let prus : Int := g.rw.performedRampUpSteps
    setP { p with keepRunning := false } (i32 (if qe.countUp then qe.pos + prus else qe.pos - prus))
  else if p.anyChange then
    let p := { p with anyChange := false }
    if p.keepRunning then setP p g.ro.targetPos
    else if p.moveAbsolute then setP p p.moveValue
    else setP p (i32 ((if wasKeepRunning then qe.pos else g.ro.targetPos) + p.moveValue))
  else g

/-- Clearing of the recalculation flag, src/RampGenerator.cpp:248-249. -/
def clearRecalc (g : RampGen) : RampGen :=
  { g with
    ro := { g.ro with
      config := { g.ro.config with
        parameters := { g.ro.config.parameters with recalcRampSteps := false } } } }

/-- `getNextCommand()` up to the immediate stop test, src/RampGenerator.cpp:118-249. -/
def prepare (a : ArchId) (g : RampGen) (qe : QueueEnd) : RampGen :=
  (((g.takeOver a).startSteps a).updateTarget g.ro.config.parameters.keepRunning qe).clearRecalc

/-- `getNextCommand()`, src/RampGenerator.cpp:118-261. `junk` is the former content of `*command`. -/
def getNextCommand (a : ArchId) (g : RampGen) (qe : QueueEnd) (junk : NextCommand) :
    Option (RampGen × NextCommand) :=
  let g := g.prepare a qe
  if g.ro.forceImmediateStop then
    some ({ g with ro := { g.ro with forceImmediateStop := false, targetPos := qe.pos } },
      { command := { junk.command with ticks := 0 }, rw := RampRw.stopped })
  else
    match Planner.getNextCommand a g.ro g.rw qe junk with
    | none => none
    | some c => some (g, c)

/-- `getCurrentAcceleration()`, src/RampGenerator.cpp:262-274. `-acceleration` is computed on
`uint32_t` and converted to `int32_t`. -/
def getCurrentAcceleration (g : RampGen) : Int :=
  match g.rw.state.phase.isAcc, g.rw.state.phase.isDec, g.rw.state.dir with
  | true, false, .up => i32 g.acceleration
  | false, true, .down => i32 g.acceleration
  | false, true, .up => i32 (-g.acceleration)
  | true, false, .down => i32 (-g.acceleration)
  | _, _, _ => 0

/-- `divForMilliHz()`, src/RampGenerator.h:41-50. All `uint32_t`. -/
def divForMilliHz (a : ArchId) (f : Nat) : Nat :=
  let base := u32 (250 * a.ticksPerS)
  let res := base / f
  let base := subU32 base (u32 (res * f))
  let base := u32 (base * 4)
  let res := u32 (res * 4)
  let base := u32 (base + f / 2)
  u32 (res + base / f)

/-- `divForHz()`, src/RampGenerator.h:51-56. -/
def divForHz (a : ArchId) (f : Nat) : Nat := u32 (a.ticksPerS + f / 2) / f

/-- Call of `divForMilliHz(f)`: the division by 0 is undefined (`none`). -/
def divForMilliHz? (a : ArchId) (f : Nat) : Option Nat := if f = 0 then none else some (divForMilliHz a f)

/-- `getSpeedInMilliHz()`, src/RampGenerator.h:57-62. -/
def getSpeedInMilliHz (a : ArchId) (g : RampGen) : Option Nat :=
  if g.parameters.minTravelTicks = 0 then some 0 else divForMilliHz? a g.parameters.minTravelTicks

/-- `getSpeedInUs()`, src/RampGenerator.h:40-42. -/
def getSpeedInUs (a : ArchId) (g : RampGen) : Nat :=
  g.parameters.minTravelTicks / (a.ticksPerS / 1000000)

end RampGen
end FAS
