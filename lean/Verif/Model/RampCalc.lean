import Verif.Model.Pmf

/-!
# Ramp parameters and ramp calculation

Models src/RampCalculator.h: `ramp_parameters_s` (the values set by the application) and
`ramp_config_s` (the values used by the cyclic task).
-/

namespace FAS

/-- PMF_TICKS_PER_S, src/RampCalculator.h:10,16. -/
def ArchId.pmfTicksPerS : ArchId → Int
  | .sam => 0x30a6
  | _ => 0x2fdd

/-- PMF_TICKS_PER_S_DIV_SQRT_OF_2, src/RampCalculator.h:11,17. -/
def ArchId.pmfTicksPerSDivSqrt2 : ArchId → Int
  | .sam => 0x2fa6
  | _ => 0x2edd

/-- PMF_ACCEL_FACTOR, src/RampCalculator.h:12,18. -/
def ArchId.pmfAccelFactor : ArchId → Int
  | .sam => 0x5f4c
  | _ => 0x5dba

/-- `US_TO_TICKS(u32)` on a `uint32_t` argument, src/RampCalculator.h:13,19 (the product wraps). -/
def usToTicks (a : ArchId) (us : Nat) : Nat := u32 (us * (a.ticksPerS / 1000000))

/-- `TICKS_TO_US(u32)`, src/RampCalculator.h:14,20. -/
def ticksToUs (a : ArchId) (ticks : Nat) : Nat := ticks / (a.ticksPerS / 1000000)

/-! Return codes of the move functions, src/fas_arch/common.h:6-9. -/
/-- MOVE_OK, src/fas_arch/common.h:6 -/
def MOVE_OK : Int := 0
/-- MOVE_ERR_NO_DIRECTION_PIN, src/fas_arch/common.h:7 -/
def MOVE_ERR_NO_DIRECTION_PIN : Int := -1
/-- MOVE_ERR_SPEED_IS_UNDEFINED, src/fas_arch/common.h:8 -/
def MOVE_ERR_SPEED_IS_UNDEFINED : Int := -2
/-- MOVE_ERR_ACCELERATION_IS_UNDEFINED, src/fas_arch/common.h:9 -/
def MOVE_ERR_ACCELERATION_IS_UNDEFINED : Int := -3

/-- `struct ramp_parameters_s`, src/RampCalculator.h:47-60. -/
structure RampParams where
  moveValue : Int
  minTravelTicks : Nat
  sH : Nat
  sJump : Nat
  pmflAccel : Int
  apply : Bool
  anyChange : Bool
  recalcRampSteps : Bool
  validAcceleration : Bool
  validSpeed : Bool
  moveAbsolute : Bool
  keepRunning : Bool
  keepRunningCountUp : Bool
deriving DecidableEq, Repr

namespace RampParams

/-- `ramp_parameters_s::init()`, src/RampCalculator.h:62-75. `pmfl_accel` is not written; the object
has static storage (src/FastAccelStepper.cpp, `fas_stepper[]`), so it is 0. -/
def init : RampParams :=
  ⟨0, 0, 0, 0, 0, false, false, false, false, false, true, false, true⟩

/-- `applyParameters()`, src/RampCalculator.h:76-82. -/
def applyParameters (p : RampParams) : RampParams :=
  if p.anyChange then { p with apply := true } else p

/-- `setRunning()`, src/RampCalculator.h:83-90. -/
def setRunning (p : RampParams) (countUp : Bool) : RampParams :=
  { p with
    keepRunning := true, keepRunningCountUp := countUp, anyChange := true, apply := true }

/-- `setTargetPosition()`, src/RampCalculator.h:91-100. -/
def setTargetPosition (p : RampParams) (pos : Int) : RampParams :=
  { p with
    moveValue := pos, moveAbsolute := true, keepRunning := false, keepRunningCountUp := true,
    anyChange := true, apply := true }

/-- `setTargetRelativePosition()`, src/RampCalculator.h:101-114. The sum of two pending relative
moves is computed in `int32_t`; the model wraps (formally it is undefined behaviour in C++). -/
def setTargetRelativePosition (p : RampParams) (move : Int) : RampParams :=
  { p with
    moveValue := if p.anyChange && !p.moveAbsolute then i32 (p.moveValue + move) else move,
    moveAbsolute := false, keepRunning := false, keepRunningCountUp := true,
    anyChange := true, apply := true }

/-- `setCubicAccelerationSteps()`, src/RampCalculator.h:115-123. -/
def setCubicAccelerationSteps (p : RampParams) (s : Nat) : RampParams :=
  if p.sH ≠ s then { p with sH := s, recalcRampSteps := true, anyChange := true } else p

/-- `setSpeedInTicks()`, src/RampCalculator.h:124-132. -/
def setSpeedInTicks (p : RampParams) (ticks : Nat) : RampParams :=
  if !p.validSpeed || p.minTravelTicks ≠ ticks then
    { p with minTravelTicks := ticks, validSpeed := true, anyChange := true }
  else p

/-- `setAcceleration()`, src/RampCalculator.h:133-143. -/
def setAcceleration (p : RampParams) (accel : Nat) : RampParams :=
  let new := pmflFrom accel
  if !p.validAcceleration || p.pmflAccel ≠ new then
    { p with
      validAcceleration := true, anyChange := true, recalcRampSteps := true, pmflAccel := new }
  else p

/-- `setJumpStart()`, src/RampCalculator.h:144. -/
def setJumpStart (p : RampParams) (s : Nat) : RampParams := { p with sJump := s }

/-- `checkValidConfig()`, src/RampCalculator.h:145-153. -/
def checkValidConfig (p : RampParams) : Int :=
  if !p.validSpeed then MOVE_ERR_SPEED_IS_UNDEFINED
  else if !p.validAcceleration then MOVE_ERR_ACCELERATION_IS_UNDEFINED
  else MOVE_OK

end RampParams

/-- `struct ramp_config_s`, src/RampCalculator.h:156-163. -/
structure RampConfig where
  parameters : RampParams
  maxRampUpSteps : Nat
  pmflTicksH : Int
  cubic : Int
deriving DecidableEq, Repr

namespace RampConfig

/-- `ramp_config_s::init()`, src/RampCalculator.h:164; derived values are 0 (static storage). -/
def init : RampConfig := ⟨RampParams.init, 0, 0, 0⟩

/-- `calculate_ticks()`, src/RampCalculator.h:190-212. The products are computed in `int` and stored
in an `int16_t` (`i16`). -/
def calculateTicks (a : ArchId) (c : RampConfig) (steps : Nat) : Nat :=
  if steps ≥ c.parameters.sH then
    let steps := subU32 steps (u32 (c.parameters.sH + 2) / 4)
    let pmflSteps := pmflFrom steps
    let mulAccel := i16 (pmflSteps + c.parameters.pmflAccel)
    let sqrtMul := i16 (mulAccel.tdiv 2)
    let res := i16 (a.pmfTicksPerSDivSqrt2 - sqrtMul)
    pmflToU32 res
  else
    let pmflSteps := pmflFrom steps
    let res := i16 (c.cubic - (pmflSteps - pmflPowDiv3 pmflSteps))
    pmflToU32 res

/-- `calculate_ramp_steps()`, src/RampCalculator.h:213-235. -/
def calculateRampSteps (a : ArchId) (c : RampConfig) (ticks : Nat) : Nat :=
  let pmflTicks := pmflFrom ticks
  if pmflTicks ≤ c.pmflTicksH then
    let invAccel2 := i16 (a.pmfAccelFactor - c.parameters.pmflAccel)
    let steps := pmflToU32 (i16 (invAccel2 - pmflSquare pmflTicks))
    u32 (steps + u32 (c.parameters.sH + 2) / 4)
  else
    let res := i16 (c.cubic - pmflTicks)
    let res := i16 (res + res.tdiv 2)
    pmflToU32 res

/-- The cubic part of `update()`, src/RampCalculator.h:166-180. -/
def updateCubic (a : ArchId) (c : RampConfig) : RampConfig :=
  if c.parameters.sH > 0 then
    let pmflSH := pmflFrom c.parameters.sH
    let cubic := i16 (pmfThreeHalves + c.parameters.pmflAccel)
    let cubic := i16 ((pmflPowDiv3 pmflSH - cubic).tdiv 2)
    let cubic := i16 (a.pmfTicksPerS + cubic)
    { c with cubic := cubic, pmflTicksH := i16 (cubic - (pmflSH - pmflPowDiv3 pmflSH)) }
  else { c with pmflTicksH := pmfMax }

/-- `update()`, src/RampCalculator.h:165-189. -/
def update (a : ArchId) (c : RampConfig) : RampConfig :=
  let c := c.updateCubic a
  let m := c.calculateRampSteps a c.parameters.minTravelTicks
  { c with maxRampUpSteps := if m = 0 then 1 else m }

end RampConfig
end FAS
