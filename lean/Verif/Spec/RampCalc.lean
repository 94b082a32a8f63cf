import Verif.Model.RampCalc
import Mathlib.Analysis.SpecialFunctions.Log.Base

/-!
# Specification of the ramp calculation

`Unbounded` repeats the formulas of src/RampCalculator.h:165-235 in unbounded integers: no result is
stored in an `int16_t`, and no sum wraps. The conversions `pmflFrom` and `pmflToU32` are those of
src/PoorManFloat.cpp (see C30 and C31). `idealPeriod` and `idealRampSteps` are the physical laws of a
motion with constant acceleration.
-/

namespace FAS.Spec

namespace Unbounded

/-- One third of a logarithm, as in src/PoorManFloat.h:30-38. -/
def powDiv3 (x : Int) : Int :=
  let x := x.tdiv 2
  let x := x + x.tdiv 4
  let x := x + x.tdiv 16
  let x := x + x.tdiv 256
  (x + 1).tdiv 2

/-- Logarithm of the factor of the cubic part of the ramp. -/
def cubic (a : ArchId) (accel sH : Nat) : Int :=
  a.pmfTicksPerS +
    (powDiv3 (pmflFrom sH) - (pmfThreeHalves + pmflFrom accel)).tdiv 2

/-- Logarithm of the period at the end of the cubic part. -/
def ticksH (a : ArchId) (accel sH : Nat) : Int :=
  if sH > 0 then cubic a accel sH - (pmflFrom sH - powDiv3 (pmflFrom sH)) else pmfMax

/-- The period after `steps` ramp steps. -/
def ticks (a : ArchId) (accel sH steps : Nat) : Nat :=
  if steps ≥ sH then
    pmflToU32
      (a.pmfTicksPerSDivSqrt2 - (pmflFrom (steps - (sH + 2) / 4) + pmflFrom accel).tdiv 2)
  else pmflToU32 (cubic a accel sH - (pmflFrom steps - powDiv3 (pmflFrom steps)))

/-- The number of ramp steps up to the period `ticks`. -/
def rampSteps (a : ArchId) (accel sH ticks : Nat) : Nat :=
  if pmflFrom ticks ≤ ticksH a accel sH then
    pmflToU32 (a.pmfAccelFactor - pmflFrom accel - 2 * pmflFrom ticks) + (sH + 2) / 4
  else
    pmflToU32 (cubic a accel sH - pmflFrom ticks +
      (cubic a accel sH - pmflFrom ticks).tdiv 2)

end Unbounded

/-- The period in ticks after `steps` steps with acceleration `accel`:
`v = sqrt(2 * accel * steps)`, `period = TICKS_PER_S / v`. -/
noncomputable def idealPeriod (a : ArchId) (accel steps : Nat) : ℝ :=
  a.ticksPerS / Real.sqrt (2 * accel * steps)

/-- The period in ticks after `steps` steps while the acceleration rises linearly in time from 0 to
`accel`, which it reaches after `sH` steps: the jerk is `j = sqrt(accel^3 / (6 * sH))`, the distance
`s = j * t^3 / 6` and the speed `v = j * t^2 / 2 = sqrt(3/2 * accel) * sH^(-1/6) * s^(2/3)`. -/
noncomputable def idealCubicPeriod (a : ArchId) (accel sH steps : Nat) : ℝ :=
  a.ticksPerS /
    (Real.sqrt (3 / 2 * accel) * (sH : ℝ) ^ (-(1 / 6) : ℝ) * (steps : ℝ) ^ (2 / 3 : ℝ))

/-- The steps needed to reach the period `ticks` with acceleration `accel`:
`s = v^2 / (2 * accel)`, `v = TICKS_PER_S / ticks`. -/
noncomputable def idealRampSteps (a : ArchId) (accel ticks : Nat) : ℝ :=
  (a.ticksPerS / ticks) ^ 2 / (2 * accel)

/-- `c` is the result of `update()` for the acceleration `accel` and `sH` steps of linear
acceleration. -/
def Configured (a : ArchId) (accel sH : Nat) (c : RampConfig) : Prop :=
  ∃ c0 : RampConfig, c0.parameters.pmflAccel = pmflFrom accel ∧ c0.parameters.sH = sH ∧
    c = c0.update a

end FAS.Spec
