import Verif.Model.PulseCounter

/-!
# Specification of the free pulse counter

src/FastAccelStepper.h:764-781: the counter counts the steps of the motor up and down, and is reset to 0 at the limits. With the limits 0 it is an `int16_t` counter. With the limits
-N and N, where N is the number of steps of one revolution, the angle is the value, plus N if it is negative.
-/

namespace FAS

/-- Signed number of pulses with the given levels of the direction pin: the level `highCountsUp` is forward. -/
def netPulses (highCountsUp : Bool) : List Bool → Int
  | [] => 0
  | l :: ls => (if l = highCountsUp then 1 else -1) + netPulses highCountsUp ls

/-- The angle in steps, as described in src/FastAccelStepper.h:779-781. -/
def angle (N : Nat) (value : Int) : Int := if value < 0 then value + N else value

end FAS
