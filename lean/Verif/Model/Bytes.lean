import Verif.Model.Control

/-!
# Variables of 32 bits on an 8 bit processor

On AVR a variable of 32 bits is read and written byte by byte. Without disabled interrupts the cyclic task, which runs in a timer
interrupt (src/StepperISR_avr.cpp:214-235), may come between two bytes. The definitions here are the accesses to one byte.
-/

namespace FAS

/-- Byte `k` of a variable with value `x`. -/
def byteOf (x k : Nat) : Nat := x / 256 ^ k % 256

/-- The value with the bytes `b`. -/
def fromBytes (b : Nat → Nat) : Nat := b 0 + 256 * b 1 + 65536 * b 2 + 16777216 * b 3

/-- Value `x` after a write of byte `k`. -/
def putByte (x k b : Nat) : Nat := x - byteOf x k * 256 ^ k + b * 256 ^ k

namespace Stepper

/-- The variable read by `targetPos()` without disabled interrupts, src/FastAccelStepper.h:585, src/RampGenerator.h:31,
src/RampConstAcceleration.h:17. -/
def targetVar (s : Stepper) : Nat := toU32 s.rg.ro.targetPos

/-- The variable read by `getPositionAfterCommandsCompleted()` without disabled interrupts, src/FastAccelStepper.cpp:744-746. -/
def endVar (s : Stepper) : Nat := toU32 s.hw.q.qend.pos

/-- The variable read by `getSpeedInTicks()`, `getSpeedInUs()` and `getSpeedInMilliHz()` without disabled interrupts,
src/RampGenerator.h:37-40,57-62. -/
def speedVar (s : Stepper) : Nat := s.rg.parameters.minTravelTicks

/-- The variable read by `getAcceleration()` without disabled interrupts, src/RampGenerator.h:64. -/
def accelerationVar (s : Stepper) : Nat := s.rg.acceleration

/-- The write of byte `k` in `setJumpStart(steps)` without disabled interrupts, src/RampCalculator.h:144. -/
def jumpByte (s : Stepper) (k steps : Nat) : Stepper :=
  { s with rg := { s.rg with parameters := { s.rg.parameters with sJump := putByte s.rg.parameters.sJump k (byteOf steps k) } } }

/-- `getPeriodInTicksAfterCommandsCompleted()`, src/FastAccelStepper.cpp:747-752, with the ramp state read in state `s` and the period read,
with interrupts disabled, in state `s1`. -/
def periodOf (s s1 : Stepper) : Nat := if s.rg.isActive then s1.rg.rw.currTicks else 0

end Stepper
end FAS
