import Verif.Model.Stepper

/-!
# Specification of the maximum speed
-/

namespace FAS.Spec

/-- Steps per second promised by README.md:114-181 if `n` steppers are connected. -/
def promisedHz (a : ArchId) (n : Nat) : Nat :=
  match a with
  | .testPc | .esp32 => 200000
  | .sam => 50000
  | .avr328 | .avr2560 | .avr32u4 => if n = 1 then 50000 else if n = 2 then 37000 else 20000

/-- The shortest period in ticks, if `n` steppers are connected: 5 us (ESP32, test), 20 us (SAM Due); for AVR 20 us, 26.625 us and 50 us
for one, two and more steppers. -/
def shortestPeriod (a : ArchId) (n : Nat) : Nat :=
  match a with
  | .testPc | .esp32 => a.ticksPerS / 1000000 * 5
  | .sam => a.ticksPerS / 1000000 * 20
  | .avr328 | .avr2560 | .avr32u4 =>
    if n = 1 then a.ticksPerS / 1000000 * 20 else if n = 2 then a.ticksPerS / 1000000 * 26625 / 1000 else a.ticksPerS / 1000000 * 50

/-- `hz` steps per second have a period of at least `ticks`, and `hz + err` have not. -/
def IsSpeed (perS ticks hz err : Nat) : Prop := hz * ticks ≤ perS ∧ perS < (hz + err) * ticks

end FAS.Spec
