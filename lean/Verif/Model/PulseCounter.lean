import Verif.Model.Queue

/-!
# The free pulse counter of the ESP32

Models src/FastAccelStepper_idf4_esp32_pcnt.cpp and src/FastAccelStepper_idf5_esp32_pcnt.cpp.

Hardware abstraction: a unit counts every rising edge of the step pin, up or down by the level of the control input (if there is one), and is reset to 0
when it reaches one of its limits, as documented in src/FastAccelStepper.h:764-772. The routing of the signals in the GPIO matrix (IDF 4 lines 64-73, IDF 5 lines 99-116) and the
driver are not modelled: the pulses and levels the unit gets are those of the step and direction pin. A result of a driver call is an argument.
-/

namespace FAS

/-- One pulse counter unit as configured by `attachToPulseCounter()`: `ctrl` tells that the direction pin is its control input, `revHigh` and `revLow` that the high/low level of it reverses
the counting (src/FastAccelStepper_idf4_esp32_pcnt.cpp:30-52, src/FastAccelStepper_idf5_esp32_pcnt.cpp:45-55). -/
structure PulseUnit where
  ctrl : Bool
  revHigh : Bool
  revLow : Bool
  low : Int
  high : Int
  cnt : Int
deriving DecidableEq, Repr

namespace PulseUnit

/-- The configuration for a direction pin, with the counter cleared: src/FastAccelStepper_idf4_esp32_pcnt.cpp:31-53,75 and
src/FastAccelStepper_idf5_esp32_pcnt.cpp:25-55,86. -/
def config (dirPin : Nat) (highCountsUp : Bool) (low high : Int) : PulseUnit :=
  if dirPin = pinUndefined then ⟨false, false, false, low, high, 0⟩
  else if highCountsUp then ⟨true, false, true, low, high, 0⟩
  else ⟨true, true, false, low, high, 0⟩

/-- A rising edge of the step pin (`PCNT_COUNT_INC`, src/FastAccelStepper_idf4_esp32_pcnt.cpp:46-47, src/FastAccelStepper_idf5_esp32_pcnt.cpp:74-76) with the given level of the
direction pin; reset at the limits as documented in src/FastAccelStepper.h:764-772. -/
def edge (level : Bool) (u : PulseUnit) : PulseUnit :=
  let rev := u.ctrl && (if level then u.revHigh else u.revLow)
  let n := if rev then u.cnt - 1 else u.cnt + 1
  { u with cnt := if n = u.high ∨ n = u.low then 0 else i16 n }

/-- The edges of a list of pulses, given by the level of the direction pin, in the order of time. -/
def edges (u : PulseUnit) : List Bool → PulseUnit
  | [] => u
  | l :: ls => edges (u.edge l) ls

end PulseUnit

/-- The part of the stepper object concerned: the unit attached, if any. `_attached_pulse_cnt_unit` and `_attached_pulse_unit`, src/FastAccelStepper.h:832-837, -1/NULL initially
(src/FastAccelStepper.cpp:521-526). -/
abbrev PulseCounter := Option PulseUnit

namespace PulseCounter

/-- `attachToPulseCounter()` with IDF 4, src/FastAccelStepper_idf4_esp32_pcnt.cpp:22-79. `units` is SUPPORT_ESP32_PULSE_COUNTER. -/
def attachIdf4 (units : Nat) (p : PulseCounter) (dirPin : Nat) (highCountsUp : Bool) (unit : Nat) (low high : Int) : PulseCounter × Bool :=
  if unit ≥ units then (p, false) else (some (PulseUnit.config dirPin highCountsUp low high), true)

/-- `attachToPulseCounter()` with IDF 5, src/FastAccelStepper_idf5_esp32_pcnt.cpp:22-121. `ok`: the results of the driver calls and of the check of the unit number, in this order, until the first
failure. -/
def attachIdf5 (p : PulseCounter) (dirPin : Nat) (highCountsUp : Bool) (low high : Int) (ok : List Bool) : PulseCounter × Bool :=
  if ok.all id then (some (PulseUnit.config dirPin highCountsUp low high), true) else (p, false)

/-- `clearPulseCounter()`, src/FastAccelStepper_idf4_esp32_pcnt.cpp:80-84, src/FastAccelStepper_idf5_esp32_pcnt.cpp:124-128. -/
def clear (p : PulseCounter) : PulseCounter := p.map (fun u => { u with cnt := 0 })

/-- `readPulseCounter()`, src/FastAccelStepper_idf4_esp32_pcnt.cpp:85-94, src/FastAccelStepper_idf5_esp32_pcnt.cpp:129-135. -/
def read (p : PulseCounter) : Int :=
  match p with
  | some u => i16 u.cnt
  | none => 0

/-- `pulseCounterAttached()`, src/FastAccelStepper.h:792,799. -/
def attached (p : PulseCounter) : Bool := p.isSome

/-- Step pulses of the stepper. -/
def pulses (p : PulseCounter) (ls : List Bool) : PulseCounter := p.map (fun u => u.edges ls)

end PulseCounter
end FAS
