/-!
# Integer conversions, constants and architectures

Models the C++ fixed width integer conversions and the per architecture constants of
`src/fas_arch/*.h`.
-/

namespace FAS

/-- Conversion to `uint8_t` (C++ integral conversion, used e.g. in src/StepperISR.h:122). -/
def u8 (n : Nat) : Nat := n % 256
/-- Conversion to `uint16_t` (C++ integral conversion, e.g. src/RampConstAcceleration.cpp:438). -/
def u16 (n : Nat) : Nat := n % 65536
/-- Conversion to `uint32_t`, also the result of any `uint32_t` addition/multiplication. -/
def u32 (n : Nat) : Nat := n % 4294967296
/-- `uint8_t` difference `(uint8_t)(a - b)`, for `b < 256` (src/StepperISR.h:122). -/
def subU8 (a b : Nat) : Nat := (a + 256 - b % 256) % 256
/-- `uint32_t` difference `a - b`. -/
def subU32 (a b : Nat) : Nat := (a + 4294967296 - b % 4294967296) % 4294967296
/-- Conversion to `int32_t` (two's complement; used for stepper positions, which wrap around
according to README.md "general behaviour of moves"). -/
def i32 (x : Int) : Int := (x + 2147483648) % 4294967296 - 2147483648
/-- Conversion to `int16_t` (two's complement). -/
def i16 (x : Int) : Int := (x + 32768) % 65536 - 32768
/-- Conversion of a signed value to `uint32_t`. -/
def toU32 (x : Int) : Nat := (x % 4294967296).toNat

/-- The architectures covered by the model. One constructor per header in src/fas_arch which
differs in one of the constants below:
`testPc` = src/fas_arch/test_pc.h, `avr328`/`avr2560`/`avr32u4` = src/fas_arch/arduino_avr.h (16 MHz),
`esp32` = src/fas_arch/common_esp32.h, `sam` = src/fas_arch/arduino_sam.h. -/
inductive ArchId where
  | testPc | avr328 | avr2560 | avr32u4 | esp32 | sam
deriving DecidableEq, Repr

namespace ArchId

/-- TICKS_PER_S: src/fas_arch/test_pc.h:31, arduino_avr.h:21 (F_CPU; the model assumes 16 MHz),
common_esp32.h:32, arduino_sam.h:18. -/
def ticksPerS : ArchId → Nat
  | sam => 21000000
  | _ => 16000000

/-- QUEUE_LEN: src/fas_arch/test_pc.h:28, arduino_avr.h:20, common_esp32.h:29, arduino_sam.h:15. -/
def queueLen : ArchId → Nat
  | esp32 => 32
  | sam => 32
  | _ => 16

/-- MIN_CMD_TICKS: TICKS_PER_S/5000 (src/fas_arch/test_pc.h:32, common_esp32.h:33, arduino_sam.h:19),
TICKS_PER_S/25000 (arduino_avr.h:22). -/
def minCmdTicks (a : ArchId) : Nat :=
  match a with
  | testPc => a.ticksPerS / 5000
  | esp32 => a.ticksPerS / 5000
  | sam => a.ticksPerS / 5000
  | _ => a.ticksPerS / 25000

/-- MIN_DIR_DELAY_US: MIN_CMD_TICKS / (TICKS_PER_S/1000000) (src/fas_arch/test_pc.h:33,
common_esp32.h:34, arduino_sam.h:20), literal 40 in arduino_avr.h:23. -/
def minDirDelayUs (a : ArchId) : Nat :=
  match a with
  | testPc => a.minCmdTicks / (a.ticksPerS / 1000000)
  | esp32 => a.minCmdTicks / (a.ticksPerS / 1000000)
  | sam => a.minCmdTicks / (a.ticksPerS / 1000000)
  | _ => 40

/-- MAX_DIR_DELAY_US = 65535 / (TICKS_PER_S/1000000) (src/fas_arch/test_pc.h:34, arduino_avr.h:24,
common_esp32.h:35, arduino_sam.h:21). -/
def maxDirDelayUs (a : ArchId) : Nat := 65535 / (a.ticksPerS / 1000000)

/-- DELAY_MS_BASE: src/fas_arch/test_pc.h:35 (1), arduino_avr.h:25 (65536000/TICKS_PER_S),
common_esp32.h:36 (4), arduino_sam.h:22 (2). -/
def delayMsBase : ArchId → Nat
  | testPc => 1
  | esp32 => 4
  | sam => 2
  | a => 65536000 / a.ticksPerS

/-- SUPPORT_EXTERNAL_DIRECTION_PIN: defined for AVR 328/2560 (src/fas_arch/arduino_avr.h:42,54) and
ESP32 (common_esp32.h:7). -/
def externalDir : ArchId → Bool
  | avr328 => true
  | avr2560 => true
  | esp32 => true
  | _ => false

/-- SUPPORT_QUEUE_ENTRY_START_POS_U16 is defined for ESP32 only, all others define
SUPPORT_QUEUE_ENTRY_END_POS_U16 (src/fas_arch/common_esp32.h:38, test_pc.h:40, arduino_avr.h:34,
arduino_sam.h:32). -/
def startPosField : ArchId → Bool
  | esp32 => true
  | _ => false

/-- The architectures served by src/StepperISR_avr.cpp (src/fas_arch/arduino_avr.h). -/
def isAvr : ArchId → Bool
  | avr328 => true
  | avr2560 => true
  | avr32u4 => true
  | _ => false

end ArchId

/-- TICKS_FOR_STOPPED_MOTOR, src/fas_arch/common.h:4. -/
def ticksForStoppedMotor : Nat := 0xffffffff
/-- PIN_UNDEFINED, src/FastAccelStepper.h:256. -/
def pinUndefined : Nat := 255
/-- `pin & PIN_EXTERNAL_FLAG` ≠ 0 with PIN_EXTERNAL_FLAG = 128, src/FastAccelStepper.h:257. Note that
it also holds for PIN_UNDEFINED. -/
def pinIsExternal (pin : Nat) : Bool := pin / 128 % 2 == 1

/-! Return codes of addQueueEntry, src/FastAccelStepper.h:687-694. -/
/-- AQE_OK, src/FastAccelStepper.h:687 -/
def AQE_OK : Int := 0
/-- AQE_QUEUE_FULL, src/FastAccelStepper.h:688 -/
def AQE_QUEUE_FULL : Int := 1
/-- AQE_DIR_PIN_IS_BUSY, src/FastAccelStepper.h:689 -/
def AQE_DIR_PIN_IS_BUSY : Int := 2
/-- AQE_WAIT_FOR_ENABLE_PIN_ACTIVE, src/FastAccelStepper.h:690 -/
def AQE_WAIT_FOR_ENABLE_PIN_ACTIVE : Int := 3
/-- AQE_DEVICE_NOT_READY, src/FastAccelStepper.h:691 -/
def AQE_DEVICE_NOT_READY : Int := 4
/-- AQE_ERROR_TICKS_TOO_LOW, src/FastAccelStepper.h:692 -/
def AQE_ERROR_TICKS_TOO_LOW : Int := -1
/-- AQE_ERROR_EMPTY_QUEUE_TO_START, src/FastAccelStepper.h:693 -/
def AQE_ERROR_EMPTY_QUEUE_TO_START : Int := -2
/-- AQE_ERROR_NO_DIR_PIN_TO_TOGGLE, src/FastAccelStepper.h:694 -/
def AQE_ERROR_NO_DIR_PIN_TO_TOGGLE : Int := -3

/-- `struct stepper_command_s`, src/fas_arch/common.h:28-42. -/
structure Cmd where
  ticks : Nat
  steps : Nat
  countUp : Bool
deriving DecidableEq, Repr

/-- The values representable in `stepper_command_s`: `uint16_t ticks`, `uint8_t steps`
(src/fas_arch/common.h:37-41). -/
def Cmd.Valid (c : Cmd) : Prop := c.ticks < 65536 ∧ c.steps < 256

instance (c : Cmd) : Decidable c.Valid := inferInstanceAs (Decidable (_ ∧ _))

end FAS
