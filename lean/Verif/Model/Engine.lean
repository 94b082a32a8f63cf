import Verif.Model.Stepper

/-!
# `FastAccelStepperEngine`

Models src/FastAccelStepper.cpp:20-211 and 335-351: the slots for steppers, connecting a stepper to a step
pin, the shared direction pin test and the cyclic task `manageSteppers()`. Not modelled: the debug LED and the
CPU affinity/task rate settings.
-/

namespace FAS

/-- How `stepperConnectToPin` finds the slot (= queue number) of a new stepper,
src/FastAccelStepper.cpp:86-112: `byPin` for AVR, where the pin defines the queue
(`queueNumForStepPin`, src/StepperISR_avr.cpp:332-345); `next` for SAM, TEST and ESP32 with one driver
(src/StepperISR_due.cpp:710, src/StepperISR_esp32.cpp:104); `select` for ESP32 with both drivers
(SUPPORT_SELECT_DRIVER_TYPE, src/fas_arch/common_esp32.h:57-61). -/
inductive SlotRule where
  | byPin (pins : List Nat)
  | next (slots : Nat)
  | select (mcpwm rmt : Nat)
deriving DecidableEq, Repr

/-- MAX_STEPPER, src/fas_arch/arduino_avr.h:44,56,68, arduino_sam.h:13, test_pc.h:24, common_esp32.h:27-28. -/
def SlotRule.maxStepper : SlotRule → Nat
  | byPin pins => pins.length
  | next n => n
  | select m r => m + r

/-- The rules in use: pins of src/AVRStepperPins.h (default timers), src/fas_arch/test_pc.h:24,
arduino_sam.h:13 and common_esp32_idf4.h:15-16 (ESP32). -/
def ArchId.slotRule : ArchId → SlotRule
  | avr328 => .byPin [9, 10]
  | avr2560 => .byPin [6, 7, 8]
  | avr32u4 => .byPin [9, 10, 11]
  | testPc => .next 2
  | sam => .next 6
  | esp32 => .select 6 8

/-- `_stepper[]` and `_stepper_cnt`, src/FastAccelStepper.h:175-177. The `_queue_num` of a stepper is the index
of its slot (src/FastAccelStepper.cpp:115-117). -/
structure Engine where
  stepper : Nat → Option Stepper
  cnt : Nat

namespace Engine

/-- `FastAccelStepperEngine::init()`, src/FastAccelStepper.cpp:22-38. -/
def init : Engine := ⟨fun _ => none, 0⟩

/-- Writes a slot. -/
def set (e : Engine) (i : Nat) (s : Stepper) : Engine :=
  { e with stepper := fun j => if j = i then some s else e.stepper j }

/-- The first free slot in `[start, start+n)`, src/FastAccelStepper.cpp:102-108. -/
def firstFree (e : Engine) : Nat → Nat → Option Nat
  | _, 0 => none
  | start, n + 1 => if (e.stepper start).isNone then some start else firstFree e (start + 1) n

/-- The slot for a new stepper, src/FastAccelStepper.cpp:86-112. `driver` is 0 for DRIVER_MCPWM_PCNT and 1 for
DRIVER_RMT (src/FastAccelStepper.h:90-92). For `byPin` the pin is one of the list, because it is valid
(src/StepperISR_avr.cpp:317-331). -/
def chooseSlot (rule : SlotRule) (e : Engine) (pin driver : Nat) : Option Nat :=
  match rule with
  | .byPin pins => if pin ∈ pins then some (pins.idxOf pin) else none
  | .next n => if e.cnt ≥ n then none else some e.cnt
  | .select m r =>
    if driver = 0 then e.firstFree 0 m
    else if driver = 1 then e.firstFree m r
    else e.firstFree 0 (m + r)

/-- Is the step pin in use, src/FastAccelStepper.cpp:75-82. -/
def stepPinUsed (rule : SlotRule) (e : Engine) (pin : Nat) : Bool :=
  (List.range rule.maxStepper).any fun i =>
    match e.stepper i with
    | some s => s.stepPin == pin
    | none => false

/-- `stepperConnectToPin(step_pin, driver_type)`, src/FastAccelStepper.cpp:67-126. `valid` is the result of
`isValidStepPin` (hardware dependent except on AVR, where `chooseSlot` covers it). The result is the queue
number of the new stepper. -/
def connect (a : ArchId) (rule : SlotRule) (valid : Bool) (e : Engine) (pin driver : Nat) : Engine × Option Nat :=
  if e.stepPinUsed rule pin then (e, none)
  else if !valid then (e, none)
  else
    match e.chooseSlot rule pin driver with
    | none => (e, none)
    | some i =>
      let e := { e.set i (Stepper.init a pin) with cnt := u8 (e.cnt + 1) }
      ({ e with stepper := fun j => (e.stepper j).map (Stepper.adjustSpeedToStepperCount a e.cnt) }, some i)

/-- `isDirPinBusy()`, src/FastAccelStepper.cpp:50-65. -/
def isDirPinBusy (n : Nat) (e : Engine) (pin except : Nat) : Bool :=
  (List.range n).any fun i =>
    i != except &&
      match e.stepper i with
      | some s => s.dirPin == pin && s.isQueueRunning
      | none => false

/-- `addQueueEntry(cmd, start)` of the stepper in slot `i`, src/FastAccelStepper.cpp:228-333. -/
def addQueueEntry (a : ArchId) (n : Nat) (ext : ExtPin) (gaps : Nat → Gap) (e : Engine) (i : Nat) (c : Cmd)
    (start : Bool) : Engine × Int :=
  match e.stepper i with
  | none => (e, 0)
  | some s =>
    let r := s.addQueueEntry a ext gaps (e.isDirPinBusy n s.dirPin i) c start
    (e.set i r.1.s, r.2)

/-- `externalDirPinChangeCompletedIfNeeded()`, src/FastAccelStepper.cpp:335-351, with `isOnRepeatingEntry()`,
`dirPinState()` and `clearRepeatingFlag()` of src/StepperISR.h:127-135. -/
def extDirPoll (a : ArchId) (ext : ExtPin) (s : Stepper) : Stepper × Bool :=
  if s.dirPin ≠ pinUndefined ∧ pinIsExternal s.dirPin then
    let e := s.hw.q.slot a s.hw.q.readIdx
    if e.repeatEntry then
      match ext with
      | none => (s, true)
      | some f =>
        if f s.dirPin e.dirPinState ≠ e.dirPinState then (s, false)
        else
          ({ s with
            hw := { s.hw with
              q := { s.hw.q with
                entry := fun j =>
                  if j = s.hw.q.readIdx % a.queueLen then { e with repeatEntry := false } else s.hw.q.entry j } } },
           true)
    else (s, true)
  else (s, true)

/-- The service of one stepper in the first loop of `manageSteppers()`, src/FastAccelStepper.cpp:146-157. The
running flags of the other steppers are taken at the begin of `fill_queue`. `none`: undefined behaviour. -/
def fillOne (a : ArchId) (n : Nat) (ext : ExtPin) (env : Stepper.Env) (junk : NextCommand) (e : Engine) (i : Nat) :
    Option Engine :=
  match e.stepper i with
  | none => some e
  | some s =>
    let r := if a.externalDir then extDirPoll a ext s else (s, true)
    if r.2 then
      match r.1.fillQueue a { env with busy := fun _ => e.isDirPinBusy n s.dirPin i } junk with
      | none => none
      | some (s', _) => some (e.set i s')
    else some (e.set i r.1)

/-- All steppers are serviced, src/FastAccelStepper.cpp:146-157. -/
def fillAll (a : ArchId) (n : Nat) (ext : ExtPin) (env : Nat → Stepper.Env) (junk : NextCommand) :
    List Nat → Engine → Option Engine
  | [], e => some e
  | i :: is, e =>
    match e.fillOne a n ext (env i) junk i with
    | none => none
    | some e' => fillAll a n ext env junk is e'

/-- Does stepper `s` use one of the enable pins, src/FastAccelStepper.cpp:173-174,188-189. -/
def usesPins (s : Stepper) (high low : Nat) : Bool := s.usesAutoEnablePin high || s.usesAutoEnablePin low

/-- Agreement of all other steppers, src/FastAccelStepper.cpp:168-182. -/
def agree (n : Nat) (e : Engine) (i high low : Nat) : Bool :=
  (List.range n).all fun j =>
    j == i ||
      match e.stepper j with
      | some o => !usesPins o high low || o.agreeWithAutoDisable
      | none => true

/-- The disable loop, src/FastAccelStepper.cpp:184-195: `disableOutputs()` of each stepper using one of the
pins. Returns the pin writes. -/
def disableUsers (ext : ExtPin) (high low : Nat) : List Nat → Engine → Engine × List PinWrite
  | [], e => (e, [])
  | j :: js, e =>
    match e.stepper j with
    | none => disableUsers ext high low js e
    | some s =>
      if usesPins s high low then
        let r := s.disableOutputs ext
        let r' := disableUsers ext high low js (e.set j r.1)
        (r'.1, r.2.2 ++ r'.2)
      else disableUsers ext high low js e

/-- One turn of the auto disable loop, src/FastAccelStepper.cpp:160-199. -/
def autoDisableOne (n : Nat) (ext : ExtPin) (e : Engine) (i : Nat) : Engine × List PinWrite :=
  match e.stepper i with
  | none => (e, [])
  | some s =>
    if s.needAutoDisable then
      if e.agree n i s.enHigh s.enLow then disableUsers ext s.enHigh s.enLow (List.range n) e else (e, [])
    else (e, [])

/-- The auto disable loop, src/FastAccelStepper.cpp:160-199. -/
def autoDisable (n : Nat) (ext : ExtPin) : List Nat → Engine → Engine × List PinWrite
  | [], e => (e, [])
  | i :: is, e =>
    let r := e.autoDisableOne n ext i
    let r' := autoDisable n ext is r.1
    (r'.1, r.2 ++ r'.2)

/-- The counter update loop, src/FastAccelStepper.cpp:202-210. -/
def updateCounters (e : Engine) : Engine :=
  { e with stepper := fun j => (e.stepper j).map Stepper.updateAutoDisable }

/-- `manageSteppers()`, src/FastAccelStepper.cpp:133-211. The pin writes are those of the auto disable part. -/
def manageSteppers (a : ArchId) (n : Nat) (ext : ExtPin) (env : Nat → Stepper.Env) (junk : NextCommand) (e : Engine) :
    Option (Engine × List PinWrite) :=
  match e.fillAll a n ext env junk (List.range n) with
  | none => none
  | some e1 =>
    let r := autoDisable n ext (List.range n) e1
    some (r.1.updateCounters, r.2)

end Engine
end FAS
