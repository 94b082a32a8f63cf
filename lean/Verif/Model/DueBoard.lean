import Verif.Model.Due

/-!
# Several steppers on a SAM Due

Models the assignment of step pins to PWM channels and the registers shared by the channels: src/StepperISR_due.cpp:74-97, 417-601, 699-706. Each
stepper is a channel of Model/Due.lean.
-/

namespace FAS

/-- `pinToChannel()`, src/StepperISR_due.cpp:417-453; `none` is 0xFFFFFFFF. -/
def duePinToChannel (pin : Nat) : Option Nat :=
  if pin = 34 ∨ pin = 67 ∨ pin = 73 ∨ pin = 35 then some 0
  else if pin = 17 ∨ pin = 36 ∨ pin = 72 ∨ pin = 37 ∨ pin = 42 then some 1
  else if pin = 38 ∨ pin = 43 ∨ pin = 63 ∨ pin = 39 then some 2
  else if pin = 40 ∨ pin = 64 ∨ pin = 69 ∨ pin = 41 then some 3
  else if pin = 9 then some 4
  else if pin = 8 ∨ pin = 44 then some 5
  else if pin = 7 ∨ pin = 45 then some 6
  else if pin = 6 then some 7
  else none

/-- The steppers `0 … cnt-1` with their queues `ch`, `gChannelMap[].channel` (`chan`), `channelsUsed[]` (`used`) and `TimerChannel_Map[]` (`map`),
src/StepperISR_due.cpp:74-97. -/
structure DueBoard where
  ch : Nat → Due
  chan : Nat → Option Nat
  used : Nat → Bool
  map : Nat → Nat
  cnt : Nat

namespace DueBoard

/-- Static initialisation. -/
def init : DueBoard where
  ch _ := Due.init
  chan _ := none
  used _ := false
  map _ := 0
  cnt := 0

/-- Writes the state of a stepper. -/
def setCh (b : DueBoard) (i : Nat) (s : Due) : DueBoard := { b with ch := fun j => if j = i then s else b.ch j }

/-- `PWM_IDR1 = 0x00FFFF0F` disables the PWM interrupts of the channels 0 to 3, src/StepperISR_due.cpp:521-524, 543-544, 550-551, 585-586. -/
def mask (b : DueBoard) : DueBoard :=
  { b with ch := fun j => if (b.chan j).any (fun c => decide (c < 4)) then { b.ch j with irq := false } else b.ch j }

/-- Events. -/
inductive Ev where
  /-- stepperConnectToPin(pin) followed by setDirectionPin(dirPin, hi) -/
  | connect (pin dirPin : Nat) (hi : Bool)
  /-- detachFromPin() of stepper i -/
  | detach (i : Nat)
  /-- reAttachToPin() of stepper i -/
  | reattach (i : Nat)
  /-- the PWM interrupt, with the end of period flags of the channels read by it -/
  | pwm (flags : Nat → Bool)
  /-- all other events of stepper i: pulses with the pin interrupt, phases of addQueueEntry, forceStop -/
  | stepper (i : Nat) (ev : Due.Ev)

/-- One pass of the loop of `PWM_Handler()` for a channel, src/StepperISR_due.cpp:179-302: the flags are not masked with the enabled interrupts. -/
def handle (flags : Nat → Bool) (b : DueBoard) (c : Nat) : DueBoard :=
  if flags c then
    if b.used c then b.setCh (b.map c) (b.ch (b.map c)).period else b
  else b

/-- Is there a reason for a PWM interrupt: a flag of a channel the interrupt of which is enabled. -/
def irqReason (b : DueBoard) (flags : Nat → Bool) : Bool := (List.range 8).any fun c => flags c && (b.used c && (b.ch (b.map c)).irq)

/-- A disabled channel gives neither pulses nor interrupts. -/
def disable (b : DueBoard) (i : Nat) : DueBoard := b.setCh i { b.ch i with attached := false, irq := false }

/-- Executes an event.
* `connect`: `stepperConnectToPin`, src/FastAccelStepper.cpp:67-126 with `isValidStepPin`, `init` and `connect` of src/StepperISR_due.cpp:699-706, 455-528,
  530-587. A stepper with the same pin uses the same channel.
* `detach`: `disconnect()`, lines 589-601.
* `reattach`: `connect()`; `PWMC_ConfigureChannel` disables the channel, which is not enabled again.
* `pwm`: `PWM_Handler()`, lines 169-302, from the highest channel to the lowest; it looks up the queue by the channel. -/
def step (b : DueBoard) : Ev → DueBoard
  | .connect pin dirPin hi =>
    match duePinToChannel pin with
    | none => b
    | some c =>
      if b.used c ∨ b.cnt ≥ 6 then b
      else
        mask { ch := fun j => if j = b.cnt then { Due.init with q := (Queue.init .sam).setDirPin dirPin hi } else b.ch j
               chan := fun j => if j = b.cnt then some c else b.chan j
               used := fun d => if d = c then true else b.used d
               map := fun d => if d = c then b.cnt else b.map d
               cnt := b.cnt + 1 }
  | .detach i => if i < b.cnt then b.disable i else b
  | .reattach i => if i < b.cnt then (b.disable i).mask else b
  | .pwm flags => if b.irqReason flags then [7, 6, 5, 4, 3, 2, 1, 0].foldl (handle flags) b else b
  | .stepper i .period => b
  | .stepper i ev => if i < b.cnt then b.setCh i ((b.ch i).step ev) else b

/-- Executes a schedule. -/
def run (b : DueBoard) (evs : List Ev) : DueBoard := evs.foldl step b

end DueBoard
end FAS
