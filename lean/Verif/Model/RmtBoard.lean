import Verif.Model.RmtReg

/-!
# Several steppers on the RMT drivers of an ESP32 with IDF 4

Models the assignment of RMT channels to queues, the common interrupt service and the interrupt enable register shared by the channels: src/StepperISR_esp32.cpp:8-45, 63-71,
src/StepperISR_idf4_esp32_rmt.cpp:216-317, 364-385, src/StepperISR_idf4_esp32c3_rmt.cpp:36-50, 273-388, 446-453, 499-509 (S3: the same lines), src/fas_arch/common_esp32_idf4.h:10-66. The code of a queue is that of Model/RmtReg.lean. Here
the hardware is separate from the queues: the code of a queue reaches it by its channel, and the interrupt service finds the queue by the number of the channel.
-/

namespace FAS

/-- The derivates supported with IDF 4, src/fas_arch/common_esp32_idf4.h:10-66. -/
inductive RmtChip where
  | esp32
  | esp32s2
  | esp32s3
  | esp32c3
deriving DecidableEq, Repr

namespace RmtChip

/-- QUEUES_MCPWM_PCNT: the queues before those of the RMT driver. -/
def mcpwm : RmtChip → Nat
  | esp32 => 6
  | esp32s2 => 0
  | esp32s3 => 4
  | esp32c3 => 0

/-- QUEUES_RMT. -/
def rmt : RmtChip → Nat
  | esp32 => 8
  | esp32s2 => 4
  | esp32s3 => 4
  | esp32c3 => 2

/-- The driver. -/
def ver : RmtChip → RmtVer
  | esp32 => .idf4
  | esp32s2 => .idf4
  | esp32s3 => .idf4s
  | esp32c3 => .idf4s

end RmtChip

/-- Memory and registers of one RMT channel, as in `RmtReg`, with the levels sent. -/
structure RmtHw where
  mem1 : List Nat
  mem2 : List Nat
  conti : Bool
  lim : Nat
  thr : Bool
  fin : Bool
  ena : Bool
  sending : Bool
  pos : Nat
  cnt : Nat
  wire : List (Seg × Bool)
deriving DecidableEq

/-- One queue object `fas_queue[k]` of the RMT driver with the phase of `addQueueEntry` in process: `channel` and `pin` are `channel` and `_step_pin`. -/
structure RmtQueue where
  q : Queue
  stopped : Bool
  has0 : Bool
  has1 : Bool
  pc : AddPc
  channel : Nat
  pin : Nat

/-- `que`: `fas_queue[]`; `hw`: the channels; `drv`: the channel connected to a pin; `service`: the peripheral is enabled and the interrupt service registered; `n`: number of connected steppers with this driver.
`copy`: the copy of the interrupt enable register (by channel), which the code of a queue has read in order to modify it. -/
structure RmtBoard where
  que : Nat → RmtQueue
  hw : Nat → RmtHw
  drv : Nat → Option Nat
  service : Bool
  n : Nat
  copy : Nat → Option (Nat → Bool)

namespace RmtBoard

/-- After reset. The memory `junk` of the channels is arbitrary. -/
def init (junk : Nat → List Nat × List Nat) : RmtBoard where
  que _ := ⟨Queue.init .esp32, false, false, false, .idle, 0, pinUndefined⟩
  hw ch := ⟨(junk ch).1, (junk ch).2, false, 0, false, false, false, false, 0, 0, []⟩
  drv _ := none
  service := false
  n := 0
  copy _ := none

/-- The queue `k` with the hardware reached by its channel. -/
def view (b : RmtBoard) (k : Nat) : RmtReg :=
  let u := b.que k
  let h := b.hw u.channel
  ⟨u.q, u.stopped, u.has0, u.has1, h.mem1, h.mem2, u.pc, h.conti, h.lim, h.thr, h.fin, h.ena, h.sending, h.pos, h.cnt, h.wire⟩

/-- Writes it back. -/
def put (b : RmtBoard) (k : Nat) (s : RmtReg) : RmtBoard :=
  let ch := (b.que k).channel
  { b with
    que := fun j => if j = k then { b.que k with q := s.q, stopped := s.stopped, has0 := s.has0, has1 := s.has1, pc := s.pc } else b.que j
    hw := fun c => if c = ch then ⟨s.mem1, s.mem2, s.conti, s.lim, s.thr, s.fin, s.ena, s.sending, s.pos, s.cnt, s.wire⟩ else b.hw c }

/-- The code of queue `k` writes back the interrupt enable register it has copied: the bits of the other channels get the values read. `RMT.int_ena.val |= …` and `&= …`, src/StepperISR_idf4_esp32c3_rmt.cpp:44-49. -/
def flush (b : RmtBoard) (k : Nat) : RmtBoard :=
  { b with
    hw := fun c =>
      match b.copy k with
      | some r => if c ≠ (b.que k).channel then { b.hw c with ena := r c } else b.hw c
      | none => b.hw c
    copy := fun j => if j = k then none else b.copy j }

/-- `connect_rmt()`, src/StepperISR_idf4_esp32_rmt.cpp:364-374, StepperISR_idf4_esp32c3_rmt.cpp:446-453. -/
def wire (b : RmtBoard) (k : Nat) : RmtBoard := { b with drv := fun pin => if pin = (b.que k).pin then some (b.que k).channel else b.drv pin }

/-- `StepperQueue::init()`, src/StepperISR_esp32.cpp:8-22 and `init_rmt()`, src/StepperISR_idf4_esp32_rmt.cpp:260-317, StepperISR_idf4_esp32c3_rmt.cpp:321-388, for the next queue, followed by setDirectionPin(dirPin, hi). Only channel 0 enables the
peripheral and registers the interrupt service. The queues are handed out in their order and never given back (Model/Engine.lean, `firstFree`). -/
def setUp (c : RmtChip) (b : RmtBoard) (pin dirPin : Nat) (hi : Bool) : RmtBoard :=
  let num := c.mcpwm + b.n
  let ch := num - c.mcpwm
  let b1 := { b with
    que := fun j => if j = num then ⟨(Queue.init .esp32).setDirPin dirPin hi, true, false, false, .idle, ch, pin⟩ else b.que j
    hw := fun h => if h = ch then { b.hw ch with ena := false, sending := false } else b.hw h
    service := b.service || decide (ch = 0)
    n := b.n + 1 }
  (b1.wire num).flush num

/-- The queue using a channel. -/
def owner (c : RmtChip) (b : RmtBoard) (ch : Nat) : Option Nat := ((List.range b.n).map (c.mcpwm + ·)).find? fun k => (b.que k).channel == ch

/-- The channels processed by `tx_intr_handler()`, src/StepperISR_idf4_esp32_rmt.cpp:243-258, StepperISR_idf4_esp32c3_rmt.cpp:304-319. -/
def processed (c : RmtChip) : List Nat := [0, 1] ++ (if 4 ≤ c.rmt then [2, 3] else []) ++ (if c.rmt = 8 then [4, 5, 6, 7] else [])

/-- `PROCESS_CHANNEL(ch)`, src/StepperISR_idf4_esp32_rmt.cpp:219-241, StepperISR_idf4_esp32c3_rmt.cpp:273-301, for the queue `fas_queue[QUEUES_MCPWM_PCNT + ch]`. The interrupt status (`mask`) is that of `b0`, at the begin of the
interrupt service. -/
def service1 (c : RmtChip) (b0 b : RmtBoard) (ch : Nat) : RmtBoard :=
  let k := c.mcpwm + ch
  let h := b0.hw ch
  if h.ena && (h.fin || h.thr) then
    let s := RmtReg.step c.ver { b.view k with ena := h.ena } .isr
    let b1 := b.put k { s with ena := (b.view k).ena && s.ena }
    if h.ena && !s.ena then b1.flush k else b1
  else b

/-- Events. -/
inductive Ev where
  /-- stepperConnectToPin(pin) giving a queue of the RMT driver, and setDirectionPin(dirPin, hi) -/
  | connect (pin dirPin : Nat) (hi : Bool)
  /-- detachFromPin() of stepper i -/
  | detach (i : Nat)
  /-- reAttachToPin() of stepper i -/
  | reattach (i : Nat)
  /-- the peripheral sends the next word of channel ch -/
  | word (ch : Nat)
  /-- the interrupt is served -/
  | isr
  /-- the code of stepper i reads the interrupt enable register, in order to modify it -/
  | readEna (i : Nat)
  /-- all other events of stepper i -/
  | stepper (i : Nat) (ev : RmtReg.Ev)
deriving DecidableEq

/-- The events of a stepper which are calls of the API. -/
def apiCall : RmtReg.Ev → Bool
  | .addBegin _ _ | .addCommit | .addFinish | .startNull | .forceStop _ | .clearIgnore => true
  | _ => false

/-- Is the step pin in use by a stepper, src/FastAccelStepper.cpp:75-82. -/
def pinUsed (c : RmtChip) (b : RmtBoard) (pin : Nat) : Bool := (List.range b.n).any fun i => (b.que (c.mcpwm + i)).pin == pin

/-- Executes an event. Steppers are numbered from 0 within the driver.
* `detach`: `disconnect_rmt()`, src/StepperISR_idf4_esp32_rmt.cpp:376-385 (with IDF 4.4), StepperISR_idf4_esp32c3_rmt.cpp:499-509, where the pin stays connected.
* `isr`: `tx_intr_handler()`, src/StepperISR_idf4_esp32_rmt.cpp:243-258, StepperISR_idf4_esp32c3_rmt.cpp:304-319. The interrupt service is one event.
* `readEna`: only on C3/S3 the code modifies the register itself. On ESP32/ESP32S2 it calls functions of the IDF, which are taken as atomic.
* A call of the API: Model/RmtReg.lean. The whole call is executed when the register is written: in `startQueue_rmt()`; the two modifications there are one. -/
def step (c : RmtChip) (b : RmtBoard) : Ev → RmtBoard
  | .connect pin dirPin hi => if b.pinUsed c pin || decide (b.n ≥ c.rmt) then b else b.setUp c pin dirPin hi
  | .detach i =>
    if i < b.n then
      let k := c.mcpwm + i
      let b1 := (b.put k ((b.view k).step c.ver .detach)).flush k
      if c.ver = .idf4 then { b1 with drv := fun pin => if pin = (b.que k).pin then none else b.drv pin } else b1
    else b
  | .reattach i => if i < b.n then b.wire (c.mcpwm + i) else b
  | .word ch =>
    match b.owner c ch with
    | some k => b.put k ((b.view k).step c.ver .word)
    | none => b
  | .isr => if b.service then (processed c).foldl (service1 c b) b else b
  | .readEna i =>
    if c.ver = .idf4s ∧ i < c.rmt then { b with copy := fun j => if j = c.mcpwm + i then some (fun ch => (b.hw ch).ena) else b.copy j } else b
  | .stepper i ev =>
    if i < b.n ∧ apiCall ev = true then
      let k := c.mcpwm + i
      let s := (b.view k).step c.ver ev
      if !(b.view k).q.running && s.q.running then (b.put k s).flush k else b.put k s
    else b

/-- Executes a schedule. -/
def run (c : RmtChip) (b : RmtBoard) (evs : List Ev) : RmtBoard := evs.foldl (step c) b

end RmtBoard
end FAS
