import Verif.Model.Mcpwm

/-!
# Several steppers on the MCPWM/PCNT drivers of an ESP32

Models the assignment of MCPWM timers, outputs, pulse counters and interrupts to the queues and the registers shared by them:
src/StepperISR_idf4_esp32_mcpwm_pcnt.cpp:10-89, 304-509 and src/StepperISR_esp32.cpp:8-44. The code of a queue is the one of Model/Mcpwm.lean. Here the hardware is separate from the
queues: the code of a queue reaches it by its mapping, a pulse reaches the step pin and the pulse counters by the GPIO matrix, and an interrupt reaches the queue found by the interrupt service.
-/

namespace FAS

/-- `struct mapping_s`, src/StepperISR_idf4_esp32_mcpwm_pcnt.cpp:15-24: MCPWM unit, timer (with its operator and interrupt flag), output (of this operator), pulse counter and input signal (of this pulse counter). -/
structure McMap where
  unit : Nat
  timer : Nat
  output : Nat
  pcnt : Nat
  input : Nat
deriving DecidableEq, Repr

/-- `channel2mapping[]`, src/StepperISR_idf4_esp32_mcpwm_pcnt.cpp:26-89. -/
def mcMap : Nat → McMap
  | 0 => ⟨0, 0, 0, 0, 0⟩
  | 1 => ⟨0, 1, 1, 1, 1⟩
  | 2 => ⟨0, 2, 2, 2, 2⟩
  | 3 => ⟨1, 0, 0, 3, 3⟩
  | 4 => ⟨1, 1, 1, 4, 4⟩
  | _ => ⟨1, 2, 2, 5, 5⟩

/-- `mcpwm0_isr_service()` and `mcpwm1_isr_service()`, src/StepperISR_idf4_esp32_mcpwm_pcnt.cpp:331-345: the timers tested with the number of the queue called. `m` is QUEUES_MCPWM_PCNT: 6, or 4 on ESP32S3. -/
def mcDispatch (m unit : Nat) : List (Nat × Nat) :=
  if unit = 0 then [(0, 0), (1, 1), (2, 2)]
  else if m = 4 then [(0, 3)]
  else [(0, 3), (1, 4), (2, 5)]

/-- A pulse counter with its reset bit in the control register PCNT_CTRL_REG shared by all counters. `isr_pcnt_counter_clear` sets and clears the bit,
src/StepperISR_idf4_esp32_mcpwm_pcnt.cpp:107-109. With the bit set, no pulse is counted. -/
def resettable {σ : Type} (hw : PcntHw σ) : PcntHw (σ × Bool) where
  setLim n p := (hw.setLim n p.1, p.2)
  lim p := hw.lim p.1
  clear p := (hw.clear p.1, false)
  cnt p := hw.cnt p.1
  count p := if p.2 then (p, false) else (((hw.count p.1).1, false), (hw.count p.1).2)

/-- The reset bit is written: with the bit set the counter is cleared. -/
def writeReset {σ : Type} (hw : PcntHw σ) (bit : Bool) (p : σ × Bool) : σ × Bool := if bit then (hw.clear p.1, true) else (p.1, false)

/-- One MCPWM timer with its operator and the interrupt flag and enable bit of it: as in `Mcpwm`, Model/Mcpwm.lean. -/
structure EspTimer where
  timer : McTimer
  run : Bool
  period : Nat
  shadow : Nat
  atZero : Bool
  out : Bool
  tea : Bool
  ena : Bool
deriving DecidableEq, Repr

/-- One queue object `fas_queue[i]` with the phase of `addQueueEntry` in process, its step pin (`_step_pin`), and the periods output at this pin. -/
structure EspQueue where
  q : Queue
  prepared : Bool
  pc : AddPc
  pin : Nat
  log : List Cycle

/-- `que`: `fas_queue[]`; `tim`: the timers by unit and number; `cnt`, `thr`, `irq`: the pulse counters, their interrupt enable (`thr_h_lim_en`) and pending interrupts. `drv`: the MCPWM output (unit, number)
connected to a pin; `sig`: the pin connected to the input of a pulse counter; `handler`: the queue given to `pcnt_isr_handler_add` for a counter; `unitOn`: the MCPWM unit is set up and its interrupt service registered;
`service`: the interrupt service of the pulse counters is installed. `n`: number of connected steppers. `enaCopy`/`ctrlCopy`: the copy of the interrupt enable register of its MCPWM unit
(by timer) or of PCNT_CTRL_REG (reset bits by counter), which the code of a queue has read in order to modify it. -/
structure EspBoard (σ : Type) where
  que : Nat → EspQueue
  tim : Nat → Nat → EspTimer
  cnt : Nat → σ × Bool
  thr : Nat → Bool
  irq : Nat → Bool
  drv : Nat → Option (Nat × Nat)
  sig : Nat → Option Nat
  handler : Nat → Option Nat
  unitOn : Nat → Bool
  service : Bool
  n : Nat
  enaCopy : Nat → Option (Nat → Bool)
  ctrlCopy : Nat → Option (Nat → Bool)

namespace EspBoard
variable {σ : Type} (hw : PcntHw σ)

/-- After reset. The pulse counters `junk` are arbitrary. -/
def init (junk : Nat → σ) : EspBoard σ where
  que _ := ⟨Queue.init .esp32, false, .idle, pinUndefined, []⟩
  tim _ _ := ⟨.stopped, false, 400, 400, true, false, false, false⟩
  cnt p := (junk p, false)
  thr _ := false
  irq _ := false
  drv _ := none
  sig _ := none
  handler _ := none
  unitOn _ := false
  service := false
  n := 0
  enaCopy _ := none
  ctrlCopy _ := none

/-- The queue `i` with the hardware reached by its mapping (`driver_data`, src/StepperISR_idf4_esp32_mcpwm_pcnt.cpp:115-120, 249-252, 355-356, 516-519). -/
def view (b : EspBoard σ) (i : Nat) : Mcpwm (σ × Bool) :=
  let m := mcMap i
  let t := b.tim m.unit m.timer
  Mcpwm.sync
    { q := (b.que i).q, prepared := (b.que i).prepared, timer := t.timer, run := t.run, period := t.period, shadow := t.shadow, atZero := t.atZero, out := t.out,
      tea := t.tea, ena := t.ena, pcnt := b.cnt m.pcnt, irq := b.irq m.pcnt, snap := none, pc := (b.que i).pc, log := (b.que i).log }

/-- Writes it back. -/
def put (b : EspBoard σ) (i : Nat) (s : Mcpwm (σ × Bool)) : EspBoard σ :=
  let m := mcMap i
  { b with
    que := fun j => if j = i then { b.que i with q := s.q, prepared := s.prepared, pc := s.pc, log := s.log } else b.que j
    tim := fun u t => if u = m.unit ∧ t = m.timer then ⟨s.timer, s.run, s.period, s.shadow, s.atZero, s.out, s.tea, s.ena⟩ else b.tim u t
    cnt := fun p => if p = m.pcnt then s.pcnt else b.cnt p
    irq := fun p => if p = m.pcnt then s.irq else b.irq p }

/-- The code of queue `i` writes back the registers it has copied: the bits of all others get the values read. `mcpwm->int_ena.val |= …` and `&= …`, src/StepperISR_idf4_esp32_mcpwm_pcnt.cpp:154, 231, 259;
REG_SET_BIT and REG_CLR_BIT, lines 107-109. -/
def flush (b : EspBoard σ) (i : Nat) : EspBoard σ :=
  let m := mcMap i
  { b with
    tim := fun u t =>
      match b.enaCopy i with
      | some r => if u = m.unit ∧ t ≠ m.timer ∧ t < 3 then { b.tim u t with ena := r t } else b.tim u t
      | none => b.tim u t
    cnt := fun p =>
      match b.ctrlCopy i with
      | some r => if p ≠ m.pcnt then writeReset hw (r p) (b.cnt p) else b.cnt p
      | none => b.cnt p
    enaCopy := fun j => if j = i then none else b.enaCopy j
    ctrlCopy := fun j => if j = i then none else b.ctrlCopy j }

/-- Runs code of queue `i` which ends with writing the shared registers. -/
def code (b : EspBoard σ) (i : Nat) (f : Mcpwm (σ × Bool) → Mcpwm (σ × Bool)) : EspBoard σ := flush hw (b.put i (f (b.view i))) i

/-- Are the pulses of output `o` of unit `u` counted by the pulse counter `p`? -/
def counted (b : EspBoard σ) (u o p : Nat) : Bool := (b.sig p).any fun pin => b.drv pin == some (u, o)

/-- The compare event of a timer: the output of its operator goes high, if so configured. The pulse counters with this signal count. The period is noted for the queues with the step pin driven by the output.
Cf. `Mcpwm.compare`. -/
def compare (b : EspBoard σ) (u t : Nat) : EspBoard σ :=
  let h := b.tim u t
  { b with
    tim := fun u' t' => if u' = u ∧ t' = t then { h with timer := .high, tea := true } else b.tim u' t'
    cnt := fun p => if h.out && b.counted u t p then ((resettable hw).count (b.cnt p)).1 else b.cnt p
    irq := fun p => if h.out && b.counted u t p then b.irq p || (((resettable hw).count (b.cnt p)).2 && b.thr p) else b.irq p
    que := fun i =>
      if i < b.n ∧ b.drv (b.que i).pin = some (u, t) then
        let q := (b.que i).q
        { b.que i with log := ⟨h.period, h.out, q.dirLevel, if q.readIdx = q.nextWriteIdx then none else some (q.slot .esp32 q.readIdx).countUp⟩ :: (b.que i).log }
      else b.que i }

/-- The timer reaches zero, cf. `Mcpwm.zero`. -/
def zero (b : EspBoard σ) (u t : Nat) : EspBoard σ :=
  let h := b.tim u t
  { b with
    tim := fun u' t' =>
      if u' = u ∧ t' = t then { h with timer := if h.run then .low else .stopped, period := if h.atZero then h.shadow else h.period } else b.tim u' t' }

/-- `connect_mcpwm_pcnt()`, src/StepperISR_idf4_esp32_mcpwm_pcnt.cpp:479-487. -/
def wire (b : EspBoard σ) (i : Nat) : EspBoard σ :=
  let m := mcMap i
  { b with
    drv := fun pin => if pin = (b.que i).pin then some (m.unit, m.output) else b.drv pin
    sig := fun p => if p = m.input then some (b.que i).pin else b.sig p }

/-- `init_mcpwm_pcnt()` for the next queue, src/StepperISR_idf4_esp32_mcpwm_pcnt.cpp:347-477, followed by setDirectionPin(dirPin, hi). Line 396-401: only channel 0 installs the interrupt service of the pulse counters.
Lines 404-434: only timer 0 sets up the unit, and disables all its interrupts. -/
def setUp (b : EspBoard σ) (pin dirPin : Nat) (hi : Bool) : EspBoard σ :=
  let i := b.n
  let m := mcMap i
  wire
    { b with
      que := fun j => if j = i then ⟨(Queue.init .esp32).setDirPin dirPin hi, false, .idle, pin, []⟩ else b.que j
      tim := fun u t =>
        if u = m.unit ∧ t = m.timer then ⟨.stopped, false, 400, 400, true, false, false, (b.tim u t).ena && decide (m.timer ≠ 0)⟩
        else if u = m.unit ∧ m.timer = 0 then { b.tim u t with ena := false }
        else b.tim u t
      cnt := fun p => if p = m.pcnt then (resettable hw).clear ((resettable hw).setLim 1 (b.cnt p)) else b.cnt p
      thr := fun p => if p = m.pcnt then true else b.thr p
      irq := fun p => if p = m.pcnt then false else b.irq p
      handler := fun p => if p = m.pcnt then some i else b.handler p
      unitOn := fun u => if u = m.unit ∧ m.timer = 0 then true else b.unitOn u
      service := b.service || decide (i = 0)
      n := i + 1 }
    i

/-- Events. -/
inductive Ev where
  /-- stepperConnectToPin(pin) giving a queue of the MCPWM/PCNT driver, and setDirectionPin(dirPin, hi) -/
  | connect (pin dirPin : Nat) (hi : Bool)
  /-- detachFromPin() of stepper i -/
  | detach (i : Nat)
  /-- reAttachToPin() of stepper i -/
  | reattach (i : Nat)
  /-- attachToPulseCounter(unit, low, high) of stepper i -/
  | attachCounter (i unit : Nat) (high : Nat)
  /-- timer t of unit u reaches zero -/
  | zero (u t : Nat)
  /-- timer t of unit u reaches the compare value -/
  | compare (u t : Nat)
  /-- the interrupt of MCPWM unit u is served -/
  | mcpwmIsr (u : Nat)
  /-- the interrupt of pulse counter p is served -/
  | pcntIsr (p : Nat)
  /-- the code of stepper i reads the interrupt enable register of its MCPWM unit, in order to modify it -/
  | readEna (i : Nat)
  /-- the code of stepper i reads the control register of the pulse counters, in order to modify it. `during`: another core is just clearing this counter, and has set its reset bit -/
  | readCtrl (i : Nat) (during : Option Nat)
  /-- all other events of stepper i -/
  | stepper (i : Nat) (ev : Mcpwm.Ev)

/-- The events of a stepper which are calls of the API, and may write the registers. -/
def apiCall : Mcpwm.Ev → Bool
  | .addBegin _ _ | .addCommit | .addFinish | .startNull | .forceStop _ | .clearIgnore => true
  | _ => false

/-- Calls which start or stop the queue: the registers are written. -/
def writes : Mcpwm.Ev → Bool
  | .addFinish | .startNull | .forceStop _ => true
  | _ => false

/-- Is the step pin in use by a stepper, src/FastAccelStepper.cpp:75-82. -/
def pinUsed (b : EspBoard σ) (pin : Nat) : Bool := (List.range b.n).any fun i => (b.que i).pin == pin

/-- One test of the interrupt service of an MCPWM unit, `MCPWM_SERVICE`, src/StepperISR_idf4_esp32_mcpwm_pcnt.cpp:309-329. -/
def service1 (u : Nat) (b : EspBoard σ) (tk : Nat × Nat) : EspBoard σ :=
  if (b.tim u tk.1).tea && (b.tim u tk.1).ena then b.code hw tk.2 (Mcpwm.whatIsNext (resettable hw)) else b

/-- Executes an event. `m` is QUEUES_MCPWM_PCNT.
* `connect`: `stepperConnectToPin`, src/FastAccelStepper.cpp:67-126, and `StepperQueue::init`, src/StepperISR_esp32.cpp:8-22. The queues are handed out in their order and never given back (Model/Engine.lean,
  `firstFree`). Steppers of the RMT driver are not modelled here.
* `detach`: `disconnect_mcpwm_pcnt()`, src/StepperISR_idf4_esp32_mcpwm_pcnt.cpp:489-494.
* `attachCounter`: src/FastAccelStepper_idf4_esp32_pcnt.cpp:22-79; 8 counters, on ESP32S3 4 (src/fas_arch/common_esp32_idf4.h:12,44).
* `mcpwmIsr`: src/StepperISR_idf4_esp32_mcpwm_pcnt.cpp:331-345; `pcntIsr`: lines 304-307. An interrupt service is one event. There are two MCPWM units.
* A call of the API: Model/Mcpwm.lean. The whole call is executed when the registers are written. -/
def step (m : Nat) (b : EspBoard σ) : Ev → EspBoard σ
  | .connect pin dirPin hi => if b.pinUsed pin || decide (b.n ≥ m) then b else setUp hw b pin dirPin hi
  | .detach i => if i < b.n then { b with drv := fun pin => if pin = (b.que i).pin then none else b.drv pin } else b
  | .reattach i => if i < b.n then b.wire i else b
  | .attachCounter i unit high =>
    if i < b.n ∧ unit < (if m = 4 then 4 else 8) then
      { b with
        sig := fun p => if p = unit then some (b.que i).pin else b.sig p
        thr := fun p => if p = unit then false else b.thr p
        cnt := fun p => if p = unit then (resettable hw).clear ((resettable hw).setLim high (b.cnt p)) else b.cnt p }
    else b
  | .zero u t => if b.unitOn u && decide ((b.tim u t).timer = .high) then b.zero u t else b
  | .compare u t => if b.unitOn u && decide ((b.tim u t).timer = .low) then b.compare hw u t else b
  | .mcpwmIsr u => if decide (u < 2) && b.unitOn u then (mcDispatch m u).foldl (service1 hw u) b else b
  | .pcntIsr p =>
    if b.service && b.irq p then
      let b := { b with irq := fun p' => if p' = p then false else b.irq p' }
      match b.handler p with
      | some k => b.code hw k (Mcpwm.whatIsNext (resettable hw))
      | none => b
    else b
  | .readEna i => if i < b.n then { b with enaCopy := fun j => if j = i then some (fun t => (b.tim (mcMap i).unit t).ena) else b.enaCopy j } else b
  | .readCtrl i during =>
    if i < b.n then
      { b with ctrlCopy := fun j => if j = i then some (fun p => (b.cnt p).2 || decide (during = some p)) else b.ctrlCopy j }
    else b
  | .stepper i ev =>
    if i < b.n ∧ apiCall ev = true then
      if writes ev then b.code hw i (fun s => s.step (resettable hw) ev) else b.put i ((b.view i).step (resettable hw) ev)
    else b

/-- Executes a schedule. -/
def run (m : Nat) (b : EspBoard σ) (evs : List Ev) : EspBoard σ := evs.foldl (step hw m) b

end EspBoard
end FAS
