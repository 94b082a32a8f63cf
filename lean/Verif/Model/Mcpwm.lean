import Verif.Model.AvrIsr

/-!
# The MCPWM/PCNT backend of the ESP32 (IDF 4)

Models src/StepperISR_idf4_esp32_mcpwm_pcnt.cpp for one channel together with the phases of `addQueueEntry`.

Hardware abstraction:
* The timer counts from 0 up to the period and down to 0 again. Its position is one of `stopped`, `low` (value 0 or 1, compare event not
  yet passed) and `high`. The compare event at value 1 (`tea`) sets the raw interrupt flag and drives the step pin high, if so
  configured; the pin is driven low at half of the period. At value 0 (`tez`) the timer stops, if so configured, and takes over the period.
* The pulse counter is an arbitrary automaton `PcntHw`: the code writes and reads back the limit, clears the counter, reads the counter;
  pulses are counted and eventually cause the interrupt. The rising edge and its counting are one event.
* An interrupt service routine is one event. It runs at any time after its cause. Its race with a pulse is in `adjust`.
* The interrupt enable register is shared by the three channels of a MCPWM unit, and is updated by read-modify-write: `otherRead`
  and `otherWrite` are the two parts of such an update by another channel.

`connect()`/`disconnect()` and the pin set-up are not modelled.
-/

namespace FAS

/-- `uint16_t` difference, src/StepperISR_idf4_esp32_mcpwm_pcnt.cpp:176,184. -/
def subU16 (a b : Nat) : Nat := (a + 65536 - b % 65536) % 65536

/-- The pulse counter as seen by the code: `cnt_h_lim` is written (`setLim`, lines 101, 198, 213) and read (`lim`, line 157), the counter is cleared
(`clear`, lines 107-109) and read (`cnt`, lines 176, 184, 208, 568), and counts pulses (`count`; the flag tells, if the interrupt is caused). All lines
of src/StepperISR_idf4_esp32_mcpwm_pcnt.cpp. -/
structure PcntHw (σ : Type) where
  setLim : Nat → σ → σ
  lim : σ → Nat
  clear : σ → σ
  cnt : σ → Nat
  count : σ → σ × Bool

/-- State of `shadowPcnt`: the counter, the limit written and the limit in use. -/
structure ShadowPcnt where
  val : Nat
  reg : Nat
  act : Nat
deriving DecidableEq, Repr

/-- A pulse counter as the comments of the code describe it ("is updated only on zero", src/StepperISR_idf4_esp32_mcpwm_pcnt.cpp:99,195): the limit
written is taken over when the counter is cleared or has reached the limit in use. Reading back the limit gives the one in use. -/
def shadowPcnt : PcntHw ShadowPcnt where
  setLim := fun n p => { p with reg := n }
  lim := fun p => p.act
  clear := fun p => { p with val := 0, act := p.reg }
  cnt := fun p => p.val
  count := fun p => if p.val + 1 = p.act then (⟨0, p.reg, p.reg⟩, true) else ({ p with val := p.val + 1 }, false)

/-- Position of the timer: `mcpwm->timer[timer].status.value`, src/StepperISR_idf4_esp32_mcpwm_pcnt.cpp:126, 550. -/
inductive McTimer where
  | stopped
  | low
  | high
deriving DecidableEq, Repr

/-- One period of the timer, noted at the compare event: its duration, whether there is a pulse, the level of the direction pin and the direction of
the command in process (if any). -/
structure Cycle where
  ticks : Nat
  pulse : Bool
  level : Bool
  up : Option Bool
deriving DecidableEq, Repr

/-- State of one channel. `q.running` is `_isRunning`, `prepared` is `_nextCommandIsPrepared` (src/StepperISR.h:59-60). `run`: the timer is in mode
"run continuous" (`mode.start`), `period`/`shadow`/`atZero`: period in use, period written, `upmethod`; `out`: output high at the compare event (`utea = 2`),
`tea`: raw flag of the compare event, `ena`: its interrupt enable bit, `pcnt`: the pulse counter, `irq`: its interrupt is pending, `snap`: the copy of `ena` held by
the update of another channel. `log`: the periods, newest first. -/
structure Mcpwm (σ : Type) where
  q : Queue
  prepared : Bool
  timer : McTimer
  run : Bool
  period : Nat
  shadow : Nat
  atZero : Bool
  out : Bool
  tea : Bool
  ena : Bool
  pcnt : σ
  irq : Bool
  snap : Option Bool
  pc : AddPc
  log : List Cycle

namespace Mcpwm
variable {σ : Type} (hw : PcntHw σ)

/-- State after `init_mcpwm_pcnt()`, src/StepperISR_idf4_esp32_mcpwm_pcnt.cpp:347-477. `p` is the state of the pulse counter before. -/
def init (p : σ) : Mcpwm σ where
  q := Queue.init .esp32
  prepared := false
  timer := .stopped
  run := false
  period := 400
  shadow := 400
  atZero := true
  out := false
  tea := false
  ena := false
  pcnt := hw.clear (hw.setLim 1 p)
  irq := false
  snap := none
  pc := .idle
  log := []

/-- Keeps `isReadyForCommands()` up to date: src/StepperISR_idf4_esp32_mcpwm_pcnt.cpp:542-564. -/
def sync (s : Mcpwm σ) : Mcpwm σ := { s with q := { s.q with ready := s.q.running || decide (s.timer ≠ .high) } }

/-- `prepare_for_next_command()`, src/StepperISR_idf4_esp32_mcpwm_pcnt.cpp:91-105. -/
def prepareNext (e : Entry) (p : σ) : σ := if e.steps > 0 then hw.setLim e.steps p else p

/-- The pulse counter, the raw flag of the compare event and the pulse counter interrupt, as seen by `adjust`. -/
structure Adj (σ : Type) where
  p : σ
  tea : Bool
  irq : Bool

/-- A pulse arrives before the access number `k`, if it is the one chosen in `arr`. -/
def arrive (arr : Option Nat) (k : Nat) (s : Adj σ) : Adj σ :=
  if arr = some k then { p := (hw.count s.p).1, tea := true, irq := s.irq || (hw.count s.p).2 } else s

/-- The branch of `apply_command()` which corrects the limit, src/StepperISR_idf4_esp32_mcpwm_pcnt.cpp:163-227, access by access. `arr` tells before which access to
the hardware a pulse arrives (`none`: no pulse arrives). The second component is `disable_mcpwm_interrupt`. -/
def adjust (steps : Nat) (arr : Option Nat) (s : Adj σ) : Adj σ × Bool :=
  let s := arrive hw arr 0 s
  let val1 := subU16 steps (hw.cnt s.p)
  let s := arrive hw arr 1 s
  let s := { s with tea := false }
  let s := arrive hw arr 2 s
  let val2 := subU16 steps (hw.cnt s.p)
  let s := if val1 ≠ val2 then { s with tea := false } else s
  let s := arrive hw arr 3 s
  let s := { s with p := hw.setLim val2 s.p }
  let s := arrive hw arr 4 s
  let s := { s with p := hw.clear s.p }
  let s := arrive hw arr 5 s
  if s.tea = true ∧ hw.cnt s.p = 0 then
    let s := { s with p := hw.setLim (subU16 val2 1) s.p }
    ({ s with p := hw.clear s.p }, decide (val2 > 0))
  else (s, true)

/-- `apply_command()`, src/StepperISR_idf4_esp32_mcpwm_pcnt.cpp:111-243, without a pulse in between. -/
def apply (s : Mcpwm σ) (e : Entry) : Mcpwm σ :=
  let s : Mcpwm σ :=
    { s with
      q := if e.toggleDir then { s.q with dirLevel := !s.q.dirLevel } else s.q
      atZero := decide (s.timer = .high)
      shadow := e.ticks
      period := if s.timer = .high then s.period else e.ticks }
  if e.steps = 0 then { s with out := false, tea := false, ena := true }
  else if hw.lim s.pcnt ≠ e.steps then
    let r := adjust hw e.steps none ⟨s.pcnt, s.tea, s.irq⟩
    { s with pcnt := r.1.p, tea := r.1.tea, irq := r.1.irq, ena := s.ena && !r.2, out := true }
  else { s with ena := false, out := true }

/-- `init_stop()`, src/StepperISR_idf4_esp32_mcpwm_pcnt.cpp:245-262. -/
def initStop (s : Mcpwm σ) : Mcpwm σ := { s with run := false, ena := false, q := { s.q with running := false } }

/-- `what_is_next()`, src/StepperISR_idf4_esp32_mcpwm_pcnt.cpp:264-302. -/
def whatIsNext (s : Mcpwm σ) : Mcpwm σ :=
  let isPrepared := s.prepared
  let s := { s with prepared := false }
  if s.q.readIdx = s.q.nextWriteIdx then initStop s
  else
    let rep := (s.q.slot .esp32 s.q.readIdx).repeatEntry
    let s := if rep then s else { s with q := s.q.complete }
    if s.q.readIdx = s.q.nextWriteIdx then initStop s
    else
      let e := s.q.slot .esp32 s.q.readIdx
      let s := if isPrepared then s else { s with pcnt := hw.clear (prepareNext hw e s.pcnt) }
      let s := apply hw s e
      if rep then s
      else if u8 (s.q.readIdx + 1) = s.q.nextWriteIdx then s
      else { s with prepared := true, pcnt := prepareNext hw (s.q.slot .esp32 (u8 (s.q.readIdx + 1))) s.pcnt }

/-- The compare event of the timer, set up in src/StepperISR_idf4_esp32_mcpwm_pcnt.cpp:441-470. -/
def compare (s : Mcpwm σ) : Mcpwm σ :=
  let up := if s.q.readIdx = s.q.nextWriteIdx then none else some (s.q.slot .esp32 s.q.readIdx).countUp
  let s := { s with timer := .high, tea := true, log := ⟨s.period, s.out, s.q.dirLevel, up⟩ :: s.log }
  if s.out then { s with pcnt := (hw.count s.pcnt).1, irq := s.irq || (hw.count s.pcnt).2 } else s

/-- The timer reaches zero: lines 129, 251 and 531 of src/StepperISR_idf4_esp32_mcpwm_pcnt.cpp. -/
def zero (s : Mcpwm σ) : Mcpwm σ :=
  { s with timer := if s.run then .low else .stopped, period := if s.atZero then s.shadow else s.period }

/-- `startQueue_mcpwm_pcnt()`, src/StepperISR_idf4_esp32_mcpwm_pcnt.cpp:511-537. -/
def startQueue (s : Mcpwm σ) : Mcpwm σ :=
  let s := { s with pcnt := hw.clear s.pcnt, prepared := false, q := { s.q with running := true } }
  let s := apply hw s (s.q.slot .esp32 s.q.readIdx)
  { s with run := true, timer := if s.timer = .stopped then .low else s.timer }

/-- `forceStop_mcpwm_pcnt()`, src/StepperISR_idf4_esp32_mcpwm_pcnt.cpp:538-541. -/
def forceStop (s : Mcpwm σ) : Mcpwm σ :=
  let s := initStop s
  { s with q := { s.q with readIdx := s.q.nextWriteIdx } }

/-- Part of `FastAccelStepper::forceStopAndNewPosition` concerning the queue, src/FastAccelStepper.cpp:674-689. -/
def forceStopAndNewPosition (newPos : Int) (s : Mcpwm σ) : Mcpwm σ :=
  let s1 := forceStop { s with q := { s.q with ignoreCommands := true } }
  { s1 with q := { s1.q with qend := { s1.q.qend with pos := newPos } } }

/-- Events of a schedule. -/
inductive Ev where
  /-- the timer reaches zero -/
  | zero
  /-- the timer reaches the compare value -/
  | compare
  /-- interrupt service of the pulse counter, lines 304-307 -/
  | pcntIsr
  /-- interrupt service of the timer, lines 309-345 -/
  | teaIsr
  /-- another channel of the same MCPWM unit reads the interrupt enable register, in order to modify it -/
  | otherRead
  /-- it writes the register -/
  | otherWrite
  /-- first phase of addQueueEntry(cmd, start) -/
  | addBegin (c : Cmd) (start : Bool)
  /-- second phase (critical section) -/
  | addCommit
  /-- third phase: eventually start -/
  | addFinish
  /-- addQueueEntry(NULL, true) -/
  | startNull
  /-- forceStopAndNewPosition(pos) -/
  | forceStop (newPos : Int)
  /-- fill_queue with active ramp re-enables the queue, src/FastAccelStepper.cpp:375 -/
  | clearIgnore
deriving DecidableEq

/-- Executes an event. Events which are not possible in the state leave it unchanged. Interrupt services:
src/StepperISR_idf4_esp32_mcpwm_pcnt.cpp:304-345. Phases of `addQueueEntry`: src/StepperISR.cpp:8-131, 134-144, 146-151. -/
def step (s : Mcpwm σ) (ev : Ev) : Mcpwm σ :=
  sync <| match ev with
  | .zero => if s.timer = .high then zero s else s
  | .compare => if s.timer = .low then compare hw s else s
  | .pcntIsr => if s.irq then whatIsNext hw { s with irq := false } else s
  | .teaIsr => if s.tea && s.ena then whatIsNext hw s else s
  | .otherRead => { s with snap := some s.ena }
  | .otherWrite => { s with ena := s.snap.getD s.ena, snap := none }
  | .addBegin c start =>
    match s.pc with
    | .idle =>
      if !s.q.ready then s
      else if s.q.isQueueFull .esp32 then s
      else if Queue.commandRateTicks c < ArchId.esp32.minCmdTicks then s
      else { s with q := (s.q.prepare .esp32 c).1, pc := .prepared (s.q.prepare .esp32 c).2 c start }
    | _ => s
  | .addCommit =>
    match s.pc with
    | .prepared next _ start =>
      let r := s.q.commit next
      { s with q := r.1, pc := if r.2 then .committed start else .idle }
    | _ => s
  | .addFinish =>
    match s.pc with
    | .committed start => if !s.q.running && start then startQueue hw { s with pc := .idle } else { s with pc := .idle }
    | _ => s
  | .startNull =>
    match s.pc with
    | .idle => if (s.q.addNull true).start then startQueue hw s else s
    | _ => s
  | .forceStop p =>
    match s.pc with
    | .idle => forceStopAndNewPosition p s
    | _ => s
  | .clearIgnore => { s with q := { s.q with ignoreCommands := false } }

/-- `getCurrentPosition()`, src/StepperISR.cpp:153-236, with `_getPerformedPulses_mcpwm_pcnt()` (src/StepperISR_idf4_esp32_mcpwm_pcnt.cpp:565-572): `s` is the state in the first critical section,
`t` the one in the second (src/StepperISR.cpp:173-184), which is entered if no pulse has been counted. The end position is not read again. -/
def position (s t : Mcpwm σ) : Int :=
  if hw.cnt s.pcnt = 0 then Queue.getCurrentPosition .esp32 { t.q with qend := { t.q.qend with pos := s.q.qend.pos } } (hw.cnt t.pcnt)
  else s.q.getCurrentPosition .esp32 (hw.cnt s.pcnt)

/-- Executes a schedule. -/
def exec (s : Mcpwm σ) (evs : List Ev) : Mcpwm σ := evs.foldl (step hw) s

end Mcpwm
end FAS
