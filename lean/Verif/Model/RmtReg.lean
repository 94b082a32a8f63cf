import Verif.Model.Rmt

/-!
# One RMT channel with its memory and interrupts, IDF 4

Models src/StepperISR_idf4_esp32_rmt.cpp (ESP32, ESP32S2) and src/StepperISR_idf4_esp32c3_rmt.cpp (C3; identical to src/StepperISR_idf4_esp32s3_rmt.cpp except for register names) down to the words of the RMT memory,
the threshold and end interrupts and the registers of the channel. Model/Rmt.lean leaves these out: there the peripheral asks for the next part, and gets it in time.

Hardware abstraction, from the comments in the source (StepperISR_idf4_esp32_rmt.cpp:8-21, 178-184, 215-240; StepperISR_idf4_esp32c3_rmt.cpp:244-252): the peripheral sends the words of the memory one after the other. The word
`2*PART_SIZE` is the end marker (written as 0 by `startQueue_rmt` and `stop_rmt`). In continuous mode it goes on with the first word, and on the ESP32 raises the end interrupt and sends one tick of low level; otherwise it ends,
and raises the end interrupt. Each word and the end marker increase a counter; if this reaches the limit register, the threshold interrupt is raised, and the counter starts again. A word with
a half of duration 0 would also be an end marker: this is not part of the state machine, C50 shows for which commands none is written. Trace output and test modes are not modelled.
-/

namespace FAS

/-- `mem1`, `mem2`: the two parts of the RMT memory; `has0`, `has1`: `bufferContainsSteps[]`; `stopped`: `_rmtStopped`; `q.running`: `_isRunning`. Registers and hardware: `conti`: `tx_conti_mode`; `lim`: threshold register; `thr`, `fin`:
raw flags of the threshold and the end interrupt; `ena`: both interrupts of the channel are enabled; `sending`: a transmission is in progress; `pos`: the next word to be sent; `cnt`: the counter for the threshold.
`wire`: the levels sent, newest first, each with the level of the direction pin at this time. -/
structure RmtReg where
  q : Queue
  stopped : Bool
  has0 : Bool
  has1 : Bool
  mem1 : List Nat
  mem2 : List Nat
  pc : AddPc
  conti : Bool
  lim : Nat
  thr : Bool
  fin : Bool
  ena : Bool
  sending : Bool
  pos : Nat
  cnt : Nat
  wire : List (Seg × Bool)

namespace RmtReg

/-- Keeps `isReadyForCommands()` up to date: src/StepperISR_idf4_esp32_rmt.cpp:504-509. -/
def sync (s : RmtReg) : RmtReg := { s with q := { s.q with ready := !s.q.running || !s.stopped } }

/-- State after `init_rmt()`, src/StepperISR_idf4_esp32_rmt.cpp:260-317. -/
def init : RmtReg where
  q := Queue.init .esp32
  stopped := true
  has0 := false
  has1 := false
  mem1 := []
  mem2 := []
  pc := .idle
  conti := false
  lim := 0
  thr := false
  fin := false
  ena := false
  sending := false
  pos := 0
  cnt := 0
  wire := []

/-- Writes words from the begin of a part of the memory; the others keep their content. -/
def over (v : RmtVer) (words old : List Nat) : List Nat := (words ++ old.drop words.length).take v.part

/-- The words written by `stop_rmt()`, src/StepperISR_idf4_esp32_rmt.cpp:37-40, StepperISR_idf4_esp32c3_rmt.cpp:65-68. -/
def stopWords (v : RmtVer) : List Nat := List.replicate v.part (0x00010001 * ((3200 + 61) / 62))

/-- `stop_rmt(both)`, src/StepperISR_idf4_esp32_rmt.cpp:24-45, StepperISR_idf4_esp32c3_rmt.cpp:51-74. -/
def stopRmt (v : RmtVer) (both : Bool) (s : RmtReg) : RmtReg :=
  { s with conti := false, mem1 := if both then over v (stopWords v) s.mem1 else s.mem1, mem2 := over v (stopWords v) s.mem2, stopped := true }

/-- Writes one of the two parts, and notes if it contains steps. -/
def put (v : RmtVer) (one : Bool) (words : List Nat) (has : Bool) (s : RmtReg) : RmtReg :=
  if one then { s with mem1 := over v words s.mem1, has0 := has } else { s with mem2 := over v words s.mem2, has1 := has }

/-- `apply_command(q, fill_part_one, data)`, src/StepperISR_idf4_esp32_rmt.cpp:47-198, StepperISR_idf4_esp32c3_rmt.cpp:76-232. -/
def applyCommand (v : RmtVer) (one : Bool) (s : RmtReg) : RmtReg :=
  if s.q.readIdx = s.q.nextWriteIdx then
    if one then put v true (v.emptyPause true) false s else stopRmt v false s
  else
    let e := s.q.slot .esp32 s.q.readIdx
    if e.toggleDir && (if one then s.has1 else s.has0) then put v one v.dirPause false s
    else
      let q1 := Rmt.toggleHead s.q
      let r := if e.steps = 0 then (v.pauseWords e.ticks, 0) else v.stepWords e.steps e.ticks
      let words := if decide (v = .idf4) && !one then Rmt.decLast r.1 else r.1
      put v one words (decide (e.steps ≠ 0)) { s with q := Rmt.finishHead q1 r.2 }

/-- The interrupt service for the channel: `PROCESS_CHANNEL` in `tx_intr_handler()`, src/StepperISR_idf4_esp32_rmt.cpp:219-258, StepperISR_idf4_esp32c3_rmt.cpp:276-320. -/
def isr (v : RmtVer) (s : RmtReg) : RmtReg :=
  let fin := s.fin && s.ena
  let thr := s.thr && s.ena
  let s := { s with fin := s.fin && !fin, thr := s.thr && !thr }
  if v = .idf4 then
    let s :=
      if fin then
        if s.stopped then { s with ena := false, q := { s.q with running := false } } else applyCommand v false s
      else s
    if thr && !s.stopped then { applyCommand v true s with lim := v.part * 2 + 1 } else s
  else
    let s := if fin then { s with ena := false, q := { s.q with running := false } } else s
    if thr then
      if s.lim = v.part + 1 then { applyCommand v false s with lim := v.part } else { applyCommand v true s with lim := v.part + 1 }
    else s

/-- `startQueue_rmt()`, src/StepperISR_idf4_esp32_rmt.cpp:387-497, StepperISR_idf4_esp32c3_rmt.cpp:511-640 with `enable_rmt_interrupts`, lines 37-45. `rmt_tx_stop()` ends a transmission and sets the memory pointer back. -/
def startQueue (v : RmtVer) (s : RmtReg) : RmtReg :=
  let s := { s with
    sending := false, pos := 0, cnt := 0, ena := false, stopped := false, mem1 := Rmt.pattern v 0 s.mem1, mem2 := Rmt.pattern v v.part s.mem2
    q := { s.q with running := true } }
  if s.q.readIdx = s.q.nextWriteIdx then s
  else
    let s := applyCommand v true { s with q := Rmt.toggleHead s.q, has0 := true, has1 := true }
    let s := applyCommand v false s
    if v = .idf4 then { s with lim := v.part + 1, ena := true, stopped := false, conti := true, sending := true }
    else { s with lim := v.part + 2, thr := false, fin := false, ena := true, conti := true, sending := true }

/-- `forceStop_rmt()`, src/StepperISR_idf4_esp32_rmt.cpp:498-503, and the part of `FastAccelStepper::forceStopAndNewPosition` concerning the queue, src/FastAccelStepper.cpp:674-689. -/
def forceStopAndNewPosition (v : RmtVer) (newPos : Int) (s : RmtReg) : RmtReg :=
  let s1 := stopRmt v true { s with q := { s.q with ignoreCommands := true } }
  { s1 with q := { s1.q with readIdx := s1.q.nextWriteIdx, qend := { s1.q.qend with pos := newPos } } }

/-- Levels are sent, with the direction pin as it is. -/
def emit (segs : List Seg) (s : RmtReg) : List (Seg × Bool) := (segs.map fun g => (g, s.q.dirLevel)).reverse ++ s.wire

/-- The peripheral sends the next word, or reaches the end marker. -/
def word (v : RmtVer) (s : RmtReg) : RmtReg :=
  let idle : List Seg := if v = .idf4 then [⟨false, 1⟩] else []
  let s1 :=
    if s.pos < v.part then { s with pos := s.pos + 1, wire := s.emit (rmtDecode (s.mem1.getD s.pos 0)) }
    else if s.pos < 2 * v.part then { s with pos := s.pos + 1, wire := s.emit (rmtDecode (s.mem2.getD (s.pos - v.part) 0)) }
    else if s.conti then { s with pos := 0, fin := s.fin || decide (v = .idf4), wire := s.emit idle }
    else { s with sending := false, fin := true, wire := s.emit idle }
  if s1.cnt + 1 = s1.lim then { s1 with cnt := 0, thr := true } else { s1 with cnt := s1.cnt + 1 }

/-- Events of a schedule. -/
inductive Ev where
  /-- the peripheral sends the next word -/
  | word
  /-- the interrupt is served -/
  | isr
  /-- first phase of addQueueEntry(cmd, start) -/
  | addBegin (c : Cmd) (start : Bool)
  /-- second phase (critical section) -/
  | addCommit
  /-- third phase: eventually start -/
  | addFinish
  /-- addQueueEntry(NULL, true) -/
  | startNull
  /-- forceStopAndNewPosition(pos) -/
  | forceStop (newPos : Int)
  /-- fill_queue with active ramp re-enables the queue, src/FastAccelStepper.cpp:375 -/
  | clearIgnore
  /-- detachFromPin(): `disconnect_rmt()`, src/StepperISR_idf4_esp32_rmt.cpp:376-385, StepperISR_idf4_esp32c3_rmt.cpp:498-509. On C3/S3 and with IDF before 4.4 the pin stays connected. The pin is not modelled. -/
  | detach
deriving DecidableEq

/-- Executes an event. Events which are not possible in the state leave it unchanged. Phases of `addQueueEntry`: src/StepperISR.cpp:8-131, 134-144, 146-151. -/
def step (v : RmtVer) (s : RmtReg) (ev : Ev) : RmtReg :=
  sync <| match ev with
  | .word => if s.sending then word v s else s
  | .isr => isr v s
  | .addBegin c start =>
    match s.pc with
    | .idle =>
      if !s.q.ready then s
      else if s.q.isQueueFull .esp32 then s
      else if Queue.commandRateTicks c < ArchId.esp32.minCmdTicks then s
      else { s with q := (s.q.prepare .esp32 c).1, pc := .prepared (s.q.prepare .esp32 c).2 c start }
    | _ => s
  | .addCommit =>
    match s.pc with
    | .prepared next _ start =>
      let r := s.q.commit next
      { s with q := r.1, pc := if r.2 then .committed start else .idle }
    | _ => s
  | .addFinish =>
    match s.pc with
    | .committed start => if !s.q.running && start then startQueue v { s with pc := .idle } else { s with pc := .idle }
    | _ => s
  | .startNull =>
    match s.pc with
    | .idle => if (s.q.addNull true).start then startQueue v s else s
    | _ => s
  | .forceStop p =>
    match s.pc with
    | .idle => forceStopAndNewPosition v p s
    | _ => s
  | .clearIgnore => { s with q := { s.q with ignoreCommands := false } }
  | .detach => { s with ena := false }

/-- Executes a schedule. -/
def run (v : RmtVer) (s : RmtReg) (evs : List Ev) : RmtReg := evs.foldl (step v) s

end RmtReg
end FAS
