import Verif.Model.AvrIsr

/-!
# The ESP32 backends using the RMT peripheral

Models src/StepperISR_idf5_esp32_rmt.cpp, src/StepperISR_idf4_esp32_rmt.cpp and
src/StepperISR_idf4_esp32c3_rmt.cpp (identical to src/StepperISR_idf4_esp32s3_rmt.cpp except for register names).

Hardware abstraction: the peripheral sends 32 bit words, the low 16 bit first; each half is an output level (MSB) and a
duration of 15 bit (src/StepperISR_idf4_esp32_rmt.cpp:19-22). The driver or interrupt asks for the next part of
`PART_SIZE` words as soon as the last but one part has been sent, so that exactly the part filled last is in transmission
or waiting for it. Register accesses, trace output, connecting and disconnecting of the pin are not modelled. That a half
with duration 0 ends the transmission is not part of the state machine.
-/

namespace FAS

/-- One level of the output with its duration in ticks. -/
structure Seg where
  high : Bool
  dur : Nat
deriving DecidableEq, Repr

/-- The two halves of a 32 bit RMT word, low half first, src/StepperISR_idf4_esp32_rmt.cpp:19-22. -/
def rmtDecode (w : Nat) : List Seg :=
  [⟨decide (w / 32768 % 2 = 1), w % 32768⟩, ⟨decide (w / 2147483648 % 2 = 1), w / 65536 % 32768⟩]

/-- The backends: IDF 5 with 64 words (ESP32, S2) or 48 words (S3, C3, C6, H2, P4) of RMT memory
(src/fas_arch/common_esp32_idf5.h:15,35,52,69,83,98), IDF 4 on ESP32/S2 (StepperISR_idf4_esp32_rmt.cpp) and IDF 4 on C3/S3
(StepperISR_idf4_esp32c3_rmt.cpp, StepperISR_idf4_esp32s3_rmt.cpp). -/
inductive RmtVer where
  | idf5
  | idf5s
  | idf4
  | idf4s
deriving DecidableEq, Repr

namespace RmtVer

/-- `PART_SIZE`: src/StepperISR_idf5_esp32_rmt.cpp:8, StepperISR_idf4_esp32_rmt.cpp:22, StepperISR_idf4_esp32c3_rmt.cpp:30. -/
def part : RmtVer → Nat
  | .idf5 => 32
  | .idf5s => 24
  | .idf4 => 31
  | .idf4s => 23

/-- IDF 5 or not. -/
def isIdf5 : RmtVer → Bool
  | .idf5 => true
  | .idf5s => true
  | _ => false

/-- `rmt_entry`, one step in one word: src/StepperISR_idf5_esp32_rmt.cpp:132-136, StepperISR_idf4_esp32_rmt.cpp:147-151.
`ticks_r | 0x8000` sets bit 15. -/
def stepWord (ticks : Nat) : Nat :=
  let l := ticks / 2
  let r := ticks - l
  l * 65536 + (r % 32768 + 32768)

/-- Ticks taken from the last step of a part, in which the remaining words are short pauses:
src/StepperISR_idf5_esp32_rmt.cpp:141-142, StepperISR_idf4_esp32_rmt.cpp:155-156, StepperISR_idf4_esp32c3_rmt.cpp:188-189. -/
def stretch (v : RmtVer) (n : Nat) : Nat :=
  match v with
  | .idf4s => (v.part - n) * 4 + 8
  | _ => (v.part - n) * 4

/-- Last word of a part with short pauses: src/StepperISR_idf5_esp32_rmt.cpp:147, StepperISR_idf4_esp32_rmt.cpp:161,
StepperISR_idf4_esp32c3_rmt.cpp:194. -/
def lastShort : RmtVer → Nat
  | .idf4s => 0x00040004
  | _ => 0x00020002

/-- Encoding of steps, src/StepperISR_idf5_esp32_rmt.cpp:95-166, StepperISR_idf4_esp32_rmt.cpp:111-177,
StepperISR_idf4_esp32c3_rmt.cpp:145-209: the words stored in order (the last one is `last_entry`), and the steps left. -/
def stepWords (v : RmtVer) (steps ticks : Nat) : List Nat × Nat :=
  if ticks = 0xffff then
    if steps < v.part / 2 then
      ((List.replicate (steps - 1) [0x4000ffff, 0x20002000]).flatten ++
        [0x4000ffff, subU32 0x20002000 (u16 ((v.part - 2 * steps) * 32))] ++
        List.replicate (v.part - 1 - 2 * steps) 0x00100010 ++ [0x00100010], 0)
    else
      ((List.replicate (v.part / 2 - 1) [0x4000ffff, 0x20002000]).flatten ++ [0x4000ffff] ++ [0x20002000],
        steps - v.part / 2)
  else if steps < 2 * v.part ∧ steps ≠ v.part then
    let todo := if steps > v.part then steps / 2 else steps
    (List.replicate (todo - 1) (stepWord ticks) ++ [subU32 (stepWord ticks) (v.stretch todo * 65536)] ++
      List.replicate (v.part - 1 - todo) 0x00020002 ++ [v.lastShort], steps - todo)
  else (List.replicate (v.part - 1) (stepWord ticks) ++ [stepWord ticks], steps - v.part)

/-- `ENTER_PAUSE(ticks)`, src/StepperISR_idf5_esp32_rmt.cpp:18-30: the first `PART_SIZE-1` words and the value assigned to
`last_entry` (before the conversion to its type). -/
def enterPause (v : RmtVer) (ticks : Nat) : List Nat × Nat :=
  let half := ticks / (2 * v.part)
  let rem := ticks - 2 * (v.part - 1) * half
  let first := rem / 2
  (List.replicate (v.part - 1) (0x00010001 * half), 0x00010000 * first + (rem - first))

/-- Encoding of a pause, src/StepperISR_idf5_esp32_rmt.cpp:90-92, StepperISR_idf4_esp32_rmt.cpp:98-108 (30 words with 3 ticks
first), StepperISR_idf4_esp32c3_rmt.cpp:128-141. -/
def pauseWords (v : RmtVer) (ticks : Nat) : List Nat :=
  match v with
  | .idf4 =>
    let t := ticks - 3 * (v.part - 1)
    List.replicate (v.part - 1) 0x00010002 ++ [t / 2 * 65536 + (t - t / 2)]
  | .idf4s =>
    let t := ticks - ((v.part - 2) * 4 + 8)
    [t / 2 * 65536 + (t - t / 2)] ++ List.replicate (v.part - 2) 0x00020002 ++ [0x00040004]
  | _ => (v.enterPause ticks).1 ++ [u32 (v.enterPause ticks).2]

/-- The pause inserted before the direction pin is changed, src/StepperISR_idf5_esp32_rmt.cpp:69-75 (with `uint16_t last_entry`),
StepperISR_idf4_esp32_rmt.cpp:77-81, StepperISR_idf4_esp32c3_rmt.cpp:106-112. -/
def dirPause (v : RmtVer) : List Nat :=
  match v with
  | .idf4 => List.replicate v.part (0x00010001 * ((3200 + 61) / 62))
  | .idf4s => List.replicate v.part (0x00010001 * ((3200 + 2 * v.part - 1) / (2 * v.part)))
  | _ => (v.enterPause 3200).1 ++ [u16 (v.enterPause 3200).2]

/-- The pause sent if the queue is empty, src/StepperISR_idf5_esp32_rmt.cpp:55-60 (with `uint16_t last_entry`),
StepperISR_idf4_esp32_rmt.cpp:57-64 with stop_rmt 37-40, StepperISR_idf4_esp32c3_rmt.cpp:86-95 with stop_rmt 65-71. -/
def emptyPause (v : RmtVer) (partOne : Bool) : List Nat :=
  match v with
  | .idf4 => List.replicate v.part (if partOne then 0x01020102 else 0x00010001 * ((3200 + 61) / 62))
  | .idf4s => List.replicate v.part (if partOne then 0x00010001 * (16000 / 2 / v.part) else 0x00010001 * ((3200 + 61) / 62))
  | _ => (v.enterPause 3200).1 ++ [u16 (v.enterPause 3200).2]

end RmtVer

/-- A part handed over to the peripheral: the levels it sends, the level of the direction pin after the call, whether it is
the first part after `startQueue()`, and the direction of the command it belongs to (if any). -/
structure Chunk where
  segs : List Seg
  level : Bool
  first : Bool
  up : Option Bool
deriving DecidableEq, Repr

/-- State of one RMT channel. `q.running` is `_isRunning`, `stopped` is `_rmtStopped`, `lastSteps` is `lastChunkContainsSteps` (IDF 5,
src/StepperISR.h:52) or `bufferContainsSteps[…]` of the part filled last (IDF 4), `prevSteps` is `bufferContainsSteps[…]` of the
other part, `partOne` tells which part is filled next and
`mem1`, `mem2` are the two parts of the RMT memory (IDF 4). `tx` tells that a transmission is in
progress, `starting` marks a transmission of which no part has been filled yet, and
`out` is the log of the parts, newest first. -/
structure Rmt where
  q : Queue
  stopped : Bool
  lastSteps : Bool
  prevSteps : Bool
  partOne : Bool
  mem1 : List Nat
  mem2 : List Nat
  pc : AddPc
  tx : Bool
  starting : Bool
  out : List Chunk

namespace Rmt

/-- Keeps `isReadyForCommands()` up to date: src/StepperISR_idf5_esp32_rmt.cpp:343-348, StepperISR_idf4_esp32_rmt.cpp:504-509. -/
def sync (s : Rmt) : Rmt := { s with q := { s.q with ready := !s.q.running || !s.stopped } }

/-- State after `init_rmt()`, src/StepperISR_idf5_esp32_rmt.cpp:189-226, StepperISR_idf4_esp32_rmt.cpp:260-317. -/
def init : Rmt where
  q := Queue.init .esp32
  stopped := true
  lastSteps := false
  prevSteps := false
  partOne := true
  mem1 := []
  mem2 := []
  pc := .idle
  tx := false
  starting := false
  out := []

/-- Hands a part over to the peripheral. On IDF 4 the words are written in the memory of this part, words not written keep their
content (src/StepperISR_idf4_esp32_rmt.cpp:50-52,186), and with `idle` the hardware sends one more tick of low level at the end of the
memory (src/StepperISR_idf4_esp32_rmt.cpp:178-184). -/
def send (v : RmtVer) (s : Rmt) (words : List Nat) (idle : Bool) (up : Option Bool) : Rmt :=
  let words := if v.isIdf5 then words else (words ++ (if s.partOne then s.mem1 else s.mem2).drop words.length).take v.part
  { s with
    partOne := !s.partOne
    mem1 := if s.partOne then words else s.mem1
    mem2 := if s.partOne then s.mem2 else words
    starting := false
    out := ⟨words.flatMap rmtDecode ++ (if idle then [⟨false, 1⟩] else []), s.q.dirLevel, s.starting, up⟩ :: s.out }

/-- `last_entry -= 1` in the second part on IDF 4, src/StepperISR_idf4_esp32_rmt.cpp:177-185. -/
def decLast (words : List Nat) : List Nat :=
  match words.getLast? with
  | none => words
  | some w => words.dropLast ++ [subU32 w 1]

/-- Toggles the direction pin, if the command requests it, and deletes the request: src/StepperISR_idf5_esp32_rmt.cpp:77-82,
StepperISR_idf4_esp32_rmt.cpp:84-89. -/
def toggleHead (q : Queue) : Queue :=
  let i := q.readIdx % ArchId.esp32.queueLen
  let e := q.entry i
  if e.toggleDir then
    { q with
      dirLevel := !q.dirLevel
      entry := fun j => if j = i then { e with toggleDir := false } else q.entry j }
  else q

/-- End of the call: the command is completed, or its remaining steps are stored: src/StepperISR_idf5_esp32_rmt.cpp:176-184,
StepperISR_idf4_esp32_rmt.cpp:188-197. -/
def finishHead (q : Queue) (rest : Nat) : Queue :=
  let i := q.readIdx % ArchId.esp32.queueLen
  let e := q.entry i
  if rest = 0 then (if e.repeatEntry then q else q.complete)
  else { q with entry := fun j => if j = i then { e with steps := rest } else q.entry j }

/-- The peripheral asks for the next part: `encode_commands()`, src/StepperISR_idf5_esp32_rmt.cpp:32-187, and `apply_command()`,
src/StepperISR_idf4_esp32_rmt.cpp:48-198 with the interrupt 219-240, StepperISR_idf4_esp32c3_rmt.cpp:76-232. The interrupt of the C3
calls `apply_command()` in stopped state, too: the queue is then empty, and a pause is written. It is sent if the stop came from `startQueue_rmt()`, which
switches the continuous mode on again (StepperISR_idf4_esp32c3_rmt.cpp:629-631); Model/RmtReg.lean tells when. -/
def fill (v : RmtVer) (s : Rmt) : Rmt :=
  if s.stopped && decide (v ≠ .idf4s) then s
  else if s.q.readIdx = s.q.nextWriteIdx then
    let s1 := s.send v (v.emptyPause s.partOne) (decide (v = .idf4) && !s.partOne) none
    { s1 with
      stopped := if v.isIdf5 then true else s.stopped || !s.partOne
      lastSteps := if v.isIdf5 then s.lastSteps else !s.partOne && s.prevSteps
      prevSteps := s.lastSteps }
  else
    let e := s.q.slot .esp32 s.q.readIdx
    if e.toggleDir && s.lastSteps then
      { s.send v v.dirPause (decide (v = .idf4) && !s.partOne) none with lastSteps := false, prevSteps := s.lastSteps }
    else
      let q1 := toggleHead s.q
      let r := if e.steps = 0 then (v.pauseWords e.ticks, 0) else v.stepWords e.steps e.ticks
      let idle := decide (v = .idf4) && !s.partOne
      let s1 := { s with q := q1 }.send v (if idle then decLast r.1 else r.1) idle (some e.countUp)
      { s1 with q := finishHead q1 r.2, lastSteps := decide (e.steps ≠ 0), prevSteps := s.lastSteps }

/-- The debug pattern in the memory at start, src/StepperISR_idf4_esp32_rmt.cpp:413-417; the C3 keeps the old content
(StepperISR_idf4_esp32c3_rmt.cpp:543-551). -/
def pattern (v : RmtVer) (start : Nat) (old : List Nat) : List Nat :=
  match v with
  | .idf4 => (List.range v.part).map fun i => if (start + i) % 2 = 0 then 0x0fff8fff else 0x7fff8fff
  | _ => old

/-- `startQueue_rmt()`, src/StepperISR_idf5_esp32_rmt.cpp:257-333, StepperISR_idf4_esp32_rmt.cpp:387-497. On IDF 4 both parts are
filled here; if the queue is empty, IDF 4 has set the running state before it returns without starting a transmission, IDF 5 has not. A stop
caused by the second part is undone on the ESP32 (line 491), not on the C3 (StepperISR_idf4_esp32c3_rmt.cpp:606-640). -/
def startQueue (v : RmtVer) (s : Rmt) : Rmt :=
  if s.q.readIdx = s.q.nextWriteIdx then
    if v.isIdf5 then s
    else { s with q := { s.q with running := true }, stopped := false, mem1 := pattern v 0 s.mem1, mem2 := pattern v v.part s.mem2 }
  else
    let s1 := { s with q := { toggleHead s.q with running := true }, stopped := false, tx := true, starting := true, partOne := true }
    if v.isIdf5 then { s1 with lastSteps := false }
    else
      let s2 := fill v { s1 with mem1 := pattern v 0 s.mem1, mem2 := pattern v v.part s.mem2, lastSteps := true, prevSteps := true }
      let s3 := fill v s2
      { s3 with stopped := decide (v = .idf4s) && s3.stopped }

/-- `forceStop_rmt()`, src/StepperISR_idf5_esp32_rmt.cpp:334-342, StepperISR_idf4_esp32_rmt.cpp:498-503: on IDF 4 the state stays
"running" until the interrupt at the end of the transmission. -/
def forceStop (v : RmtVer) (s : Rmt) : Rmt :=
  { s with
    stopped := true
    tx := if v.isIdf5 then false else s.tx
    q := { s.q with running := if v.isIdf5 then false else s.q.running, readIdx := s.q.nextWriteIdx } }

/-- Part of `FastAccelStepper::forceStopAndNewPosition` concerning the queue, src/FastAccelStepper.cpp:674-689. -/
def forceStopAndNewPosition (v : RmtVer) (newPos : Int) (s : Rmt) : Rmt :=
  let s1 := forceStop v { s with q := { s.q with ignoreCommands := true } }
  { s1 with q := { s1.q with qend := { s1.q.qend with pos := newPos } } }

/-- Events of a schedule. -/
inductive Ev where
  /-- the peripheral needs the next part -/
  | fill
  /-- the transmission has ended -/
  | txDone
  /-- first phase of addQueueEntry(cmd, start) -/
  | addBegin (c : Cmd) (start : Bool)
  /-- second phase (critical section) -/
  | addCommit
  /-- third phase: eventually start -/
  | addFinish
  /-- addQueueEntry(NULL, true) -/
  | startNull
  /-- forceStopAndNewPosition(pos) -/
  | forceStop (newPos : Int)
  /-- fill_queue with active ramp re-enables the queue, src/FastAccelStepper.cpp:375 -/
  | clearIgnore

/-- Executes an event. Events which are not possible in the state leave it unchanged. `txDone`: `queue_done()`,
src/StepperISR_idf5_esp32_rmt.cpp:10-16, and the end interrupt, src/StepperISR_idf4_esp32_rmt.cpp:220-227; both only occur in a transmission. Phases of
`addQueueEntry`: src/StepperISR.cpp:8-131, 134-144, 146-151. -/
def step (v : RmtVer) (s : Rmt) (ev : Ev) : Rmt :=
  sync <| match ev with
  | .fill => if s.tx then fill v s else s
  | .txDone => if s.tx && s.stopped then { s with tx := false, q := { s.q with running := false } } else s
  | .addBegin c start =>
    match s.pc with
    | .idle =>
      if !s.q.ready then s
      else if s.q.isQueueFull .esp32 then s
      else if Queue.commandRateTicks c < ArchId.esp32.minCmdTicks then s
      else { s with q := (s.q.prepare .esp32 c).1, pc := .prepared (s.q.prepare .esp32 c).2 c start }
    | _ => s
  | .addCommit =>
    match s.pc with
    | .prepared next _ start =>
      let r := s.q.commit next
      { s with q := r.1, pc := if r.2 then .committed start else .idle }
    | _ => s
  | .addFinish =>
    match s.pc with
    | .committed start => if !s.q.running && start then startQueue v { s with pc := .idle } else { s with pc := .idle }
    | _ => s
  | .startNull =>
    match s.pc with
    | .idle => if (s.q.addNull true).start then startQueue v s else s
    | _ => s
  | .forceStop p =>
    match s.pc with
    | .idle => forceStopAndNewPosition v p s
    | _ => s
  | .clearIgnore => { s with q := { s.q with ignoreCommands := false } }

/-- `getCurrentPosition()`, src/StepperISR.cpp:153-236, with `_getPerformedPulses_rmt()`, which always gives 0 (src/StepperISR_idf5_esp32_rmt.cpp:349, StepperISR_idf4_esp32_rmt.cpp:510,
StepperISR_idf4_esp32c3_rmt.cpp:653): therefore the second critical section (state `t`) is always entered; the end position is taken from the first one (state `s`). -/
def position (s t : Rmt) : Int := Queue.getCurrentPosition .esp32 { t.q with qend := { t.q.qend with pos := s.q.qend.pos } } 0

/-- Executes a schedule. -/
def run (v : RmtVer) (s : Rmt) (evs : List Ev) : Rmt := evs.foldl (step v) s

end Rmt
end FAS
