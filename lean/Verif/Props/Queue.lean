import Verif.Lemmas.QueueObs

/-!
# Properties C01–C07: the command queue

All theorems quantify over every architecture and every finite history `ops` of operations on a freshly
initialised queue (`Hw.run`), and compare the code's state with the list based specification
`QSpec.run` executing the same history. Histories may contain arbitrarily many operations.
-/

namespace FAS

/-- An example history used to show that the hypotheses are met: two commands up, one down, some progress. -/
def exampleOps : List Hw.Op :=
  [.setDirPin 8 true, .add ⟨5000, 3, true⟩ true, .add ⟨100, 1, true⟩ true, .add ⟨40000, 0, false⟩ true,
   .advance, .advance, .add ⟨6000, 200, false⟩ false, .advance]

theorem exampleOps_valid : ∀ op ∈ exampleOps, op.Valid := by
  simp [exampleOps, Hw.Op.Valid, Cmd.Valid]

/-- **C01** The queue is a bounded FIFO: after every history the ring buffer contains exactly the accepted
and not yet completed commands in order (with the steps still to do), `queueEntries()` is their number and
this number never exceeds QUEUE_LEN. All return codes are those of the list based specification. -/
theorem C01_queue_is_bounded_fifo (a : ArchId) (ops : List Hw.Op) (hv : ∀ op ∈ ops, op.Valid) :
    (Hw.run a (Hw.init a) ops).2 = (QSpec.init.run a ops).2 ∧
    (Hw.run a (Hw.init a) ops).1.readOut a = (QSpec.init.run a ops).1.remaining ∧
    (Hw.run a (Hw.init a) ops).1.q.queueEntries = (QSpec.init.run a ops).1.pend.length ∧
    (Hw.run a (Hw.init a) ops).1.q.queueEntries ≤ a.queueLen := by
  have h := Sim.exec ops (Sim.init a) hv
  exact ⟨h.2, h.1.readOut, h.1.length, h.1.idx.2.2⟩

example : (Hw.run .avr328 (Hw.init .avr328) exampleOps).1.readOut .avr328 =
    [⟨40000, 0, false⟩, ⟨6000, 200, false⟩] ∧
    (Hw.run .avr328 (Hw.init .avr328) exampleOps).2 = [0, 0, -1, 0, 0, 0, 0, 0] := by decide

/-- **C02** Decision table of the low level add, for every queue state and command, and rejection leaves
the complete queue unchanged and starts nothing. -/
theorem C02_add_decision (a : ArchId) (q : Queue) (c : Cmd) (start : Bool) (hc : c.Valid)
    (hq : q.queueEntries ≤ a.queueLen) :
    ((q.add a c start).code = AQE_DEVICE_NOT_READY ↔ q.ready = false) ∧
    ((q.add a c start).code = AQE_QUEUE_FULL ↔ q.ready = true ∧ q.queueEntries = a.queueLen) ∧
    ((q.add a c start).code = AQE_ERROR_TICKS_TOO_LOW ↔
      q.ready = true ∧ q.queueEntries < a.queueLen ∧ c.ticks * max 1 c.steps < a.minCmdTicks) ∧
    ((q.add a c start).code = AQE_OK ↔
      q.ready = true ∧ q.queueEntries < a.queueLen ∧ a.minCmdTicks ≤ c.ticks * max 1 c.steps) ∧
    ((q.add a c start).code ≠ AQE_OK → (q.add a c start).q = q ∧ (q.add a c start).start = false) := by
  have hr : Queue.commandRateTicks c = c.ticks * max 1 c.steps := commandRateTicks_eq c hc
  by_cases h1 : q.ready = false
  · rw [Queue.add_notReady _ _ _ _ h1]
    simp [h1, AQE_OK, AQE_DEVICE_NOT_READY, AQE_QUEUE_FULL, AQE_ERROR_TICKS_TOO_LOW]
  have h1' : q.ready = true := by simpa using h1
  by_cases h2 : q.queueEntries = a.queueLen
  · rw [Queue.add_full _ _ _ _ h1' h2]
    simp [h1', h2, AQE_OK, AQE_DEVICE_NOT_READY, AQE_QUEUE_FULL, AQE_ERROR_TICKS_TOO_LOW]
  have h2' : q.queueEntries < a.queueLen := by omega
  by_cases h3 : Queue.commandRateTicks c < a.minCmdTicks
  · rw [Queue.add_low _ _ _ _ h1' h2 h3]
    rw [hr] at h3
    simp [h1', h2, h2', h3, AQE_OK, AQE_DEVICE_NOT_READY, AQE_QUEUE_FULL, AQE_ERROR_TICKS_TOO_LOW]
    try omega
  · have hcode : (q.add a c start).code = AQE_OK := by
      cases hi : q.ignoreCommands with
      | true => rw [Queue.add_ignored _ _ _ _ h1' h2 h3 hi]
      | false => rw [Queue.add_ok _ _ _ _ h1' h2 h3 hi]
    rw [hcode]
    rw [hr] at h3
    simp [h1', h2, h2', h3, AQE_OK, AQE_DEVICE_NOT_READY, AQE_QUEUE_FULL, AQE_ERROR_TICKS_TOO_LOW]
    omega

/-- **C02** Decision table of starting with a NULL command; the queue content never changes. -/
theorem C02_start_decision (q : Queue) (start : Bool) :
    (q.addNull start).q = q ∧
    ((q.addNull start).code = AQE_ERROR_EMPTY_QUEUE_TO_START ↔
      q.ready = true ∧ start = true ∧ q.running = false ∧ q.readIdx = q.nextWriteIdx) ∧
    ((q.addNull start).start = true ↔
      q.ready = true ∧ start = true ∧ q.running = false ∧ q.readIdx ≠ q.nextWriteIdx) ∧
    ((q.addNull start).code = AQE_DEVICE_NOT_READY ↔ q.ready = false) := by
  unfold Queue.addNull
  cases q.ready <;> cases start <;> cases q.running <;>
    by_cases h : q.nextWriteIdx = q.readIdx <;>
    simp [h, AQE_OK, AQE_DEVICE_NOT_READY, AQE_ERROR_EMPTY_QUEUE_TO_START, eq_comm] <;>
    (intro hh; exact absurd hh.symm (by first | exact h | exact fun e => h e.symm))

/-- the four outcomes do occur -/
example :
    ((Queue.init .avr328).add .avr328 ⟨640, 0, true⟩ true).code = AQE_OK ∧
    ((Queue.init .avr328).add .avr328 ⟨639, 1, true⟩ true).code = AQE_ERROR_TICKS_TOO_LOW ∧
    ({ Queue.init .avr328 with readIdx := 250, nextWriteIdx := 10 }.add .avr328 ⟨640, 1, true⟩ true).code = AQE_QUEUE_FULL ∧
    ({ Queue.init .esp32 with ready := false }.add .esp32 ⟨640, 1, true⟩ true).code = AQE_DEVICE_NOT_READY ∧
    ((Queue.init .avr328).addNull true).code = AQE_ERROR_EMPTY_QUEUE_TO_START := by decide

theorem todo_step (a : ArchId) (h : Hw) (s : QSpec) (hs : Sim a h s) (op : Hw.Op) :
    (s.step a op).1.pos + (s.step a op).1.todo = s.pos + s.todo + s.gain a op := by
  unfold QSpec.gain
  cases op with
  | add c st =>
    simp only [QSpec.step]
    by_cases h1 : s.addCode a c = AQE_OK
    · cases h2 : s.ignore with
      | true => simp [h1, QSpec.todo]
      | false =>
        have := Sim.todo_add (s := { s with running := s.running || st }) c hs.done_nil
        simp only [h1, and_self, if_true]
        rw [show ({ pend := if false = true then s.pend else s.pend ++ [c], done := s.done, pos := s.pos, running := s.running || st, ready := s.ready, ignore := false } : QSpec) = ({ s with pend := s.pend ++ [c], running := s.running || st } : QSpec) by simp [h2]]
        rw [show ({ s with pend := s.pend ++ [c], running := s.running || st } : QSpec).todo = s.todo + c.signed from this]
        omega
    · simp [h1]
  | addNull st => simp only [QSpec.step]; split <;> simp [QSpec.todo]
  | advance =>
    simp only [QSpec.step, QSpec.advance, Int.add_zero]
    cases hp : s.pend with
    | nil => rfl
    | cons c cs =>
      have hrel := hs.rel
      rw [hp] at hrel
      cases hq : h.q.pending a with
      | nil => rw [hq] at hrel; exact hrel.elim
      | cons e es =>
      rw [hq] at hrel
      have hdn := hrel.1.dn
      have htail : ∀ p : Int, ({ s with pend := cs, done := 0, pos := p } : QSpec).todo = signedSum cs := by
        intro p
        unfold QSpec.todo
        cases cs with
        | nil => rfl
        | cons d ds => simp only [signedSum, Cmd.signed]; split <;> omega
      simp only
      by_cases h0 : c.steps = 0
      · simp only [h0, if_true, htail]
        simp only [QSpec.todo, hp]
        split <;> omega
      · simp only [h0, if_false]
        by_cases h1 : s.done + 1 = c.steps
        · simp only [h1, if_true, htail]
          simp only [QSpec.todo, hp]
          split <;> omega
        · simp only [h1, if_false]
          simp only [QSpec.todo, hp]
          split <;> omega
  | dropAll => simp [QSpec.step, QSpec.todo]
  | setRunning b => simp [QSpec.step, QSpec.todo]
  | setReady b => simp [QSpec.step, QSpec.todo]
  | setIgnore b => simp [QSpec.step, QSpec.todo]
  | setDirPin p b => simp [QSpec.step]

theorem todo_run (a : ArchId) : ∀ (ops : List Hw.Op) (h : Hw) (s : QSpec), Sim a h s → (∀ op ∈ ops, op.Valid) →
    (s.run a ops).1.pos + (s.run a ops).1.todo = s.pos + s.todo + s.acceptedSum a ops
  | [], _, _, _, _ => by simp [QSpec.run, QSpec.acceptedSum]
  | op :: ops, h, s, hs, hv => by
    have h1 := todo_step a h s hs op
    have h2 := todo_run a ops _ _ (hs.step op (hv op (by simp))).1 (fun o ho => hv o (by simp [ho]))
    simp only [QSpec.run, QSpec.acceptedSum]
    rw [h2, h1]
    omega

/-- **C03** `getPositionAfterCommandsCompleted()` is the signed sum of the steps of all accepted
commands modulo 2^32 (starting at 0), after every history. -/
theorem C03_position_after_commands (a : ArchId) (ops : List Hw.Op) (hv : ∀ op ∈ ops, op.Valid) :
    (Hw.run a (Hw.init a) ops).1.q.qend.pos = i32 (QSpec.init.acceptedSum a ops) := by
  have h := Sim.exec ops (Sim.init a) hv
  rw [h.1.pos, todo_run a ops _ _ (Sim.init a) hv]
  simp [QSpec.init, QSpec.todo]

example : (Hw.run .sam (Hw.init .sam) exampleOps).1.q.qend.pos = -197 := by decide

/-- **C04** `getCurrentPosition()` is the exact number of signed steps done so far (modulo 2^32), after
every history, for every progress of the command in process. -/
theorem C04_current_position_exact (a : ArchId) (ops : List Hw.Op) (hv : ∀ op ∈ ops, op.Valid) :
    (Hw.run a (Hw.init a) ops).1.q.getCurrentPosition a (Hw.run a (Hw.init a) ops).1.doneP =
      i32 (QSpec.init.run a ops).1.pos :=
  (Sim.exec ops (Sim.init a) hv).1.currentPosition

example : (Hw.run .esp32 (Hw.init .esp32) (exampleOps.take 6)).1.q.getCurrentPosition .esp32
      (Hw.run .esp32 (Hw.init .esp32) (exampleOps.take 6)).1.doneP = 2 ∧
    (QSpec.init.run .esp32 (exampleOps.take 6)).1.pos = 2 := by decide

/-- **C05** `ticksInQueue()` is the documented duration of all pending commands but the one in process. -/
theorem C05_ticks_in_queue (a : ArchId) (ops : List Hw.Op) (hv : ∀ op ∈ ops, op.Valid) :
    (Hw.run a (Hw.init a) ops).1.q.ticksInQueue a = durationSum (QSpec.init.run a ops).1.pend.tail :=
  (Sim.exec ops (Sim.init a) hv).1.ticksInQueue

example : (Hw.run .testPc (Hw.init .testPc) exampleOps).1.q.ticksInQueue .testPc = 1200000 := by decide

/-- **C06** `hasTicksInQueue(n)` holds exactly if a command follows the one in process and the
following commands last at least `n` ticks. -/
theorem C06_has_ticks_in_queue (a : ArchId) (ops : List Hw.Op) (hv : ∀ op ∈ ops, op.Valid) (n : Nat) :
    ((Hw.run a (Hw.init a) ops).1.q.hasTicksInQueue a n = true ↔
      2 ≤ (QSpec.init.run a ops).1.pend.length ∧ n ≤ durationSum (QSpec.init.run a ops).1.pend.tail) ∧
    (0 < n → ((Hw.run a (Hw.init a) ops).1.q.hasTicksInQueue a n = true ↔
      n ≤ (Hw.run a (Hw.init a) ops).1.q.ticksInQueue a)) := by
  have hs := (Sim.exec ops (Sim.init a) hv).1
  refine ⟨hs.hasTicksInQueue n, fun hn => ?_⟩
  rw [hs.hasTicksInQueue n, hs.ticksInQueue]
  constructor
  · exact fun h => h.2
  · intro h
    refine ⟨?_, h⟩
    match hp : (QSpec.init.run a ops).1.pend with
    | [] => rw [hp] at h; simp only [List.tail, durationSum] at h; omega
    | [_] => rw [hp] at h; simp only [List.tail, durationSum] at h; omega
    | _ :: _ :: _ => simp

example : (Hw.run .testPc (Hw.init .testPc) exampleOps).1.q.hasTicksInQueue .testPc 1200000 = true ∧
    (Hw.run .testPc (Hw.init .testPc) exampleOps).1.q.hasTicksInQueue .testPc 1200001 = false := by decide

/-- **C07** The realtime speed query reports: standstill for an empty queue; otherwise ticks and
direction of the command in process, if it has steps; the value is flagged as valid exactly if the
queue is empty, or the command in process has more than one step, or it has one step and a command with
steps follows. -/
theorem C07_realtime_speed (a : ArchId) (ops : List Hw.Op) (hv : ∀ op ∈ ops, op.Valid) :
    (Hw.run a (Hw.init a) ops).1.q.getActualTicksWithDirection a =
      match (QSpec.init.run a ops).1.pend with
      | [] => ⟨true, some 0, none⟩
      | c :: cs =>
        if c.steps = 0 then ⟨false, none, none⟩
        else ⟨decide (1 < c.steps) || (match cs with | [] => false | d :: _ => decide (0 < d.steps)),
              some c.ticks, some c.countUp⟩ :=
  (Sim.exec ops (Sim.init a) hv).1.actual

example : (Hw.run .testPc (Hw.init .testPc) (exampleOps.take 4)).1.q.getActualTicksWithDirection .testPc =
    ⟨true, some 5000, some true⟩ := by decide

end FAS
