import Verif.Model.Queue

/-!
# Specification of the command queue

A stepper queue as a user understands it: a list of commands, the head being in process with the number
of steps already done, plus the position the motor has really reached (an unbounded integer).
No ring buffer, no 8 or 16 bit quantities.
-/

namespace FAS

/-- Signed number of steps of a command. -/
def Cmd.signed (c : Cmd) : Int := if c.countUp then (c.steps : Int) else -(c.steps : Int)

/-- Signed number of steps of a list of commands. -/
def signedSum : List Cmd → Int
  | [] => 0
  | c :: cs => c.signed + signedSum cs

/-- Documented duration of a command: `ticks` per step, a pause lasts `ticks`. -/
def Cmd.duration (c : Cmd) : Nat := c.ticks * max 1 c.steps

/-- Documented duration of a list of commands. -/
def durationSum : List Cmd → Nat
  | [] => 0
  | c :: cs => c.duration + durationSum cs

structure QSpec where
  /-- commands accepted and not completed, exactly as they were accepted; the head is in process -/
  pend : List Cmd
  /-- number of steps of the head which are already done -/
  done : Nat
  /-- start position plus signed number of steps done. Dropped commands (`dropAll`) count as done: the
  library then reports the position the motor would have reached; `forceStopAndNewPosition` overwrites it. -/
  pos : Int
  running : Bool
  ready : Bool
  ignore : Bool

namespace QSpec

/-- Return code for a command. -/
def addCode (a : ArchId) (s : QSpec) (c : Cmd) : Int :=
  if s.ready = false then AQE_DEVICE_NOT_READY
  else if s.pend.length ≥ a.queueLen then AQE_QUEUE_FULL
  else if c.duration < a.minCmdTicks then AQE_ERROR_TICKS_TOO_LOW
  else AQE_OK

/-- Return code for a NULL command. -/
def nullCode (s : QSpec) (start : Bool) : Int :=
  if s.ready = false then AQE_DEVICE_NOT_READY
  else if start = true ∧ s.running = false ∧ s.pend = [] then AQE_ERROR_EMPTY_QUEUE_TO_START
  else AQE_OK

/-- One unit of progress: a pause ends, or one step is done; the command is completed with its last
step. -/
def advance (s : QSpec) : QSpec :=
  match s.pend with
  | [] => s
  | c :: cs =>
    let d : Int := if c.countUp then 1 else -1
    if c.steps = 0 then { s with pend := cs, done := 0 }
    else if s.done + 1 = c.steps then { s with pend := cs, done := 0, pos := s.pos + d }
    else { s with done := s.done + 1, pos := s.pos + d }

/-- Steps of the pending commands which are still to be done, signed. -/
def todo (s : QSpec) : Int :=
  match s.pend with
  | [] => 0
  | c :: cs => (if c.countUp then ((c.steps : Int) - s.done) else -((c.steps : Int) - s.done)) + signedSum cs

def step (a : ArchId) (s : QSpec) : Hw.Op → QSpec × Int
  | .add c start =>
    let code := s.addCode a c
    if code = AQE_OK then
      ({ s with pend := if s.ignore then s.pend else s.pend ++ [c], running := s.running || start }, code)
    else (s, code)
  | .addNull start =>
    let code := s.nullCode start
    if code = AQE_OK then ({ s with running := s.running || start }, code) else (s, code)
  | .advance => (s.advance, 0)
  | .dropAll => ({ s with pend := [], done := 0, running := false, pos := s.pos + s.todo }, 0)
  | .setRunning b => ({ s with running := b }, 0)
  | .setReady b => ({ s with ready := b }, 0)
  | .setIgnore b => ({ s with ignore := b }, 0)
  | .setDirPin _ _ => (s, 0)

def run (a : ArchId) : QSpec → List Hw.Op → QSpec × List Int
  | s, [] => (s, [])
  | s, op :: ops =>
    let r := step a s op
    let r' := run a r.1 ops
    (r'.1, r.2 :: r'.2)

def init : QSpec := { pend := [], done := 0, pos := 0, running := false, ready := true, ignore := false }

end QSpec

/-- The pending commands with the steps still to be done. -/
def QSpec.remaining (s : QSpec) : List Cmd :=
  match s.pend with
  | [] => []
  | c :: cs => { c with steps := c.steps - s.done } :: cs

/-- Signed steps an operation adds to the queue: those of an accepted (and not ignored) command. -/
def QSpec.gain (a : ArchId) (s : QSpec) : Hw.Op → Int
  | .add c _ => if s.addCode a c = AQE_OK ∧ s.ignore = false then c.signed else 0
  | _ => 0

/-- Signed sum of the steps of all commands of a history which are accepted (and not ignored). -/
def QSpec.acceptedSum (a : ArchId) : QSpec → List Hw.Op → Int
  | _, [] => 0
  | s, op :: ops => s.gain a op + acceptedSum a (s.step a op).1 ops

/-- What is stored in the ring buffer, oldest first: the entries at `read_idx`, `read_idx + 1`, … up to the
write index, as commands with the steps still to be done. -/
def Hw.readOut (a : ArchId) (h : Hw) : List Cmd :=
  (List.range h.q.queueEntries).map fun k =>
    let e := h.q.entry ((h.q.readIdx + k) % 256 % a.queueLen)
    { ticks := e.ticks, steps := if k = 0 then e.steps - h.doneP else e.steps, countUp := e.countUp }

/-- All commands of a history are representable. -/
def Hw.Op.Valid : Hw.Op → Prop
  | .add c _ => c.Valid
  | _ => True

end FAS
