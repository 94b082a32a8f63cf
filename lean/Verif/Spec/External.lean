import Verif.Spec.Avr

/-!
# Specification of the handshake with an external direction pin

The application owns an external pin: the library calls back with the requested level, and the answer tells if the level has been set.
-/

namespace FAS

/-- What an observer notes: the answer to the last call for the direction pin (`some level` if the callback has confirmed this level, `none`
if it has not), and for each pulse, newest first, the level required for the command in process (`none` if there is none) and the
answer known at this moment. -/
structure ExtLog where
  conf : Option Bool
  pulses : List (Option Bool × Option Bool)
deriving DecidableEq

/-- The level of the direction pin required for the command in process. -/
def Queue.requiredLevel (a : ArchId) (q : Queue) : Option Bool :=
  (Hw.readOut a ⟨q, 0⟩).head?.map fun c => c.countUp == q.dirHighCountsUp

/-- Observation of an event in state `s`. The callback is called in each poll, while the command in process waits for it. -/
def ExtLog.observe (a : ArchId) (l : ExtLog) (s : Avr) : Avr.Ev → ExtLog
  | .extPoll agree =>
    if s.q.dirPin != pinUndefined && pinIsExternal s.q.dirPin && (s.q.slot a s.q.readIdx).repeatEntry then
      { l with conf := if agree then some (s.q.slot a s.q.readIdx).dirPinState else none }
    else l
  | .compare => if s.irq && s.one then { l with pulses := (s.q.requiredLevel a, l.conf) :: l.pulses } else l
  | _ => l

/-- Executes a schedule with its observer. -/
def Avr.watch (a : ArchId) : Avr → ExtLog → List Avr.Ev → Avr × ExtLog
  | s, l, [] => (s, l)
  | s, l, ev :: evs => watch a (s.step a ev) (l.observe a s ev) evs

/-- Schedules considered: as `FastAccelStepper::addQueueEntry` does (see `C16_turns_at_pauses`), a command changing the direction is a pause.
No force stop, and no start of a queue which has become empty in the meantime. -/
def Avr.ExtTurn (s : Avr) : Avr.Ev → Prop
  | .addBegin c _ => c.Valid ∧ (c.countUp ≠ s.q.qend.countUp → c.steps = 0)
  | .addFinish _ => s.q.running = true ∨ s.q.readIdx ≠ s.q.nextWriteIdx
  | .forceStop _ => False
  | _ => True

instance (s : Avr) : DecidablePred s.ExtTurn := fun ev => by
  cases ev <;> unfold Avr.ExtTurn <;> infer_instance

/-- A stepper with external direction pin and nothing to do; the level for the last direction has been confirmed. -/
structure Avr.ExtIdle (a : ArchId) (s : Avr) (l : ExtLog) : Prop where
  idx : s.q.readIdx = s.q.nextWriteIdx ∧ s.q.readIdx < 256
  irq : s.irq = false
  one : s.one = false
  ready : s.q.ready = true
  ign : s.q.ignoreCommands = false
  pc : s.pc = .idle
  pin : pinIsExternal s.q.dirPin = true ∧ s.q.dirPin ≠ pinUndefined
  sync : s.q.qend.dir = (s.q.qend.countUp == s.q.dirHighCountsUp)
  clean : ∀ i, (s.q.slot a i).repeatEntry = false
  conf : l.conf = some s.q.qend.dir
  pulses : l.pulses = []

/-- Each pulse has been emitted for a command and while the level for this command was confirmed. -/
def ExtLog.Confirmed (l : ExtLog) : Prop := ∀ p ∈ l.pulses, ∃ level, p = (some level, some level)

/-- Changes of direction only at pauses: the direction before the commands is `dir`. -/
def TurnsAtPauses : Bool → List Cmd → Prop
  | _, [] => True
  | dir, c :: cs => (c.countUp ≠ dir → c.steps = 0) ∧ TurnsAtPauses c.countUp cs

instance decTurnsAtPauses : ∀ dir cs, Decidable (TurnsAtPauses dir cs)
  | _, [] => isTrue trivial
  | _, c :: cs =>
    have := decTurnsAtPauses c.countUp cs
    inferInstanceAs (Decidable (_ ∧ _))

end FAS
