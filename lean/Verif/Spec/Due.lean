import Verif.Model.Due
import Verif.Spec.Queue
import Verif.Spec.Rmt

/-!
# Specification of the pulses of the SAM Due backend
-/

namespace FAS

/-- The directions of the steps of a list of commands, one after the other. -/
def stepDirs : List Cmd → List (Option Bool)
  | [] => []
  | c :: cs => List.replicate c.steps (some c.countUp) ++ stepDirs cs

/-- A freshly initialised channel with its direction pin. -/
def Due.fresh (pin : Nat) (highCountsUp : Bool) : Due := { Due.init with q := (Queue.init .sam).setDirPin pin highCountsUp }

/-- The commands accepted in one event: in the second phase of addQueueEntry. -/
def Due.accepts (s : Due) : Due.Ev → List Cmd
  | .addCommit =>
    match s.pc with
    | .prepared _ c _ => if s.q.ignoreCommands then [] else [c]
    | _ => []
  | _ => []

/-- Executes a schedule and collects the accepted commands. -/
def Due.track : Due → List Cmd → List Due.Ev → Due × List Cmd
  | s, acc, [] => (s, acc)
  | s, acc, ev :: evs => track (s.step ev) (acc ++ s.accepts ev) evs

/-- A schedule all events of which satisfy a predicate on the state before the event. -/
def Due.Along (P : Due → Due.Ev → Prop) : Due → List Due.Ev → Prop
  | _, [] => True
  | s, ev :: evs => P s ev ∧ Along P (s.step ev) evs

/-- The events considered: commands are representable, no force stop; and the race is excluded, in which the queue processes all commands
including the just added one and stops between the critical section of addQueueEntry and its test of `isRunning()`. -/
def Due.Basic (s : Due) : Due.Ev → Prop
  | .addBegin c _ => c.Valid
  | .addFinish => s.q.running = true ∨ s.q.readIdx ≠ s.q.nextWriteIdx
  | .forceStop _ => False
  | _ => True

/-- Changes of direction, which the interrupts can handle: a command with a direction other than that of the command added before has
steps, and is added while that one is still in the queue and has steps, too. -/
def Due.SafeTurn (s : Due) : Due.Ev → Prop
  | .addCommit =>
    match s.pc with
    | .prepared _ c _ =>
      s.q.dirPin = pinUndefined ∨ (c.countUp == s.q.dirHighCountsUp) = s.q.qend.dir ∨
        (c.steps ≠ 0 ∧ ((Hw.readOut .sam ⟨s.q, 0⟩).getLast?.any fun d => decide (d.steps ≠ 0)) = true)
    | _ => True
  | _ => True

instance (s : Due) : DecidablePred s.Basic := fun ev => by
  cases ev <;> unfold Due.Basic <;> infer_instance

instance (s : Due) : DecidablePred s.SafeTurn := fun ev => by
  cases ev with
  | addCommit => unfold Due.SafeTurn; cases s.pc <;> infer_instance
  | _ => unfold Due.SafeTurn; infer_instance

instance Due.decAlong (P : Due → Due.Ev → Prop) [∀ s, DecidablePred (P s)] :
    ∀ (evs : List Due.Ev) (s : Due), Decidable (Due.Along P s evs)
  | [], _ => isTrue trivial
  | _ :: evs, _ =>
    have := decAlong P evs
    inferInstanceAs (Decidable (_ ∧ _))

/-- A channel without anything to do. -/
structure Due.Idle (s : Due) : Prop where
  idx : s.q.readIdx = s.q.nextWriteIdx ∧ s.q.readIdx < 256
  run : s.q.running = false
  hw : s.attached = false ∧ s.irq = false ∧ s.pause = false
  ready : s.q.ready = true
  ign : s.q.ignoreCommands = false
  pc : s.pc = .idle
  pulses : s.pulses = []
  pin : s.q.dirPin = pinUndefined ∨ pinIsExternal s.q.dirPin = false

/-- `n` times: the peripheral emits a pulse, if it is connected, and reaches the end of the period. -/
def Due.rounds (n : Nat) : List Due.Ev := (List.replicate n [Due.Ev.pulse, Due.Ev.period]).flatten

end FAS
