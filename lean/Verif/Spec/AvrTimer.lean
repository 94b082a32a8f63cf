import Verif.Model.AvrTimer
import Verif.Spec.Avr

/-!
# Specification: steppers sharing a timer

A stepper does not notice the other ones, if it behaves as it would do alone, given its own step interrupts and
its own API calls.
-/

namespace FAS
namespace AvrTimer

/-- A schedule all events of which satisfy a predicate on the state before the event. -/
def Along (a : ArchId) (P : AvrTimer → Ev → Prop) : AvrTimer → List Ev → Prop
  | _, [] => True
  | m, ev :: evs => P m ev ∧ Along a P (m.step a ev) evs

/-- No call which starts, stops or connects stepper `i` is in progress. -/
def Free (m : AvrTimer) (i : Nat) : Prop := ∀ j, some j ∈ m.stack → j.chan ≠ i

/-- The call of the single stepper model, which an activity completes at the given time. -/
def JobKind.call (now : Nat) : JobKind → List Avr.Ev
  | .addFinish => [.addFinish now]
  | .startNull => [.startNull now]
  | .forceStop p => [.forceStop p]
  | .connect => []

/-- The events of stepper `i` alone, which an event of the system amounts to: its step interrupts, if enabled; its
API calls, and in case of calls which start or stop the queue, when these are complete. -/
def ownEv (a : ArchId) (i : Nat) (m : AvrTimer) : Ev → List Avr.Ev
  | .compare k => if k = i ∧ (m.ch i).irq = true then [.compare] else []
  | .api _ .compare => []
  | .api k ev =>
    if k = i ∧ m.conn i = true ∧ m.stack.head?.map Option.isNone = some true ∧
      (m.step a (.api k ev)).stack.head?.map Option.isNone = some true then [ev] else []
  | .proceed now =>
    match m.stack.head? with
    | some (some j) => if j.chan = i ∧ j.ops = [] then JobKind.call now j.kind else []
    | _ => []
  | _ => []

/-- The schedule of stepper `i` alone. -/
def own (a : ArchId) (i : Nat) : AvrTimer → List Ev → List Avr.Ev
  | _, [] => []
  | m, ev :: evs => ownEv a i m ev ++ own a i (m.step a ev) evs

/-- The condition under which steppers on one timer do not disturb each other:
* between load and store of a register by an activity, the bits of the other steppers in this register do not change;
* the start of a stepper is complete before the compare value, which is put 32768 ticks away, is reached;
* the start, stop or connect of a stepper is not interrupted by calls for the same stepper. -/
def Apart (m : AvrTimer) : Ev → Prop
  | .compare i => ∀ j, some j ∈ m.stack → j.chan = i → j.kind = .addFinish ∨ j.kind = .startNull → j.ops ≠ []
  | .api i _ => m.Free i
  | .proceed _ => ∀ j l op ops, m.stack.head? = some (some j) → j.loaded = some l → j.ops = op :: ops →
      ∀ k, k ≠ j.chan → l.bits k = (m.load op).bits k
  | _ => True

/-- No interrupt between load and store of a register operation: once it has loaded the register, the running context
proceeds with the store. -/
def Undivided (m : AvrTimer) : Ev → Prop
  | .proceed _ => True
  | _ => ∀ j, m.stack.head? = some (some j) → j.loaded = none

/-- The two remaining conditions of `Apart`, which concern one stepper only. -/
def Calm (m : AvrTimer) : Ev → Prop
  | .compare i => ∀ j, some j ∈ m.stack → j.chan = i → j.kind = .addFinish ∨ j.kind = .startNull → j.ops ≠ []
  | .api i _ => m.Free i
  | _ => True

/-- Connects a stepper. -/
def callConnect (i : Nat) : List Ev := .connect i :: List.replicate 9 (.proceed 0)

/-- A call of addQueueEntry without start, or while the queue is running. -/
def callQueue (i : Nat) (c : Cmd) : List Ev := [.api i (.addBegin c true), .api i .addCommit, .api i (.addFinish 0)]

/-- A call of addQueueEntry, which starts the queue, up to the first register operation. -/
def callStart (i : Nat) (c : Cmd) (now : Nat) : List Ev :=
  [.api i (.addBegin c true), .api i .addCommit, .api i (.addFinish now)]

end AvrTimer
end FAS
