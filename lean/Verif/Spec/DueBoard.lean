import Verif.Model.DueBoard
import Verif.Spec.Due

/-!
# Specification: steppers on the same board are independent
-/

namespace FAS
namespace DueBoard

/-- The events of stepper `i` in a schedule, as seen by a stepper alone on the board: its own ones, and the PWM interrupts of its channel. -/
def mine (i : Nat) : DueBoard → List Ev → List Due.Ev
  | _, [] => []
  | b, ev :: evs =>
    (match ev with
     | .stepper j e => if j = i ∧ i < b.cnt ∧ e ≠ .period then [e] else []
     | .pwm flags => if i < b.cnt ∧ (b.chan i).any flags = true then [.period] else []
     | _ => []) ++ mine i (b.step ev) evs

/-- The direction pin given to stepper `i` after it was connected. -/
def config (i : Nat) : DueBoard → List Ev → Nat × Bool
  | _, [] => (pinUndefined, true)
  | b, ev :: evs =>
    match ev with
    | .connect _ dirPin hi => if b.cnt = i ∧ (b.step ev).cnt = i + 1 then (dirPin, hi) else config i (b.step ev) evs
    | _ => config i (b.step ev) evs

/-- No stepper on a step pin of the PWM channels 0 to 3 processes a pause. -/
def NoPause (b : DueBoard) : Prop := ∀ j, j < b.cnt → (b.chan j).any (fun c => decide (c < 4)) = true → (b.ch j).irq = false

/-- * A stepper is connected or reattached only while no stepper on a step pin of the PWM channels 0 to 3 processes a pause;
* a stepper is detached or reattached only, when it neither emits pulses nor processes a pause;
* a channel does not keep the flag of an old pause which was ended by forceStop. -/
def Quiet (b : DueBoard) : Ev → Prop
  | .connect _ _ _ => b.NoPause
  | .reattach i => b.NoPause ∧ (b.ch i).attached = false ∧ (b.ch i).irq = false
  | .detach i => (b.ch i).attached = false ∧ (b.ch i).irq = false
  | .pwm flags => ∀ j, j < b.cnt → (b.chan j).any flags = true →
      (b.ch j).irq = true ∨ (b.ch j).pause = false ∨ (b.ch j).q.readIdx = (b.ch j).q.nextWriteIdx
  | .stepper _ _ => True

/-- A schedule all events of which satisfy a predicate on the state before the event. -/
def Along (P : DueBoard → Ev → Prop) : DueBoard → List Ev → Prop
  | _, [] => True
  | b, ev :: evs => P b ev ∧ Along P (b.step ev) evs

/-- The steppers and their channels. -/
structure Wired (b : DueBoard) : Prop where
  /-- each connected stepper has a channel, and PWM interrupts of this channel are delivered to it -/
  own : ∀ i, i < b.cnt → ∃ c, c < 8 ∧ b.chan i = some c ∧ b.used c = true ∧ b.map c = i
  /-- no channel has two steppers -/
  uniq : ∀ i j, i < b.cnt → j < b.cnt → b.chan i = b.chan j → i = j
  /-- interrupts of channels in use are delivered to connected steppers -/
  only : ∀ c, b.used c = true → b.map c < b.cnt ∧ b.chan (b.map c) = some c
  /-- at most six steppers -/
  max : b.cnt ≤ 6

end DueBoard
end FAS
