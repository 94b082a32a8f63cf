import Verif.Model.RmtBoard
import Verif.Spec.RmtReg

/-!
# Specification: steppers on the RMT drivers of an ESP32 are independent
-/

namespace FAS
namespace RmtBoard

/-- What stepper `i` is concerned with: its queue and its channel. -/
def channel (c : RmtChip) (b : RmtBoard) (i : Nat) : RmtReg := b.view (c.mcpwm + i)

/-- The events of stepper `i` in a schedule, as seen by a stepper alone: calls of its API, words sent by its channel, and the interrupts. -/
def mine (c : RmtChip) (i : Nat) : RmtBoard → List Ev → List RmtReg.Ev
  | _, [] => []
  | b, ev :: evs =>
    (if i < b.n then
      match ev with
      | .stepper j e => if j = i ∧ apiCall e = true then [e] else []
      | .word ch => if ch = i then [.word] else []
      | .isr => [.isr]
      | .detach j => if j = i then [.detach] else []
      | _ => []
     else []) ++ mine c i (b.step c ev) evs

/-- The step pin, the direction pin and its polarity given to stepper `i` when it was connected. -/
def config (c : RmtChip) (i : Nat) : RmtBoard → List Ev → Nat × Nat × Bool
  | _, [] => (pinUndefined, pinUndefined, true)
  | b, ev :: evs =>
    match ev with
    | .connect pin dirPin hi => if b.n = i ∧ (b.step c ev).n = i + 1 then (pin, dirPin, hi) else config c i (b.step c ev) evs
    | _ => config c i (b.step c ev) evs

/-- Is the step pin of stepper `i` attached after a schedule, if before it was (`a`): only connecting, detaching and reattaching this stepper matters. On C3/S3 the pin stays connected to the channel when it is detached. -/
def attached (c : RmtChip) (i : Nat) : RmtBoard → Bool → List Ev → Bool
  | _, a, [] => a
  | b, a, ev :: evs =>
    attached c i (b.step c ev)
      (match ev with
       | .connect _ _ _ => if b.n = i ∧ (b.step c ev).n = i + 1 then true else a
       | .detach j => if j = i ∧ i < b.n ∧ c.ver = .idf4 then false else a
       | .reattach j => if j = i ∧ i < b.n then true else a
       | _ => a) evs

/-- The code of stepper `i` does not write back an outdated copy of the interrupt enable bits of other channels. -/
def UpToDate (c : RmtChip) (b : RmtBoard) (i : Nat) : Prop := ∀ r ∈ b.copy (c.mcpwm + i), ∀ ch < c.rmt, ch ≠ i → r ch = (b.hw ch).ena

/-- * While the code of a stepper modifies the interrupt enable register, no other stepper modifies it: the copy written back is up to date;
* likewise the interrupt service modifies it without interruption. -/
def Quiet (c : RmtChip) (b : RmtBoard) : Ev → Prop
  | .stepper i _ => b.UpToDate c i
  | .detach i => b.UpToDate c i
  | .connect _ _ _ => b.UpToDate c b.n
  | .isr => ∀ i, i < b.n → (b.hw i).ena = true → (b.hw i).fin = true → b.copy (c.mcpwm + i) = none
  | _ => True

/-- A schedule all events of which satisfy a predicate on the state before the event. -/
def Along (c : RmtChip) (P : RmtBoard → Ev → Prop) : RmtBoard → List Ev → Prop
  | _, [] => True
  | b, ev :: evs => P b ev ∧ Along c P (b.step c ev) evs

instance (c : RmtChip) (b : RmtBoard) (i : Nat) : Decidable (b.UpToDate c i) := inferInstanceAs (Decidable (∀ r ∈ b.copy (c.mcpwm + i), ∀ ch < c.rmt, ch ≠ i → r ch = (b.hw ch).ena))

instance (c : RmtChip) (b : RmtBoard) : DecidablePred (Quiet c b) := fun ev => by
  cases ev <;> unfold Quiet <;> infer_instance

instance decAlong (c : RmtChip) (P : RmtBoard → Ev → Prop) [∀ b, DecidablePred (P b)] : ∀ (evs : List Ev) (b : RmtBoard), Decidable (Along c P b evs)
  | [], _ => isTrue trivial
  | _ :: evs, _ =>
    have := decAlong c P evs
    inferInstanceAs (Decidable (_ ∧ _))

/-- The steppers and the hardware. -/
structure Wired (c : RmtChip) (b : RmtBoard) : Prop where
  /-- at most as many steppers as channels -/
  max : b.n ≤ c.rmt
  /-- no two steppers have the same channel or step pin -/
  channels : ∀ i j, i < b.n → j < b.n → (b.que (c.mcpwm + i)).channel = (b.que (c.mcpwm + j)).channel → i = j
  pins : ∀ i j, i < b.n → j < b.n → (b.que (c.mcpwm + i)).pin = (b.que (c.mcpwm + j)).pin → i = j
  /-- the peripheral is enabled and the interrupt service registered; it processes the channel of the stepper, and takes its queue -/
  service : ∀ i, i < b.n → b.service = true ∧ (b.que (c.mcpwm + i)).channel ∈ processed c ∧ c.mcpwm + (b.que (c.mcpwm + i)).channel = c.mcpwm + i
  /-- the step pin is driven by the channel of the stepper or detached -/
  pin : ∀ i, i < b.n → b.drv (b.que (c.mcpwm + i)).pin = some (b.que (c.mcpwm + i)).channel ∨ b.drv (b.que (c.mcpwm + i)).pin = none
  /-- no other pin is driven -/
  only : ∀ pin ch, b.drv pin = some ch → ∃ i, i < b.n ∧ (b.que (c.mcpwm + i)).pin = pin ∧ (b.que (c.mcpwm + i)).channel = ch

end RmtBoard
end FAS
