import Verif.Model.EspBoard
import Verif.Spec.Mcpwm

/-!
# Specification: steppers on the MCPWM/PCNT drivers of an ESP32 are independent
-/

namespace FAS
namespace EspBoard
variable {σ : Type} (hw : PcntHw σ)

/-- What stepper `i` is concerned with: its queue, timer and pulse counter, the reset bit of the counter left out. -/
def channel (b : EspBoard σ) (i : Nat) : Mcpwm σ :=
  let s := b.view i
  { q := s.q, prepared := s.prepared, timer := s.timer, run := s.run, period := s.period, shadow := s.shadow, atZero := s.atZero, out := s.out, tea := s.tea, ena := s.ena,
    pcnt := s.pcnt.1, irq := s.irq, snap := s.snap, pc := s.pc, log := s.log }

/-- The events of stepper `i` in a schedule, as seen by a stepper alone: calls of its API, the events of its timer, and the interrupts of its MCPWM unit and of its pulse counter. -/
def mine (m : Nat) (i : Nat) : EspBoard σ → List Ev → List Mcpwm.Ev
  | _, [] => []
  | b, ev :: evs =>
    (if i < b.n then
      match ev with
      | .stepper j e => if j = i ∧ apiCall e = true then [e] else []
      | .zero u t => if u = (mcMap i).unit ∧ t = (mcMap i).timer then [.zero] else []
      | .compare u t => if u = (mcMap i).unit ∧ t = (mcMap i).timer then [.compare] else []
      | .mcpwmIsr u => if u = (mcMap i).unit then [.teaIsr] else []
      | .pcntIsr p => if p = (mcMap i).pcnt then [.pcntIsr] else []
      | _ => []
     else []) ++ mine m i (b.step hw m ev) evs

/-- The direction pin given to stepper `i` after it was connected. -/
def config (m : Nat) (i : Nat) : EspBoard σ → List Ev → Nat × Bool
  | _, [] => (pinUndefined, true)
  | b, ev :: evs =>
    match ev with
    | .connect _ dirPin hi => if b.n = i ∧ (b.step hw m ev).n = i + 1 then (dirPin, hi) else config m i (b.step hw m ev) evs
    | _ => config m i (b.step hw m ev) evs

/-- The step pin given to stepper `i` when it was connected. -/
def stepPin (m : Nat) (i : Nat) : EspBoard σ → List Ev → Nat
  | _, [] => pinUndefined
  | b, ev :: evs =>
    match ev with
    | .connect pin _ _ => if b.n = i ∧ (b.step hw m ev).n = i + 1 then pin else stepPin m i (b.step hw m ev) evs
    | _ => stepPin m i (b.step hw m ev) evs

/-- Is the step pin of stepper `i` attached after a schedule, if before it was (`a`): only connecting, detaching and reattaching this stepper matters. -/
def attached (m : Nat) (i : Nat) : EspBoard σ → Bool → List Ev → Bool
  | _, a, [] => a
  | b, a, ev :: evs =>
    attached m i (b.step hw m ev)
      (match ev with
       | .connect _ _ _ => if b.n = i ∧ (b.step hw m ev).n = i + 1 then true else a
       | .detach j => if j = i ∧ i < b.n then false else a
       | .reattach j => if j = i ∧ i < b.n then true else a
       | _ => a) evs

/-- The code of stepper `i` does not write back an outdated copy of an interrupt enable bit of another timer. -/
def UpToDate (b : EspBoard σ) (i : Nat) : Prop := ∀ r, b.enaCopy i = some r → ∀ t, t < 3 → t ≠ (mcMap i).timer → r t = (b.tim (mcMap i).unit t).ena

/-- * While the code of a stepper modifies the interrupt enable register of its MCPWM unit, no other stepper on this unit modifies it: the copy written back is up to date;
* likewise the interrupt service of the unit modifies it without interruption;
* while a core clears a pulse counter, no other core reads the control register of the pulse counters;
* a stepper runs only with its step pin attached;
* attachToPulseCounter() is called only for pulse counters, which are not used by a connected stepper. -/
def Quiet (b : EspBoard σ) : Ev → Prop
  | .stepper i e => writes e = true → b.UpToDate i
  | .mcpwmIsr u => ∀ i, i < b.n → (mcMap i).unit = u → ((b.tim u (mcMap i).timer).tea && (b.tim u (mcMap i).timer).ena) = true → b.enaCopy i = none
  | .pcntIsr p => ∀ i, i < b.n → (mcMap i).pcnt = p → b.UpToDate i
  | .readCtrl _ during => during = none
  | .compare u t => ∀ i, i < b.n → (mcMap i).unit = u → (mcMap i).timer = t → b.drv (b.que i).pin ≠ none
  | .attachCounter _ unit _ => ∀ i, i < b.n → (mcMap i).pcnt ≠ unit
  | _ => True

/-- A schedule all events of which satisfy a predicate on the state before the event. -/
def Along (m : Nat) (P : EspBoard σ → Ev → Prop) : EspBoard σ → List Ev → Prop
  | _, [] => True
  | b, ev :: evs => P b ev ∧ Along m P (b.step hw m ev) evs

/-- The steppers and the hardware. -/
structure Wired (m : Nat) (b : EspBoard σ) : Prop where
  /-- at most `m` steppers -/
  max : b.n ≤ m
  /-- no two steppers have the same timer of the same MCPWM unit, pulse counter or step pin -/
  timers : ∀ i j, i < b.n → j < b.n → (mcMap i).unit = (mcMap j).unit → (mcMap i).timer = (mcMap j).timer → i = j
  counters : ∀ i j, i < b.n → j < b.n → (mcMap i).pcnt = (mcMap j).pcnt → i = j
  pins : ∀ i j, i < b.n → j < b.n → (b.que i).pin = (b.que j).pin → i = j
  /-- the MCPWM unit is set up, its interrupt service installed, and the interrupt of the timer is delivered to the stepper -/
  unit : ∀ i, i < b.n → b.unitOn (mcMap i).unit = true ∧ ((mcMap i).timer, i) ∈ mcDispatch m (mcMap i).unit
  /-- the interrupt of the pulse counter is delivered to the stepper -/
  counter : ∀ i, i < b.n → b.service = true ∧ b.handler (mcMap i).pcnt = some i
  /-- no stepper gets the interrupt of another pulse counter -/
  handlers : ∀ p i, b.handler p = some i → i < b.n ∧ (mcMap i).pcnt = p
  /-- the step pin is driven by the output of the timer of the stepper or detached -/
  pin : ∀ i, i < b.n → b.drv (b.que i).pin = some ((mcMap i).unit, (mcMap i).timer) ∨ b.drv (b.que i).pin = none
  /-- no other pin is driven -/
  only : ∀ pin u t, b.drv pin = some (u, t) → ∃ i, i < b.n ∧ (b.que i).pin = pin ∧ (mcMap i).unit = u ∧ (mcMap i).timer = t

end EspBoard
end FAS
