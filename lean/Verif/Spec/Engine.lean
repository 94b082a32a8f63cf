import Verif.Model.Engine

/-!
# Histories of the engine

Small specification vocabulary for C21-C24.
-/

namespace FAS
namespace Spec

/-- One event for the connection of steppers: a call of `stepperConnectToPin`, or any use of a connected
stepper, which can change everything but its step pin. -/
inductive ConnectOp where
  | connect (pin driver : Nat) (valid : Bool)
  | use (i : Nat) (s : Stepper)

/-- A history: the engine and the queue numbers of the steppers handed out, oldest first. -/
def connectRun (a : ArchId) (rule : SlotRule) : Engine × List Nat → List ConnectOp → Engine × List Nat
  | st, [] => st
  | (e, given), .connect pin driver valid :: ops =>
    let r := e.connect a rule valid pin driver
    connectRun a rule (r.1, given ++ r.2.toList) ops
  | (e, given), .use i s :: ops =>
    match e.stepper i with
    | some s0 => connectRun a rule (if s.stepPin = s0.stepPin then e.set i s else e, given) ops
    | none => connectRun a rule (e, given) ops

/-- The slot rules of the code base: the pins of the channels differ and the slot number fits `int8_t`. -/
def SlotRuleOK : SlotRule → Prop
  | .byPin pins => pins.Nodup ∧ pins.length ≤ 127
  | .next n => n ≤ 127
  | .select m r => m + r ≤ 127

/-- No slot is left for the pin/driver, if the slots `given` are in use: on AVR the pin is not one of the channel
pins; otherwise all slots (of the selected driver: 0 = MCPWM/PCNT, 1 = RMT) are in use. -/
def NoSlotLeft (rule : SlotRule) (given : List Nat) (pin driver : Nat) : Prop :=
  match rule with
  | .byPin pins => pin ∉ pins
  | .next n => given.length = n
  | .select m r => ∀ i, (if driver = 1 then m else 0) ≤ i → i < (if driver = 0 then m else m + r) → i ∈ given

/-- The stepper uses the pin as enable pin (`pinUndefined` is no pin). -/
def UsesPin (s : Stepper) (p : Nat) : Prop := p ≠ pinUndefined ∧ (p = s.enHigh ∨ p = s.enLow)

instance (s : Stepper) (p : Nat) : Decidable (UsesPin s p) := inferInstanceAs (Decidable (_ ∧ _))

/-- Two steppers have an enable pin in common. -/
def SharePin (s t : Stepper) : Prop := ∃ p, UsesPin s p ∧ UsesPin t p

/-- Sharing enable pins is transitive: true e.g. if no stepper has two enable pins. -/
def SharingTransitive (n : Nat) (e : Engine) : Prop :=
  ∀ i j k s t u, i < n → j < n → k < n → e.stepper i = some s → e.stepper j = some t → e.stepper k = some u →
    SharePin s t → SharePin t u → SharePin s u

/-- No two running queues share a direction pin. -/
def DirPinExclusive (n : Nat) (e : Engine) : Prop :=
  ∀ i j s t, i < n → j < n → i ≠ j → e.stepper i = some s → e.stepper j = some t →
    s.dirPin ≠ pinUndefined → s.dirPin = t.dirPin → ¬(s.isQueueRunning = true ∧ t.isQueueRunning = true)

/-- A sequence of cycles of the task from the view of the stepper in slot `i`: `E k` is the engine at the begin of
cycle `k`, `E' k` at its end and `W k` the pin writes of its auto disable part. Between two cycles anything can
happen to the other steppers, while the stepper in slot `i` is left alone (it is stopped and gets no command). -/
def CyclesOf (a : ArchId) (n i : Nat) (ext : Nat → ExtPin) (E E' : Nat → Engine) (W : Nat → List PinWrite) : Prop :=
  ∀ k, (∃ env junk, (E k).manageSteppers a n (ext k) env junk = some (E' k, W k)) ∧
    (E (k + 1)).stepper i = (E' k).stepper i

/-- Operations on steppers sharing a direction pin. `other` is anything which neither starts the queue of the
stepper nor changes its direction pin, e.g. hardware progress or move commands to the ramp generator. -/
inductive ShareOp where
  | add (i : Nat) (ext : ExtPin) (gaps : Nat → Gap) (c : Cmd) (start : Bool)
  | startNull (i : Nat)
  | fill (i : Nat) (ext : ExtPin) (env : Stepper.Env) (junk : NextCommand)
  | other (i : Nat) (s : Stepper)

/-- Executes an operation; `none` for undefined behaviour. -/
def shareStep (a : ArchId) (n : Nat) (e : Engine) : ShareOp → Option Engine
  | .add i ext gaps c start => some (e.addQueueEntry a n ext gaps i c start).1
  | .startNull i =>
    match e.stepper i with
    | some s => some (e.set i (s.startQueue true).1)
    | none => some e
  | .fill i ext env junk => e.fillOne a n ext env junk i
  | .other i s =>
    match e.stepper i with
    | some s0 =>
      if s.dirPin = s0.dirPin ∧ (s.isQueueRunning = true → s0.isQueueRunning = true) then some (e.set i s) else some e
    | none => some e

/-- A stopped stepper has queued commands (read and write index differ) although its direction pin is in use by
another stepper. -/
def Blocked (n : Nat) (e : Engine) (i : Nat) : Prop :=
  ∃ s, e.stepper i = some s ∧ s.isQueueRunning = false ∧ s.hw.q.nextWriteIdx ≠ s.hw.q.readIdx ∧
    s.dirPin ≠ pinUndefined ∧
    ∃ j < n, j ≠ i ∧ ∃ t, e.stepper j = some t ∧ t.dirPin = s.dirPin ∧ t.isQueueRunning = true

/-- The operation does not start a blocked queue: no direct start (`addQueueEntry(NULL, true)`) and no service by
the task for a stepper with not yet started commands while another stepper uses its direction pin. -/
def NoBlockedStart (n : Nat) (e : Engine) : ShareOp → Prop
  | .startNull i => ¬Blocked n e i
  | .fill i _ _ _ => ¬Blocked n e i
  | _ => True

/-- Histories. -/
inductive ShareHist (a : ArchId) (n : Nat) : Engine → Engine → Prop where
  | nil (e) : ShareHist a n e e
  | step {e e' e''} (op) : ShareHist a n e e' → NoBlockedStart n e' op → shareStep a n e' op = some e'' →
      ShareHist a n e e''

end Spec
end FAS
