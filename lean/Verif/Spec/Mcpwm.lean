import Verif.Model.Mcpwm
import Verif.Spec.Queue
import Verif.Spec.Rmt

/-!
# Specification of the output of the MCPWM/PCNT backend

From the documentation of `stepper_command_s` (src/fas_arch/common.h:11-42): the steps of a command are `ticks` apart, and after the
last step there is again a wait of `ticks` until the next command; a command without steps is a pause of `ticks`.
-/

namespace FAS

/-- The periods of a list of commands: duration, whether the period starts with a pulse, and direction. -/
def cycles : List Cmd → List (Nat × Bool × Option Bool)
  | [] => []
  | c :: cs => List.replicate (max 1 c.steps) (c.ticks, decide (c.steps ≠ 0), some c.countUp) ++ cycles cs

/-- A period without the level of the direction pin. -/
def Cycle.shape (c : Cycle) : Nat × Bool × Option Bool := (c.ticks, c.pulse, c.up)

/-- Signed number of the pulses of a list of periods. -/
def travel : List (Nat × Bool × Option Bool) → Int
  | [] => 0
  | (_, pulse, up) :: cs => (if pulse then (match up with | some true => 1 | some false => -1 | none => 0) else 0) + travel cs

/-- Another pulse counter: like `shadowPcnt`, but reading back the limit gives the one written. -/
def latchPcnt : PcntHw ShadowPcnt := { shadowPcnt with lim := fun p => p.reg }

/-- Another pulse counter (counter, limit): the limit written is used immediately. -/
def directPcnt : PcntHw (Nat × Nat) where
  setLim := fun n p => (p.1, n)
  lim := fun p => p.2
  clear := fun p => (0, p.2)
  cnt := fun p => p.1
  count := fun p => if p.1 + 1 = p.2 then ((0, p.2), true) else ((p.1 + 1, p.2), false)

/-- The pulse counter after `n` more pulses. -/
def PcntHw.pulses {σ : Type} (hw : PcntHw σ) : Nat → σ → σ
  | 0, p => p
  | n + 1, p => hw.pulses n (hw.count p).1

namespace Mcpwm
variable {σ : Type} (hw : PcntHw σ)

/-- A freshly initialised channel with its direction pin. -/
def fresh (p : σ) (pin : Nat) (highCountsUp : Bool) : Mcpwm σ := { init hw p with q := (Queue.init .esp32).setDirPin pin highCountsUp }

/-- The commands accepted in one event: in the second phase of addQueueEntry, unless the device is not ready any more. -/
def accepts (s : Mcpwm σ) : Ev → List Cmd
  | .addCommit =>
    match s.pc with
    | .prepared _ c _ => if s.q.ready && !s.q.ignoreCommands then [c] else []
    | _ => []
  | _ => []

/-- Executes a schedule and collects the accepted commands. -/
def track : Mcpwm σ → List Cmd → List Ev → Mcpwm σ × List Cmd
  | s, acc, [] => (s, acc)
  | s, acc, ev :: evs => track (s.step hw ev) (acc ++ s.accepts ev) evs

/-- A schedule all events of which satisfy a predicate on the state before the event. -/
def Along (P : Mcpwm σ → Ev → Prop) : Mcpwm σ → List Ev → Prop
  | _, [] => True
  | s, ev :: evs => P s ev ∧ Along P (s.step hw ev) evs

/-- No interrupt is pending. -/
def Served (s : Mcpwm σ) : Prop := s.irq = false ∧ (s.tea && s.ena) = false

/-- The events considered: commands are representable, no force stop; interrupts are served before the end of the period; no other channel writes
back an outdated copy of the interrupt enable bit; and the race is excluded, in which the queue processes all commands including the just added one and
stops between the critical section of addQueueEntry and its test of `isRunning()`. -/
def Basic (s : Mcpwm σ) : Ev → Prop
  | .addBegin c _ => c.Valid
  | .zero => s.Served
  | .otherWrite => s.snap.getD s.ena = s.ena
  | .addFinish => s.q.running = true ∨ s.q.readIdx ≠ s.q.nextWriteIdx
  | .forceStop _ => False
  | _ => True

instance (s : Mcpwm σ) : Decidable s.Served := inferInstanceAs (Decidable (_ ∧ _))

instance (s : Mcpwm σ) : DecidablePred s.Basic := fun ev => by
  cases ev <;> unfold Basic <;> infer_instance

instance decAlong (P : Mcpwm σ → Ev → Prop) [∀ s, DecidablePred (P s)] : ∀ (evs : List Ev) (s : Mcpwm σ), Decidable (Along hw P s evs)
  | [], _ => isTrue trivial
  | _ :: evs, _ =>
    have := decAlong P evs
    inferInstanceAs (Decidable (_ ∧ _))

/-- A channel without anything to do; the timer may still be at the end of its last period. -/
structure Idle (s : Mcpwm σ) : Prop where
  idx : s.q.readIdx = s.q.nextWriteIdx ∧ s.q.readIdx < 256
  run : s.q.running = false
  timer : s.timer ≠ .low ∧ s.run = false
  irqs : s.irq = false ∧ s.ena = false
  ready : s.q.ready = decide (s.timer ≠ .high)
  ign : s.q.ignoreCommands = false
  pc : s.pc = .idle
  log : s.log = []
  pin : s.q.dirPin = pinUndefined ∨ pinIsExternal s.q.dirPin = false

/-- One period of the timer with the interrupts served in time. -/
def round : List Ev := [.compare, .pcntIsr, .teaIsr, .zero]

/-- `n` periods. -/
def rounds (n : Nat) : List Ev := (List.replicate n round).flatten

end Mcpwm
end FAS
