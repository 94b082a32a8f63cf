import Verif.Model.ExternalPin
import Verif.Spec.External
import Verif.Spec.Rmt
import Verif.Spec.Mcpwm

/-!
# Specification of the handshake with an external direction pin for the ESP32 backends

The same log as for the AVR: the last answer of the callback, and for each pulse (MCPWM) or part with pulses handed over to the peripheral (RMT) the level required for its command and the
last answer known at this moment.
-/

namespace FAS

/-- The callback is called in each poll, while the command in process waits for it. -/
def ExtLog.polled (l : ExtLog) (q : Queue) (agree : Bool) : ExtLog :=
  if q.dirPin != pinUndefined && pinIsExternal q.dirPin && (q.slot .esp32 q.readIdx).repeatEntry then
    { l with conf := if agree then some (q.slot .esp32 q.readIdx).dirPinState else none }
  else l

/-- The part contains pulses. -/
def Chunk.hasPulses (k : Chunk) : Bool := k.segs.any Seg.high

/-- RMT: notes the parts with pulses which have been handed over between the states `s` and `t`. -/
def ExtLog.parts (l : ExtLog) (s t : Rmt) : ExtLog :=
  { l with pulses := ((t.out.take (t.out.length - s.out.length)).filter Chunk.hasPulses).map (fun k => (k.up.map (· == t.q.dirHighCountsUp), l.conf)) ++ l.pulses }

/-- Executes a schedule of the RMT backends with its observer. -/
def Rmt.watch (v : RmtVer) : Rmt → ExtLog → List (ExtEv Rmt.Ev) → Rmt × ExtLog
  | s, l, [] => (s, l)
  | s, l, .hw ev :: evs => watch v (s.step v ev) (l.parts s (s.step v ev)) evs
  | s, l, .poll agree :: evs => watch v (s.stepExt v (.poll agree)) (l.polled s.q agree) evs

/-- Executes a schedule of the MCPWM/PCNT backend with its observer. -/
def Mcpwm.watch {σ : Type} (hw : PcntHw σ) : Mcpwm σ → ExtLog → List (ExtEv Mcpwm.Ev) → Mcpwm σ × ExtLog
  | s, l, [] => (s, l)
  | s, l, .hw ev :: evs => watch hw (s.step hw ev)
      (if ev = .compare ∧ s.timer = .low ∧ s.out = true then { l with pulses := (s.q.requiredLevel .esp32, l.conf) :: l.pulses } else l) evs
  | s, l, .poll agree :: evs => watch hw (s.stepExt hw (.poll agree)) (l.polled s.q agree) evs

/-- The command prepared by addQueueEntry is not rejected, if it changes the direction. -/
def AddPc.NotLost (pc : AddPc) (q : Queue) : Prop :=
  match pc with
  | .prepared _ c _ => c.countUp ≠ q.qend.countUp → q.ready = true
  | _ => True

instance (pc : AddPc) (q : Queue) : Decidable (pc.NotLost q) := by unfold AddPc.NotLost; split <;> infer_instance

/-- Schedules considered: as `FastAccelStepper::addQueueEntry` does (see `C16_turns_at_pauses`), a command changing the direction is a pause. No force stop, and such a pause is not
rejected with AQE_DEVICE_NOT_READY in the critical section. -/
def Rmt.ExtTurn (s : Rmt) : ExtEv Rmt.Ev → Prop
  | .hw (.addBegin c _) => c.Valid ∧ (c.countUp ≠ s.q.qend.countUp → c.steps = 0)
  | .hw .addCommit => s.pc.NotLost s.q
  | .hw (.forceStop _) => False
  | _ => True

instance (s : Rmt) : DecidablePred s.ExtTurn := fun ev => by
  cases ev with
  | hw ev => cases ev <;> unfold Rmt.ExtTurn <;> infer_instance
  | poll _ => unfold Rmt.ExtTurn; infer_instance

/-- A schedule all events of which satisfy a predicate on the state before the event. -/
def Rmt.AlongExt (v : RmtVer) (P : Rmt → ExtEv Rmt.Ev → Prop) : Rmt → List (ExtEv Rmt.Ev) → Prop
  | _, [] => True
  | s, ev :: evs => P s ev ∧ AlongExt v P (s.stepExt v ev) evs

instance Rmt.decAlongExt (v : RmtVer) (P : Rmt → ExtEv Rmt.Ev → Prop) [∀ s, DecidablePred (P s)] : ∀ (evs : List (ExtEv Rmt.Ev)) (s : Rmt), Decidable (AlongExt v P s evs)
  | [], _ => isTrue trivial
  | _ :: evs, _ =>
    have := decAlongExt v P evs
    inferInstanceAs (Decidable (_ ∧ _))

/-- Schedules considered for the MCPWM/PCNT backend: as for RMT, and the assumptions of C72 on the interrupts. -/
def Mcpwm.ExtTurn {σ : Type} (s : Mcpwm σ) : ExtEv Mcpwm.Ev → Prop
  | .hw (.addBegin c _) => c.Valid ∧ (c.countUp ≠ s.q.qend.countUp → c.steps = 0)
  | .hw .addCommit => s.pc.NotLost s.q
  | .hw ev => s.Basic ev
  | .poll _ => True

instance {σ : Type} (s : Mcpwm σ) : DecidablePred s.ExtTurn := fun ev => by
  cases ev with
  | hw ev => cases ev <;> unfold Mcpwm.ExtTurn <;> infer_instance
  | poll _ => unfold Mcpwm.ExtTurn; infer_instance

/-- A schedule all events of which satisfy a predicate on the state before the event. -/
def Mcpwm.AlongExt {σ : Type} (hw : PcntHw σ) (P : Mcpwm σ → ExtEv Mcpwm.Ev → Prop) : Mcpwm σ → List (ExtEv Mcpwm.Ev) → Prop
  | _, [] => True
  | s, ev :: evs => P s ev ∧ AlongExt hw P (s.stepExt hw ev) evs

instance Mcpwm.decAlongExt {σ : Type} (hw : PcntHw σ) (P : Mcpwm σ → ExtEv Mcpwm.Ev → Prop) [∀ s, DecidablePred (P s)] :
    ∀ (evs : List (ExtEv Mcpwm.Ev)) (s : Mcpwm σ), Decidable (AlongExt hw P s evs)
  | [], _ => isTrue trivial
  | _ :: evs, _ =>
    have := decAlongExt hw P evs
    inferInstanceAs (Decidable (_ ∧ _))

/-- A queue with external direction pin and nothing to do; the level for the last direction has been confirmed. -/
structure Queue.ExtIdle (q : Queue) (l : ExtLog) : Prop where
  idx : q.readIdx = q.nextWriteIdx ∧ q.readIdx < 256
  run : q.running = false
  ign : q.ignoreCommands = false
  pin : pinIsExternal q.dirPin = true ∧ q.dirPin ≠ pinUndefined
  sync : q.qend.dir = (q.qend.countUp == q.dirHighCountsUp)
  clean : ∀ i, (q.slot .esp32 i).repeatEntry = false
  conf : l.conf = some q.qend.dir
  pulses : l.pulses = []

/-- A stepper with MCPWM/PCNT driver, external direction pin and nothing to do. -/
structure Mcpwm.ExtIdle {σ : Type} (s : Mcpwm σ) (l : ExtLog) : Prop where
  queue : s.q.ExtIdle l
  pc : s.pc = .idle
  timer : s.timer = .stopped
  run : s.run = false
  irq : s.irq = false
  ena : s.ena = false

end FAS
