import Verif.Spec.Avr

/-!
# Specification: the AVR driver against the clock

A schedule whose events have times, counted in timer ticks like the pulses.
-/

namespace FAS

/-- Period of the last command of a list. -/
def lastPeriod (cs : List Cmd) : Nat := (cs.map Cmd.ticks).getLast?.getD 0

namespace AvrHist

/-- The time at which all commands executed since the latest start end according to the documentation: the start plus their durations. -/
def ends (t : AvrHist) : Nat :=
  match t.phases with
  | [] => 0
  | (t0, cs) :: _ => t0 + durationSum cs

/-- One period before: this is the time of the last step (or the begin of the last pause) of the commands accepted so far. -/
def deadline (t : AvrHist) : Nat :=
  match t.phases with
  | [] => 0
  | (t0, cs) :: _ => t0 + durationSum cs - lastPeriod cs

end AvrHist

/-- `addQueueEntry()` is before its critical section. -/
def AddPc.isPrepared : AddPc → Bool
  | .prepared _ _ _ => true
  | _ => false

/-- `addQueueEntry()` is behind its critical section. -/
def AddPc.isCommitted : AddPc → Bool
  | .committed _ => true
  | _ => false

/-- What the clock allows for an event at `time`. The phases of `addQueueEntry()` come in their order. The interrupt is not served before its compare event (it may be served any time later). The time
used for the start is the present one. `addQueueEntry()` takes less than the minimum duration of a command (40 µs) from its critical section, which was
at `tc`, to its end. -/
def Avr.Feasible (a : ArchId) (s : Avr) (tc time : Nat) : Avr.Ev → Prop
  | .compare => s.irq = true → s.ocr ≤ time
  | .addCommit => s.pc.isPrepared = true
  | .addFinish now => s.pc.isCommitted = true ∧ now = time ∧ time < tc + a.minCmdTicks
  | .startNull now => now = time
  | _ => True

/-- Time of the latest critical section of `addQueueEntry()`. -/
def Avr.commitTime (tc time : Nat) : Avr.Ev → Nat
  | .addCommit => time
  | _ => tc

/-- A schedule with times. -/
def Avr.Clocked (a : ArchId) : Avr → Nat → Nat → List (Nat × Avr.Ev) → Prop
  | _, _, _, [] => True
  | s, now, tc, (time, ev) :: evs =>
    now ≤ time ∧ s.Feasible a tc time ev ∧ Avr.Clocked a (s.step a ev) time (Avr.commitTime tc time ev) evs

/-- While the motor is running, every command is queued before the last step of those queued before. -/
def Avr.Punctual (a : ArchId) : Avr → AvrHist → List (Nat × Avr.Ev) → Prop
  | _, _, [] => True
  | s, t, (time, ev) :: evs =>
    (ev = .addCommit → s.q.running = true → time < t.deadline) ∧
      Avr.Punctual a (s.step a ev) (t.observe s (s.step a ev) ev) evs

instance (a : ArchId) (s : Avr) (tc time : Nat) (ev : Avr.Ev) : Decidable (s.Feasible a tc time ev) := by
  cases ev <;> unfold Avr.Feasible <;> infer_instance

instance Avr.decClocked (a : ArchId) : ∀ (evs : List (Nat × Avr.Ev)) (s : Avr) (now tc : Nat), Decidable (Avr.Clocked a s now tc evs)
  | [], _, _, _ => isTrue trivial
  | (_, _) :: evs, _, _, _ =>
    have := decClocked a evs
    inferInstanceAs (Decidable (_ ∧ _ ∧ _))

instance (time : Nat) (s : Avr) (t : AvrHist) (ev : Avr.Ev) : Decidable (ev = .addCommit → s.q.running = true → time < t.deadline) := by
  cases ev with
  | addCommit => exact decidable_of_iff (s.q.running = true → time < t.deadline) ⟨fun h _ => h, fun h => h rfl⟩
  | _ => exact isTrue (fun hx => nomatch hx)

instance Avr.decPunctual (a : ArchId) : ∀ (evs : List (Nat × Avr.Ev)) (s : Avr) (t : AvrHist), Decidable (Avr.Punctual a s t evs)
  | [], _, _ => isTrue trivial
  | (_, _) :: evs, _, _ =>
    have := decPunctual a evs
    inferInstanceAs (Decidable (_ ∧ _))

end FAS
