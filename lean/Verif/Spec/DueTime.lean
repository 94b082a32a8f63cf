import Verif.Model.DueTime
import Verif.Spec.Avr
import Verif.Spec.Due

/-!
# Specification of the pulse times of the SAM Due backend
-/

namespace FAS

/-- The documented times of the steps of a list of commands, the first of which begins at time `t`: the steps of a command are `ticks` apart, with
a wait of `ticks` after the last one; a command without steps is a pause of `ticks`. -/
def stepTimes : Nat → List Cmd → List Nat
  | _, [] => []
  | t, c :: cs => (List.range c.steps).map (fun i => t + i * c.ticks) ++ stepTimes (t + c.duration) cs

/-- The documented times of all steps of all starts of the queue. -/
def AvrHist.stepTimes (t : AvrHist) : List Nat := t.phases.reverse.flatMap fun p => FAS.stepTimes p.1 p.2

/-- No start of the queue is earlier than the end of all commands of the preceding start. `phases` has the newest start first. -/
def PhasesOrdered : List (Nat × List Cmd) → Prop
  | [] => True
  | [_] => True
  | p :: r :: ps => r.1 + durationSum r.2 ≤ p.1 ∧ PhasesOrdered (r :: ps)

instance decPhasesOrdered : ∀ l, Decidable (PhasesOrdered l)
  | [] => isTrue trivial
  | [_] => isTrue trivial
  | _ :: r :: ps =>
    have := decPhasesOrdered (r :: ps)
    inferInstanceAs (Decidable (_ ∧ _))

/-- The channel after `init()`. -/
def DueT.init (pin : Nat) (highCountsUp : Bool) : DueT :=
  { s := Due.fresh pin highCountsUp, en := false, dis := false, next := 0, len := 0, fresh := false, chid := false, tIrq := 0, times := [] }

/-- The time, if the event starts the queue. -/
def DueT.startsAt (d : DueT) : DueT.Ev → Option Nat
  | .addFinish now => if d.s.q.running = false ∧ (d.s.step .addFinish).q.running = true then some now else none
  | .startNull now => if d.s.q.running = false ∧ (d.s.step .startNull).q.running = true then some now else none
  | _ => none

/-- When the first command of a queue started at `now` begins: at once, or with the period running; a pause begins at once, if
the PWM interrupt is pending and not ignored, and otherwise one pause later. -/
def DueT.begins (d : DueT) (now : Nat) (c : Cmd) : Nat :=
  if c.steps ≠ 0 then if d.en then d.next else now
  else if d.chid = true ∧ 100 ≤ DueT.elapsed (DueT.micros now) d.tIrq then now
  else now + c.ticks

/-- Observes one event of the schedule. -/
def DueT.observe (d : DueT) (t : AvrHist) (ev : DueT.Ev) : AvrHist :=
  let t1 := match ev, d.s.pc with
    | .addCommit, .prepared _ c _ => if d.s.q.ignoreCommands then t else t.accept d.s.q.running c
    | _, _ => t
  match d.startsAt ev, t1.waiting with
  | some now, c :: _ => t1.start (d.begins now c)
  | _, _ => t1

/-- Executes a schedule together with the observed history. -/
def DueT.track : DueT → AvrHist → List DueT.Ev → DueT × AvrHist
  | d, t, [] => (d, t)
  | d, t, ev :: evs => track (d.step ev) (d.observe t ev) evs

/-- A schedule all events of which satisfy a predicate on the state before the event. -/
def DueT.Along (P : DueT → DueT.Ev → Prop) : DueT → List DueT.Ev → Prop
  | _, [] => True
  | d, ev :: evs => P d ev ∧ Along P (d.step ev) evs

/-- The events considered: as for the pulses without time (`Due.Basic`), with two additions. Time goes on: the queue is not started before the last
period of the preceding start has ended, if it has. A queue which begins with a pause is not started during the last period of the
preceding start. -/
def DueT.Basic (d : DueT) (ev : DueT.Ev) : Prop :=
  (match ev.base with
   | some b => d.s.Basic b
   | none => True) ∧
  match d.startsAt ev with
  | some now => (d.en = false → d.next ≤ now) ∧ (d.en = true → (Hw.readOut .sam ⟨d.s.q, 0⟩).head?.all (fun c => c.steps ≠ 0) = true)
  | none => True

/-- The PWM interrupt at the begin of a pause is not ignored because of the preceding step. -/
def DueT.Unfiltered (d : DueT) : DueT.Ev → Prop
  | .boundary lat _ => d.s.irq = true → 100 ≤ DueT.elapsed (DueT.micros (d.next + lat)) d.tIrq
  | _ => True

/-- A command with steps followed by a pause is slow enough: it has at least 100 µs between two steps, plus the latency of the interrupts, which
is at most `J`; and `micros()` has not yet wrapped around, which happens after 71 minutes. -/
def DueT.Slow (J : Nat) (d : DueT) : DueT.Ev → Prop
  | .boundary lat _ => lat ≤ J ∧ d.next + lat < 21 * 4294967296 ∧
    (match Hw.readOut .sam ⟨d.s.q, 0⟩ with
     | c1 :: c2 :: _ => c1.steps = 1 → c2.steps = 0 → 2100 + J ≤ c1.ticks
     | _ => True)
  | _ => True

instance (d : DueT) : DecidablePred d.Basic := fun ev => by
  unfold DueT.Basic
  cases ev <;> (dsimp only [DueT.Ev.base, DueT.startsAt]; try split) <;> infer_instance

instance (d : DueT) : DecidablePred d.Unfiltered := fun ev => by
  cases ev <;> unfold DueT.Unfiltered <;> infer_instance

instance (J : Nat) (d : DueT) : DecidablePred (d.Slow J) := fun ev => by
  cases ev with
  | boundary lat _ =>
    unfold DueT.Slow
    dsimp only
    split <;> infer_instance
  | _ => unfold DueT.Slow; infer_instance

instance DueT.decAlong (P : DueT → DueT.Ev → Prop) [∀ d, DecidablePred (P d)] :
    ∀ (evs : List DueT.Ev) (d : DueT), Decidable (DueT.Along P d evs)
  | [], _ => isTrue trivial
  | _ :: evs, _ =>
    have := decAlong P evs
    inferInstanceAs (Decidable (_ ∧ _))

end FAS
