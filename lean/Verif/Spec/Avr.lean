import Verif.Model.AvrIsr
import Verif.Spec.Queue

/-!
# Specification of the pulse train

From the documentation of `stepper_command_s` (src/fas_arch/common.h:11-42): the steps of a command are `ticks`
apart, and after the last step there is again a wait of `ticks` until the next command; a command without steps
is a pause of `ticks`.
-/

namespace FAS

/-- The documented pulses of a list of commands, the first of which starts at time `t`. `lvl` gives the level of
the direction pin for counting up and down. -/
def specPulses (lvl : Bool → Bool) : Nat → List Cmd → List Pulse
  | _, [] => []
  | t, c :: cs =>
    (List.range c.steps).map (fun i => ⟨t + i * c.ticks, lvl c.countUp⟩) ++ specPulses lvl (t + c.duration) cs

/-- Total number of steps of a list of commands. -/
def stepSum : List Cmd → Nat
  | [] => 0
  | c :: cs => c.steps + stepSum cs

/-- What has happened on the API level: for every start of the queue the time of the first compare event and the
commands executed since this start (newest start first), and the commands which are accepted but not yet started. -/
structure AvrHist where
  phases : List (Nat × List Cmd)
  waiting : List Cmd

namespace AvrHist

/-- The pulses required by the documentation. -/
def expected (lvl : Bool → Bool) (t : AvrHist) : List Pulse :=
  t.phases.reverse.flatMap fun p => specPulses lvl p.1 p.2

/-- All commands ever accepted. -/
def accepted (t : AvrHist) : List Cmd := t.phases.reverse.flatMap (fun p => p.2) ++ t.waiting

/-- A command has been accepted: it belongs to the current start, if the queue is running. -/
def accept (t : AvrHist) (running : Bool) (c : Cmd) : AvrHist :=
  if running then
    match t.phases with
    | [] => t
    | p :: ps => { t with phases := (p.1, p.2 ++ [c]) :: ps }
  else { t with waiting := t.waiting ++ [c] }

/-- The queue has been started. -/
def start (t : AvrHist) (time : Nat) : AvrHist :=
  { phases := (time, t.waiting) :: t.phases, waiting := [] }

/-- Observes one event of the schedule: `s` is the state before and `s'` the state after the event. A command is
accepted in the second phase of addQueueEntry, unless commands are ignored. The queue is started, when
`isRunning()` changes from false to true. -/
def observe (t : AvrHist) (s s' : Avr) (ev : Avr.Ev) : AvrHist :=
  let t1 := match ev, s.pc with
    | .addCommit, .prepared _ c _ => if s.q.ignoreCommands then t else t.accept s.q.running c
    | _, _ => t
  if s.q.running = false ∧ s'.q.running = true then t1.start s'.ocr else t1

end AvrHist

/-- A fresh AVR stepper with its direction pin configured (or `pinUndefined`). -/
def Avr.fresh (a : ArchId) (pin : Nat) (highCountsUp : Bool) : Avr :=
  { Avr.init a with q := (Queue.init a).setDirPin pin highCountsUp }

/-- The level of the direction pin required for counting up / down; without direction pin it stays LOW. -/
def dirLevelFor (pin : Nat) (highCountsUp countUp : Bool) : Bool :=
  if pin = pinUndefined then false else countUp == highCountsUp

/-- Executes a schedule together with the observed history. -/
def Avr.track (a : ArchId) : Avr → AvrHist → List Avr.Ev → Avr × AvrHist
  | s, t, [] => (s, t)
  | s, t, ev :: evs => track a (s.step a ev) (t.observe s (s.step a ev) ev) evs

/-- A schedule all events of which satisfy a predicate on the state before the event. -/
def Avr.Along (a : ArchId) (P : Avr → Avr.Ev → Prop) : Avr → List Avr.Ev → Prop
  | _, [] => True
  | s, ev :: evs => P s ev ∧ Along a P (s.step a ev) evs

/-- The events considered here: commands are representable, no force stop, commands are not ignored. -/
def Avr.Ev.Plain : Avr.Ev → Prop
  | .addBegin c _ => c.Valid
  | .forceStop _ => False
  | .clearIgnore => False
  | .extPoll _ => False
  | _ => True

/-- Excludes one race: the queue processes all commands including the just added one and stops between the
critical section of addQueueEntry and its test of `isRunning()`. -/
def Avr.NoLateStart (s : Avr) : Avr.Ev → Prop
  | .addFinish _ => s.q.running = true ∨ s.q.readIdx ≠ s.q.nextWriteIdx
  | _ => True

/-- The next command arrives in time: no command is appended while the queue is running, but has already run out
of commands. -/
def Avr.InTime (s : Avr) : Avr.Ev → Prop
  | .addCommit => s.noMore = false
  | _ => True

instance : DecidablePred Avr.Ev.Plain := fun ev => by
  cases ev <;> unfold Avr.Ev.Plain <;> infer_instance

instance instNoLateStart (s : Avr) : DecidablePred s.NoLateStart := fun ev => by
  cases ev <;> unfold Avr.NoLateStart <;> infer_instance

instance instInTime (s : Avr) : DecidablePred s.InTime := fun ev => by
  cases ev <;> unfold Avr.InTime <;> infer_instance

instance Avr.decAlong (a : ArchId) (P : Avr → Avr.Ev → Prop) [∀ s, DecidablePred (P s)] :
    ∀ (evs : List Avr.Ev) (s : Avr), Decidable (Avr.Along a P s evs)
  | [], _ => isTrue trivial
  | _ :: evs, s =>
    have := decAlong a P evs
    inferInstanceAs (Decidable (_ ∧ _))

/-- signed number of pulses, `hi` is the level for counting up -/
def pulseSum (hi : Bool) : List Pulse → Int
  | [] => 0
  | p :: ps => (if p.dir == hi then 1 else -1) + pulseSum hi ps

end FAS
