import Verif.Spec.Supply
import Verif.Spec.Cycles

/-!
# Specification: a move on AVR in real time

The cyclic task and the step interrupt run against the clock: the task works on the queue as the interrupt has left it, and the interrupt outputs what the task has queued. All times are in
timer ticks.
-/

namespace FAS.Spec

/-- The timing of the task: the time from the begin of a task cycle to the begin of the next one is at most `cycle`, from the begin of a task cycle to the queueing of its last command it is at most `commit`,
and at the begin of a task cycle the step interrupt is overdue by at most `latency`. -/
structure AvrTiming where
  cycle : Nat
  commit : Nat
  latency : Nat

/-- The driver is ready and at rest: nothing is queued, the interrupt is off, no call is in progress, and no pulse has been counted. -/
structure AvrAtRest (v : Avr) : Prop where
  running : v.q.running = false
  irq : v.irq = false
  noMore : v.noMore = false
  one : v.one = false
  call : v.pc = .idle
  empty : v.q.readIdx = v.q.nextWriteIdx
  index : v.q.nextWriteIdx < 256
  ready : v.q.ready = true
  ignore : v.q.ignoreCommands = false
  pulses : v.pulses = []

/-- What the software calls of the driver in a timed schedule, in its order, without the interrupts and the times. -/
def avrCalls : List (Nat × Avr.Ev) → List Avr.Ev
  | [] => []
  | (_, .compare) :: evs => avrCalls evs
  | (_, .addFinish _) :: evs => .addFinish 0 :: avrCalls evs
  | (_, .startNull _) :: evs => .startNull 0 :: avrCalls evs
  | (_, ev) :: evs => ev :: avrCalls evs

/-- `addQueueEntry(cmd, start)` of the driver for each of the commands. -/
def addCalls (start : Bool) : List Cmd → List Avr.Ev
  | [] => []
  | c :: cs => .addBegin c start :: .addCommit :: .addFinish 0 :: addCalls start cs

/-- The calls of one task cycle which queues the commands `acc`: if the motor is running, then each command is added with `start = true`. Else the commands are added with `start = false`, and the queue is
started at the end (src/FastAccelStepper.cpp:383-384,399,446-448). -/
def taskCalls (running : Bool) (acc : List Cmd) : List Avr.Ev :=
  if running then addCalls true acc
  else if acc = [] then [] else addCalls false acc ++ [.startNull 0]

/-- Time of the last event. -/
def lastTime (now : Nat) (evs : List (Nat × Avr.Ev)) : Nat := (evs.map Prod.fst).getLast?.getD now

/-- Between two task cycles the application does not change the ramp and its settings. -/
structure SameSettings (s s' : Stepper) : Prop where
  ramp : s'.rg = s.rg
  dirDelay : s'.dirChangeDelayTicks = s.dirChangeDelayTicks
  autoEnable : s'.autoEnable = s.autoEnable
  enableDelay : s'.onDelayTicks = s.onDelayTicks
  planning : s'.forwardPlanning = s.forwardPlanning

/-- A stepper and its driver in real time. `AvrMove a tm s0 v0 τ now v h cmds s`: the stepper `s0` with the driver `v0` has become `s` with the driver `v` at time `now`; the latest task cycle began at time `τ`; the task has queued the
commands `cmds`, and `h` is the history of the driver (the times of its starts, and the commands executed since). Each task cycle finds the queue of the driver. It queues the commands `acc`, nothing
but a full queue hinders it, and the driver gets the calls for just these commands, with interrupts at any point. After the cycle only interrupts happen until the next one. -/
inductive AvrMove (a : ArchId) (tm : AvrTiming) (s0 : Stepper) (v0 : Avr) : Nat → Nat → Avr → AvrHist → List Cmd → Stepper → Prop where
  | start (now : Nat) : AvrMove a tm s0 v0 now now v0 ⟨[], []⟩ [] s0
  | cycle {last now : Nat} {v : Avr} {h : AvrHist} {cmds : List Cmd} {s : Stepper} (τ : Nat) (env : Stepper.Env) (junk : NextCommand) (m : Nat)
      (evs : List (Nat × Avr.Ev)) (acc : List Cmd) (s1 s2 : Stepper) : AvrMove a tm s0 v0 last now v h cmds s →
      now ≤ τ → (cmds ≠ [] → τ ≤ last + tm.cycle) → (v.q.running = true → τ ≤ v.ocr + tm.latency) →
      junk.rw.performedRampUpSteps < 4294967296 → s.fillQueue a env junk = some (s1, acc) → Unrefused a env s m →
      Avr.Clocked a v τ τ evs → avrCalls evs = taskCalls v.q.running acc → (∀ e ∈ evs, e.2 = .addCommit → e.1 ≤ τ + tm.commit) →
      SameSettings s1 s2 → s2.hw = ⟨(Avr.track a v h (evs.map Prod.snd)).1.q, 0⟩ →
      AvrMove a tm s0 v0 τ (lastTime τ evs) (Avr.track a v h (evs.map Prod.snd)).1 (Avr.track a v h (evs.map Prod.snd)).2 (cmds ++ acc) s2

end FAS.Spec
