import Verif.Lemmas.Pos
import Verif.Spec.Api
import Verif.Props.Timed
import Verif.Props.AddEntry
import Verif.Props.Engine

/-!
# Single steps and the position of queued commands: C65, C71
-/

namespace FAS

open Spec Stepper

theorem signedSum_pauses : ∀ {ps : List Cmd}, (∀ p ∈ ps, p.steps = 0) → signedSum ps = 0
  | [], _ => rfl
  | p :: ps, h => by
    have h1 : p.steps = 0 := h p (by simp)
    have h2 := signedSum_pauses (ps := ps) (fun q hq => h q (by simp [hq]))
    change p.signed + signedSum ps = 0
    rw [h2]; unfold Cmd.signed; rw [h1]; split <;> rfl

/-! ## C71 -/

/-- C71: `getPositionAfterCommandsCompleted()` changes by exactly the signed sum of the steps of the commands which have got into the queue,
for `addQueueEntry()` with any command and any result, for `moveTimed()` with any result, and for every service by the task. `hpos` is
true for each value of an `int32_t`. -/
theorem C71_position_counts_commands (a : ArchId) (s : Stepper) (hpos : i32 s.getPositionAfterCommandsCompleted = s.getPositionAfterCommandsCompleted) :
    (∀ ext gaps busy c st, let r := s.addQueueEntry a ext gaps busy c st
      r.1.s.getPositionAfterCommandsCompleted = stepsOn s.getPositionAfterCommandsCompleted (signedSum r.1.accepted)) ∧
    (∀ env steps duration st, let r := s.moveTimed a env steps duration st
      r.1.s.getPositionAfterCommandsCompleted = stepsOn s.getPositionAfterCommandsCompleted (signedSum r.1.accepted)) ∧
    (∀ env junk s' accepted, s.fillQueue a env junk = some (s', accepted) →
      s'.getPositionAfterCommandsCompleted = stepsOn s.getPositionAfterCommandsCompleted (signedSum accepted)) := by
  refine ⟨fun ext gaps busy c st => ?_, fun env steps duration st => ?_, fun env junk s' acc h => ?_⟩
  · exact addQueueEntry_moved a ext gaps busy s c st hpos
  · exact moveTimed_moved a env s steps duration st hpos
  · exact fillQueue_moved a env junk s s' acc h hpos

/-- A command of 5 steps backward at position 3, with a direction delay. -/
example :
    let s := (((Stepper.init .avr328 1).setDirectionPin .avr328 none 5 true 200).1.setAbsoluteSpeedLimit 80).setPositionAfterCommandsCompleted 3
    let r := s.addQueueEntry .avr328 none (fun _ => ⟨0, false⟩) false ⟨2000, 5, false⟩ true
    i32 s.getPositionAfterCommandsCompleted = s.getPositionAfterCommandsCompleted ∧
    r.1.accepted = [⟨3200, 0, false⟩, ⟨2000, 5, false⟩] ∧ r.1.s.getPositionAfterCommandsCompleted = -2 := by
  decide +kernel

/-- The same for a successful `moveTimed()`: the position changes by the requested steps. -/
theorem C71_moveTimed_position_partial (a : ArchId) (env : Env) (s : Stepper) (steps : Int) (duration : Nat) (st : Bool)
    (h1 : -32768 < steps) (h2 : steps ≤ 32767) (hd : duration < 4294967296) (hign : s.hw.q.ignoreCommands = false)
    (hok : TimedOk (s.moveTimed a env steps duration st).2)
    (hpos : i32 s.getPositionAfterCommandsCompleted = s.getPositionAfterCommandsCompleted) :
    (s.moveTimed a env steps duration st).1.s.getPositionAfterCommandsCompleted = stepsOn s.getPositionAfterCommandsCompleted steps := by
  have hm := (C71_position_counts_commands a s hpos).2.1 env steps duration st
  dsimp only at hm
  rw [hm]
  obtain ⟨cmds, hw, hdir, hsum, -⟩ := C46_steps_and_time_partial a env s steps duration st h1 h2 hd hign hok
  have key : ∀ {cmds all : List Cmd}, WithPauses cmds all → (∀ c ∈ cmds, c.steps > 0 → c.countUp = decide (steps > 0)) →
      signedSum all = (if steps > 0 then 1 else -1) * (cmdStepSum cmds : Int) := by
    intro cmds all hw
    induction hw with
    | nil => intro _; simp [signedSum, cmdStepSum]
    | @cons ps c cs acc hp _ ih =>
      intro hdir
      rw [signedSum_append, signedSum_pauses hp]
      change 0 + (c.signed + signedSum acc) = _
      rw [ih (fun d hd => hdir d (by simp [hd]))]
      have hc : c.signed = (if steps > 0 then 1 else -1) * (c.steps : Int) := by
        unfold Cmd.signed
        by_cases h0 : c.steps > 0
        · rw [hdir c (by simp) h0]
          by_cases hs : steps > 0 <;> simp [hs]
        · have : c.steps = 0 := by omega
          rw [this]; simp
      rw [hc]
      change _ = _ * ((c.steps + cmdStepSum cs : Nat) : Int)
      rw [Int.natCast_add, Int.mul_add]
      omega
  rw [key hw hdir, hsum]
  unfold stepsOn
  congr 2
  split <;> omega

/-- The hypotheses are met, see the example of `C46_steps_and_time_partial`. -/
example : let s := ((timedStepper .esp32).setDirectionPin .esp32 none 7 true 0).1
    TimedOk (s.moveTimed .esp32 calmEnv (-600) 1000000 true).2 ∧
    (s.moveTimed .esp32 calmEnv (-600) 1000000 true).1.s.getPositionAfterCommandsCompleted = -600 := by
  refine ⟨Or.inr ?_, ?_⟩ <;> decide +kernel

/-! ## C65 -/

/-- An accepted command with `start` leaves the queue running. -/
theorem Stepper.Call.add_running (a : ArchId) (gaps : Nat → Gap) (k : Call) (c : Cmd) (h : (k.add a gaps c true).2 = AQE_OK) :
    (k.add a gaps c true).1.s.hw.q.running = true := by
  have h' : ((k.s.hw.gap a (gaps k.n)).q.add a c true).code = AQE_OK := h
  change (if ((k.s.hw.gap a (gaps k.n)).q.add a c true).start then _ else _ : Queue).running = true
  generalize (k.s.hw.gap a (gaps k.n)).q = q at h'
  have hs : (q.add a c true).start = !(q.add a c true).q.running := by
    unfold Queue.add at h' ⊢
    repeat' split
    all_goals first
      | (exfalso; simp_all [AQE_OK, AQE_DEVICE_NOT_READY, AQE_QUEUE_FULL, AQE_ERROR_TICKS_TOO_LOW]; done)
      | simp
  rw [hs]
  cases hr : (q.add a c true).q.running
  · rfl
  · exact hr

theorem addQueueEntry_running (a : ArchId) (ext : ExtPin) (gaps : Nat → Gap) (busy : Bool) (s : Stepper)
    (c : Cmd) (h : (s.addQueueEntry a ext gaps busy c true).2 = AQE_OK) :
    (s.addQueueEntry a ext gaps busy c true).1.s.hw.q.running = true := by
  revert h
  unfold addQueueEntry
  dsimp only
  split
  · intro h; exact absurd h (by dsimp only; decide)
  split
  · intro h; exact absurd h (by dsimp only; decide)
  split
  · intro h; exact absurd h (by dsimp only; decide)
  split
  · rename_i k code hk
    intro h
    exact absurd h (autoEnable_code a ext gaps ⟨s, 0, [], []⟩ c true code (by rw [hk]))
  · rename_i k hk
    split
    · rename_i k' code hk'
      intro h
      exact absurd h (dirChange_code a gaps k c true code (by rw [hk']))
    · rename_i k' hk'
      unfold Call.final
      dsimp only
      split
      · intro h; exact Call.add_running a gaps k' c h
      · intro h; exact Call.add_running a gaps k' c h

/-- C65, first part: `forwardStep()` (`up`) and `backwardStep()` have no effect on a running stepper, and `backwardStep()` has none without
direction pin. -/
theorem C65_no_op (a : ArchId) (ext : ExtPin) (gaps : Nat → Gap) (busy : Bool) (s : Stepper) (up : Bool)
    (h : s.isRunning = true ∨ (up = false ∧ s.dirPin = pinUndefined)) :
    (s.performOneStep a ext gaps busy up).s = s ∧ (s.performOneStep a ext gaps busy up).accepted = [] ∧
    (s.performOneStep a ext gaps busy up).writes = [] := by
  unfold performOneStep
  rcases h with h | ⟨h1, h2⟩
  · rw [h]; exact ⟨rfl, rfl, rfl⟩
  · rw [h1]
    split
    · rw [if_neg (by simp [h2])]; exact ⟨rfl, rfl, rfl⟩
    · exact ⟨rfl, rfl, rfl⟩

theorem u16_minCmd (a : ArchId) : u16 a.minCmdTicks = a.minCmdTicks := by cases a <;> rfl

/-- C65, second part: the call queues exactly one step in the requested direction, after pauses for enable and direction delay, starts the queue,
and the position after completion changes by this step; or the step has been refused, then there are at most pauses and the position
does not change. -/
theorem C65_at_most_one_step (a : ArchId) (ext : ExtPin) (gaps : Nat → Gap) (busy : Bool) (s : Stepper) (up : Bool)
    (hign : s.hw.q.ignoreCommands = false) (hpos : i32 s.getPositionAfterCommandsCompleted = s.getPositionAfterCommandsCompleted) :
    let r := s.performOneStep a ext gaps busy up
    ∃ pauses, Pauses pauses ∧
      ((r.accepted = pauses ++ [⟨a.minCmdTicks, 1, up⟩] ∧ r.s.isRunning = true ∧
          r.s.getPositionAfterCommandsCompleted = stepsOn s.getPositionAfterCommandsCompleted (if up then 1 else -1)) ∨
       (r.accepted = pauses ∧ r.s.getPositionAfterCommandsCompleted = s.getPositionAfterCommandsCompleted)) := by
  dsimp only
  unfold performOneStep
  split
  · split
    · rw [u16_minCmd]
      have hm := (C71_position_counts_commands a s hpos).1 ext gaps busy ⟨a.minCmdTicks, 1, up⟩ true
      dsimp only at hm
      obtain ⟨ps, hps, ⟨h1, h2⟩ | ⟨h1, h2⟩⟩ := addQueueEntry_accepted a ext gaps busy s ⟨a.minCmdTicks, 1, up⟩ true hign
      · refine ⟨ps, hps, Or.inl ⟨h2, ?_, ?_⟩⟩
        · have := addQueueEntry_running a ext gaps busy s ⟨a.minCmdTicks, 1, up⟩ h1
          unfold isRunning; rw [this]; rfl
        · rw [hm, h2, signedSum_append, signedSum_pauses hps]
          cases up <;> rfl
      · refine ⟨ps, hps, Or.inr ⟨h2, ?_⟩⟩
        rw [hm, h2, signedSum_pauses hps]
        unfold stepsOn; rw [Int.add_zero]; exact hpos
    · exact ⟨[], (fun c hc => nomatch hc), Or.inr ⟨rfl, rfl⟩⟩
  · exact ⟨[], (fun c hc => nomatch hc), Or.inr ⟨rfl, rfl⟩⟩

/-- Nothing but a change of direction may precede a command in an idle queue: it is accepted. -/
theorem addQueueEntry_idle (a : ArchId) (ext : ExtPin) (gaps : Nat → Gap) (s : Stepper) (c : Cmd) (st : Bool)
    (hi : s.hw.q.IdxOK a) (hr : s.hw.q.ready = true) (h0 : s.hw.q.queueEntries = 0)
    (hauto : s.autoEnable = true → s.counter = 0 → (s.enableOutputs ext).1 = true ∧ s.onDelayTicks = 0) (hmax : s.getMaxSpeedInTicks ≤ c.ticks)
    (hpin : s.dirPin = pinUndefined → c.countUp = true)
    (hdelay : s.dirChangeDelayTicks = 0 ∨ a.minCmdTicks ≤ s.dirChangeDelayTicks) (hc : a.minCmdTicks ≤ Queue.commandRateTicks c) :
    (s.addQueueEntry a ext gaps false c st).2 = AQE_OK := by
  have hlen : 16 ≤ a.queueLen := by rcases a.queueLen_cases with h | h <;> omega
  have hmax' : s.hw.q.maxSpeedInTicks ≤ c.ticks := hmax
  have hfin : ∀ k : Call, k.s.hw.q.IdxOK a → k.s.hw.q.ready = true → k.s.hw.q.queueEntries < a.queueLen →
      (k.final a gaps c st).2 = AQE_OK := by
    intro k h1 h2 h3
    have := Call.add_ok a gaps k c st h1 h2 h3 hc
    unfold Call.final; dsimp only; split <;> exact this
  unfold addQueueEntry
  dsimp only
  rw [if_neg (by omega), if_neg (by simp), if_neg (by
    intro h; have := hpin h.1; rw [this] at h; exact absurd h.2 (by decide))]
  have e1 : ∃ w, Call.autoEnable a ext gaps ⟨s, 0, [], []⟩ c st = (⟨s, 0, [], w⟩, none) := by
    unfold Call.autoEnable
    dsimp only
    by_cases h : s.autoEnable = true ∧ s.counter = 0
    · obtain ⟨h1, h2⟩ := hauto h.1 h.2
      rw [if_pos h, if_neg (by simp [h1]), if_neg (by omega)]
      exact ⟨_, rfl⟩
    · rw [if_neg h]; exact ⟨_, rfl⟩
  obtain ⟨w, e1⟩ := e1
  rw [e1]
  dsimp only
  have key : ∃ k', Call.dirChange a gaps ⟨s, 0, [], w⟩ c st = (k', none) ∧ k'.s.hw.q.IdxOK a ∧ k'.s.hw.q.ready = true ∧
      k'.s.hw.q.queueEntries ≤ 2 := by
    unfold Call.dirChange
    dsimp only
    have hg := s.hw.gap_idx a (gaps 0) hi
    have hgf := s.hw.gap_fields a (gaps 0)
    by_cases hdir : s.hw.q.qend.countUp ≠ c.countUp
    · rw [if_pos hdir]
      by_cases hx : pinIsExternal s.dirPin = true
      · rw [if_pos hx, if_neg (by omega)]
        have hp : a.minCmdTicks ≤ Queue.commandRateTicks ⟨u16 (usToTicks a 500), 0, c.countUp⟩ := by
          unfold Queue.commandRateTicks
          rw [if_neg (by simp)]
          change a.minCmdTicks ≤ u16 (usToTicks a 500)
          cases a <;> decide
        generalize (⟨u16 (usToTicks a 500), 0, c.countUp⟩ : Cmd) = p at hp
        let k0 : Call := { s := { s with hw := s.hw.gap a (gaps 0) }, n := 0 + 1, accepted := [], writes := w }
        have hk0 : k0.s.hw.q.IdxOK a := hg.1
        have hk0r : k0.s.hw.q.ready = true := hgf.2.2.2.2.1.trans hr
        have hk0e : k0.s.hw.q.queueEntries ≤ 0 := by have := hg.2; rw [h0] at this; exact this
        have r1 := Call.add_ok a gaps k0 p st hk0 hk0r (by omega) hp
        have i1 := Call.add_idx a gaps k0 p st hk0
        have s1 := (Call.add_spec a gaps k0 p st).1.ready
        have r2 := Call.add_ok a gaps (k0.add a gaps p st).1 p st i1.1 (s1.trans hk0r) (by omega) hp
        have i2 := Call.add_idx a gaps (k0.add a gaps p st).1 p st i1.1
        have s2 := (Call.add_spec a gaps (k0.add a gaps p st).1 p st).1.ready
        refine ⟨((k0.add a gaps p st).1.add a gaps p st).1, ?_, i2.1, s2.trans (s1.trans hk0r), by omega⟩
        change (if (k0.add a gaps p st).2 ≠ AQE_OK then _ else _) = _
        rw [if_neg (by simp [r1]), if_neg (fun h => h r2)]
      · rw [if_neg hx]
        by_cases hd : s.dirChangeDelayTicks ≠ 0 ∧ c.steps ≠ 0
        · rw [if_pos hd]
          have hp : a.minCmdTicks ≤ Queue.commandRateTicks ⟨s.dirChangeDelayTicks, 0, c.countUp⟩ := by
            unfold Queue.commandRateTicks
            rcases hdelay with h | h
            · exact absurd h hd.1
            · simpa using h
          generalize (⟨s.dirChangeDelayTicks, 0, c.countUp⟩ : Cmd) = p at hp
          have r1 := Call.add_ok a gaps ⟨s, 0, [], w⟩ p st hi hr (by change s.hw.q.queueEntries < _; omega) hp
          have i1 := Call.add_idx a gaps ⟨s, 0, [], w⟩ p st hi
          have s1 := (Call.add_spec a gaps ⟨s, 0, [], w⟩ p st).1.ready
          have i12 : (Call.add a gaps ⟨s, 0, [], w⟩ p st).1.s.hw.q.queueEntries ≤ s.hw.q.queueEntries + 1 := i1.2
          refine ⟨(Call.add a gaps ⟨s, 0, [], w⟩ p st).1, ?_, i1.1, s1.trans hr, by omega⟩
          rw [if_neg (by simp [r1])]
        · rw [if_neg hd]
          exact ⟨_, rfl, hi, hr, by change s.hw.q.queueEntries ≤ 2; omega⟩
    · rw [if_neg hdir]
      exact ⟨_, rfl, hi, hr, by change s.hw.q.queueEntries ≤ 2; omega⟩
  obtain ⟨k', hk, h1, h2, h3⟩ := key
  rw [hk]
  exact hfin k' h1 h2 (by omega)

/-- C65, third part: a stepper with nothing to do makes the step. Guards: the minimum command time is allowed by the speed limit, the direction pin
is not in use by another stepper, the direction delay is 0 or accepted by the queue, and the outputs are enabled, or the callback confirms
the enable pins and the pauses of the enable delay are not processed before the queue is started.

Missing: speed limit, see `C65_three_steppers_refuted`; after a force stop commands are ignored (`C62_ignored_refuted`). -/
theorem C65_one_step_partial (a : ArchId) (ext : ExtPin) (gaps : Nat → Gap) (s : Stepper) (up : Bool) (hrun : s.isRunning = false)
    (hs : ∃ sp : QSpec, Sim a s.hw sp ∧ sp.pend = [] ∧ sp.ready = true ∧ sp.ignore = false)
    (hpin : s.dirPin = pinUndefined → up = true) (hmax : s.getMaxSpeedInTicks ≤ a.minCmdTicks)
    (hdelay : s.dirChangeDelayTicks = 0 ∨ (a.minCmdTicks ≤ s.dirChangeDelayTicks ∧ s.dirChangeDelayTicks < 65536))
    (henable : s.autoEnable = true → s.counter = 0 →
      (s.enableOutputs ext).1 = true ∧ (s.onDelayTicks = 0 ∨ (∀ n < a.queueLen, (gaps n).advances = 0) ∧
      a.minCmdTicks ≤ s.onDelayTicks ∧ s.onDelayTicks ≤ a.maxOnDelayTicks)) :
    let r := s.performOneStep a ext gaps false up
    ∃ pauses, Pauses pauses ∧ r.accepted = pauses ++ [⟨a.minCmdTicks, 1, up⟩] ∧ r.s.isRunning = true ∧
      r.s.getPositionAfterCommandsCompleted = stepsOn s.getPositionAfterCommandsCompleted (if up then 1 else -1) := by
  obtain ⟨sp, hsim, hpend, hrdy, hig⟩ := hs
  have hi := hsim.idx
  have hr : s.hw.q.ready = true := hsim.ready.trans hrdy
  have hign : s.hw.q.ignoreCommands = false := hsim.ign.trans hig
  have h0 : s.hw.q.queueEntries = 0 := by rw [hsim.length, hpend]; rfl
  have hpos : i32 s.getPositionAfterCommandsCompleted = s.getPositionAfterCommandsCompleted := by
    change i32 s.hw.q.qend.pos = s.hw.q.qend.pos
    rw [hsim.pos]; unfold i32; omega
  have hok : (s.addQueueEntry a ext gaps false ⟨a.minCmdTicks, 1, up⟩ true).2 = AQE_OK := by
    by_cases hauto : s.autoEnable = true ∧ s.counter = 0 ∧ s.onDelayTicks ≠ 0
    · obtain ⟨e1, e2 | ⟨e2, e3, e4⟩⟩ := henable hauto.1 hauto.2.1
      · exact absurd e2 hauto.2.2
      have hval : (⟨a.minCmdTicks, 1, up⟩ : Cmd).Valid := by
        exact ⟨(by cases a <;> decide : a.minCmdTicks < 65536), (by decide : 1 < 256)⟩
      exact (C14_enable_delay_partial a ext gaps s ⟨a.minCmdTicks, 1, up⟩ true ⟨sp, hsim, hpend, hrdy, hig⟩ hauto.1 hauto.2.1 ⟨e3, e4⟩
        (by rcases hdelay with h | h <;> omega) hval (by unfold Cmd.duration; simp) hmax hpin).2.1 e1 e2
    · exact addQueueEntry_idle a ext gaps s ⟨a.minCmdTicks, 1, up⟩ true hi hr h0
        (fun h1 h2 => ⟨(henable h1 h2).1, Decidable.not_not.mp fun h3 => hauto ⟨h1, h2, h3⟩⟩) hmax hpin
        (by rcases hdelay with h | h
            · exact Or.inl h
            · exact Or.inr h.1) (by unfold Queue.commandRateTicks; simp)
  have hstep : s.performOneStep a ext gaps false up = (s.addQueueEntry a ext gaps false ⟨a.minCmdTicks, 1, up⟩ true).1 := by
    unfold performOneStep
    rw [hrun, u16_minCmd]
    rw [if_pos (by rfl), if_pos (by
      by_cases h : s.dirPin = pinUndefined
      · exact Or.inl (hpin h)
      · exact Or.inr h)]
  dsimp only
  rw [hstep]
  have hm := (C71_position_counts_commands a s hpos).1 ext gaps false ⟨a.minCmdTicks, 1, up⟩ true
  dsimp only at hm
  obtain ⟨ps, hps, ⟨h1, h2⟩ | ⟨h1, h2⟩⟩ := addQueueEntry_accepted a ext gaps false s ⟨a.minCmdTicks, 1, up⟩ true hign
  · refine ⟨ps, hps, h2, ?_, ?_⟩
    · have := addQueueEntry_running a ext gaps false s ⟨a.minCmdTicks, 1, up⟩ h1
      unfold isRunning; rw [this]; rfl
    · rw [hm, h2, signedSum_append, signedSum_pauses hps]
      cases up <;> rfl
  · exact absurd hok h1

/-- A stepper on ESP32 with direction pin and delay, auto enable with a low active enable pin and an enable delay of 1 ms. -/
def singleStepper : Stepper :=
  let s := ((Stepper.init .esp32 1).setDirectionPin .esp32 none 7 true 1000).1
  let s := ((s.setEnablePin none 8 true).1.setAutoEnable true).setAbsoluteSpeedLimit 80
  (s.setDelayToEnable .esp32 1000).1

/-- The hypotheses of C65 are met: a step backward, with the pauses. -/
example :
    singleStepper.isRunning = false ∧
    (∃ sp : QSpec, Sim .esp32 singleStepper.hw sp ∧ sp.pend = [] ∧ sp.ready = true ∧ sp.ignore = false) ∧
    singleStepper.getMaxSpeedInTicks ≤ ArchId.esp32.minCmdTicks ∧
    ArchId.esp32.minCmdTicks ≤ singleStepper.dirChangeDelayTicks ∧ singleStepper.dirChangeDelayTicks < 65536 ∧
    (singleStepper.enableOutputs none).1 = true ∧ ArchId.esp32.minCmdTicks ≤ singleStepper.onDelayTicks ∧
    singleStepper.onDelayTicks ≤ ArchId.esp32.maxOnDelayTicks ∧
    (singleStepper.performOneStep .esp32 none (fun _ => ⟨0, false⟩) false false).accepted = [⟨16000, 0, false⟩, ⟨3200, 1, false⟩] := by
  refine ⟨by decide +kernel, ⟨QSpec.init, ?_, rfl, rfl, rfl⟩, by decide +kernel, by decide +kernel, by decide +kernel, by decide +kernel,
    by decide +kernel, by decide +kernel, by decide +kernel⟩
  have h := Sim.init .esp32
  exact ⟨h.idx, h.run, h.ready, h.ign, h.doneP, h.rel, h.pos⟩

/-- C65 does not hold on AVR with three steppers: the speed limit then is 800 ticks and the step has 640 ticks, so `forwardStep()` and
`backwardStep()` do nothing at all. -/
theorem C65_three_steppers_refuted (ext : ExtPin) (gaps : Nat → Gap) (busy : Bool) (s : Stepper) (up : Bool) (a : ArchId)
    (ha : a = .avr2560 ∨ a = .avr32u4 ∨ a = .avr328) :
    let s3 := s.adjustSpeedToStepperCount a 3
    (s3.performOneStep a ext gaps busy up).s = s3 ∧ (s3.performOneStep a ext gaps busy up).accepted = [] := by
  have h : ∀ c : Cmd, c.ticks = 640 → ((s.adjustSpeedToStepperCount a 3).addQueueEntry a ext gaps busy c true).1 =
      ⟨s.adjustSpeedToStepperCount a 3, 0, [], []⟩ := by
    intro c hc
    unfold addQueueEntry
    rw [if_pos (by
      rw [hc]
      have : (s.adjustSpeedToStepperCount a 3).hw.q.maxSpeedInTicks = 800 := by
        rcases ha with h | h | h <;> rw [h] <;> rfl
      rw [this]; decide)]
  have hu : u16 a.minCmdTicks = 640 := by rcases ha with h | h | h <;> rw [h] <;> rfl
  dsimp only
  unfold performOneStep
  split
  · split
    · rw [h _ hu]; exact ⟨rfl, rfl⟩
    · exact ⟨rfl, rfl⟩
  · exact ⟨rfl, rfl⟩

end FAS
