import Verif.Props.Halt
import Verif.Props.EndToEnd

/-!
# A moving motor which is stopped, or gets a new target, from the call to the pulses: C100

The task has queued the commands `cmds0` since the motor was at the position `x`. Then the moving motor gets `stopMove()` or `moveTo(p)`, and the task queues the commands `cmds` until the ramp is idle.
The driver of the platform outputs all of them. The motor is then where C99 and C98 say: `x` plus the signed number of pulses, each counted with the level of the direction pin at the pulse,
is the stop position, or `p`.
-/

namespace FAS

open Spec

/-- The end of the queue moves with the queued commands. -/
theorem TaskHist.tracks {a : ArchId} {s0 : Stepper} (hpos : i32 s0.getPositionAfterCommandsCompleted = s0.getPositionAfterCommandsCompleted)
    {k : Nat} {cmds : List Cmd} {s : Stepper} (h : TaskHist a s0 k cmds s) :
    s.getPositionAfterCommandsCompleted = stepsOn s0.getPositionAfterCommandsCompleted (signedSum cmds) := by
  have hi : ∀ n, i32 (stepsOn s0.getPositionAfterCommandsCompleted n) = stepsOn s0.getPositionAfterCommandsCompleted n := fun n => i32_i32 _
  induction h with
  | start =>
    change _ = i32 (_ + 0)
    rw [Int.add_zero, hpos]
  | elapse _ he ih =>
    unfold Stepper.getPositionAfterCommandsCompleted at ih ⊢
    rw [he.queueEnd]; exact ih
  | task env junk acc _ _ _ hf ih =>
    exact stepsOn_moved (C71_position_counts_commands a _ (by rw [ih]; exact hi _)).2.2 hf ih
  | unhindered env junk acc _ _ _ hf _ ih =>
    exact stepsOn_moved (C71_position_counts_commands a _ (by rw [ih]; exact hi _)).2.2 hf ih

theorem stepsOn_stepsOn (x m n : Int) : stepsOn (stepsOn x m) n = stepsOn x (m + n) := by
  unfold stepsOn i32; omega

/-- What C99 says about all queued commands. -/
theorem commands_lead_to_stop {a : ArchId} {L A : Nat} {s0 s : Stepper} {k0 : Nat} {cmds0 : List Cmd}
    (hpos : i32 s0.getPositionAfterCommandsCompleted = s0.getPositionAfterCommandsCompleted) (h0 : TaskHist a s0 k0 cmds0 s)
    (hh : RampHist a (ApiCall.Mild L A) s) (hst : Moving a L s) (hA2 : A < 2147483648)
    (hn : brakingSteps a s < 2147483648) (hfast : 5 * A * max 40000 (brakingSteps a s + 1) ≤ a.ticksPerS ^ 2)
    {k : Nat} {cmds : List Cmd} {s' : Stepper} (h : TaskHist a s.stopMove k cmds s') (hend : s'.isRampGeneratorActive = false) :
    stepsOn s0.getPositionAfterCommandsCompleted (signedSum (cmds0 ++ cmds)) = stopPosition a s := by
  obtain ⟨N, hN⟩ := C99_stop_partial a L A s hh hst hA2 hn hfast
  have h1 := ((hN k cmds s' h).2.1 hend).2
  rw [TaskHist.tracks hpos h0, stepsOn_stepsOn] at h1
  rw [signedSum_append]
  exact h1

/-- What C98 says about all queued commands. -/
theorem commands_lead_to_new_target {a : ArchId} {L A : Nat} {s0 s : Stepper} {k0 : Nat} {cmds0 : List Cmd}
    (hpos : i32 s0.getPositionAfterCommandsCompleted = s0.getPositionAfterCommandsCompleted) (h0 : TaskHist a s0 k0 cmds0 s)
    (hh : RampHist a (ApiCall.Mild L A) s) (hst : Moving a L s) (hA2 : A < 2147483648)
    {p : Int} (hp : i32 p = p) (hdist : (shortestWay p s.getPositionAfterCommandsCompleted).natAbs + brakingSteps a (s.moveTo p).1 < 2147483648)
    (hfast : 5 * A * max 40000 ((shortestWay p s.getPositionAfterCommandsCompleted).natAbs + brakingSteps a (s.moveTo p).1 + 1) ≤ a.ticksPerS ^ 2)
    {k : Nat} {cmds : List Cmd} {s' : Stepper} (h : TaskHist a (s.moveTo p).1 k cmds s') (hend : s'.isRampGeneratorActive = false) :
    stepsOn s0.getPositionAfterCommandsCompleted (signedSum (cmds0 ++ cmds)) = p := by
  obtain ⟨N, hN⟩ := C98_moveTo_partial a L A s hh hst hA2 p hp hdist hfast
  have h1 := ((hN k cmds s' h).2.1 hend).2
  rw [TaskHist.tracks hpos h0, stepsOn_stepsOn] at h1
  rw [signedSum_append]
  exact h1

/-- C100, `stopMove()` on AVR, if commands arrive in time, when the queue has come to its end. -/
theorem C100_stop_avr_partial (a : ArchId) (hav : a.isAvr = true) (L A : Nat) (s0 s : Stepper) (k0 : Nat) (cmds0 : List Cmd)
    (hpos : i32 s0.getPositionAfterCommandsCompleted = s0.getPositionAfterCommandsCompleted) (h0 : TaskHist a s0 k0 cmds0 s)
    (hh : RampHist a (ApiCall.Mild L A) s) (hst : Moving a L s) (hA2 : A < 2147483648)
    (hn : brakingSteps a s < 2147483648) (hfast : 5 * A * max 40000 (brakingSteps a s + 1) ≤ ArchId.ticksPerS a ^ 2)
    (k : Nat) (cmds : List Cmd) (s' : Stepper) (h : TaskHist a s.stopMove k cmds s') (hend : s'.isRampGeneratorActive = false)
    (hpin : s.dirPin < 128) (evs : List Avr.Ev) (hplain : ∀ ev ∈ evs, ev.Plain)
    (hstart : Avr.Along a Avr.NoLateStart (Avr.fresh a s.dirPin s.hw.q.dirHighCountsUp) evs)
    (hintime : Avr.Along a Avr.InTime (Avr.fresh a s.dirPin s.hw.q.dirHighCountsUp) evs) :
    let r := Avr.track a (Avr.fresh a s.dirPin s.hw.q.dirHighCountsUp) ⟨[], []⟩ evs
    r.2.accepted = cmds0 ++ cmds → r.1.q.running = false → r.2.waiting = [] →
      stepsOn s0.getPositionAfterCommandsCompleted (netPulses s.hw.q.dirHighCountsUp (r.1.pulses.reverse.map Pulse.dir)) = stopPosition a s := by
  intro r hacc hrun hwait
  rw [avr_travel a hav s.dirPin s.hw.q.dirHighCountsUp hst.dirPin hpin _ evs hplain hstart hintime hacc hrun hwait]
  exact commands_lead_to_stop hpos h0 hh hst hA2 hn hfast h hend

/-- C100, `moveTo(p)` on AVR, if commands arrive in time, when the queue has come to its end. -/
theorem C100_moveTo_avr_partial (a : ArchId) (hav : a.isAvr = true) (L A : Nat) (s0 s : Stepper) (k0 : Nat) (cmds0 : List Cmd)
    (hpos : i32 s0.getPositionAfterCommandsCompleted = s0.getPositionAfterCommandsCompleted) (h0 : TaskHist a s0 k0 cmds0 s)
    (hh : RampHist a (ApiCall.Mild L A) s) (hst : Moving a L s) (hA2 : A < 2147483648)
    (p : Int) (hp : i32 p = p) (hdist : (shortestWay p s.getPositionAfterCommandsCompleted).natAbs + brakingSteps a (s.moveTo p).1 < 2147483648)
    (hfast : 5 * A * max 40000 ((shortestWay p s.getPositionAfterCommandsCompleted).natAbs + brakingSteps a (s.moveTo p).1 + 1) ≤ ArchId.ticksPerS a ^ 2)
    (k : Nat) (cmds : List Cmd) (s' : Stepper) (h : TaskHist a (s.moveTo p).1 k cmds s') (hend : s'.isRampGeneratorActive = false)
    (hpin : s.dirPin < 128) (evs : List Avr.Ev) (hplain : ∀ ev ∈ evs, ev.Plain)
    (hstart : Avr.Along a Avr.NoLateStart (Avr.fresh a s.dirPin s.hw.q.dirHighCountsUp) evs)
    (hintime : Avr.Along a Avr.InTime (Avr.fresh a s.dirPin s.hw.q.dirHighCountsUp) evs) :
    let r := Avr.track a (Avr.fresh a s.dirPin s.hw.q.dirHighCountsUp) ⟨[], []⟩ evs
    r.2.accepted = cmds0 ++ cmds → r.1.q.running = false → r.2.waiting = [] →
      stepsOn s0.getPositionAfterCommandsCompleted (netPulses s.hw.q.dirHighCountsUp (r.1.pulses.reverse.map Pulse.dir)) = p := by
  intro r hacc hrun hwait
  rw [avr_travel a hav s.dirPin s.hw.q.dirHighCountsUp hst.dirPin hpin _ evs hplain hstart hintime hacc hrun hwait]
  exact commands_lead_to_new_target hpos h0 hh hst hA2 hp hdist hfast h hend

/-- C100, `stopMove()` with the MCPWM/PCNT driver, when it has come to its end with nothing in the queue. `c0` is the idle channel before the first command. -/
theorem C100_stop_mcpwm_partial (L A : Nat) (s0 s : Stepper) (k0 : Nat) (cmds0 : List Cmd)
    (hpos : i32 s0.getPositionAfterCommandsCompleted = s0.getPositionAfterCommandsCompleted) (h0 : TaskHist .esp32 s0 k0 cmds0 s)
    (hh : RampHist .esp32 (ApiCall.Mild L A) s) (hst : Moving .esp32 L s) (hA2 : A < 2147483648)
    (hn : brakingSteps .esp32 s < 2147483648) (hfast : 5 * A * max 40000 (brakingSteps .esp32 s + 1) ≤ ArchId.ticksPerS .esp32 ^ 2)
    (k : Nat) (cmds : List Cmd) (s' : Stepper) (h : TaskHist .esp32 s.stopMove k cmds s') (hend : s'.isRampGeneratorActive = false)
    (c0 : Mcpwm ShadowPcnt) (hc0 : c0.Idle) (hpin : c0.q.dirPin = s.hw.q.dirPin) (hcu : c0.q.dirHighCountsUp = s.hw.q.dirHighCountsUp)
    (evs : List Mcpwm.Ev) (hb : Mcpwm.Along shadowPcnt Mcpwm.Basic c0 evs) :
    let r := Mcpwm.track shadowPcnt c0 [] evs
    r.2 = cmds0 ++ cmds → r.1.Served → r.1.q.running = false → Hw.readOut .esp32 ⟨r.1.q, 0⟩ = [] →
      stepsOn s0.getPositionAfterCommandsCompleted (netPulses s.hw.q.dirHighCountsUp (pulseLevels r.1.log.reverse)) = stopPosition .esp32 s := by
  intro r hacc hserved hrun hempty
  rw [← hcu, mcpwm_travel _ c0 hc0 (by rw [hpin]; exact hst.dirPin) evs hb hacc hserved hrun hempty]
  exact commands_lead_to_stop hpos h0 hh hst hA2 hn hfast h hend

/-- C100, `moveTo(p)` with the MCPWM/PCNT driver, when it has come to its end with nothing in the queue. `c0` is the idle channel before the first command. -/
theorem C100_moveTo_mcpwm_partial (L A : Nat) (s0 s : Stepper) (k0 : Nat) (cmds0 : List Cmd)
    (hpos : i32 s0.getPositionAfterCommandsCompleted = s0.getPositionAfterCommandsCompleted) (h0 : TaskHist .esp32 s0 k0 cmds0 s)
    (hh : RampHist .esp32 (ApiCall.Mild L A) s) (hst : Moving .esp32 L s) (hA2 : A < 2147483648)
    (p : Int) (hp : i32 p = p) (hdist : (shortestWay p s.getPositionAfterCommandsCompleted).natAbs + brakingSteps .esp32 (s.moveTo p).1 < 2147483648)
    (hfast : 5 * A * max 40000 ((shortestWay p s.getPositionAfterCommandsCompleted).natAbs + brakingSteps .esp32 (s.moveTo p).1 + 1) ≤ ArchId.ticksPerS .esp32 ^ 2)
    (k : Nat) (cmds : List Cmd) (s' : Stepper) (h : TaskHist .esp32 (s.moveTo p).1 k cmds s') (hend : s'.isRampGeneratorActive = false)
    (c0 : Mcpwm ShadowPcnt) (hc0 : c0.Idle) (hpin : c0.q.dirPin = s.hw.q.dirPin) (hcu : c0.q.dirHighCountsUp = s.hw.q.dirHighCountsUp)
    (evs : List Mcpwm.Ev) (hb : Mcpwm.Along shadowPcnt Mcpwm.Basic c0 evs) :
    let r := Mcpwm.track shadowPcnt c0 [] evs
    r.2 = cmds0 ++ cmds → r.1.Served → r.1.q.running = false → Hw.readOut .esp32 ⟨r.1.q, 0⟩ = [] →
      stepsOn s0.getPositionAfterCommandsCompleted (netPulses s.hw.q.dirHighCountsUp (pulseLevels r.1.log.reverse)) = p := by
  intro r hacc hserved hrun hempty
  rw [← hcu, mcpwm_travel _ c0 hc0 (by rw [hpin]; exact hst.dirPin) evs hb hacc hserved hrun hempty]
  exact commands_lead_to_new_target hpos h0 hh hst hA2 hp hdist hfast h hend

/-- C100, `stopMove()` with the RMT drivers, for commands which can be encoded, when all commands have been handed over. -/
theorem C100_stop_rmt_partial (v : RmtVer) (L A : Nat) (s0 s : Stepper) (k0 : Nat) (cmds0 : List Cmd)
    (hpos : i32 s0.getPositionAfterCommandsCompleted = s0.getPositionAfterCommandsCompleted) (h0 : TaskHist .esp32 s0 k0 cmds0 s)
    (hh : RampHist .esp32 (ApiCall.Mild L A) s) (hst : Moving .esp32 L s) (hA2 : A < 2147483648)
    (hn : brakingSteps .esp32 s < 2147483648) (hfast : 5 * A * max 40000 (brakingSteps .esp32 s + 1) ≤ ArchId.ticksPerS .esp32 ^ 2)
    (k : Nat) (cmds : List Cmd) (s' : Stepper) (h : TaskHist .esp32 s.stopMove k cmds s') (hend : s'.isRampGeneratorActive = false)
    (c0 : Rmt) (hc0 : c0.Idle) (hpin : c0.q.dirPin = s.hw.q.dirPin) (hcu : c0.q.dirHighCountsUp = s.hw.q.dirHighCountsUp)
    (hcpos : c0.q.qend.pos = i32 c0.q.qend.pos) (evs : List Rmt.Ev) (hb : ∀ ev ∈ evs, ev.Plain v) :
    let r := Rmt.track v c0 [] evs
    r.2 = cmds0 ++ cmds → Hw.readOut .esp32 ⟨r.1.q, 0⟩ = [] →
      stepsOn s0.getPositionAfterCommandsCompleted (netPulses s.hw.q.dirHighCountsUp (partLevels r.1.out.reverse)) = stopPosition .esp32 s := by
  intro r hacc hempty
  rw [← hcu, rmt_travel v _ c0 hc0 (by rw [hpin]; exact hst.dirPin) hcpos evs hb hacc hempty]
  exact commands_lead_to_stop hpos h0 hh hst hA2 hn hfast h hend

/-- C100, `moveTo(p)` with the RMT drivers, for commands which can be encoded, when all commands have been handed over. -/
theorem C100_moveTo_rmt_partial (v : RmtVer) (L A : Nat) (s0 s : Stepper) (k0 : Nat) (cmds0 : List Cmd)
    (hpos : i32 s0.getPositionAfterCommandsCompleted = s0.getPositionAfterCommandsCompleted) (h0 : TaskHist .esp32 s0 k0 cmds0 s)
    (hh : RampHist .esp32 (ApiCall.Mild L A) s) (hst : Moving .esp32 L s) (hA2 : A < 2147483648)
    (p : Int) (hp : i32 p = p) (hdist : (shortestWay p s.getPositionAfterCommandsCompleted).natAbs + brakingSteps .esp32 (s.moveTo p).1 < 2147483648)
    (hfast : 5 * A * max 40000 ((shortestWay p s.getPositionAfterCommandsCompleted).natAbs + brakingSteps .esp32 (s.moveTo p).1 + 1) ≤ ArchId.ticksPerS .esp32 ^ 2)
    (k : Nat) (cmds : List Cmd) (s' : Stepper) (h : TaskHist .esp32 (s.moveTo p).1 k cmds s') (hend : s'.isRampGeneratorActive = false)
    (c0 : Rmt) (hc0 : c0.Idle) (hpin : c0.q.dirPin = s.hw.q.dirPin) (hcu : c0.q.dirHighCountsUp = s.hw.q.dirHighCountsUp)
    (hcpos : c0.q.qend.pos = i32 c0.q.qend.pos) (evs : List Rmt.Ev) (hb : ∀ ev ∈ evs, ev.Plain v) :
    let r := Rmt.track v c0 [] evs
    r.2 = cmds0 ++ cmds → Hw.readOut .esp32 ⟨r.1.q, 0⟩ = [] →
      stepsOn s0.getPositionAfterCommandsCompleted (netPulses s.hw.q.dirHighCountsUp (partLevels r.1.out.reverse)) = p := by
  intro r hacc hempty
  rw [← hcu, rmt_travel v _ c0 hc0 (by rw [hpin]; exact hst.dirPin) hcpos evs hb hacc hempty]
  exact commands_lead_to_new_target hpos h0 hh hst hA2 hp hdist hfast h hend

/-- C100, `stopMove()` on SAM Due, for changes of direction which its interrupts can handle, when the queue is empty. -/
theorem C100_stop_due_partial (L A : Nat) (s0 s : Stepper) (k0 : Nat) (cmds0 : List Cmd)
    (hpos : i32 s0.getPositionAfterCommandsCompleted = s0.getPositionAfterCommandsCompleted) (h0 : TaskHist .sam s0 k0 cmds0 s)
    (hh : RampHist .sam (ApiCall.Mild L A) s) (hst : Moving .sam L s) (hA2 : A < 2147483648)
    (hn : brakingSteps .sam s < 2147483648) (hfast : 5 * A * max 40000 (brakingSteps .sam s + 1) ≤ ArchId.ticksPerS .sam ^ 2)
    (k : Nat) (cmds : List Cmd) (s' : Stepper) (h : TaskHist .sam s.stopMove k cmds s') (hend : s'.isRampGeneratorActive = false)
    (c0 : Due) (hc0 : c0.Idle) (hpin : c0.q.dirPin = s.hw.q.dirPin) (hcu : c0.q.dirHighCountsUp = s.hw.q.dirHighCountsUp)
    (evs : List Due.Ev) (hb : Due.Along Due.Basic c0 evs) (hturn : Due.Along Due.SafeTurn c0 evs) :
    let r := Due.track c0 [] evs
    r.2 = cmds0 ++ cmds → Hw.readOut .sam ⟨r.1.q, 0⟩ = [] →
      stepsOn s0.getPositionAfterCommandsCompleted (netPulses s.hw.q.dirHighCountsUp (r.1.pulses.reverse.map DuePulse.level)) = stopPosition .sam s := by
  intro r hacc hempty
  rw [← hcu, due_travel _ c0 hc0 (by rw [hpin]; exact hst.dirPin) evs hb hturn hacc hempty]
  exact commands_lead_to_stop hpos h0 hh hst hA2 hn hfast h hend

/-- C100, `moveTo(p)` on SAM Due, for changes of direction which its interrupts can handle, when the queue is empty. -/
theorem C100_moveTo_due_partial (L A : Nat) (s0 s : Stepper) (k0 : Nat) (cmds0 : List Cmd)
    (hpos : i32 s0.getPositionAfterCommandsCompleted = s0.getPositionAfterCommandsCompleted) (h0 : TaskHist .sam s0 k0 cmds0 s)
    (hh : RampHist .sam (ApiCall.Mild L A) s) (hst : Moving .sam L s) (hA2 : A < 2147483648)
    (p : Int) (hp : i32 p = p) (hdist : (shortestWay p s.getPositionAfterCommandsCompleted).natAbs + brakingSteps .sam (s.moveTo p).1 < 2147483648)
    (hfast : 5 * A * max 40000 ((shortestWay p s.getPositionAfterCommandsCompleted).natAbs + brakingSteps .sam (s.moveTo p).1 + 1) ≤ ArchId.ticksPerS .sam ^ 2)
    (k : Nat) (cmds : List Cmd) (s' : Stepper) (h : TaskHist .sam (s.moveTo p).1 k cmds s') (hend : s'.isRampGeneratorActive = false)
    (c0 : Due) (hc0 : c0.Idle) (hpin : c0.q.dirPin = s.hw.q.dirPin) (hcu : c0.q.dirHighCountsUp = s.hw.q.dirHighCountsUp)
    (evs : List Due.Ev) (hb : Due.Along Due.Basic c0 evs) (hturn : Due.Along Due.SafeTurn c0 evs) :
    let r := Due.track c0 [] evs
    r.2 = cmds0 ++ cmds → Hw.readOut .sam ⟨r.1.q, 0⟩ = [] →
      stepsOn s0.getPositionAfterCommandsCompleted (netPulses s.hw.q.dirHighCountsUp (r.1.pulses.reverse.map DuePulse.level)) = p := by
  intro r hacc hempty
  rw [← hcu, due_travel _ c0 hc0 (by rw [hpin]; exact hst.dirPin) evs hb hturn hacc hempty]
  exact commands_lead_to_new_target hpos h0 hh hst hA2 hp hdist hfast h hend

/-! ## Example: a motor on the way to -300 gets `stopMove()`, or `moveTo(2)`, after the first task cycle -/

/-- State and commands after `n` task cycles, if the queue has run empty after each of them. -/
def queued (a : ArchId) : Nat → Stepper → Option (Stepper × List Cmd)
  | 0, s => some (s, [])
  | n + 1, s =>
    match s.fillQueue a calmEnv junk0 with
    | none => none
    | some (s1, acc) =>
      if s1.hw.q.nextWriteIdx < 256 then
        (queued a n { s1 with hw := { s1.hw with q := { s1.hw.q with readIdx := s1.hw.q.nextWriteIdx } } }).map fun r => (r.1, acc ++ r.2)
      else none

theorem queued_hist {a : ArchId} {P : ApiCall → Prop} : ∀ n s s' cmds, queued a n s = some (s', cmds) → s.autoEnable = false →
    (∃ k, TaskHist a s k cmds s') ∧ s'.autoEnable = false ∧ (RampHist a P s → RampHist a P s') := by
  intro n
  suffices H : ∀ s s' cmds, queued a n s = some (s', cmds) → s.autoEnable = false → s'.autoEnable = false ∧ (RampHist a P s → RampHist a P s') ∧
      ∀ s0 k0 cmds0, TaskHist a s0 k0 cmds0 s → ∃ k, TaskHist a s0 k (cmds0 ++ cmds) s' by
    intro s s' cmds h hoff
    obtain ⟨h1, h2, h3⟩ := H s s' cmds h hoff
    exact ⟨by simpa using h3 s 0 [] .start, h1, h2⟩
  induction n with
  | zero =>
    intro s s' cmds h hoff
    cases h
    exact ⟨hoff, id, fun s0 k0 cmds0 hh => ⟨k0, by rw [List.append_nil]; exact hh⟩⟩
  | succ n ih =>
    intro s s' cmds h hoff
    unfold queued at h
    split at h
    · cases h
    · rename_i s1 acc hf
      split at h
      · rename_i h4
        rw [Option.map_eq_some_iff] at h
        obtain ⟨⟨s2, cmds2⟩, h5, h6⟩ := h
        cases h6
        have hoff1 : s1.autoEnable = false := (Stepper.fillQueue_sameConfig a _ _ _ _ _ hf).auto.trans hoff
        obtain ⟨g1, g2, g3⟩ := ih _ _ _ h5 hoff1
        refine ⟨g1, fun hh => g2 (.other (.task calmEnv junk0 acc hh (by decide) hf) rfl), fun s0 k0 cmds0 hh => ?_⟩
        have x1 := TaskHist.task calmEnv junk0 _ hh (by decide) (.undelayed (Or.inl hoff)) hf
        have x2 := TaskHist.elapse (s' := { s1 with hw := { s1.hw with q := { s1.hw.q with readIdx := s1.hw.q.nextWriteIdx } } }) x1
          ⟨rfl, rfl, rfl, rfl, rfl, rfl, rfl, rfl, h4, h4, by
            change subU8 s1.hw.q.nextWriteIdx s1.hw.q.nextWriteIdx ≤ _
            unfold subU8; omega⟩
        obtain ⟨k, x3⟩ := g3 _ _ _ x2
        exact ⟨k, by rw [List.append_assoc] at x3; exact x3⟩
      · cases h

/-- The stepper on the way to -300. -/
def backward (a : ArchId) : Stepper := configuredMove (standing a) 21000 10000 0 0 (-300)

theorem backward_mild (a : ArchId) : RampHist a (ApiCall.Mild 21000 10000) (backward a) := by
  have h0 : RampHist a (ApiCall.Mild 21000 10000) (standing a) := .start _ rfl
  have h1 := RampHist.call (.config (.speed 21000)) h0 (show 21000 ≤ 21000 ∧ 21000 ≤ 65535 by decide)
  have h2 := RampHist.call (.config (.acceleration 10000)) h1 (show (10000 : Int) ≤ (10000 : Nat) by decide)
  have h3 := RampHist.call (.config (.linear 0)) h2 (show 0 < 4294967294 by decide)
  have h4 := RampHist.call (.config (.jump 0)) h3 rfl
  exact RampHist.call (.moveTo (-300)) h4 trivial

/-- The state after the first task cycle and its commands. -/
def onTheWay (a : ArchId) : Stepper × List Cmd := (queued a 1 (backward a)).getD (standing a, [])

def stopped (a : ArchId) : Stepper × List Cmd := (queued a 3 (onTheWay a).1.stopMove).getD (standing a, [])

def turned (a : ArchId) : Stepper × List Cmd := (queued a 6 ((onTheWay a).1.moveTo 2).1).getD (standing a, [])

theorem onTheWay_hist (a : ArchId) (h : (queued a 1 (backward a)).isSome = true) :
    (∃ k, TaskHist a (backward a) k (onTheWay a).2 (onTheWay a).1) ∧ (onTheWay a).1.autoEnable = false ∧ RampHist a (ApiCall.Mild 21000 10000) (onTheWay a).1 := by
  obtain ⟨r, hr⟩ := Option.isSome_iff_exists.mp h
  have : onTheWay a = r := by unfold onTheWay; rw [hr]; rfl
  rw [this]
  obtain ⟨h1, h2, h3⟩ := queued_hist (P := ApiCall.Mild 21000 10000) 1 _ _ _ hr (configuredMove_auto _ _ _ _ _ _)
  exact ⟨h1, h2, h3 (backward_mild a)⟩

theorem stopped_hist (a : ArchId) (h0 : (onTheWay a).1.autoEnable = false) (h : (queued a 3 (onTheWay a).1.stopMove).isSome = true) :
    ∃ k, TaskHist a (onTheWay a).1.stopMove k (stopped a).2 (stopped a).1 := by
  obtain ⟨r, hr⟩ := Option.isSome_iff_exists.mp h
  have : stopped a = r := by unfold stopped; rw [hr]; rfl
  rw [this]
  exact (queued_hist (P := fun _ => True) 3 _ _ _ hr h0).1

theorem turned_hist (a : ArchId) (h0 : (onTheWay a).1.autoEnable = false) (h : (queued a 6 ((onTheWay a).1.moveTo 2).1).isSome = true) :
    ∃ k, TaskHist a ((onTheWay a).1.moveTo 2).1 k (turned a).2 (turned a).1 := by
  obtain ⟨r, hr⟩ := Option.isSome_iff_exists.mp h
  have : turned a = r := by unfold turned; rw [hr]; rfl
  rw [this]
  exact (queued_hist (P := fun _ => True) 6 _ _ _ hr h0).1

theorem onTheWay_moving (a : ArchId) (h : (decide (a.minCmdTicks ≤ 21000) && decide ((onTheWay a).1.getMaxSpeedInTicks ≤ 21000) && (onTheWay a).1.isRampGeneratorActive &&
      !(onTheWay a).1.rg.ro.forceImmediateStop && decide ((onTheWay a).1.dirPin ≠ pinUndefined) && decide ((onTheWay a).1.dirChangeDelayTicks = 0) &&
      (onTheWay a).1.hw.q.ready && decide ((onTheWay a).1.hw.q.readIdx < 256) && decide ((onTheWay a).1.hw.q.nextWriteIdx < 256) &&
      decide ((onTheWay a).1.hw.q.queueEntries ≤ a.queueLen) && decide ((onTheWay a).1.getPositionAfterCommandsCompleted = -5)) = true)
    (hoff : (onTheWay a).1.autoEnable = false) : Moving a 21000 (onTheWay a).1 := by
  simp only [Bool.and_eq_true, decide_eq_true_eq, Bool.not_eq_true'] at h
  obtain ⟨⟨⟨⟨⟨⟨⟨⟨⟨⟨h1, h2⟩, h3⟩, h4⟩, h5⟩, h6⟩, h7⟩, h8⟩, h9⟩, h10⟩, h11⟩ := h
  exact ⟨h1, h2, by decide, h3, h4, h5, Or.inl h6, fun h => absurd h.1 (by rw [hoff]; decide), h7, h8, h9, h10, by rw [h11]; decide⟩

/-- AVR: the pulses stop the motor at -10, five steps beyond the end of the queue at the call of `stopMove()`. -/
example :
    let evs := ((onTheWay .avr328).2 ++ (stopped .avr328).2).flatMap (fun c => callAdd c true 0) ++ List.replicate 24 .compare
    let r := Avr.track .avr328 (Avr.fresh .avr328 7 true) ⟨[], []⟩ evs
    stepsOn 0 (netPulses true (r.1.pulses.reverse.map Pulse.dir)) = -10 := by
  intro evs r
  obtain ⟨⟨k0, h0⟩, hoff, hh⟩ := onTheWay_hist .avr328 (by decide +kernel)
  obtain ⟨k, h⟩ := stopped_hist .avr328 hoff (by decide +kernel)
  have hx := C100_stop_avr_partial .avr328 rfl 21000 10000 (backward .avr328) _ k0 _ (by decide) h0 hh (onTheWay_moving _ (by decide +kernel) hoff) (by decide)
    (by decide +kernel) (by decide +kernel) k _ _ h (by decide +kernel) (by decide +kernel) evs (by decide +kernel) (by decide +kernel) (by decide +kernel)
    (by decide +kernel) (by decide +kernel) (by decide +kernel)
  exact Eq.trans hx (by decide +kernel)

/-- MCPWM/PCNT: the same. -/
example :
    let evs := ((onTheWay .esp32).2 ++ (stopped .esp32).2).flatMap (fun c => mcAdd c true) ++ Mcpwm.rounds 20
    let r := Mcpwm.track shadowPcnt (Mcpwm.fresh shadowPcnt mcCnt 7 true) [] evs
    stepsOn 0 (netPulses true (pulseLevels r.1.log.reverse)) = -10 := by
  intro evs r
  obtain ⟨⟨k0, h0⟩, hoff, hh⟩ := onTheWay_hist .esp32 (by decide +kernel)
  obtain ⟨k, h⟩ := stopped_hist .esp32 hoff (by decide +kernel)
  have hx := C100_stop_mcpwm_partial 21000 10000 (backward .esp32) _ k0 _ (by decide) h0 hh (onTheWay_moving _ (by decide +kernel) hoff) (by decide)
    (by decide +kernel) (by decide +kernel) k _ _ h (by decide +kernel) (Mcpwm.fresh shadowPcnt mcCnt 7 true) (Mcpwm.fresh_idle _ _ 7 (by decide) true)
    (by decide +kernel) (by decide +kernel) evs (by decide +kernel) (by decide +kernel) (by decide +kernel) (by decide +kernel) (by decide +kernel)
  exact Eq.trans hx (by decide +kernel)

instance (v : RmtVer) : DecidablePred (Rmt.Ev.Plain v) := fun ev => by
  cases ev <;> unfold Rmt.Ev.Plain <;> infer_instance

/-- RMT with IDF 5: the motor runs to -10, turns there and goes to 2. -/
example :
    let evs := ((onTheWay .esp32).2 ++ (turned .esp32).2).flatMap (fun c => rmtAdd c true ++ [.fill]) ++ List.replicate 40 .fill
    let r := Rmt.track .idf5 (Rmt.fresh 7 true) [] evs
    stepsOn 0 (netPulses true (partLevels r.1.out.reverse)) = 2 := by
  intro evs r
  obtain ⟨⟨k0, h0⟩, hoff, hh⟩ := onTheWay_hist .esp32 (by decide +kernel)
  obtain ⟨k, h⟩ := turned_hist .esp32 hoff (by decide +kernel)
  exact C100_moveTo_rmt_partial .idf5 21000 10000 (backward .esp32) _ k0 _ (by decide) h0 hh (onTheWay_moving _ (by decide +kernel) hoff) (by decide)
    2 (by decide) (by decide +kernel) (by decide +kernel) k _ _ h (by decide +kernel) (Rmt.fresh 7 true) (Rmt.fresh_idle 7 (by decide) true)
    (by decide +kernel) (by decide +kernel) (by decide) evs
    (by decide +kernel) (by decide +kernel) (by decide +kernel)

/-- SAM Due: the pulses stop the motor at -10. -/
example :
    let evs := ((onTheWay .sam).2 ++ (stopped .sam).2).flatMap (fun c => dueAdd c true) ++ Due.rounds 60
    let r := Due.track (Due.fresh 7 true) [] evs
    stepsOn 0 (netPulses true (r.1.pulses.reverse.map DuePulse.level)) = -10 := by
  intro evs r
  obtain ⟨⟨k0, h0⟩, hoff, hh⟩ := onTheWay_hist .sam (by decide +kernel)
  obtain ⟨k, h⟩ := stopped_hist .sam hoff (by decide +kernel)
  have hx := C100_stop_due_partial 21000 10000 (backward .sam) _ k0 _ (by decide) h0 hh (onTheWay_moving _ (by decide +kernel) hoff) (by decide)
    (by decide +kernel) (by decide +kernel) k _ _ h (by decide +kernel) (Due.fresh 7 true) (Due.fresh_idle 7 (by decide) true)
    (by decide +kernel) (by decide +kernel) evs (by decide +kernel) (by decide +kernel) (by decide +kernel) (by decide +kernel)
  exact Eq.trans hx (by decide +kernel)

/-- RMT with IDF 5: the pulses stop the motor at -10. -/
example :
    let evs := ((onTheWay .esp32).2 ++ (stopped .esp32).2).flatMap (fun c => rmtAdd c true ++ [.fill]) ++ List.replicate 40 .fill
    let r := Rmt.track .idf5 (Rmt.fresh 7 true) [] evs
    stepsOn 0 (netPulses true (partLevels r.1.out.reverse)) = -10 := by
  intro evs r
  obtain ⟨⟨k0, h0⟩, hoff, hh⟩ := onTheWay_hist .esp32 (by decide +kernel)
  obtain ⟨k, h⟩ := stopped_hist .esp32 hoff (by decide +kernel)
  have hx := C100_stop_rmt_partial .idf5 21000 10000 (backward .esp32) _ k0 _ (by decide) h0 hh (onTheWay_moving _ (by decide +kernel) hoff) (by decide)
    (by decide +kernel) (by decide +kernel) k _ _ h (by decide +kernel) (Rmt.fresh 7 true) (Rmt.fresh_idle 7 (by decide) true)
    (by decide +kernel) (by decide +kernel) (by decide) evs (by decide +kernel) (by decide +kernel) (by decide +kernel)
  exact Eq.trans hx (by decide +kernel)

/-- AVR: the motor turns and goes to 2. -/
example :
    let evs := (onTheWay .avr328).2.flatMap (fun c => callAdd c true 0) ++ (turned .avr328).2.flatMap (fun c => .compare :: callAdd c true 0) ++ List.replicate 24 .compare
    let r := Avr.track .avr328 (Avr.fresh .avr328 7 true) ⟨[], []⟩ evs
    stepsOn 0 (netPulses true (r.1.pulses.reverse.map Pulse.dir)) = 2 := by
  intro evs r
  obtain ⟨⟨k0, h0⟩, hoff, hh⟩ := onTheWay_hist .avr328 (by decide +kernel)
  obtain ⟨k, h⟩ := turned_hist .avr328 hoff (by decide +kernel)
  exact C100_moveTo_avr_partial .avr328 rfl 21000 10000 (backward .avr328) _ k0 _ (by decide) h0 hh (onTheWay_moving _ (by decide +kernel) hoff) (by decide)
    2 (by decide) (by decide +kernel) (by decide +kernel) k _ _ h (by decide +kernel) (by decide +kernel) evs (by decide +kernel) (by decide +kernel) (by decide +kernel)
    (by decide +kernel) (by decide +kernel) (by decide +kernel)

/-- MCPWM/PCNT: the motor turns and goes to 2. -/
example :
    let evs := ((onTheWay .esp32).2 ++ (turned .esp32).2).flatMap (fun c => mcAdd c true) ++ Mcpwm.rounds 50
    let r := Mcpwm.track shadowPcnt (Mcpwm.fresh shadowPcnt mcCnt 7 true) [] evs
    stepsOn 0 (netPulses true (pulseLevels r.1.log.reverse)) = 2 := by
  intro evs r
  obtain ⟨⟨k0, h0⟩, hoff, hh⟩ := onTheWay_hist .esp32 (by decide +kernel)
  obtain ⟨k, h⟩ := turned_hist .esp32 hoff (by decide +kernel)
  exact C100_moveTo_mcpwm_partial 21000 10000 (backward .esp32) _ k0 _ (by decide) h0 hh (onTheWay_moving _ (by decide +kernel) hoff) (by decide)
    2 (by decide) (by decide +kernel) (by decide +kernel) k _ _ h (by decide +kernel) (Mcpwm.fresh shadowPcnt mcCnt 7 true) (Mcpwm.fresh_idle _ _ 7 (by decide) true)
    (by decide +kernel) (by decide +kernel) evs (by decide +kernel) (by decide +kernel) (by decide +kernel) (by decide +kernel) (by decide +kernel)

/-- SAM Due: the motor turns and goes to 2. -/
example :
    let evs := (onTheWay .sam).2.flatMap (fun c => dueAdd c true) ++ (turned .sam).2.flatMap (fun c => dueAdd c true ++ Due.rounds 1) ++ Due.rounds 60
    let r := Due.track (Due.fresh 7 true) [] evs
    stepsOn 0 (netPulses true (r.1.pulses.reverse.map DuePulse.level)) = 2 := by
  intro evs r
  obtain ⟨⟨k0, h0⟩, hoff, hh⟩ := onTheWay_hist .sam (by decide +kernel)
  obtain ⟨k, h⟩ := turned_hist .sam hoff (by decide +kernel)
  exact C100_moveTo_due_partial 21000 10000 (backward .sam) _ k0 _ (by decide) h0 hh (onTheWay_moving _ (by decide +kernel) hoff) (by decide)
    2 (by decide) (by decide +kernel) (by decide +kernel) k _ _ h (by decide +kernel) (Due.fresh 7 true) (Due.fresh_idle 7 (by decide) true)
    (by decide +kernel) (by decide +kernel) evs (by decide +kernel) (by decide +kernel) (by decide +kernel) (by decide +kernel)

end FAS
