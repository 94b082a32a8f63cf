import Verif.Props.EndToEnd
import Verif.Props.Fast

/-!
# A fast move from the call to the pulses: C79 with C87

As Props/EndToEnd.lean for set speeds with a period below the minimum command time.
-/

namespace FAS

open Spec

/-- What C87 says about the queued commands. -/
theorem fast_commands_lead_to_target {a : ArchId} {s : Stepper} (hh : RampHist a ApiCall.Typed s) (hst : Standing a a.minCmdTicks s)
    {speed : Nat} {accel : Int} {p : Int} (hs1 : s.getMaxSpeedInTicks ≤ speed) (hs2 : speed < a.minCmdTicks) (hs3 : a.ticksPerS / 500 < 128 * speed)
    (ha1 : 0 < accel) (ha2 : accel ≤ 500000) (hp : i32 p = p)
    (hclear : ∀ q, speed * q < a.minCmdTicks → 106 * (speed * q) ≤ 100 * a.minCmdTicks)
    (hne : p ≠ s.getPositionAfterCommandsCompleted)
    (hshort : (shortestWay p s.getPositionAfterCommandsCompleted).natAbs ≤ 2000000)
    {k : Nat} {cmds : List Cmd} {s' : Stepper} (h : TaskHist a (configuredMove s speed accel 0 0 p) k cmds s') (hend : s'.isRampGeneratorActive = false) :
    stepsOn s.getPositionAfterCommandsCompleted (signedSum cmds) = p := by
  obtain ⟨N, hN⟩ := C87_fast_move_clear_partial a s hh hst speed accel p hs1 hs2 hs3 ha1 ha2 hp hclear hne hshort
  exact ((hN k cmds s' h).2.1 hend).2

/-- C79 for fast moves (C87) on AVR: if commands arrive in time, the motor has moved to `p`, when the queue has come to its end. -/
theorem C79_avr_fast_partial (a : ArchId) (hav : a.isAvr = true) (s : Stepper) (hh : RampHist a ApiCall.Typed s) (hst : Standing a a.minCmdTicks s)
    (speed : Nat) (accel : Int) (p : Int) (hs1 : s.getMaxSpeedInTicks ≤ speed) (hs2 : speed < a.minCmdTicks) (hs3 : a.ticksPerS / 500 < 128 * speed)
    (ha1 : 0 < accel) (ha2 : accel ≤ 500000) (hp : i32 p = p)
    (hclear : ∀ q, speed * q < a.minCmdTicks → 106 * (speed * q) ≤ 100 * a.minCmdTicks)
    (hne : p ≠ s.getPositionAfterCommandsCompleted)
    (hshort : (shortestWay p s.getPositionAfterCommandsCompleted).natAbs ≤ 2000000)
    (k : Nat) (cmds : List Cmd) (s' : Stepper) (h : TaskHist a (configuredMove s speed accel 0 0 p) k cmds s') (hend : s'.isRampGeneratorActive = false)
    (hpin : s.dirPin < 128) (evs : List Avr.Ev) (hplain : ∀ ev ∈ evs, ev.Plain)
    (hstart : Avr.Along a Avr.NoLateStart (Avr.fresh a s.dirPin s.hw.q.dirHighCountsUp) evs)
    (hintime : Avr.Along a Avr.InTime (Avr.fresh a s.dirPin s.hw.q.dirHighCountsUp) evs) :
    let r := Avr.track a (Avr.fresh a s.dirPin s.hw.q.dirHighCountsUp) ⟨[], []⟩ evs
    r.2.accepted = cmds → r.1.q.running = false → r.2.waiting = [] →
      stepsOn s.getPositionAfterCommandsCompleted (netPulses s.hw.q.dirHighCountsUp (r.1.pulses.reverse.map Pulse.dir)) = p := by
  intro r hacc hrun hwait
  rw [avr_travel a hav s.dirPin s.hw.q.dirHighCountsUp hst.dirPin hpin cmds evs hplain hstart hintime hacc hrun hwait]
  exact fast_commands_lead_to_target hh hst hs1 hs2 hs3 ha1 ha2 hp hclear hne hshort h hend

/-- C79 for fast moves (C87) with the MCPWM/PCNT driver: when the driver has come to its end with nothing in the queue, the motor has moved to `p`. `s0` is the channel before the move, with the direction pin of the stepper. -/
theorem C79_mcpwm_fast_partial (s : Stepper) (hh : RampHist .esp32 ApiCall.Typed s) (hst : Standing .esp32 ArchId.esp32.minCmdTicks s)
    (speed : Nat) (accel : Int) (p : Int) (hs1 : s.getMaxSpeedInTicks ≤ speed) (hs2 : speed < ArchId.esp32.minCmdTicks) (hs3 : ArchId.esp32.ticksPerS / 500 < 128 * speed)
    (ha1 : 0 < accel) (ha2 : accel ≤ 500000) (hp : i32 p = p)
    (hclear : ∀ q, speed * q < ArchId.esp32.minCmdTicks → 106 * (speed * q) ≤ 100 * ArchId.esp32.minCmdTicks)
    (hne : p ≠ s.getPositionAfterCommandsCompleted)
    (hshort : (shortestWay p s.getPositionAfterCommandsCompleted).natAbs ≤ 2000000)
    (k : Nat) (cmds : List Cmd) (s' : Stepper) (h : TaskHist .esp32 (configuredMove s speed accel 0 0 p) k cmds s') (hend : s'.isRampGeneratorActive = false)
    (s0 : Mcpwm ShadowPcnt) (h0 : s0.Idle) (hpin : s0.q.dirPin = s.hw.q.dirPin) (hcu : s0.q.dirHighCountsUp = s.hw.q.dirHighCountsUp)
    (evs : List Mcpwm.Ev) (hb : Mcpwm.Along shadowPcnt Mcpwm.Basic s0 evs) :
    let r := Mcpwm.track shadowPcnt s0 [] evs
    r.2 = cmds → r.1.Served → r.1.q.running = false → Hw.readOut .esp32 ⟨r.1.q, 0⟩ = [] →
      stepsOn s.getPositionAfterCommandsCompleted (netPulses s.hw.q.dirHighCountsUp (pulseLevels r.1.log.reverse)) = p := by
  intro r hacc hserved hrun hempty
  rw [← hcu, mcpwm_travel cmds s0 h0 (by rw [hpin]; exact hst.dirPin) evs hb hacc hserved hrun hempty]
  exact fast_commands_lead_to_target hh hst hs1 hs2 hs3 ha1 ha2 hp hclear hne hshort h hend

/-- C79 for fast moves (C87) with the RMT drivers, for commands which can be encoded: when all commands have been handed over, the parts sent move the motor to `p`. -/
theorem C79_rmt_fast_partial (v : RmtVer) (s : Stepper) (hh : RampHist .esp32 ApiCall.Typed s) (hst : Standing .esp32 ArchId.esp32.minCmdTicks s)
    (speed : Nat) (accel : Int) (p : Int) (hs1 : s.getMaxSpeedInTicks ≤ speed) (hs2 : speed < ArchId.esp32.minCmdTicks) (hs3 : ArchId.esp32.ticksPerS / 500 < 128 * speed)
    (ha1 : 0 < accel) (ha2 : accel ≤ 500000) (hp : i32 p = p)
    (hclear : ∀ q, speed * q < ArchId.esp32.minCmdTicks → 106 * (speed * q) ≤ 100 * ArchId.esp32.minCmdTicks)
    (hne : p ≠ s.getPositionAfterCommandsCompleted)
    (hshort : (shortestWay p s.getPositionAfterCommandsCompleted).natAbs ≤ 2000000)
    (k : Nat) (cmds : List Cmd) (s' : Stepper) (h : TaskHist .esp32 (configuredMove s speed accel 0 0 p) k cmds s') (hend : s'.isRampGeneratorActive = false)
    (s0 : Rmt) (h0 : s0.Idle) (hpin : s0.q.dirPin = s.hw.q.dirPin) (hcu : s0.q.dirHighCountsUp = s.hw.q.dirHighCountsUp)
    (hpos : s0.q.qend.pos = i32 s0.q.qend.pos) (evs : List Rmt.Ev) (hb : ∀ ev ∈ evs, ev.Plain v) :
    let r := Rmt.track v s0 [] evs
    r.2 = cmds → Hw.readOut .esp32 ⟨r.1.q, 0⟩ = [] →
      stepsOn s.getPositionAfterCommandsCompleted (netPulses s.hw.q.dirHighCountsUp (partLevels r.1.out.reverse)) = p := by
  intro r hacc hempty
  rw [← hcu, rmt_travel v cmds s0 h0 (by rw [hpin]; exact hst.dirPin) hpos evs hb hacc hempty]
  exact fast_commands_lead_to_target hh hst hs1 hs2 hs3 ha1 ha2 hp hclear hne hshort h hend

/-- C79 for fast moves (C87) on SAM Due, for changes of direction which its interrupts can handle: when the queue is empty, the motor has moved to `p`. -/
theorem C79_due_fast_partial (s : Stepper) (hh : RampHist .sam ApiCall.Typed s) (hst : Standing .sam ArchId.sam.minCmdTicks s)
    (speed : Nat) (accel : Int) (p : Int) (hs1 : s.getMaxSpeedInTicks ≤ speed) (hs2 : speed < ArchId.sam.minCmdTicks) (hs3 : ArchId.sam.ticksPerS / 500 < 128 * speed)
    (ha1 : 0 < accel) (ha2 : accel ≤ 500000) (hp : i32 p = p)
    (hclear : ∀ q, speed * q < ArchId.sam.minCmdTicks → 106 * (speed * q) ≤ 100 * ArchId.sam.minCmdTicks)
    (hne : p ≠ s.getPositionAfterCommandsCompleted)
    (hshort : (shortestWay p s.getPositionAfterCommandsCompleted).natAbs ≤ 2000000)
    (k : Nat) (cmds : List Cmd) (s' : Stepper) (h : TaskHist .sam (configuredMove s speed accel 0 0 p) k cmds s') (hend : s'.isRampGeneratorActive = false)
    (s0 : Due) (h0 : s0.Idle) (hpin : s0.q.dirPin = s.hw.q.dirPin) (hcu : s0.q.dirHighCountsUp = s.hw.q.dirHighCountsUp)
    (evs : List Due.Ev) (hb : Due.Along Due.Basic s0 evs) (hturn : Due.Along Due.SafeTurn s0 evs) :
    let r := Due.track s0 [] evs
    r.2 = cmds → Hw.readOut .sam ⟨r.1.q, 0⟩ = [] →
      stepsOn s.getPositionAfterCommandsCompleted (netPulses s.hw.q.dirHighCountsUp (r.1.pulses.reverse.map DuePulse.level)) = p := by
  intro r hacc hempty
  rw [← hcu, due_travel cmds s0 h0 (by rw [hpin]; exact hst.dirPin) evs hb hturn hacc hempty]
  exact fast_commands_lead_to_target hh hst hs1 hs2 hs3 ha1 ha2 hp hclear hne hshort h hend

/-! ## Examples -/

/-- The queue runs empty, then the task comes; `n` times, with the commands queued. -/
def drainCmds (a : ArchId) : Nat → Stepper → List Cmd → Option (Stepper × List Cmd)
  | 0, s, cmds => some (s, cmds)
  | n + 1, s, cmds =>
    match ({ s with hw := { s.hw with q := { s.hw.q with readIdx := s.hw.q.nextWriteIdx } } } : Stepper).fillQueue a calmEnv junk0 with
    | none => none
    | some (s', acc) => drainCmds a n s' (cmds ++ acc)

theorem drainCmds_hist {a : ArchId} {s0 : Stepper} : ∀ n {k cmds s r}, TaskHist a s0 k cmds s → s.hw.q.IdxOK a → s.autoEnable = false → drainCmds a n s cmds = some r →
    ∃ k', TaskHist a s0 k' r.2 r.1
  | 0, k, cmds, s, r, h, _, _, hd => by cases hd; exact ⟨k, h⟩
  | n + 1, k, cmds, s, r, h, hi, hoff, hd => by
    unfold drainCmds at hd
    split at hd
    · cases hd
    · rename_i s2 acc hf
      have h2 : TaskHist a s0 k cmds { s with hw := { s.hw with q := { s.hw.q with readIdx := s.hw.q.nextWriteIdx } } } :=
        .elapse h ⟨rfl, rfl, rfl, rfl, rfl, rfl, rfl, rfl, hi.2.1, hi.2.1, by
          change subU8 s.hw.q.nextWriteIdx s.hw.q.nextWriteIdx ≤ _
          unfold subU8; omega⟩
      refine drainCmds_hist n (.task calmEnv junk0 acc h2 (by decide) (.undelayed (Or.inl hoff)) hf) (fillQueue_idx ?_ hf)
        ((Stepper.fillQueue_sameConfig a _ _ _ _ _ hf).auto.trans hoff) hd
      refine ⟨hi.2.1, hi.2.1, ?_⟩
      change subU8 s.hw.q.nextWriteIdx s.hw.q.nextWriteIdx ≤ _
      unfold subU8; omega

/-- A stepper on the given platform, connected alone, with its direction pin. -/
def alone (a : ArchId) : Stepper := (standing a).adjustSpeedToStepperCount a 1

theorem drain_move {a : ArchId} {n speed : Nat} {accel p : Int} {cmds : List Cmd} (hi : (configuredMove (alone a) speed accel 0 0 p).hw.q.IdxOK a)
    (h : ((drainCmds a n (configuredMove (alone a) speed accel 0 0 p) []).map fun r => (r.2, r.1.isRampGeneratorActive)) = some (cmds, false)) :
    ∃ k s', TaskHist a (configuredMove (alone a) speed accel 0 0 p) k cmds s' ∧ s'.isRampGeneratorActive = false := by
  rw [Option.map_eq_some_iff] at h
  obtain ⟨r, h1, h2⟩ := h
  obtain ⟨k, h3⟩ := drainCmds_hist n .start hi (configuredMove_auto _ _ _ _ _ _) h1
  rw [show r.2 = cmds from congrArg Prod.fst h2] at h3
  exact ⟨k, r.1, h3, congrArg Prod.snd h2⟩

/-- The commands for `moveTo(-100)` on ESP32 with a period of 100 µs and 400000 steps/s²; most have more than one step, some a period below the minimum
command time. -/
def hundredBack : List Cmd := [⟨17904, 1, false⟩, ⟨12656, 1, false⟩, ⟨8952, 2, false⟩, ⟨6760, 3, false⟩, ⟨5400, 4, false⟩, ⟨4476, 5, false⟩, ⟨3732, 7, false⟩,
  ⟨3214, 8, false⟩, ⟨2830, 9, false⟩, ⟨2530, 10, false⟩, ⟨2904, 12, false⟩, ⟨3444, 11, false⟩, ⟨4220, 9, false⟩, ⟨5400, 7, false⟩, ⟨7304, 5, false⟩,
  ⟨12656, 4, false⟩, ⟨12656, 2, false⟩]

theorem hundredBack_esp32 : ∃ k s', TaskHist .esp32 (configuredMove (alone .esp32) 1600 400000 0 0 (-100)) k hundredBack s' ∧ s'.isRampGeneratorActive = false :=
  drain_move (n := 4) (by unfold Queue.IdxOK; decide) (by decide +kernel)

theorem alone_esp32 : Standing .esp32 ArchId.esp32.minCmdTicks (alone .esp32) :=
  ⟨by decide, by decide, by decide, rfl, rfl, by decide, Or.inl rfl, fun h => absurd h.1 (by decide), by decide, by decide, by decide, by decide, by decide⟩

set_option maxRecDepth 4000 in
/-- MCPWM/PCNT: the pulses of this move. -/
example :
    let evs := hundredBack.flatMap (fun c => mcAdd c true) ++ Mcpwm.rounds 110
    let r := Mcpwm.track shadowPcnt (Mcpwm.fresh shadowPcnt mcCnt 7 true) [] evs
    stepsOn 0 (netPulses true (pulseLevels r.1.log.reverse)) = -100 := by
  intro evs r
  obtain ⟨k, s', h, hend⟩ := hundredBack_esp32
  exact C79_mcpwm_fast_partial (alone .esp32) (RampHist.start _ rfl) alone_esp32 1600 400000 (-100) (by decide) (by decide) (by decide) (by decide)
    (by decide) (by decide) (fun q h => by rw [show ArchId.esp32.minCmdTicks = 3200 from rfl] at h ⊢; omega) (by decide) (by decide) k hundredBack s' h hend
    (Mcpwm.fresh shadowPcnt mcCnt 7 true) (Mcpwm.fresh_idle _ _ 7 (by decide) true) rfl rfl evs (by decide +kernel) (by decide +kernel)
    (by decide +kernel) (by decide +kernel) (by decide +kernel)

/-- RMT with IDF 5: the pulses of this move. -/
example :
    let evs := hundredBack.flatMap (fun c => rmtAdd c true) ++ List.replicate 110 .fill
    let r := Rmt.track .idf5 (Rmt.fresh 7 true) [] evs
    stepsOn 0 (netPulses true (partLevels r.1.out.reverse)) = -100 := by
  intro evs r
  obtain ⟨k, s', h, hend⟩ := hundredBack_esp32
  exact C79_rmt_fast_partial .idf5 (alone .esp32) (RampHist.start _ rfl) alone_esp32 1600 400000 (-100) (by decide) (by decide) (by decide) (by decide)
    (by decide) (by decide) (fun q h => by rw [show ArchId.esp32.minCmdTicks = 3200 from rfl] at h ⊢; omega) (by decide) (by decide) k hundredBack s' h hend
    (Rmt.fresh 7 true) (Rmt.fresh_idle 7 (by decide) true) rfl rfl (by decide) evs
    (by simp [evs, hundredBack, rmtAdd, Rmt.Ev.Plain]; decide) (by decide +kernel) (by decide +kernel)

/-- The same on SAM Due, with the same speed and acceleration. -/
def hundredBackSam : List Cmd := [⟨23488, 1, false⟩, ⟨16608, 1, false⟩, ⟨11744, 2, false⟩, ⟨8880, 3, false⟩, ⟨7088, 4, false⟩, ⟨5872, 5, false⟩, ⟨4896, 7, false⟩,
  ⟨4220, 8, false⟩, ⟨3716, 9, false⟩, ⟨3322, 10, false⟩, ⟨3814, 12, false⟩, ⟨4524, 11, false⟩, ⟨5540, 9, false⟩, ⟨7088, 7, false⟩, ⟨9584, 5, false⟩,
  ⟨16608, 4, false⟩, ⟨16608, 2, false⟩]

theorem hundredBack_sam : ∃ k s', TaskHist .sam (configuredMove (alone .sam) 2100 400000 0 0 (-100)) k hundredBackSam s' ∧ s'.isRampGeneratorActive = false :=
  drain_move (n := 6) (by unfold Queue.IdxOK; decide) (by decide +kernel)

theorem alone_sam : Standing .sam ArchId.sam.minCmdTicks (alone .sam) :=
  ⟨by decide, by decide, by decide, rfl, rfl, by decide, Or.inl rfl, fun h => absurd h.1 (by decide), by decide, by decide, by decide, by decide, by decide⟩

/-- SAM Due: the pulses of this move. -/
example :
    let evs := hundredBackSam.flatMap (fun c => dueAdd c true) ++ Due.rounds 130
    let r := Due.track (Due.fresh 7 true) [] evs
    stepsOn 0 (netPulses true (r.1.pulses.reverse.map DuePulse.level)) = -100 := by
  intro evs r
  obtain ⟨k, s', h, hend⟩ := hundredBack_sam
  exact C79_due_fast_partial (alone .sam) (RampHist.start _ rfl) alone_sam 2100 400000 (-100) (by decide) (by decide) (by decide) (by decide)
    (by decide) (by decide) (fun q h => by rw [show ArchId.sam.minCmdTicks = 4200 from rfl] at h ⊢; omega) (by decide) (by decide) k hundredBackSam s' h hend
    (Due.fresh 7 true) (Due.fresh_idle 7 (by decide) true) rfl rfl evs
    (by decide +kernel) (by decide +kernel) (by decide +kernel) (by decide +kernel)

/-- On AVR with a period of 30 µs: the commands for `moveTo(-50)`. -/
def fiftyBack : List Cmd := [⟨17904, 1, false⟩, ⟨12656, 1, false⟩, ⟨8952, 2, false⟩, ⟨6760, 3, false⟩, ⟨5400, 4, false⟩, ⟨4476, 5, false⟩, ⟨3732, 7, false⟩,
  ⟨3732, 4, false⟩, ⟨4624, 8, false⟩, ⟨5968, 6, false⟩, ⟨8952, 5, false⟩, ⟨17904, 3, false⟩, ⟨17904, 1, false⟩]

theorem fiftyBack_avr : ∃ k s', TaskHist .avr328 (configuredMove (alone .avr328) 480 400000 0 0 (-50)) k fiftyBack s' ∧ s'.isRampGeneratorActive = false :=
  drain_move (n := 6) (by unfold Queue.IdxOK; decide) (by decide +kernel)

theorem alone_avr : Standing .avr328 ArchId.avr328.minCmdTicks (alone .avr328) :=
  ⟨by decide, by decide, by decide, rfl, rfl, by decide, Or.inl rfl, fun h => absurd h.1 (by decide), by decide, by decide, by decide, by decide, by decide⟩

/-- AVR: the pulses of this move. -/
example :
    let evs := fiftyBack.flatMap (fun c => callAdd c true 0) ++ List.replicate 80 .compare
    let r := Avr.track .avr328 (Avr.fresh .avr328 7 true) ⟨[], []⟩ evs
    stepsOn 0 (netPulses true (r.1.pulses.reverse.map Pulse.dir)) = -50 := by
  intro evs r
  obtain ⟨k, s', h, hend⟩ := fiftyBack_avr
  exact C79_avr_fast_partial .avr328 rfl (alone .avr328) (RampHist.start _ rfl) alone_avr 480 400000 (-50) (by decide) (by decide) (by decide) (by decide)
    (by decide) (by decide) (fun q h => by rw [show ArchId.avr328.minCmdTicks = 640 from rfl] at h ⊢; omega) (by decide) (by decide) k fiftyBack s' h hend
    (by decide) evs (by decide) (by decide +kernel) (by decide +kernel) (by decide +kernel) (by decide +kernel) (by decide +kernel)

end FAS
