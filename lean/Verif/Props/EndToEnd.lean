import Verif.Props.Cycles
import Verif.Props.Avr
import Verif.Props.Due
import Verif.Props.PulseCounter

/-!
# A move from the call to the pulses: C79

The stepper gets its configuration and `moveTo(p)`, the task serves the move until the ramp is idle, and the driver of the platform outputs the commands which the task has queued. The motor has
then moved to `p`: the position at the start plus the signed number of pulses, each counted with the level of the direction pin at the pulse, is `p`.
-/

namespace FAS

open Spec

/-- What C57 says about the queued commands. -/
theorem commands_lead_to_target {a : ArchId} {L : Nat} {s : Stepper} (hh : RampHist a ApiCall.Typed s) (hst : Standing a L s)
    {speed : Nat} {accel : Int} {lin : Nat} {p : Int} (hs1 : L ≤ speed) (hs2 : speed < 4294967295) (ha1 : 0 < accel) (ha2 : accel < 2147483648)
    (hlin : lin < 4294967294) (hp : i32 p = p) (hdist : shortestWay p s.getPositionAfterCommandsCompleted ≠ -2147483648)
    {k : Nat} {cmds : List Cmd} {s' : Stepper} (h : TaskHist a (configuredMove s speed accel lin 0 p) k cmds s') (hend : s'.isRampGeneratorActive = false) :
    stepsOn s.getPositionAfterCommandsCompleted (signedSum cmds) = p := by
  obtain ⟨N, hN⟩ := C57_task_arrives_partial a L s hh hst speed accel lin p hs1 hs2 ha1 ha2 hlin hp hdist
  exact ((hN k cmds s' h).2.1 hend).2

theorem net_replicate (hcu : Bool) (l : Bool) (n : Nat) : netPulses hcu (List.replicate n l) = if l = hcu then (n : Int) else -(n : Int) := by
  induction n with
  | zero => split <;> rfl
  | succ n ih =>
    rw [List.replicate_succ, netPulses, ih]
    split <;> omega

/-- The signed number of pulses, if each is output with the direction of its command. -/
theorem net_commands {pin : Nat} {hcu : Bool} (hpin : pin ≠ pinUndefined) (cmds : List Cmd) :
    netPulses hcu (cmds.flatMap fun c => List.replicate c.steps (dirLevelFor pin hcu c.countUp)) = signedSum cmds := by
  induction cmds with
  | nil => rfl
  | cons c cs ih =>
    rw [List.flatMap_cons, netPulses_append, ih, net_replicate]
    have hl : dirLevelFor pin hcu c.countUp = (c.countUp == hcu) := by
      unfold dirLevelFor; rw [if_neg hpin]
    rw [hl]
    simp only [signedSum, Cmd.signed]
    cases c.countUp <;> cases hcu <;> simp

/-- The AVR driver outputs the steps of the commands. -/
theorem avr_travel (a : ArchId) (hav : a.isAvr = true) (pin : Nat) (hcu : Bool) (hdir : pin ≠ pinUndefined) (hpin : pin < 128)
    (cmds : List Cmd) (evs : List Avr.Ev) (hplain : ∀ ev ∈ evs, ev.Plain)
    (hstart : Avr.Along a Avr.NoLateStart (Avr.fresh a pin hcu) evs) (hintime : Avr.Along a Avr.InTime (Avr.fresh a pin hcu) evs) :
    let r := Avr.track a (Avr.fresh a pin hcu) ⟨[], []⟩ evs
    r.2.accepted = cmds → r.1.q.running = false → r.2.waiting = [] →
      netPulses hcu (r.1.pulses.reverse.map Pulse.dir) = signedSum cmds := by
  intro r hacc hrun hwait
  have h8 := (C08_pulse_count_partial a hav pin (Or.inr hpin) hcu evs hplain hstart).2 hrun
  have h9 := (C09_direction_and_position_partial a hav pin (Or.inr hpin) hcu evs hplain hstart hintime).1
  change r.1.pulses.length + stepSum r.2.waiting = stepSum r.2.accepted at h8
  rw [hwait, hacc] at h8
  change _ <+: (r.2.accepted).flatMap _ at h9
  rw [hacc] at h9
  have hlen : ∀ cs : List Cmd, (cs.flatMap fun c => List.replicate c.steps (dirLevelFor pin hcu c.countUp)).length = stepSum cs := by
    intro cs
    induction cs with
    | nil => rfl
    | cons c cs ih => rw [List.flatMap_cons, List.length_append, List.length_replicate, ih]; rfl
  have heq := h9.eq_of_length (by
    rw [hlen, List.length_map, List.length_reverse]
    change r.1.pulses.length = _
    rw [← h8]; rfl)
  change r.1.pulses.reverse.map Pulse.dir = _ at heq
  rw [heq, net_commands hdir]

/-- C79 on AVR: if commands arrive in time, the motor has moved to `p`, when the queue has come to its end. -/
theorem C79_avr_partial (a : ArchId) (hav : a.isAvr = true) (L : Nat) (s : Stepper) (hh : RampHist a ApiCall.Typed s) (hst : Standing a L s)
    (speed : Nat) (accel : Int) (lin : Nat) (p : Int) (hs1 : L ≤ speed) (hs2 : speed < 4294967295) (ha1 : 0 < accel) (ha2 : accel < 2147483648)
    (hlin : lin < 4294967294) (hp : i32 p = p) (hdist : shortestWay p s.getPositionAfterCommandsCompleted ≠ -2147483648)
    (k : Nat) (cmds : List Cmd) (s' : Stepper) (h : TaskHist a (configuredMove s speed accel lin 0 p) k cmds s') (hend : s'.isRampGeneratorActive = false)
    (hpin : s.dirPin < 128) (evs : List Avr.Ev) (hplain : ∀ ev ∈ evs, ev.Plain)
    (hstart : Avr.Along a Avr.NoLateStart (Avr.fresh a s.dirPin s.hw.q.dirHighCountsUp) evs)
    (hintime : Avr.Along a Avr.InTime (Avr.fresh a s.dirPin s.hw.q.dirHighCountsUp) evs) :
    let r := Avr.track a (Avr.fresh a s.dirPin s.hw.q.dirHighCountsUp) ⟨[], []⟩ evs
    r.2.accepted = cmds → r.1.q.running = false → r.2.waiting = [] →
      stepsOn s.getPositionAfterCommandsCompleted (netPulses s.hw.q.dirHighCountsUp (r.1.pulses.reverse.map Pulse.dir)) = p := by
  intro r hacc hrun hwait
  rw [avr_travel a hav s.dirPin s.hw.q.dirHighCountsUp hst.dirPin hpin cmds evs hplain hstart hintime hacc hrun hwait]
  exact commands_lead_to_target hh hst hs1 hs2 ha1 ha2 hlin hp hdist h hend

/-- The MCPWM/PCNT driver outputs the steps of the commands. -/
theorem mcpwm_travel (cmds : List Cmd) (s0 : Mcpwm ShadowPcnt) (h0 : s0.Idle) (hdir : s0.q.dirPin ≠ pinUndefined)
    (evs : List Mcpwm.Ev) (hb : Mcpwm.Along shadowPcnt Mcpwm.Basic s0 evs) :
    let r := Mcpwm.track shadowPcnt s0 [] evs
    r.2 = cmds → r.1.Served → r.1.q.running = false → Hw.readOut .esp32 ⟨r.1.q, 0⟩ = [] →
      netPulses s0.q.dirHighCountsUp (pulseLevels r.1.log.reverse) = signedSum cmds := by
  intro r hacc hserved hrun hempty
  have h72 := (C72_periods_partial s0 h0 evs hb).2 hserved
  change r.1.log.reverse.map Cycle.shape ++ cycles (Hw.readOut .esp32 ⟨r.1.q, if r.1.q.running then r.1.pcnt.val else 0⟩) = cycles r.2 at h72
  rw [hrun, hacc] at h72
  simp only [Bool.false_eq_true, if_false] at h72
  rw [hempty] at h72
  have h73 := C73_direction_partial s0 h0 evs hb
  dsimp only at h73
  rw [net_travel (pin := s0.q.dirPin) hdir _ (fun c hx => h73 c (List.mem_reverse.mp hx))]
  have : cycles ([] : List Cmd) = [] := rfl
  rw [this, List.append_nil] at h72
  rw [h72, travel_cycles]

/-- C79 with the MCPWM/PCNT driver: when the driver has come to its end with nothing in the queue, the motor has moved to `p`. `s0` is the channel before the move, with the direction pin of the stepper. -/
theorem C79_mcpwm_partial (L : Nat) (s : Stepper) (hh : RampHist .esp32 ApiCall.Typed s) (hst : Standing .esp32 L s)
    (speed : Nat) (accel : Int) (lin : Nat) (p : Int) (hs1 : L ≤ speed) (hs2 : speed < 4294967295) (ha1 : 0 < accel) (ha2 : accel < 2147483648)
    (hlin : lin < 4294967294) (hp : i32 p = p) (hdist : shortestWay p s.getPositionAfterCommandsCompleted ≠ -2147483648)
    (k : Nat) (cmds : List Cmd) (s' : Stepper) (h : TaskHist .esp32 (configuredMove s speed accel lin 0 p) k cmds s') (hend : s'.isRampGeneratorActive = false)
    (s0 : Mcpwm ShadowPcnt) (h0 : s0.Idle) (hpin : s0.q.dirPin = s.hw.q.dirPin) (hcu : s0.q.dirHighCountsUp = s.hw.q.dirHighCountsUp)
    (evs : List Mcpwm.Ev) (hb : Mcpwm.Along shadowPcnt Mcpwm.Basic s0 evs) :
    let r := Mcpwm.track shadowPcnt s0 [] evs
    r.2 = cmds → r.1.Served → r.1.q.running = false → Hw.readOut .esp32 ⟨r.1.q, 0⟩ = [] →
      stepsOn s.getPositionAfterCommandsCompleted (netPulses s.hw.q.dirHighCountsUp (pulseLevels r.1.log.reverse)) = p := by
  intro r hacc hserved hrun hempty
  rw [← hcu, mcpwm_travel cmds s0 h0 (by rw [hpin]; exact hst.dirPin) evs hb hacc hserved hrun hempty]
  exact commands_lead_to_target hh hst hs1 hs2 ha1 ha2 hlin hp hdist h hend

/-- The RMT drivers hand over the steps of the commands. -/
theorem rmt_travel (v : RmtVer) (cmds : List Cmd) (s0 : Rmt) (h0 : s0.Idle) (hdir : s0.q.dirPin ≠ pinUndefined)
    (hpos : s0.q.qend.pos = i32 s0.q.qend.pos) (evs : List Rmt.Ev) (hb : ∀ ev ∈ evs, ev.Plain v) :
    let r := Rmt.track v s0 [] evs
    r.2 = cmds → Hw.readOut .esp32 ⟨r.1.q, 0⟩ = [] →
      netPulses s0.q.dirHighCountsUp (partLevels r.1.out.reverse) = signedSum cmds := by
  intro r hacc hempty
  have h77 := (C77_standstill_partial v _ s0 h0 hpos evs hb hempty).1
  rw [net_plays hdir h77]
  change signedSum r.2 = _
  rw [hacc]

/-- C79 with the RMT drivers, for commands which can be encoded: when all commands have been handed over, the parts sent move the motor to `p`. -/
theorem C79_rmt_partial (v : RmtVer) (L : Nat) (s : Stepper) (hh : RampHist .esp32 ApiCall.Typed s) (hst : Standing .esp32 L s)
    (speed : Nat) (accel : Int) (lin : Nat) (p : Int) (hs1 : L ≤ speed) (hs2 : speed < 4294967295) (ha1 : 0 < accel) (ha2 : accel < 2147483648)
    (hlin : lin < 4294967294) (hp : i32 p = p) (hdist : shortestWay p s.getPositionAfterCommandsCompleted ≠ -2147483648)
    (k : Nat) (cmds : List Cmd) (s' : Stepper) (h : TaskHist .esp32 (configuredMove s speed accel lin 0 p) k cmds s') (hend : s'.isRampGeneratorActive = false)
    (s0 : Rmt) (h0 : s0.Idle) (hpin : s0.q.dirPin = s.hw.q.dirPin) (hcu : s0.q.dirHighCountsUp = s.hw.q.dirHighCountsUp)
    (hpos : s0.q.qend.pos = i32 s0.q.qend.pos) (evs : List Rmt.Ev) (hb : ∀ ev ∈ evs, ev.Plain v) :
    let r := Rmt.track v s0 [] evs
    r.2 = cmds → Hw.readOut .esp32 ⟨r.1.q, 0⟩ = [] →
      stepsOn s.getPositionAfterCommandsCompleted (netPulses s.hw.q.dirHighCountsUp (partLevels r.1.out.reverse)) = p := by
  intro r hacc hempty
  rw [← hcu, rmt_travel v cmds s0 h0 (by rw [hpin]; exact hst.dirPin) hpos evs hb hacc hempty]
  exact commands_lead_to_target hh hst hs1 hs2 ha1 ha2 hlin hp hdist h hend

/-- The driver of SAM Due outputs the steps of the commands. -/
theorem due_travel (cmds : List Cmd) (s0 : Due) (h0 : s0.Idle) (hpin0 : s0.q.dirPin ≠ pinUndefined)
    (evs : List Due.Ev) (hb : Due.Along Due.Basic s0 evs) (hturn : Due.Along Due.SafeTurn s0 evs) :
    let r := Due.track s0 [] evs
    r.2 = cmds → Hw.readOut .sam ⟨r.1.q, 0⟩ = [] →
      netPulses s0.q.dirHighCountsUp (r.1.pulses.reverse.map DuePulse.level) = signedSum cmds := by
  intro r hacc hempty
  have h64 := C64_pulses_partial s0 h0 evs hb
  dsimp only at h64
  change r.1.pulses.reverse.map DuePulse.up ++ stepDirs (Hw.readOut .sam ⟨r.1.q, 0⟩) = stepDirs r.2 at h64
  rw [hempty, hacc] at h64
  have hnil : stepDirs ([] : List Cmd) = [] := rfl
  rw [hnil, List.append_nil] at h64
  have h52 := C52_direction_partial s0 h0 evs hb hturn
  rw [← Due.track_run evs s0 []] at h52
  have key : ∀ (ps : List DuePulse) (cs : List Cmd), ps.map DuePulse.up = stepDirs cs →
      (∀ q ∈ ps, ∀ up, q.up = some up → DirOK s0.q.dirPin s0.q.dirHighCountsUp up q.level) →
      ps.map DuePulse.level = cs.flatMap fun c => List.replicate c.steps (dirLevelFor s0.q.dirPin s0.q.dirHighCountsUp c.countUp) := by
    intro ps cs
    induction cs generalizing ps with
    | nil =>
      intro h1 _
      have : ps = [] := by simpa [stepDirs] using h1
      subst this; rfl
    | cons c cs ih =>
      intro h1 h2
      unfold stepDirs at h1
      obtain ⟨ps1, ps2, rfl, h3, h4⟩ := List.map_eq_append_iff.mp h1
      rw [List.map_append, List.flatMap_cons, ih ps2 h4 (fun q hq => h2 q (List.mem_append_right _ hq))]
      congr 1
      rw [List.eq_replicate_iff]
      have hl := congrArg List.length h3
      rw [List.length_map, List.length_replicate] at hl
      refine ⟨by rw [List.length_map, hl], fun b hb => ?_⟩
      obtain ⟨q, hq, rfl⟩ := List.mem_map.mp hb
      have hup : q.up = some c.countUp := by
        have : q.up ∈ List.replicate c.steps (some c.countUp) := by rw [← h3]; exact List.mem_map_of_mem hq
        exact (List.mem_replicate.mp this).2
      have hd := h2 q (List.mem_append_left _ hq) _ hup hpin0
      unfold dirLevelFor
      rw [if_neg hpin0, hd]
  rw [key _ cmds h64 (fun q hq => h52 q (List.mem_reverse.mp hq)), net_commands hpin0]

/-- C79 on SAM Due, for changes of direction which its interrupts can handle: when the queue is empty, the motor has moved to `p`. -/
theorem C79_due_partial (L : Nat) (s : Stepper) (hh : RampHist .sam ApiCall.Typed s) (hst : Standing .sam L s)
    (speed : Nat) (accel : Int) (lin : Nat) (p : Int) (hs1 : L ≤ speed) (hs2 : speed < 4294967295) (ha1 : 0 < accel) (ha2 : accel < 2147483648)
    (hlin : lin < 4294967294) (hp : i32 p = p) (hdist : shortestWay p s.getPositionAfterCommandsCompleted ≠ -2147483648)
    (k : Nat) (cmds : List Cmd) (s' : Stepper) (h : TaskHist .sam (configuredMove s speed accel lin 0 p) k cmds s') (hend : s'.isRampGeneratorActive = false)
    (s0 : Due) (h0 : s0.Idle) (hpin : s0.q.dirPin = s.hw.q.dirPin) (hcu : s0.q.dirHighCountsUp = s.hw.q.dirHighCountsUp)
    (evs : List Due.Ev) (hb : Due.Along Due.Basic s0 evs) (hturn : Due.Along Due.SafeTurn s0 evs) :
    let r := Due.track s0 [] evs
    r.2 = cmds → Hw.readOut .sam ⟨r.1.q, 0⟩ = [] →
      stepsOn s.getPositionAfterCommandsCompleted (netPulses s.hw.q.dirHighCountsUp (r.1.pulses.reverse.map DuePulse.level)) = p := by
  intro r hacc hempty
  rw [← hcu, due_travel cmds s0 h0 (by rw [hpin]; exact hst.dirPin) evs hb hturn hacc hempty]
  exact commands_lead_to_target hh hst hs1 hs2 ha1 ha2 hlin hp hdist h hend

/-! ## Example: three steps backward -/

/-- The commands the task queues for `moveTo(-3)` from position 0 with acceleration 10000. -/
def threeBack : List Cmd := [⟨56608, 1, false⟩, ⟨56608, 0, false⟩, ⟨56608, 1, false⟩, ⟨56608, 0, false⟩, ⟨56608, 1, false⟩, ⟨56608, 0, false⟩]

/-- The same stepper as `standing0` on the given platform. -/
def standing (a : ArchId) : Stepper := ((Stepper.init a 1).setDirectionPin a none 7 true 0).1

/-- One task cycle queues the commands, the queue runs empty, another task cycle sets the ramp idle. -/
theorem threeBack_hist (a : ArchId) (speed : Nat) (cmds : List Cmd)
    (h : (((configuredMove (standing a) speed 10000 0 0 (-3)).fillQueue a calmEnv junk0).bind fun r =>
      (({ r.1 with hw := { r.1.hw with q := { r.1.hw.q with readIdx := r.1.hw.q.nextWriteIdx } } } : Stepper).fillQueue a calmEnv junk0).map fun r' =>
        (r.2, decide (r.1.hw.q.nextWriteIdx < 256), r'.2, r'.1.isRampGeneratorActive)) = some (cmds, true, [], false)) :
    ∃ k s', TaskHist a (configuredMove (standing a) speed 10000 0 0 (-3)) k cmds s' ∧ s'.isRampGeneratorActive = false := by
  rw [Option.bind_eq_some_iff] at h
  obtain ⟨⟨s1, acc1⟩, h1, h2⟩ := h
  rw [Option.map_eq_some_iff] at h2
  obtain ⟨⟨s2, acc2⟩, h2, h3⟩ := h2
  simp only [Prod.mk.injEq, decide_eq_true_eq] at h3
  obtain ⟨rfl, h4, rfl, h5⟩ := h3
  have hoff : (configuredMove (standing a) speed 10000 0 0 (-3)).autoEnable = false := configuredMove_auto _ _ _ _ _ _
  have x1 := TaskHist.task calmEnv junk0 _ TaskHist.start (by decide) (.undelayed (Or.inl hoff)) h1
  have x2 := TaskHist.elapse (s' := { s1 with hw := { s1.hw with q := { s1.hw.q with readIdx := s1.hw.q.nextWriteIdx } } }) x1
    ⟨rfl, rfl, rfl, rfl, rfl, rfl, rfl, rfl, h4, h4, by
      change subU8 s1.hw.q.nextWriteIdx s1.hw.q.nextWriteIdx ≤ _
      unfold subU8; omega⟩
  have x3 := TaskHist.task calmEnv junk0 _ x2 (by decide) (.undelayed (Or.inl ((Stepper.fillQueue_sameConfig a _ _ _ _ _ h1).auto.trans hoff))) h2
  rw [List.nil_append, List.append_nil] at x3
  exact ⟨_, s2, x3, h5⟩

theorem threeBack_avr : ∃ k s', TaskHist .avr328 (configuredMove (standing .avr328) 16000 10000 0 0 (-3)) k threeBack s' ∧ s'.isRampGeneratorActive = false :=
  threeBack_hist _ _ _ (by decide +kernel)

theorem threeBack_esp32 : ∃ k s', TaskHist .esp32 (configuredMove (standing .esp32) 16000 10000 0 0 (-3)) k threeBack s' ∧ s'.isRampGeneratorActive = false :=
  threeBack_hist _ _ _ (by decide +kernel)

/-- The same on SAM Due. -/
def threeBackSam : List Cmd := (List.replicate 3 [(⟨65535, 1, false⟩ : Cmd), ⟨41600, 0, false⟩, ⟨41601, 0, false⟩]).flatten

theorem threeBack_sam : ∃ k s', TaskHist .sam (configuredMove (standing .sam) 21000 10000 0 0 (-3)) k threeBackSam s' ∧ s'.isRampGeneratorActive = false :=
  threeBack_hist _ _ _ (by decide +kernel)

theorem standing_sam : Standing .sam 21000 (standing .sam) :=
  ⟨by decide, by decide, by decide, rfl, rfl, by decide, Or.inl rfl, fun h => absurd h.1 (by decide), by decide, by decide, by decide, by decide, by decide⟩

theorem standing_avr : Standing .avr328 16000 (standing .avr328) :=
  ⟨by decide, by decide, by decide, rfl, rfl, by decide, Or.inl rfl, fun h => absurd h.1 (by decide), by decide, by decide, by decide, by decide, by decide⟩

theorem standing_esp32 : Standing .esp32 16000 (standing .esp32) :=
  ⟨by decide, by decide, by decide, rfl, rfl, by decide, Or.inl rfl, fun h => absurd h.1 (by decide), by decide, by decide, by decide, by decide, by decide⟩

/-- The same move with a direction delay, and a delay of 1 ms after enabling the motor: the pause comes first. -/
def delayedBack : List Cmd := ⟨16000, 0, false⟩ :: threeBack

/-- One task cycle enables the motor and queues the commands, the queue runs empty, another task cycle sets the ramp idle. -/
theorem delayedBack_hist (s0 : Stepper) (a : ArchId) (cmds : List Cmd) (hp : Powered s0)
    (h : ((s0.fillQueue a calmEnv junk0).bind fun r =>
      (({ r.1 with hw := { r.1.hw with q := { r.1.hw.q with readIdx := r.1.hw.q.nextWriteIdx } } } : Stepper).fillQueue a calmEnv junk0).map fun r' =>
        (r.2, decide (r.1.hw.q.nextWriteIdx < 256), decide (r.1.offDelayCount ≠ 0), decide (r.1.counter ≠ 0), r'.2, r'.1.isRampGeneratorActive)) =
          some (cmds, true, true, true, [], false)) :
    ∃ k s', TaskHist a s0 k cmds s' ∧ s'.isRampGeneratorActive = false := by
  rw [Option.bind_eq_some_iff] at h
  obtain ⟨⟨s1, acc1⟩, h1, h2⟩ := h
  rw [Option.map_eq_some_iff] at h2
  obtain ⟨⟨s2, acc2⟩, h2, h3⟩ := h2
  simp only [Prod.mk.injEq, decide_eq_true_eq] at h3
  obtain ⟨rfl, h4, h6, h7, rfl, h5⟩ := h3
  have x1 := TaskHist.task calmEnv junk0 _ TaskHist.start (by decide) hp h1
  have x2 := TaskHist.elapse (s' := { s1 with hw := { s1.hw with q := { s1.hw.q with readIdx := s1.hw.q.nextWriteIdx } } }) x1
    ⟨rfl, rfl, rfl, rfl, rfl, rfl, rfl, rfl, h4, h4, by
      change subU8 s1.hw.q.nextWriteIdx s1.hw.q.nextWriteIdx ≤ _
      unfold subU8; omega⟩
  have x3 := TaskHist.task calmEnv junk0 _ x2 (by decide) (fun _ => ⟨h6, fun _ => h7⟩) h2
  rw [List.nil_append, List.append_nil] at x3
  exact ⟨_, s2, x3, h5⟩

theorem delayedBack_esp32 : ∃ k s', TaskHist .esp32 (configuredMove singleStepper 16000 10000 0 0 (-3)) k delayedBack s' ∧ s'.isRampGeneratorActive = false :=
  delayedBack_hist _ _ _ (fun _ => by decide +kernel) (by decide +kernel)

theorem delayed_esp32 : Standing .esp32 16000 singleStepper ∧ EnableDelayed singleStepper := by
  refine ⟨⟨?_, ?_, ?_, ?_, ?_, ?_, ?_, fun _ => ?_, ?_, ?_, ?_, ?_, ?_⟩, ?_⟩
  all_goals first | decide +kernel | (unfold EnableDelayed; decide +kernel)

/-- AVR: the pulses of this move. -/
example :
    let evs := threeBack.flatMap (fun c => callAdd c true 0) ++ List.replicate 8 .compare
    let r := Avr.track .avr328 (Avr.fresh .avr328 7 true) ⟨[], []⟩ evs
    stepsOn 0 (netPulses true (r.1.pulses.reverse.map Pulse.dir)) = -3 := by
  intro evs r
  obtain ⟨k, s', h, hend⟩ := threeBack_avr
  exact C79_avr_partial .avr328 rfl 16000 (standing .avr328) (RampHist.start _ rfl) standing_avr 16000 10000 0 (-3) (by decide) (by decide) (by decide) (by decide)
    (by decide) (by decide) (by decide) k threeBack s' h hend (by decide) evs (by decide) (by decide +kernel) (by decide +kernel) (by decide +kernel) (by decide +kernel)
    (by decide +kernel)

/-- MCPWM/PCNT: the pulses of this move. -/
example :
    let evs := threeBack.flatMap (fun c => mcAdd c true) ++ Mcpwm.rounds 10
    let r := Mcpwm.track shadowPcnt (Mcpwm.fresh shadowPcnt mcCnt 7 true) [] evs
    stepsOn 0 (netPulses true (pulseLevels r.1.log.reverse)) = -3 := by
  intro evs r
  obtain ⟨k, s', h, hend⟩ := threeBack_esp32
  exact C79_mcpwm_partial 16000 (standing .esp32) (RampHist.start _ rfl) standing_esp32 16000 10000 0 (-3) (by decide) (by decide) (by decide) (by decide)
    (by decide) (by decide) (by decide) k threeBack s' h hend (Mcpwm.fresh shadowPcnt mcCnt 7 true) (Mcpwm.fresh_idle _ _ 7 (by decide) true) rfl rfl evs (by decide +kernel) (by decide +kernel)
    (by decide +kernel) (by decide +kernel) (by decide +kernel)

/-- MCPWM/PCNT: the pulses of the move with delay after enabling the motor. -/
example :
    let evs := delayedBack.flatMap (fun c => mcAdd c true) ++ Mcpwm.rounds 10
    let r := Mcpwm.track shadowPcnt (Mcpwm.fresh shadowPcnt mcCnt 7 true) [] evs
    stepsOn 0 (netPulses true (pulseLevels r.1.log.reverse)) = -3 := by
  intro evs r
  obtain ⟨k, s', h, hend⟩ := delayedBack_esp32
  exact C79_mcpwm_partial 16000 singleStepper (RampHist.start _ rfl) delayed_esp32.1 16000 10000 0 (-3) (by decide) (by decide) (by decide) (by decide)
    (by decide) (by decide) (by decide) k delayedBack s' h hend (Mcpwm.fresh shadowPcnt mcCnt 7 true) (Mcpwm.fresh_idle _ _ 7 (by decide) true) rfl rfl evs (by decide +kernel) (by decide +kernel)
    (by decide +kernel) (by decide +kernel) (by decide +kernel)

/-- RMT with IDF 5: the pulses of this move. -/
example :
    let evs := threeBack.flatMap (fun c => rmtAdd c true) ++ List.replicate 8 .fill
    let r := Rmt.track .idf5 (Rmt.fresh 7 true) [] evs
    stepsOn 0 (netPulses true (partLevels r.1.out.reverse)) = -3 := by
  intro evs r
  obtain ⟨k, s', h, hend⟩ := threeBack_esp32
  exact C79_rmt_partial .idf5 16000 (standing .esp32) (RampHist.start _ rfl) standing_esp32 16000 10000 0 (-3) (by decide) (by decide) (by decide) (by decide)
    (by decide) (by decide) (by decide) k threeBack s' h hend (Rmt.fresh 7 true) (Rmt.fresh_idle 7 (by decide) true) rfl rfl (by decide) evs
    (by simp [evs, threeBack, rmtAdd, Rmt.Ev.Plain]; decide) (by decide +kernel) (by decide +kernel)

/-- SAM Due: the pulses of this move. -/
example :
    let evs := threeBackSam.flatMap (fun c => dueAdd c true) ++ Due.rounds 20
    let r := Due.track (Due.fresh 7 true) [] evs
    stepsOn 0 (netPulses true (r.1.pulses.reverse.map DuePulse.level)) = -3 := by
  intro evs r
  obtain ⟨k, s', h, hend⟩ := threeBack_sam
  exact C79_due_partial 21000 (standing .sam) (RampHist.start _ rfl) standing_sam 21000 10000 0 (-3) (by decide) (by decide) (by decide) (by decide)
    (by decide) (by decide) (by decide) k threeBackSam s' h hend (Due.fresh 7 true) (Due.fresh_idle 7 (by decide) true) rfl rfl evs
    (by decide +kernel) (by decide +kernel) (by decide +kernel) (by decide +kernel)

end FAS
