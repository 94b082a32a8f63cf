import Verif.Lemmas.DriveRun
import Verif.Props.RealTime

/-!
# Changing commands on AVR in real time: C97

The task and the step interrupt run against the clock, and the application changes speed, acceleration and target of the moving motor (`Spec.AvrDrive`). The queue never runs dry.
-/

namespace FAS

open Spec Stepper

/-- **C97.** Changing commands on AVR in real time. The stepper is at rest with speed and acceleration set. The application calls, at any time and as often as it likes, `moveTo()`, `move()`, `runForward()`, `runBackward()`, `keepRunning()`, `stopMove()`,
and sets speeds (periods of `L` to 65535 ticks), accelerations and linear accelerations, also with `applySpeedAcceleration()`; the task serves the stepper, and the step interrupt outputs the commands (`Spec.AvrDrive`). A ramp which is finished is not started again.
If the timing of the task and of the interrupts is as for C90, then at any time:
the pulses are those which the documentation gives for the queued commands, without any gap from a start `t0` on, and those not yet output are all still to come; as long as the ramp is active and the task is on time, the motor runs;
and whenever the motor has stopped, `getPositionAfterCommandsCompleted()` counts the steps it has made.
Missing: speeds of periods below `L ≥ a.minCmdTicks` or above 65535, a jump start, the immediate stops, a restart of the ramp while its last commands are still executed, an on-delay of the enable pin, task cycles too far apart for the queue. -/
theorem C97_drive_partial (a : ArchId) (hav : a.isAvr = true) (tm : AvrTiming) (L D : Nat) (s : Stepper) (v0 : Avr) (hmin : a.minCmdTicks ≤ L) (hL : L ≤ 32768) (hD : D ≤ L)
    (hh : RampHist a (ApiCall.Slow L) s) (hv : s.rg.parameters.checkValidConfig = MOVE_OK) (hen : s.autoEnable = false ∨ s.onDelayTicks = 0)
    (hrest : AvrAtRest v0) (hhw : s.hw = ⟨v0.q, 0⟩) (hpin : s.dirPin < 128) (hpos : i32 s.getPositionAfterCommandsCompleted = s.getPositionAfterCommandsCompleted)
    (hdelay : s.dirChangeDelayTicks = 0 ∨ (D ≤ s.dirChangeDelayTicks ∧ s.dirChangeDelayTicks < 65536))
    (hplan : tm.cycle + tm.commit + tm.latency + 65535 < s.forwardPlanning) (hfull : tm.cycle + tm.commit + tm.latency < (a.queueLen - 2) * D)
    (τ now : Nat) (v : Avr) (h : AvrHist) (cmds : List Cmd) (s' : Stepper) (hm : AvrDrive a tm (ApiCall.Steer L) s v0 τ now v h cmds s') :
    (∃ t0 rest, specPulses (dirLevelFor s.dirPin s.hw.q.dirHighCountsUp) t0 cmds = v.pulses.reverse ++ rest ∧ (v.q.running = false → rest = []) ∧
        ∀ x ∈ rest, v.ocr ≤ x.time) ∧
    (s'.isRampGeneratorActive = true → cmds ≠ [] → now ≤ τ + tm.cycle → v.q.running = true) ∧
    (v.q.running = false →
      s'.getPositionAfterCommandsCompleted = stepsOn s.getPositionAfterCommandsCompleted (netPulses s.hw.q.dirHighCountsUp (v.pulses.reverse.map Pulse.dir))) := by
  have hq : s.hw.q = v0.q := by rw [hhw]
  have hpn : v0.q.dirPin = s.dirPin := by unfold Stepper.dirPin; rw [hhw]
  have hpin' : v0.q.dirPin < 128 := by rw [hpn]; exact hpin
  have hI := drive_run hav hmin hL hD hh hv hen (by omega) (by omega) hplan hfull hrest.quiet hpin'
    (by unfold Stepper.getPositionAfterCommandsCompleted at hpos; rw [hq] at hpos; exact hpos) hhw (fun _ h => h) hm
  rw [dirLevelFor_eq hpin', ← hq] at hI
  obtain ⟨g1, g2⟩ := hI.core.output
  refine ⟨g1, g2, fun hrun => ?_⟩
  obtain ⟨t0, rest, e1, e2, -⟩ := g1
  rw [e2 hrun, List.append_nil] at e1
  have hne : s.hw.q.dirPin ≠ pinUndefined := by unfold Stepper.dirPin at hpin; unfold pinUndefined; omega
  rw [← e1, specPulses_dir, net_commands hne]
  exact hI.pos

/-- C97, a continuous run: under the conditions of `C97_drive_partial`, after `runForward()` or `runBackward()` and as long as the application sets only speeds and accelerations, the ramp is never finished; the first task cycle starts the motor;
and from then on the motor never stops as long as the task is on time. (On its direction and speed see C54.) -/
theorem C97_run_partial (a : ArchId) (hav : a.isAvr = true) (tm : AvrTiming) (L D : Nat) (s : Stepper) (v0 : Avr) (hmin : a.minCmdTicks ≤ L) (hL : L ≤ 32768) (hD : D ≤ L)
    (hh : RampHist a (ApiCall.Slow L) s) (up : Bool) (hok : (s.startRun up).2 = MOVE_OK) (hforce : s.rg.ro.forceImmediateStop = false) (hen : s.autoEnable = false ∨ s.onDelayTicks = 0)
    (hrest : AvrAtRest v0) (hhw : s.hw = ⟨v0.q, 0⟩) (hpin : s.dirPin < 128) (hpos : i32 s.getPositionAfterCommandsCompleted = s.getPositionAfterCommandsCompleted)
    (hlimit : s.getMaxSpeedInTicks ≤ L)
    (hdelay : s.dirChangeDelayTicks = 0 ∨ (D ≤ s.dirChangeDelayTicks ∧ a.minCmdTicks ≤ s.dirChangeDelayTicks ∧ s.dirChangeDelayTicks < 65536))
    (hplan : tm.cycle + tm.commit + tm.latency + 65535 < s.forwardPlanning) (hfull : tm.cycle + tm.commit + tm.latency < (a.queueLen - 2) * D)
    (τ now : Nat) (v : Avr) (h : AvrHist) (cmds : List Cmd) (s' : Stepper) (hm : AvrDrive a tm (ApiCall.Adjust L) (s.startRun up).1 v0 τ now v h cmds s') :
    RunHist a up s' ∧ s'.isRampGeneratorActive = true ∧ (cmds = [] → now = τ ∧ v = v0) ∧ (cmds ≠ [] → now ≤ τ + tm.cycle → v.q.running = true) := by
  have hq : s.hw.q = v0.q := by rw [hhw]
  have hpn : v0.q.dirPin = s.dirPin := by unfold Stepper.dirPin; rw [hhw]
  have hpin' : v0.q.dirPin < 128 := by rw [hpn]; exact hpin
  have hpos' : i32 v0.q.qend.pos = v0.q.qend.pos := by unfold Stepper.getPositionAfterCommandsCompleted at hpos; rw [hq] at hpos; exact hpos
  have hv : s.rg.parameters.checkValidConfig = MOVE_OK := by
    unfold Stepper.startRun RampGen.startRun at hok
    dsimp only at hok
    split at hok
    · exact hok
    · rename_i hx; exact Decidable.not_not.mp hx
  have hsl : RampHist a (ApiCall.Slow L) (s.startRun up).1 := .call (.run up) hh trivial
  have hv' := steer_valid (a := a) (L := L) (c := .run up) s trivial hv
  have hrun : RunHist a up (s.startRun up).1 := .start s (RampHist.slow_typed hh) hforce hok
  have hact : (s.startRun up).1.rg.isActive = true := by
    unfold Stepper.startRun RampGen.startRun
    dsimp only
    rw [if_neg (by rw [hv]; decide)]
    unfold RampGen.isActive RampRw.startRampIfNotRunning
    dsimp only
    split
    · rfl
    · rename_i hx; exact decide_eq_true hx
  obtain ⟨g1, g2, g3⟩ := drive_active hav hmin hL hD hsl hv' hen (show s.dirChangeDelayTicks = 0 ∨ _ by change _ ∨ D ≤ s.dirChangeDelayTicks; omega)
    (show s.dirChangeDelayTicks = 0 ∨ _ by change _ ∨ _ ≤ s.dirChangeDelayTicks; omega) (by change s.dirChangeDelayTicks < _; omega) hplan hfull hrest.quiet hpin' hpos' hhw hlimit hrun hact hm
  have hI := drive_run hav hmin hL hD hsl hv' hen (show s.dirChangeDelayTicks = 0 ∨ _ by change _ ∨ D ≤ s.dirChangeDelayTicks; omega)
    (by change s.dirChangeDelayTicks < _; omega) hplan hfull hrest.quiet hpin' hpos' hhw (fun _ h => h.1) hm
  exact ⟨g1, g2, g3, fun hne hnow => hI.core.output.2 g2 hne hnow⟩

/-! ## Example -/

/-- The calls, one after the other, as allowed by `AvrDrive`. -/
def RealState.calls : List ApiCall → RealState → Option RealState
  | [], r => some r
  | c :: cs, r =>
    if r.cmds = [] ∨ r.s.isRampGeneratorActive = true ∨ (c.exec .avr328 r.s).isRampGeneratorActive = false then
      RealState.calls cs { r with s := c.exec .avr328 r.s }
    else none

theorem RealState.calls_drive {tm : AvrTiming} {ok : ApiCall → Prop} {s0 : Stepper} {v0 : Avr} : ∀ {cs : List ApiCall} {r r' : RealState},
    AvrDrive .avr328 tm ok s0 v0 r.last r.now r.v r.h r.cmds r.s → (∀ c ∈ cs, ok c) → r.calls cs = some r' → AvrDrive .avr328 tm ok s0 v0 r'.last r'.now r'.v r'.h r'.cmds r'.s
  | [], r, r', h, _, hn => by cases hn; exact h
  | c :: cs, r, r', h, hok, hn => by
    unfold RealState.calls at hn
    split at hn
    · rename_i hc
      exact RealState.calls_drive (r := { r with s := c.exec .avr328 r.s }) (.call c h (hok c List.mem_cons_self) hc) (fun x hx => hok x (List.mem_cons_of_mem _ hx)) hn
    · cases hn

theorem RealState.next_drive {tm : AvrTiming} {ok : ApiCall → Prop} {s0 : Stepper} {v0 : Avr} {r r' : RealState} {τ t : Nat} (h : AvrDrive .avr328 tm ok s0 v0 r.last r.now r.v r.h r.cmds r.s)
    (hn : r.next tm τ t = some r') : AvrDrive .avr328 tm ok s0 v0 r'.last r'.now r'.v r'.h r'.cmds r'.s := by
  unfold RealState.next at hn
  obtain ⟨x, hx, hn⟩ := Option.bind_eq_some_iff.mp hn
  dsimp only at hn
  split at hn
  · rename_i hc
    obtain ⟨c1, c2, c3, c4, c5, c6, c7, c8⟩ := hc
    cases hn
    refine .cycle τ calmEnv junk0 0 _ x.2 x.1 _ h c1 c2 c3 (by decide) hx ⟨c4, fun _ => rfl, ?_, fun _ _ _ => rfl, by decide⟩ c6 c7 c8
      ⟨rfl, rfl, rfl, rfl, rfl⟩ rfl
    intro _ hx; rw [c5] at hx; cases hx
  · cases hn

/-- Calls, then a task cycle, again and again; the next cycle is `60500` ticks later, the latest one is followed by `600000` ticks. -/
def RealState.drive (tm : AvrTiming) : List (List ApiCall) → Nat → RealState → Option RealState
  | [], _, r => some r
  | cs :: rest, τ, r => ((r.calls cs).bind fun r => r.next tm τ (if rest = [] then τ + 600000 else τ + 60000)).bind (RealState.drive tm rest (τ + 60500))

theorem RealState.drive_drive {tm : AvrTiming} {ok : ApiCall → Prop} {s0 : Stepper} {v0 : Avr} : ∀ {plan : List (List ApiCall)} {τ : Nat} {r r' : RealState},
    AvrDrive .avr328 tm ok s0 v0 r.last r.now r.v r.h r.cmds r.s → (∀ cs ∈ plan, ∀ c ∈ cs, ok c) → RealState.drive tm plan τ r = some r' →
    AvrDrive .avr328 tm ok s0 v0 r'.last r'.now r'.v r'.h r'.cmds r'.s
  | [], τ, r, r', h, _, hn => by cases hn; exact h
  | cs :: rest, τ, r, r', h, hok, hn => by
    unfold RealState.drive at hn
    obtain ⟨r2, g2, hn⟩ := Option.bind_eq_some_iff.mp hn
    obtain ⟨r1, g1, g2⟩ := Option.bind_eq_some_iff.mp g2
    exact RealState.drive_drive (RealState.next_drive (RealState.calls_drive h (hok cs List.mem_cons_self) g1) g2) (fun x hx => hok x (List.mem_cons_of_mem _ hx)) hn

/-- The stepper of the example of C90, with speed and acceleration. -/
def drivenStepper : Stepper := ((realStepper.setSpeedInTicks 20000).1.setAcceleration 20000).1

/-- The motor is to go to 100; then its speed is changed, and its direction; then it is stopped. -/
def drivePlan : List (List ApiCall) :=
  [[.moveTo 100], [], [.config (.speed 16000), .config .applySpeedAcceleration], [], [.config (.acceleration 40000), .run false], [], [], [], [], [], [], [], [], [], [.stopMove], [], [], [], [], [], [], []]

def driveRun : Option RealState := RealState.drive realTiming drivePlan 1000 ⟨900, 900, realDriver, ⟨[], []⟩, [], drivenStepper⟩

/-- The hypotheses of `C97_drive_partial` are met by the stepper and the given run, in which the motor goes forward, then backward, and stops. -/
example : (RampHist .avr328 (ApiCall.Slow 16000) drivenStepper ∧ drivenStepper.rg.parameters.checkValidConfig = MOVE_OK ∧ drivenStepper.autoEnable = false ∧ AvrAtRest realDriver ∧
      drivenStepper.hw = ⟨realDriver.q, 0⟩ ∧ drivenStepper.dirPin < 128 ∧ i32 drivenStepper.getPositionAfterCommandsCompleted = drivenStepper.getPositionAfterCommandsCompleted ∧
      drivenStepper.dirChangeDelayTicks = 0 ∧ realTiming.cycle + realTiming.commit + realTiming.latency + 65535 < drivenStepper.forwardPlanning ∧
      realTiming.cycle + realTiming.commit + realTiming.latency < (ArchId.avr328.queueLen - 2) * 16000) ∧
    ∃ r, driveRun = some r ∧ AvrDrive .avr328 realTiming (ApiCall.Steer 16000) drivenStepper realDriver r.last r.now r.v r.h r.cmds r.s ∧
      r.s.isRampGeneratorActive = false ∧ r.v.q.running = false ∧ (true ∈ r.v.pulses.map Pulse.dir) ∧ (false ∈ r.v.pulses.map Pulse.dir) := by
  refine ⟨⟨?_, by decide, rfl, ?_, rfl, by decide, by decide, by decide, by decide, by decide⟩, ?_⟩
  · exact .call (.config (.acceleration 20000)) (.call (.config (.speed 20000)) (.start realStepper rfl) ⟨by decide, by decide⟩) trivial
  · exact ⟨rfl, rfl, rfl, rfl, rfl, rfl, by decide, rfl, rfl, rfl⟩
  · have h : ∃ r, driveRun = some r ∧ r.s.isRampGeneratorActive = false ∧ r.v.q.running = false ∧ (true ∈ r.v.pulses.map Pulse.dir) ∧ (false ∈ r.v.pulses.map Pulse.dir) := by
      apply exists_of_any
      decide +kernel
    obtain ⟨r, h1, h2⟩ := h
    refine ⟨r, h1, RealState.drive_drive (.start 900) ?_ h1, h2⟩
    simp [drivePlan, ApiCall.Steer]

/-- The motor runs backward; its speed is changed twice. -/
def adjustRun : Option RealState :=
  RealState.drive realTiming [[], [.config (.speed 16000), .config .applySpeedAcceleration], [], [], [.config (.speed 40000), .config (.acceleration 30000), .config .applySpeedAcceleration], [], []] 1000
    ⟨900, 900, realDriver, ⟨[], []⟩, [], (drivenStepper.startRun false).1⟩

/-- The hypotheses of `C97_run_partial` are met by the stepper after `runBackward()` and the given run of 7 cycles (but for the time after the latest cycle, the task is on time). -/
example : (RampHist .avr328 (ApiCall.Slow 16000) drivenStepper ∧ (drivenStepper.startRun false).2 = MOVE_OK ∧ drivenStepper.rg.ro.forceImmediateStop = false ∧ drivenStepper.getMaxSpeedInTicks ≤ 16000) ∧
    ∃ r, adjustRun = some r ∧ AvrDrive .avr328 realTiming (ApiCall.Adjust 16000) (drivenStepper.startRun false).1 realDriver r.last r.now r.v r.h r.cmds r.s ∧
      r.s.isRampGeneratorActive = true ∧ 10 < r.v.pulses.length := by
  refine ⟨⟨?_, by decide, rfl, by decide⟩, ?_⟩
  · exact .call (.config (.acceleration 20000)) (.call (.config (.speed 20000)) (.start realStepper rfl) ⟨by decide, by decide⟩) trivial
  · have h : ∃ r, adjustRun = some r ∧ r.s.isRampGeneratorActive = true ∧ 10 < r.v.pulses.length := by
      apply exists_of_any
      decide +kernel
    obtain ⟨r, h1, h2⟩ := h
    refine ⟨r, h1, RealState.drive_drive (.start 900) ?_ h1, h2⟩
    simp [ApiCall.Adjust, ApiCall.Steer]

end FAS
