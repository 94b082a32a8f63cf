import Verif.Lemmas.RealCount
import Verif.Lemmas.BriskFill
import Verif.Props.EndToEnd

/-!
# A move on AVR in real time: C90

The task and the step interrupt run against the clock (`Spec.AvrMove`). If task cycles are not too far apart, then the queue never runs dry: the pulses are those documented for the list of
commands without any gap, and the motor ends at the target.
-/

namespace FAS

open Spec Stepper

theorem Spec.AvrAtRest.quiet {v : Avr} (h : AvrAtRest v) : v.Quiet :=
  ⟨h.running, h.irq, h.noMore, h.one, h.call, h.empty, h.index, h.ready, h.ignore, h.pulses⟩

/-- The commands of a move, over all task cycles. -/
theorem task_commands {a : ArchId} {L R D : Nat} {p : Int} {M : Nat} (hmin : a.minCmdTicks ≤ L) (hL : L ≤ 32768) (hDL : D ≤ L) {s0 : Stepper}
    (hi : MoveInv a L R p M s0) (hen : s0.autoEnable = false ∨ s0.onDelayTicks = 0) (hpin : pinIsExternal s0.dirPin = false)
    (hd : s0.dirChangeDelayTicks = 0 ∨ D ≤ s0.dirChangeDelayTicks) (hd2 : s0.dirChangeDelayTicks < 65536) :
    ∀ k cs s, TaskHist a s0 k cs s → ∀ c ∈ cs, c.Valid ∧ D ≤ c.duration := by
  have key : ∀ k cs s, TaskHist a s0 k cs s → (∀ c ∈ cs, c.Valid ∧ D ≤ c.ticks) ∧ MoveInv a L R p M s ∧ s.dirPin = s0.dirPin ∧
      s.dirChangeDelayTicks = s0.dirChangeDelayTicks := by
    intro k cs s h
    have hen' : ∀ {k cs s}, TaskHist a s0 k cs s → s.autoEnable = false ∨ s.onDelayTicks = 0 := fun h => h.undelayed hen
    have hstep : ∀ {cs : List Cmd} {s s' : Stepper} {env : Stepper.Env} {junk : NextCommand} {acc : List Cmd}, (s.autoEnable = false ∨ s.onDelayTicks = 0) → junk.rw.performedRampUpSteps < 4294967296 →
        s.fillQueue a env junk = some (s', acc) →
        ((∀ c ∈ cs, c.Valid ∧ D ≤ c.ticks) ∧ MoveInv a L R p M s ∧ s.dirPin = s0.dirPin ∧ s.dirChangeDelayTicks = s0.dirChangeDelayTicks) →
        (∀ c ∈ cs ++ acc, c.Valid ∧ D ≤ c.ticks) ∧ MoveInv a L R p M s' ∧ s'.dirPin = s0.dirPin ∧ s'.dirChangeDelayTicks = s0.dirChangeDelayTicks := by
      intro cs s s' env junk acc he hj hf ⟨i1, i2, i3, i6⟩
      have j2 := i2.fill_commands hmin hL hDL he (by rw [i3]; exact hpin) (by rw [i6]; exact hd) (by rw [i6]; exact hd2) hj hf
      obtain ⟨s2, acc2, hf2, j1, -⟩ := i2.task hmin hL (.undelayed he) env junk hj
      rw [hf] at hf2
      cases hf2
      have hcfg := fillQueue_sameConfig a env junk s s' acc hf
      have hp : s'.dirPin = s.dirPin := hcfg.pin
      refine ⟨fun c hc => ?_, j1, hp.trans i3, hcfg.delay.trans i6⟩
      rcases List.mem_append.mp hc with hc | hc
      · exact i1 c hc
      · exact j2 c hc
    induction h with
    | start => exact ⟨fun c hc => (List.not_mem_nil hc).elim, hi, rfl, rfl⟩
    | elapse _ he ih =>
      obtain ⟨i1, i2, i3, i6⟩ := ih
      have hp := he.dirPin
      refine ⟨i1, i2.elapse he, ?_, he.dirDelay.trans i6⟩
      unfold Stepper.dirPin at i3 ⊢
      rw [hp]; exact i3
    | task env junk acc hx hj _ hf ih => exact hstep (hen' hx) hj hf ih
    | unhindered env junk acc hx hj _ hf _ ih => exact hstep (hen' hx) hj hf ih
  intro k cs s h c hc
  obtain ⟨h1, h2⟩ := (key k cs s h).1 c hc
  refine ⟨h1, Nat.le_trans h2 ?_⟩
  exact Nat.le_mul_of_pos_right _ (by omega)

/-- What `configuredMove` leaves as it is, and what it sets. -/
theorem configuredMove_frame (s : Stepper) (speed : Nat) (accel : Int) (lin : Nat) (p : Int) (hlim : s.getMaxSpeedInTicks ≤ speed) (hs2 : speed < 4294967295) (ha1 : 0 < accel) :
    let s0 := configuredMove s speed accel lin 0 p
    s0.hw = s.hw ∧ s0.dirChangeDelayTicks = s.dirChangeDelayTicks ∧ s0.autoEnable = s.autoEnable ∧ s0.onDelayTicks = s.onDelayTicks ∧
      s0.forwardPlanning = s.forwardPlanning ∧ speedPeriod s0.rg = speed ∧ s0.rg.parameters.checkValidConfig = MOVE_OK := by
  intro s0
  obtain ⟨s1, hs⟩ : ∃ s1, ((((s.setSpeedInTicks speed).1.setAcceleration accel).1.setLinearAcceleration lin).setJumpStart 0) = s1 := ⟨_, rfl⟩
  obtain ⟨e1, e2, e3, e4, e5, e6, e7, e8⟩ := configured_facts s speed accel lin 0 hlim hs2 ha1 s1 hs
  have hcm : s0 = (s1.moveTo p).1 := by rw [← hs]; rfl
  have hset : (s.setSpeedInTicks speed).1 = { s with rg := { s.rg with parameters := s.rg.parameters.setSpeedInTicks speed } } := by
    unfold Stepper.setSpeedInTicks
    rw [if_neg (Nat.not_lt.mpr hlim), if_neg (by unfold ticksForStoppedMotor; omega)]
  have hcf : s0.dirChangeDelayTicks = s.dirChangeDelayTicks ∧ s0.autoEnable = s.autoEnable ∧ s0.onDelayTicks = s.onDelayTicks ∧ s0.forwardPlanning = s.forwardPlanning := by
    change (configuredMove s speed accel lin 0 p).dirChangeDelayTicks = _ ∧ (configuredMove s speed accel lin 0 p).autoEnable = _ ∧
      (configuredMove s speed accel lin 0 p).onDelayTicks = _ ∧ (configuredMove s speed accel lin 0 p).forwardPlanning = _
    unfold configuredMove
    rw [hset]
    exact ⟨rfl, rfl, rfl, rfl⟩
  refine ⟨by rw [hcm]; exact e1, hcf.1, hcf.2.1, hcf.2.2.1, hcf.2.2.2, ?_, ?_⟩
  · rw [hcm]
    unfold Stepper.moveTo RampGen.moveTo
    dsimp only
    rw [if_neg (by rw [e8]; decide)]
    exact e4
  · rw [hcm]
    unfold Stepper.moveTo RampGen.moveTo
    dsimp only
    rw [if_neg (by rw [e8]; decide)]
    exact e8

theorem configuredMove_typed {a : ArchId} {s : Stepper} (hh : RampHist a ApiCall.Typed s) {speed : Nat} (accel : Int) (lin : Nat) (p : Int)
    (hs2 : speed < 4294967295) : RampHist a ApiCall.Typed (configuredMove s speed accel lin 0 p) := by
  have x1 := RampHist.call (.config (.speed speed)) hh (show speed < 4294967296 by omega)
  have x2 := RampHist.call (.config (.acceleration accel)) x1 trivial
  have x3 := RampHist.call (.config (.linear lin)) x2 trivial
  have x4 := RampHist.call (.config (.jump 0)) x3 (show (0 : Nat) < 4294967296 by decide)
  exact RampHist.call (.moveTo p) x4 trivial

/-- The pulses on the pins at any time, and that the motor runs as long as the ramp is active. -/
theorem RealCore.output {a : ArchId} {tm : AvrTiming} {F : Nat} {lvl base} {τ now : Nat} {v : Avr} {h : AvrHist} {cmds : List Cmd} {s : Stepper}
    (hI : RealCore a tm lvl base F τ now v h cmds s) :
    (∃ t0 rest, specPulses lvl t0 cmds = v.pulses.reverse ++ rest ∧ (v.q.running = false → rest = []) ∧ ∀ x ∈ rest, v.ocr ≤ x.time) ∧
      (s.isRampGeneratorActive = true → cmds ≠ [] → now ≤ τ + tm.cycle → v.q.running = true) := by
  obtain ⟨⟨tc, qs, hC, hTm, -, hL⟩, hpc, -, -, -, -, hphase⟩ := hI
  refine ⟨?_, ?_⟩
  · have hexp := hTm.exp
    have h1 : ∃ t0, h.expected lvl = specPulses lvl t0 cmds := by
      rcases hphase with ⟨h1, h2⟩ | ⟨-, t0, h2, -⟩
      · exact ⟨0, by rw [h1, h2]; rfl⟩
      · exact ⟨t0, by rw [h2]; simp [AvrHist.expected]⟩
    obtain ⟨t0, h1⟩ := h1
    rw [h1] at hexp
    refine ⟨t0, _, hexp, fun hx => by rw [hx]; rfl, fun x hx => ?_⟩
    split at hx
    · exact specPulses_time _ _ _ x hx
    · cases hx
  · intro hact hne hnow
    rcases hphase with ⟨h1, -⟩ | ⟨-, t0, h2, hdl⟩
    · exact absurd h1 hne
    · have hdl := hdl hact
      rcases hL.alive with h3 | h3 | h3
      · exact h3
      · rw [h2] at h3; cases h3
      · rw [h2] at hdl h3
        unfold AvrHist.deadline at hdl
        unfold AvrHist.ends at h3
        dsimp only at hdl h3
        omega

theorem dirLevelFor_eq {q : Queue} (hpin : q.dirPin < 128) :
    (fun u => if q.dirPin = pinUndefined then q.dirLevel else (u == q.dirHighCountsUp)) = dirLevelFor q.dirPin q.dirHighCountsUp := by
  funext u
  unfold dirLevelFor
  have : q.dirPin ≠ pinUndefined := by unfold pinUndefined; omega
  rw [if_neg this, if_neg this]

/-- What the driver has output at any time, for any move with commands as `Timely` says. -/
theorem real_output {a : ArchId} {tm : AvrTiming} {D e : Nat} {s0 : Stepper} {v0 : Avr} (hav : a.isAvr = true) (hT : Timely a tm D e s0) (hq : AvrAtRest v0)
    (hpin : v0.q.dirPin < 128) (hpos : i32 v0.q.qend.pos = v0.q.qend.pos) (hhw : s0.hw = ⟨v0.q, 0⟩)
    {τ now : Nat} {v : Avr} {h : AvrHist} {cmds : List Cmd} {s : Stepper} (hm : AvrMove a tm s0 v0 τ now v h cmds s) :
    (∃ t0 rest, specPulses (dirLevelFor v0.q.dirPin v0.q.dirHighCountsUp) t0 cmds = v.pulses.reverse ++ rest ∧ (v.q.running = false → rest = []) ∧
        ∀ x ∈ rest, v.ocr ≤ x.time) ∧
      (s.isRampGeneratorActive = true → cmds ≠ [] → now ≤ τ + tm.cycle → v.q.running = true) ∧ (∃ k, TaskHist a s0 k cmds s) := by
  have hr := real_run hav hT hq.quiet hpin (by unfold i32 at hpos; omega) hhw hm
  rw [dirLevelFor_eq hpin] at hr
  exact ⟨hr.core.output.1, hr.core.output.2, hr.task⟩

/-- The assumptions of C90 on the timing are those of `Timely`. -/
theorem configuredMove_timely {a : ArchId} {tm : AvrTiming} {L D R : Nat} {M : Nat} {s : Stepper} (hh : RampHist a ApiCall.Typed s)
    (hst : Standing a L s) (hen : s.autoEnable = false ∨ s.onDelayTicks = 0) (hpin : s.dirPin < 128) {speed : Nat} {accel : Int} {lin : Nat} {p : Int} (hs1 : L ≤ speed) (hs2 : speed < 4294967295)
    (hs3 : speed % 65536 ≠ 0) (ha1 : 0 < accel) (hinv : MoveInv a L R p M (configuredMove s speed accel lin 0 p))
    (hD : D ≤ L) (hdelay : s.dirChangeDelayTicks = 0 ∨ (D ≤ s.dirChangeDelayTicks ∧ s.dirChangeDelayTicks < 65536))
    (hplan : tm.cycle + tm.commit + tm.latency + 65535 < s.forwardPlanning) (hfull : tm.cycle + tm.commit + tm.latency < (a.queueLen - 2) * D) :
    Timely a tm D 0 (configuredMove s speed accel lin 0 p) := by
  obtain ⟨f1, f2, f3, f4, f5, f6, f7⟩ := configuredMove_frame s speed accel lin p (Nat.le_trans hst.limit2 hs1) hs2 ha1
  have hext : pinIsExternal s.dirPin = false := by unfold pinIsExternal; exact decide_eq_false (by omega)
  have hmin := hst.limit1
  have hdp : (configuredMove s speed accel lin 0 p).dirPin = s.dirPin := by unfold Stepper.dirPin; rw [f1]
  have hcmds := task_commands hmin hst.limit3 hD hinv (by rw [f3, f4]; exact hen) (by rw [hdp]; exact hext) (by rw [f2]; omega) (by rw [f2]; omega)
  exact
    { hist := configuredMove_typed hh accel lin p hs2
      enable := by rw [f3, f4]; exact hen
      period := by rw [f6]; exact hs3
      valid := f7
      cmds := fun k cs s' h => ⟨fun c hc => (hcmds k cs s' h c hc).1, by
        unfold shorts
        rw [List.countP_eq_zero.mpr]
        intro c hc
        have := (hcmds k cs s' h c hc).2
        rw [decide_eq_true_iff]; omega⟩
      plan := by rw [f5]; exact hplan
      full := hfull }

/-- With acceleration up to 700000 steps/s² at most three commands of the move take less than 11000 ticks. -/
theorem configuredMove_brisk_timely {a : ArchId} (hav : a.isAvr = true) {tm : AvrTiming} {L R : Nat} {M : Nat} {s : Stepper} (hh : RampHist a ApiCall.Typed s)
    (hst : Standing a L s) (hen : s.autoEnable = false ∨ s.onDelayTicks = 0) (hpin : s.dirPin < 128) {speed : Nat} {accel : Int} {p : Int} (hs1 : L ≤ speed) (hs2 : speed < 4294967295)
    (hs3 : speed % 65536 ≠ 0) (ha1 : 0 < accel) (ha2 : accel ≤ 700000) (hinv : MoveInv a L R p M (configuredMove s speed accel 0 0 p))
    (hdelay : s.dirChangeDelayTicks = 0 ∨ (11000 ≤ s.dirChangeDelayTicks ∧ s.dirChangeDelayTicks < 65536))
    (hplan : tm.cycle + tm.commit + tm.latency + 65535 < s.forwardPlanning) (hfull : tm.cycle + tm.commit + tm.latency < (a.queueLen - 5) * 11000) :
    Timely a tm 11000 3 (configuredMove s speed accel 0 0 p) := by
  obtain ⟨f1, f2, f3, f4, f5, f6, f7⟩ := configuredMove_frame s speed accel 0 p (Nat.le_trans hst.limit2 hs1) hs2 ha1
  have hext : pinIsExternal s.dirPin = false := by unfold pinIsExternal; exact decide_eq_false (by omega)
  have hmin := hst.limit1
  have hdp : (configuredMove s speed accel 0 0 p).dirPin = s.dirPin := by unfold Stepper.dirPin; rw [f1]
  have hcmds := task_commands (D := 0) hmin hst.limit3 (Nat.zero_le _) hinv (by rw [f3, f4]; exact hen) (by rw [hdp]; exact hext) (Or.inr (Nat.zero_le _)) (by rw [f2]; omega)
  have hb := configuredMove_brisk hh hst.idle hst.noForceStop (Nat.le_trans hst.limit2 hs1) hs2 ha1 hinv
  exact
    { hist := configuredMove_typed hh accel 0 p hs2
      enable := by rw [f3, f4]; exact hen
      period := by rw [f6]; exact hs3
      valid := f7
      cmds := fun k cs s' h => ⟨fun c hc => (hcmds k cs s' h c hc).1, task_shorts (A := accel.toNat) (W0 := shortestWay p s.hw.q.qend.pos) hav (Nat.le_trans hmin hs1) hs2 (by omega) (by omega) hmin hst.limit3 hinv (by rw [f1]; exact hb)
        (by rw [f3, f4]; exact hen) (by rw [hdp]; exact hext) (by rw [f2]; omega) h⟩
      plan := by rw [f5]; exact hplan
      full := hfull }

/-- `C90_real_time_partial` for commands as `Timely` says. -/
theorem timely_real {a : ArchId} (hav : a.isAvr = true) {tm : AvrTiming} {L D e : Nat} {s : Stepper} {v0 : Avr} (hh : RampHist a ApiCall.Typed s)
    (hst : Standing a L s) (hrest : AvrAtRest v0) (hhw : s.hw = ⟨v0.q, 0⟩) (hpin : s.dirPin < 128)
    {speed : Nat} {accel : Int} {lin : Nat} {p : Int} (hs1 : L ≤ speed) (hs2 : speed < 4294967295) (ha1 : 0 < accel) (ha2 : accel < 2147483648)
    (hlin : lin < 4294967294) (hp : i32 p = p) (hdist : shortestWay p s.getPositionAfterCommandsCompleted ≠ -2147483648)
    (hT : Timely a tm D e (configuredMove s speed accel lin 0 p))
    {τ now : Nat} {v : Avr} {h : AvrHist} {cmds : List Cmd} {s' : Stepper} (hm : AvrMove a tm (configuredMove s speed accel lin 0 p) v0 τ now v h cmds s') :
    (∃ t0 rest, specPulses (dirLevelFor s.dirPin s.hw.q.dirHighCountsUp) t0 cmds = v.pulses.reverse ++ rest ∧ (v.q.running = false → rest = []) ∧
        ∀ x ∈ rest, v.ocr ≤ x.time) ∧
    (s'.isRampGeneratorActive = true → cmds ≠ [] → now ≤ τ + tm.cycle → v.q.running = true) ∧
    (s'.isRampGeneratorActive = false → v.q.running = false →
      stepsOn s.getPositionAfterCommandsCompleted (netPulses s.hw.q.dirHighCountsUp (v.pulses.reverse.map Pulse.dir)) = p ∧ s'.getPositionAfterCommandsCompleted = p) := by
  have hrange : -2147483648 ≤ shortestWay p s.getPositionAfterCommandsCompleted ∧ shortestWay p s.getPositionAfterCommandsCompleted < 2147483648 := by
    unfold shortestWay i32; omega
  have f1 := (configuredMove_frame s speed accel lin p (Nat.le_trans hst.limit2 hs1) hs2 ha1).1
  have hpn : v0.q.dirPin = s.dirPin := by unfold Stepper.dirPin; rw [hhw]
  have hq : s.hw.q = v0.q := by rw [hhw]
  obtain ⟨g1, g2, k, g3⟩ := real_output hav hT hrest (by rw [hpn]; exact hpin)
    (by have := hst.pos; unfold Stepper.getPositionAfterCommandsCompleted at this; rw [hq] at this; exact this) (by rw [f1]; exact hhw) hm
  rw [← hq] at g1
  refine ⟨g1, g2, fun hend hrun => ?_⟩
  obtain ⟨N, hN⟩ := C57_task_arrives_partial a L s hh hst speed accel lin p hs1 hs2 ha1 ha2 hlin hp hdist
  obtain ⟨c1, c2⟩ := (hN k cmds s' g3).2.1 hend
  refine ⟨?_, c1⟩
  obtain ⟨t0, rest, e1, e2, -⟩ := g1
  rw [e2 hrun, List.append_nil] at e1
  rw [← e1, specPulses_dir, net_commands (by have := hst.dirPin; unfold Stepper.dirPin at this; exact this)]
  exact c2

/-- **C90.** A move on AVR in real time. The stepper is at rest and gets a `moveTo(p)`; the task serves it, and the step interrupt outputs the commands (`Spec.AvrMove`). Consecutive task cycles are at most `tm.cycle` ticks apart,
each cycle queues its commands within `tm.commit`, and the step interrupt is at most `tm.latency` late. If all this together is less than the forward planning time, less one period of 65535 ticks, and less than the duration of a full queue
(`a.queueLen - 2` commands of at least `D` ticks), then at any time of the move:
the pulses are those which the documentation gives for the queued commands, without any gap from a start `t0` on, and those not yet output are all still to come; as long as the ramp is active and the task is on time, the motor runs;
and when the ramp is finished and the motor has stopped, the motor has been moved to `p`.
Missing: speeds of periods below `L ≥ a.minCmdTicks`, a jump start, an on-delay of the enable pin, task cycles too far apart for the queue. -/
theorem C90_real_time_partial (a : ArchId) (hav : a.isAvr = true) (tm : AvrTiming) (L D : Nat) (s : Stepper) (v0 : Avr) (hh : RampHist a ApiCall.Typed s)
    (hst : Standing a L s) (hen : s.autoEnable = false ∨ s.onDelayTicks = 0) (hrest : AvrAtRest v0) (hhw : s.hw = ⟨v0.q, 0⟩) (hpin : s.dirPin < 128)
    (speed : Nat) (accel : Int) (lin : Nat) (p : Int) (hs1 : L ≤ speed) (hs2 : speed < 4294967295) (hs3 : speed % 65536 ≠ 0) (ha1 : 0 < accel) (ha2 : accel < 2147483648)
    (hlin : lin < 4294967294) (hp : i32 p = p) (hdist : shortestWay p s.getPositionAfterCommandsCompleted ≠ -2147483648)
    (hD : D ≤ L) (hdelay : s.dirChangeDelayTicks = 0 ∨ (D ≤ s.dirChangeDelayTicks ∧ s.dirChangeDelayTicks < 65536))
    (hplan : tm.cycle + tm.commit + tm.latency + 65535 < s.forwardPlanning) (hfull : tm.cycle + tm.commit + tm.latency < (a.queueLen - 2) * D)
    (τ now : Nat) (v : Avr) (h : AvrHist) (cmds : List Cmd) (s' : Stepper) (hm : AvrMove a tm (configuredMove s speed accel lin 0 p) v0 τ now v h cmds s') :
    (∃ t0 rest, specPulses (dirLevelFor s.dirPin s.hw.q.dirHighCountsUp) t0 cmds = v.pulses.reverse ++ rest ∧ (v.q.running = false → rest = []) ∧
        ∀ x ∈ rest, v.ocr ≤ x.time) ∧
    (s'.isRampGeneratorActive = true → cmds ≠ [] → now ≤ τ + tm.cycle → v.q.running = true) ∧
    (s'.isRampGeneratorActive = false → v.q.running = false →
      stepsOn s.getPositionAfterCommandsCompleted (netPulses s.hw.q.dirHighCountsUp (v.pulses.reverse.map Pulse.dir)) = p ∧ s'.getPositionAfterCommandsCompleted = p) := by
  obtain ⟨R, M, hinv, -⟩ := configuredMove_inv a L s hh hst speed accel lin p hs1 hs2 ha1 ha2 hlin hdist
  have hT : Timely a tm D 0 (configuredMove s speed accel lin 0 p) := configuredMove_timely hh hst hen hpin hs1 hs2 hs3 ha1 hinv hD hdelay hplan hfull
  exact timely_real hav hh hst hrest hhw hpin hs1 hs2 ha1 ha2 hlin hp hdist hT hm

/-- `C90_ends_partial` for commands as `Timely` says. -/
theorem timely_ends {a : ArchId} (hav : a.isAvr = true) {L R M : Nat} {s : Stepper} {v0 : Avr} (hh : RampHist a ApiCall.Typed s)
    (hst : Standing a L s) (hen : s.autoEnable = false ∨ s.onDelayTicks = 0) (hrest : AvrAtRest v0) (hhw : s.hw = ⟨v0.q, 0⟩) (hpin : s.dirPin < 128)
    {speed : Nat} {accel : Int} {lin : Nat} {p : Int} (hs1 : L ≤ speed) (hs2 : speed < 4294967295) (ha1 : 0 < accel) (ha2 : accel < 2147483648)
    (hlin : lin < 4294967294) (hp : i32 p = p) (hdist : shortestWay p s.getPositionAfterCommandsCompleted ≠ -2147483648)
    (hdelay : s.dirChangeDelayTicks = 0) (hmove : p ≠ s.getPositionAfterCommandsCompleted) (hinv : MoveInv a L R p M (configuredMove s speed accel lin 0 p))
    {tm : AvrTiming} {D e : Nat} (hT : Timely a tm D e (configuredMove s speed accel lin 0 p))
    {τ now : Nat} {v : Avr} {h : AvrHist} {cmds : List Cmd} {s' : Stepper} (hm : AvrMove a tm (configuredMove s speed accel lin 0 p) v0 τ now v h cmds s') :
    (cmds = [] → now = τ ∧ v = v0 ∧ s' = configuredMove s speed accel lin 0 p) ∧
    (cmds ≠ [] → ∃ t0 rest, specPulses (dirLevelFor s.dirPin s.hw.q.dirHighCountsUp) t0 cmds = v.pulses.reverse ++ rest ∧
      (s'.isRampGeneratorActive = true → τ < t0 + M * (65535 * 255)) ∧ (v.q.running = true → v.ocr ≤ t0 + M * (65535 * 255))) := by
  have hrange : -2147483648 ≤ shortestWay p s.getPositionAfterCommandsCompleted ∧ shortestWay p s.getPositionAfterCommandsCompleted < 2147483648 := by
    unfold shortestWay i32; omega
  obtain ⟨f1, f2, f3, f4, -⟩ := configuredMove_frame s speed accel lin p (Nat.le_trans hst.limit2 hs1) hs2 ha1
  have hdp : (configuredMove s speed accel lin 0 p).dirPin = s.dirPin := by unfold Stepper.dirPin; rw [f1]
  have hnd : NoDelay (configuredMove s speed accel lin 0 p) :=
    ⟨by rw [hdp]; unfold pinIsExternal; exact decide_eq_false (by omega), by rw [f3, f4]; exact hen, by rw [f2]; exact hdelay⟩
  have hpn : v0.q.dirPin = s.dirPin := by unfold Stepper.dirPin; rw [hhw]
  have hq : s.hw.q = v0.q := by rw [hhw]
  have hpos : i32 v0.q.qend.pos = v0.q.qend.pos := by
    have := hst.pos; unfold Stepper.getPositionAfterCommandsCompleted at this; rw [hq] at this; exact this
  have hpos2 : -2147483648 ≤ v0.q.qend.pos ∧ v0.q.qend.pos < 2147483648 := by unfold i32 at hpos; omega
  obtain ⟨N, hN⟩ := C57_task_arrives_partial a L s hh hst speed accel lin p hs1 hs2 ha1 ha2 hlin hp hdist
  refine ⟨first_cycle hav hT hrest.quiet (by rw [hpn]; exact hpin) hpos2 (by rw [f1]; exact hhw) (fun k s1 h1 => ?_) hm, fun hne => ?_⟩
  · cases hx : s1.rg.isActive with
    | true => rfl
    | false =>
      have h2 := ((hN k [] s1 h1).2.1 hx).2
      have h3 := hst.pos
      unfold stepsOn signedSum at h2
      rw [Int.add_zero, h3] at h2
      exact absurd h2.symm hmove
  · obtain ⟨⟨tc, qs, hC, hTm, -, hL⟩, hpc, -, ⟨k, htask⟩, -, -, -, -, -, hphase⟩ :=
      real_run hav hT hrest.quiet (by rw [hpn]; exact hpin) hpos2 (by rw [f1]; exact hhw) hm
    have hlen := hinv.commands hst.limit1 hst.limit3 hnd htask
    have hdur := durationSum_bound cmds (hT.cmds _ _ _ htask).1
    have hle : cmds.length * (65535 * 255) ≤ M * (65535 * 255) := Nat.mul_le_mul_right _ hlen
    have hlv : (fun u => if v0.q.dirPin = pinUndefined then v0.q.dirLevel else (u == v0.q.dirHighCountsUp)) = dirLevelFor s.dirPin s.hw.q.dirHighCountsUp := by
      funext u
      unfold dirLevelFor
      have h1 : v0.q.dirPin ≠ pinUndefined := by unfold pinUndefined; omega
      have h2 : s.dirPin ≠ pinUndefined := by unfold pinUndefined; omega
      rw [if_neg h1, if_neg h2, hq]
    rcases hphase with ⟨h1, -⟩ | ⟨-, t0, h2, hdl⟩
    · exact absurd h1 hne
    · have hexp := hTm.exp
      rw [h2, hlv] at hexp
      have hexp' : specPulses (dirLevelFor s.dirPin s.hw.q.dirHighCountsUp) t0 cmds = v.pulses.reverse ++
          (if v.q.running then specPulses (dirLevelFor s.dirPin s.hw.q.dirHighCountsUp) v.ocr qs.remaining else []) := by
        rw [← hexp]; simp [AvrHist.expected]
      refine ⟨t0, _, hexp', fun hact => ?_, fun hrun => ?_⟩
      · have := hdl hact
        rw [h2] at this
        unfold AvrHist.deadline at this
        dsimp only at this
        omega
      · obtain ⟨t0', cs', ps', e1, e2⟩ := hTm.dur hrun
        rw [h2] at e1
        cases e1
        omega

/-- C90, the end of the move: under the conditions of `C90_real_time_partial`, for a target other than the present position and without delays of the direction pin, the first task cycle starts the motor, and there is a time `T`, such that the move
is over `T` after the start: whenever the ramp is still active, the latest task cycle began before `t0 + T`, and whenever the motor is running, the next step interrupt is due at `t0 + T` or before. `T` depends on the move only, not on the timing. -/
theorem C90_ends_partial (a : ArchId) (hav : a.isAvr = true) (L : Nat) (s : Stepper) (v0 : Avr) (hh : RampHist a ApiCall.Typed s)
    (hst : Standing a L s) (hen : s.autoEnable = false ∨ s.onDelayTicks = 0) (hrest : AvrAtRest v0) (hhw : s.hw = ⟨v0.q, 0⟩) (hpin : s.dirPin < 128)
    (speed : Nat) (accel : Int) (lin : Nat) (p : Int) (hs1 : L ≤ speed) (hs2 : speed < 4294967295) (hs3 : speed % 65536 ≠ 0) (ha1 : 0 < accel) (ha2 : accel < 2147483648)
    (hlin : lin < 4294967294) (hp : i32 p = p) (hdist : shortestWay p s.getPositionAfterCommandsCompleted ≠ -2147483648)
    (hdelay : s.dirChangeDelayTicks = 0) (hmove : p ≠ s.getPositionAfterCommandsCompleted) :
    ∃ T, ∀ (tm : AvrTiming) (D : Nat), D ≤ L → tm.cycle + tm.commit + tm.latency + 65535 < s.forwardPlanning → tm.cycle + tm.commit + tm.latency < (a.queueLen - 2) * D →
      ∀ (τ now : Nat) (v : Avr) (h : AvrHist) (cmds : List Cmd) (s' : Stepper), AvrMove a tm (configuredMove s speed accel lin 0 p) v0 τ now v h cmds s' →
        (cmds = [] → now = τ ∧ v = v0 ∧ s' = configuredMove s speed accel lin 0 p) ∧
        (cmds ≠ [] → ∃ t0 rest, specPulses (dirLevelFor s.dirPin s.hw.q.dirHighCountsUp) t0 cmds = v.pulses.reverse ++ rest ∧
          (s'.isRampGeneratorActive = true → τ < t0 + T) ∧ (v.q.running = true → v.ocr ≤ t0 + T)) := by
  obtain ⟨R, M, hinv, -⟩ := configuredMove_inv a L s hh hst speed accel lin p hs1 hs2 ha1 ha2 hlin hdist
  refine ⟨M * (65535 * 255), fun tm D hD hplan hfull τ now v h cmds s' hm => ?_⟩
  exact timely_ends hav hh hst hen hrest hhw hpin hs1 hs2 ha1 ha2 hlin hp hdist hdelay hmove hinv
    (configuredMove_timely hh hst hen hpin hs1 hs2 hs3 ha1 hinv hD (Or.inl hdelay) hplan hfull) hm

/-- C90, the commands of a move: whatever the timing of the task, at most three commands of a move take less than 11000 ticks (0.69 ms), if the period of the speed is at least `a.minCmdTicks`, there is no linear acceleration
and no jump start, and the acceleration is at most 700000 steps/s². (They come immediately before the deceleration begins, at most two, and at the target, one.) -/
theorem C90_few_short_commands_partial (a : ArchId) (hav : a.isAvr = true) (L : Nat) (s : Stepper) (hh : RampHist a ApiCall.Typed s)
    (hst : Standing a L s) (hen : s.autoEnable = false ∨ s.onDelayTicks = 0) (hpin : s.dirPin < 128)
    (speed : Nat) (accel : Int) (p : Int) (hs1 : L ≤ speed) (hs2 : speed < 4294967295) (ha1 : 0 < accel) (ha2 : accel ≤ 700000)
    (hdist : shortestWay p s.getPositionAfterCommandsCompleted ≠ -2147483648) (hdelay : s.dirChangeDelayTicks = 0 ∨ 11000 ≤ s.dirChangeDelayTicks)
    (k : Nat) (cmds : List Cmd) (s' : Stepper) (h : TaskHist a (configuredMove s speed accel 0 0 p) k cmds s') :
    (cmds.filter (fun c => decide (c.duration < 11000))).length ≤ 3 := by
  obtain ⟨R, M, hinv, -⟩ := configuredMove_inv a L s hh hst speed accel 0 p hs1 hs2 ha1 (by omega) (by decide) hdist
  obtain ⟨f1, f2, f3, f4, f5, f6, f7⟩ := configuredMove_frame s speed accel 0 p (Nat.le_trans hst.limit2 hs1) hs2 ha1
  have hext : pinIsExternal s.dirPin = false := by unfold pinIsExternal; exact decide_eq_false (by omega)
  have hmin := hst.limit1
  have hdp : (configuredMove s speed accel 0 0 p).dirPin = s.dirPin := by unfold Stepper.dirPin; rw [f1]
  have hb := configuredMove_brisk hh hst.idle hst.noForceStop (Nat.le_trans hst.limit2 hs1) hs2 ha1 hinv
  rw [← List.countP_eq_length_filter]
  exact task_shorts (A := accel.toNat) (W0 := shortestWay p s.hw.q.qend.pos) hav (Nat.le_trans hmin hs1) hs2 (by omega) (by omega) hmin hst.limit3 hinv (by rw [f1]; exact hb)
    (by rw [f3, f4]; exact hen) (by rw [hdp]; exact hext) (by rw [f2]; omega) h

/-- C90 for all speeds with a period of at least `a.minCmdTicks` (25000 steps/s): as `C90_real_time_partial`, but with a condition for the timing which does not depend on the speed: the task cycles, with the delays, are at most `(a.queueLen - 5) * 11000`
ticks (7.5 ms) apart. For this there is no linear acceleration, and the acceleration is at most 700000 steps/s². -/
theorem C90_any_speed_partial (a : ArchId) (hav : a.isAvr = true) (tm : AvrTiming) (L : Nat) (s : Stepper) (v0 : Avr) (hh : RampHist a ApiCall.Typed s)
    (hst : Standing a L s) (hen : s.autoEnable = false ∨ s.onDelayTicks = 0) (hrest : AvrAtRest v0) (hhw : s.hw = ⟨v0.q, 0⟩) (hpin : s.dirPin < 128)
    (speed : Nat) (accel : Int) (p : Int) (hs1 : L ≤ speed) (hs2 : speed < 4294967295) (hs3 : speed % 65536 ≠ 0) (ha1 : 0 < accel) (ha2 : accel ≤ 700000)
    (hp : i32 p = p) (hdist : shortestWay p s.getPositionAfterCommandsCompleted ≠ -2147483648)
    (hdelay : s.dirChangeDelayTicks = 0 ∨ (11000 ≤ s.dirChangeDelayTicks ∧ s.dirChangeDelayTicks < 65536))
    (hplan : tm.cycle + tm.commit + tm.latency + 65535 < s.forwardPlanning) (hfull : tm.cycle + tm.commit + tm.latency < (a.queueLen - 5) * 11000)
    (τ now : Nat) (v : Avr) (h : AvrHist) (cmds : List Cmd) (s' : Stepper) (hm : AvrMove a tm (configuredMove s speed accel 0 0 p) v0 τ now v h cmds s') :
    (∃ t0 rest, specPulses (dirLevelFor s.dirPin s.hw.q.dirHighCountsUp) t0 cmds = v.pulses.reverse ++ rest ∧ (v.q.running = false → rest = []) ∧
        ∀ x ∈ rest, v.ocr ≤ x.time) ∧
    (s'.isRampGeneratorActive = true → cmds ≠ [] → now ≤ τ + tm.cycle → v.q.running = true) ∧
    (s'.isRampGeneratorActive = false → v.q.running = false →
      stepsOn s.getPositionAfterCommandsCompleted (netPulses s.hw.q.dirHighCountsUp (v.pulses.reverse.map Pulse.dir)) = p ∧ s'.getPositionAfterCommandsCompleted = p) := by
  obtain ⟨R, M, hinv, -⟩ := configuredMove_inv a L s hh hst speed accel 0 p hs1 hs2 ha1 (by omega) (by decide) hdist
  exact timely_real hav hh hst hrest hhw hpin hs1 hs2 ha1 (by omega) (by decide) hp hdist
    (configuredMove_brisk_timely hav hh hst hen hpin hs1 hs2 hs3 ha1 ha2 hinv hdelay hplan hfull) hm

/-- C90, the end of the move, for all speeds: as `C90_ends_partial`, under the conditions of `C90_any_speed_partial`. -/
theorem C90_any_speed_ends_partial (a : ArchId) (hav : a.isAvr = true) (L : Nat) (s : Stepper) (v0 : Avr) (hh : RampHist a ApiCall.Typed s)
    (hst : Standing a L s) (hen : s.autoEnable = false ∨ s.onDelayTicks = 0) (hrest : AvrAtRest v0) (hhw : s.hw = ⟨v0.q, 0⟩) (hpin : s.dirPin < 128)
    (speed : Nat) (accel : Int) (p : Int) (hs1 : L ≤ speed) (hs2 : speed < 4294967295) (hs3 : speed % 65536 ≠ 0) (ha1 : 0 < accel) (ha2 : accel ≤ 700000)
    (hp : i32 p = p) (hdist : shortestWay p s.getPositionAfterCommandsCompleted ≠ -2147483648)
    (hdelay : s.dirChangeDelayTicks = 0) (hmove : p ≠ s.getPositionAfterCommandsCompleted) :
    ∃ T, ∀ tm : AvrTiming, tm.cycle + tm.commit + tm.latency + 65535 < s.forwardPlanning → tm.cycle + tm.commit + tm.latency < (a.queueLen - 5) * 11000 →
      ∀ (τ now : Nat) (v : Avr) (h : AvrHist) (cmds : List Cmd) (s' : Stepper), AvrMove a tm (configuredMove s speed accel 0 0 p) v0 τ now v h cmds s' →
        (cmds = [] → now = τ ∧ v = v0 ∧ s' = configuredMove s speed accel 0 0 p) ∧
        (cmds ≠ [] → ∃ t0 rest, specPulses (dirLevelFor s.dirPin s.hw.q.dirHighCountsUp) t0 cmds = v.pulses.reverse ++ rest ∧
          (s'.isRampGeneratorActive = true → τ < t0 + T) ∧ (v.q.running = true → v.ocr ≤ t0 + T)) := by
  obtain ⟨R, M, hinv, -⟩ := configuredMove_inv a L s hh hst speed accel 0 p hs1 hs2 ha1 (by omega) (by decide) hdist
  refine ⟨M * (65535 * 255), fun tm hplan hfull τ now v h cmds s' hm => ?_⟩
  exact timely_ends hav hh hst hen hrest hhw hpin hs1 hs2 ha1 (by omega) (by decide) hp hdist hdelay hmove hinv
    (configuredMove_brisk_timely hav hh hst hen hpin hs1 hs2 hs3 ha1 ha2 hinv (Or.inl hdelay) hplan hfull) hm

/-! ## Example: twelve steps backward in six task cycles -/

deriving instance DecidableEq for Avr.Ev

/-- Schedule of a task cycle: a command is queued each 100 ticks. -/
def addEvents (st : Bool) (t : Nat) : List Cmd → List (Nat × Avr.Ev)
  | [] => []
  | c :: cs => (t, .addBegin c st) :: (t + 20, .addCommit) :: (t + 40, .addFinish (t + 40)) :: addEvents st (t + 100) cs

def cycleEvents (running : Bool) (τ : Nat) (acc : List Cmd) : List (Nat × Avr.Ev) :=
  if running then addEvents true (τ + 100) acc else if acc = [] then [] else addEvents false (τ + 100) acc ++ [(τ + 3000, .startNull (τ + 3000))]

/-- The interrupts after time `now` up to time `t`, each 50 ticks late if it is not held up. -/
def compareEvents (now t : Nat) : Nat → Avr → List (Nat × Avr.Ev)
  | 0, _ => []
  | n + 1, v => if v.irq && decide (v.ocr + 50 ≤ t) then (max now (v.ocr + 50), .compare) :: compareEvents now t n (v.step .avr328 .compare) else []

/-- A stepper with its driver, and the times of the latest cycle and of the latest event. -/
structure RealState where
  last : Nat
  now : Nat
  v : Avr
  h : AvrHist
  cmds : List Cmd
  s : Stepper

/-- A task cycle at time `τ`, with interrupts up to time `t`. -/
def RealState.next (r : RealState) (tm : AvrTiming) (τ t : Nat) : Option RealState := do
  let x ← r.s.fillQueue .avr328 calmEnv junk0
  let e1 := cycleEvents r.v.q.running τ x.2
  let evs := e1 ++ compareEvents (lastTime τ e1) t 100 (Avr.track .avr328 r.v r.h (e1.map Prod.snd)).1
  let w := Avr.track .avr328 r.v r.h (evs.map Prod.snd)
  if r.now ≤ τ ∧ (r.cmds ≠ [] → τ ≤ r.last + tm.cycle) ∧ (r.v.q.running = true → τ ≤ r.v.ocr + tm.latency) ∧ r.s.hw.q.ready = true ∧ r.s.autoEnable = false ∧
      Avr.Clocked .avr328 r.v τ τ evs ∧ avrCalls evs = taskCalls r.v.q.running x.2 ∧ (∀ e ∈ evs, e.2 = .addCommit → e.1 ≤ τ + tm.commit) then
    some ⟨τ, lastTime τ evs, w.1, w.2, r.cmds ++ x.2, { x.1 with hw := ⟨w.1.q, 0⟩ }⟩
  else none

theorem RealState.next_move {tm : AvrTiming} {s0 : Stepper} {v0 : Avr} {r r' : RealState} {τ t : Nat} (h : AvrMove .avr328 tm s0 v0 r.last r.now r.v r.h r.cmds r.s)
    (hn : r.next tm τ t = some r') : AvrMove .avr328 tm s0 v0 r'.last r'.now r'.v r'.h r'.cmds r'.s := by
  unfold RealState.next at hn
  obtain ⟨x, hx, hn⟩ := Option.bind_eq_some_iff.mp hn
  dsimp only at hn
  split at hn
  · rename_i hc
    obtain ⟨c1, c2, c3, c4, c5, c6, c7, c8⟩ := hc
    cases hn
    refine .cycle τ calmEnv junk0 0 _ x.2 x.1 _ h c1 c2 c3 (by decide) hx ⟨c4, fun _ => rfl, ?_, fun _ _ _ => rfl, by decide⟩ c6 c7 c8
      ⟨rfl, rfl, rfl, rfl, rfl⟩ rfl
    intro _ hx; rw [c5] at hx; cases hx
  · cases hn

/-- A stepper of the ATmega328 with direction pin 7 at standstill. -/
def realStepper : Stepper := ((Stepper.init .avr328 1).setDirectionPin .avr328 none 7 true 0).1.setForwardPlanningTimeInMs .avr328 20

def realDriver : Avr := { Avr.fresh .avr328 7 true with q := realStepper.hw.q }

/-- Task cycles up to 4 ms apart, which queue their commands within 0.25 ms; interrupts at most 0.05 ms late. -/
def realTiming : AvrTiming := ⟨64000, 4000, 800⟩

def realRun : Option RealState := do
  let r : RealState := ⟨900, 900, realDriver, ⟨[], []⟩, [], configuredMove realStepper 20000 20000 0 0 (-12)⟩
  let r ← r.next realTiming 1000 61000
  let r ← r.next realTiming 61500 121500
  let r ← r.next realTiming 122000 182000
  let r ← r.next realTiming 182500 242500
  let r ← r.next realTiming 243000 303000
  r.next realTiming 303500 700000

/-- The hypotheses of C90 are met by a stepper with the default forward planning time, which gets a `moveTo(-12)`, and by the given run of the move, at the end of which the motor has made the 12 steps. -/
example : (RampHist .avr328 ApiCall.Typed realStepper ∧ Standing .avr328 16000 realStepper ∧ realStepper.autoEnable = false ∧ AvrAtRest realDriver ∧ realStepper.hw = ⟨realDriver.q, 0⟩ ∧
      realStepper.dirPin < 128 ∧ realStepper.dirChangeDelayTicks = 0 ∧ realStepper.forwardPlanning = 320000 ∧ realTiming.cycle + realTiming.commit + realTiming.latency + 65535 < 320000 ∧
      realTiming.cycle + realTiming.commit + realTiming.latency < (ArchId.avr328.queueLen - 2) * 16000) ∧
    ∃ r, realRun = some r ∧ AvrMove .avr328 realTiming (configuredMove realStepper 20000 20000 0 0 (-12)) realDriver r.last r.now r.v r.h r.cmds r.s ∧
      r.s.isRampGeneratorActive = false ∧ r.v.q.running = false ∧ r.v.pulses.length = 12 ∧ r.cmds.length = 15 := by
  refine ⟨⟨?_, ?_, rfl, ?_, rfl, by decide, by decide, by decide, by decide, by decide⟩, ?_⟩
  · exact .start _ rfl
  · exact ⟨by decide, by decide, by decide, rfl, rfl, by decide, Or.inl rfl, fun h => absurd h.1 (by decide), by decide, by decide, by decide, by decide, by decide⟩
  · exact ⟨rfl, rfl, rfl, rfl, rfl, rfl, by decide, rfl, rfl, rfl⟩
  · have h : ∃ r, realRun = some r ∧ r.s.isRampGeneratorActive = false ∧ r.v.q.running = false ∧ r.v.pulses.length = 12 ∧ r.cmds.length = 15 := by
      apply exists_of_any
      decide +kernel
    obtain ⟨r, h1, h2⟩ := h
    refine ⟨r, h1, ?_, h2⟩
    unfold realRun at h1
    obtain ⟨r1, g1, h1⟩ := Option.bind_eq_some_iff.mp h1
    obtain ⟨r2, g2, h1⟩ := Option.bind_eq_some_iff.mp h1
    obtain ⟨r3, g3, h1⟩ := Option.bind_eq_some_iff.mp h1
    obtain ⟨r4, g4, h1⟩ := Option.bind_eq_some_iff.mp h1
    obtain ⟨r5, g5, h1⟩ := Option.bind_eq_some_iff.mp h1
    exact RealState.next_move (RealState.next_move (RealState.next_move (RealState.next_move (RealState.next_move (RealState.next_move (.start 900) g1) g2) g3) g4) g5) h1

/-! ## Example: 200 steps at high speed -/

/-- Task cycles at the times `ts`, with the interrupts up to 100 ticks before the next one. -/
def RealState.cycles (tm : AvrTiming) : List Nat → RealState → Option RealState
  | [], r => some r
  | τ :: ts, r => (r.next tm τ (ts.headD (τ + 400000) - 100)).bind (RealState.cycles tm ts)

theorem RealState.cycles_move {tm : AvrTiming} {s0 : Stepper} {v0 : Avr} {ts : List Nat} : ∀ {r r' : RealState}, AvrMove .avr328 tm s0 v0 r.last r.now r.v r.h r.cmds r.s →
    RealState.cycles tm ts r = some r' → AvrMove .avr328 tm s0 v0 r'.last r'.now r'.v r'.h r'.cmds r'.s := by
  induction ts with
  | nil => intro r r' h hn; cases hn; exact h
  | cons τ ts ih =>
    intro r r' h hn
    obtain ⟨r1, g1, hn⟩ := Option.bind_eq_some_iff.mp hn
    exact ih (RealState.next_move h g1) hn

/-- The stepper with the speed limit of 25000 steps/s. -/
def fastStepper : Stepper := realStepper.setAbsoluteSpeedLimit 640

def fastDriver : Avr := { Avr.fresh .avr328 7 true with q := fastStepper.hw.q }

/-- Task cycles up to 4 ms apart, which queue their commands within 0.25 ms; interrupts at most 0.1 ms late. -/
def fastTiming : AvrTiming := ⟨64000, 4000, 1600⟩

def fastRun : Option RealState :=
  RealState.cycles fastTiming [1000, 61000, 121000, 181000, 241000, 301000, 361000, 421000, 481000, 541000]
    ⟨900, 900, fastDriver, ⟨[], []⟩, [], configuredMove fastStepper 640 700000 0 0 200⟩

/-- The hypotheses of `C90_any_speed_partial` are met by a stepper which gets a `moveTo(200)` with the speed of 25000 steps/s and the acceleration of 700000 steps/s², and by the given run of the move, at the end of which the
motor has made the 200 steps. -/
example : (RampHist .avr328 ApiCall.Typed fastStepper ∧ Standing .avr328 640 fastStepper ∧ fastStepper.autoEnable = false ∧ AvrAtRest fastDriver ∧ fastStepper.hw = ⟨fastDriver.q, 0⟩ ∧
      fastStepper.dirPin < 128 ∧ fastStepper.dirChangeDelayTicks = 0 ∧ fastStepper.forwardPlanning = 320000 ∧ fastTiming.cycle + fastTiming.commit + fastTiming.latency + 65535 < 320000 ∧
      fastTiming.cycle + fastTiming.commit + fastTiming.latency < (ArchId.avr328.queueLen - 5) * 11000) ∧
    ∃ r, fastRun = some r ∧ AvrMove .avr328 fastTiming (configuredMove fastStepper 640 700000 0 0 200) fastDriver r.last r.now r.v r.h r.cmds r.s ∧
      r.s.isRampGeneratorActive = false ∧ r.v.q.running = false ∧ r.v.pulses.length = 200 := by
  refine ⟨⟨?_, ?_, rfl, ?_, rfl, by decide, by decide, by decide, by decide, by decide⟩, ?_⟩
  · exact .start _ rfl
  · exact ⟨by decide, by decide, by decide, rfl, rfl, by decide, Or.inl rfl, fun h => absurd h.1 (by decide), by decide, by decide, by decide, by decide, by decide⟩
  · exact ⟨rfl, rfl, rfl, rfl, rfl, rfl, by decide, rfl, rfl, rfl⟩
  · have h : ∃ r, fastRun = some r ∧ r.s.isRampGeneratorActive = false ∧ r.v.q.running = false ∧ r.v.pulses.length = 200 := by
      apply exists_of_any
      decide +kernel
    obtain ⟨r, h1, h2⟩ := h
    exact ⟨r, h1, RealState.cycles_move (.start 900) h1, h2⟩

end FAS
