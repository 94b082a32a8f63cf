import Verif.Lemmas.Fill
import Verif.Spec.Ramp

/-!
# Properties of the ramp generator's interface: C41–C45, C48, C53, C56, C58, C59
-/

namespace FAS

open Spec

/-! ## C42 -/

/-- C42: move commands without valid configuration (or a relative backward move without direction pin) return the
documented error, in the documented order, and change nothing. -/
theorem C42_move_errors (s : Stepper) :
    let cfg : Int :=
      if s.rg.parameters.validSpeed = false then MOVE_ERR_SPEED_IS_UNDEFINED
      else if s.rg.parameters.validAcceleration = false then MOVE_ERR_ACCELERATION_IS_UNDEFINED
      else MOVE_OK
    (∀ m : Int, (s.move m).2 = (if m < 0 ∧ s.dirPin = pinUndefined then MOVE_ERR_NO_DIRECTION_PIN else cfg) ∧
      ((s.move m).2 ≠ MOVE_OK → (s.move m).1 = s)) ∧
    (∀ p : Int, (s.moveTo p).2 = cfg ∧ ((s.moveTo p).2 ≠ MOVE_OK → (s.moveTo p).1 = s)) ∧
    (∀ up : Bool, (s.startRun up).2 = cfg ∧ ((s.startRun up).2 ≠ MOVE_OK → (s.startRun up).1 = s)) := by
  have hcfg : s.rg.parameters.checkValidConfig =
      if s.rg.parameters.validSpeed = false then MOVE_ERR_SPEED_IS_UNDEFINED
      else if s.rg.parameters.validAcceleration = false then MOVE_ERR_ACCELERATION_IS_UNDEFINED
      else MOVE_OK := by
    unfold RampParams.checkValidConfig
    cases s.rg.parameters.validSpeed <;> cases s.rg.parameters.validAcceleration <;> rfl
  intro cfg
  have hc : s.rg.parameters.checkValidConfig = cfg := hcfg
  refine ⟨fun m => ?_, fun p => ?_, fun up => ?_⟩
  · unfold Stepper.move
    by_cases h : m < 0 ∧ s.dirPin = pinUndefined
    · rw [if_pos h, if_pos h]
      exact ⟨rfl, fun _ => rfl⟩
    · rw [if_neg h, if_neg h]
      unfold RampGen.move
      dsimp only
      rw [hc]
      by_cases h2 : cfg ≠ MOVE_OK
      · rw [if_pos h2]; exact ⟨rfl, fun _ => rfl⟩
      · rw [if_neg h2]; exact ⟨(Decidable.not_not.mp h2).symm, fun h => absurd rfl h⟩
  · unfold Stepper.moveTo RampGen.moveTo
    dsimp only
    rw [hc]
    by_cases h2 : cfg ≠ MOVE_OK
    · rw [if_pos h2]; exact ⟨rfl, fun _ => rfl⟩
    · rw [if_neg h2]; exact ⟨(Decidable.not_not.mp h2).symm, fun h => absurd rfl h⟩
  · unfold Stepper.startRun RampGen.startRun
    dsimp only
    rw [hc]
    by_cases h2 : cfg ≠ MOVE_OK
    · rw [if_pos h2]; exact ⟨rfl, fun _ => rfl⟩
    · rw [if_neg h2]; exact ⟨(Decidable.not_not.mp h2).symm, fun h => absurd rfl h⟩

/-- A configured stepper: speed 5000 ticks (on the PC), acceleration 10000 steps/s², direction pin 7. -/
def configuredStepper (a : ArchId) : Stepper :=
  ((((((Stepper.init a 1).setDirectionPin a none 7 true 0).1.setAbsoluteSpeedLimit 80).setSpeedInTicks 5000).1).setAcceleration
    10000).1

example : ((Stepper.init .esp32 1).move 10).2 = MOVE_ERR_SPEED_IS_UNDEFINED ∧
    (((Stepper.init .esp32 1).setSpeedInTicks 50000).1.moveTo 10).2 = MOVE_ERR_ACCELERATION_IS_UNDEFINED ∧
    ((configuredStepper .esp32).move (-10)).2 = MOVE_OK ∧
    (((configuredStepper .esp32).setDirectionPin .esp32 none 255 true 0).1.move (-10)).2 = MOVE_ERR_NO_DIRECTION_PIN := by
  decide +kernel

/-! ## C43 -/

/-- The invariant of `TargetHist`. -/
structure TargetInv (s : Stepper) (D : Int) (pend : Bool) : Prop where
  imm : s.rg.ro.forceImmediateStop = false
  keep : s.rg.ro.config.parameters.keepRunning = false
  keep' : s.rg.parameters.keepRunning = false
  cfgChange : s.rg.ro.config.parameters.anyChange = false
  applyChange : s.rg.parameters.apply = true → s.rg.parameters.anyChange = true
  range : i32 s.rg.ro.targetPos = s.rg.ro.targetPos
  pendAbs : pend = true → s.rg.parameters.moveAbsolute = true ∧ s.rg.parameters.moveValue = D ∧
    s.rg.parameters.apply = true
  pendRel : pend = false →
    (s.rg.parameters.moveAbsolute = false ∧ D = i32 (s.rg.ro.targetPos + s.rg.parameters.moveValue) ∧
      (s.rg.parameters.moveValue ≠ 0 → s.rg.parameters.apply = true)) ∨
    (s.rg.parameters.moveAbsolute = true ∧ s.rg.parameters.moveValue = 0 ∧ D = s.rg.ro.targetPos ∧
      s.rg.isActive = false)
  stop : s.rg.isActive = true → s.rg.ro.forceStop = false


theorem i32_idem (x : Int) : i32 (i32 x) = i32 x := by
  unfold i32; omega

theorem RampGen.startMove_fields (g : RampGen) (b : Bool) :
    (g.startMove b).ro = { g.ro with forceStop := false } ∧ (g.startMove b).parameters = g.parameters ∧
    (g.isActive = true → (g.startMove b).isActive = true) := by
  refine ⟨rfl, rfl, fun h => ?_⟩
  unfold RampGen.startMove RampGen.isActive at *
  cases b
  · exact h
  · have h1 : g.rw.state ≠ RampState.IDLE := by simpa using h
    simp only [RampRw.startRampIfNotRunning, if_neg h1]
    exact h

theorem ConfigCall.run_fields (c : ConfigCall) (s : Stepper) :
    (c.run s).rg.ro = s.rg.ro ∧ (c.run s).rg.rw = s.rg.rw ∧
    (c.run s).rg.parameters.keepRunning = s.rg.parameters.keepRunning ∧
    (c.run s).rg.parameters.moveValue = s.rg.parameters.moveValue ∧
    (c.run s).rg.parameters.moveAbsolute = s.rg.parameters.moveAbsolute ∧
    (s.rg.parameters.apply = true → (c.run s).rg.parameters.apply = true) ∧
    (s.rg.parameters.anyChange = true → (c.run s).rg.parameters.anyChange = true) ∧
    ((c.run s).rg.parameters.apply = true → s.rg.parameters.apply = true ∨ (c.run s).rg.parameters.anyChange = true) := by
  cases c with
  | speed t =>
    simp only [ConfigCall.run, Stepper.setSpeedInTicks, RampParams.setSpeedInTicks]
    repeat' split
    all_goals simp_all
  | acceleration a =>
    simp only [ConfigCall.run, Stepper.setAcceleration, RampGen.setAcceleration, RampParams.setAcceleration]
    repeat' split
    all_goals simp_all
  | linear n =>
    simp only [ConfigCall.run, Stepper.setLinearAcceleration, RampParams.setCubicAccelerationSteps]
    repeat' split
    all_goals simp_all
  | jump n =>
    simp only [ConfigCall.run, Stepper.setJumpStart, RampParams.setJumpStart]
    simp_all
  | applySpeedAcceleration =>
    simp only [ConfigCall.run, Stepper.applySpeedAcceleration, RampGen.applySpeedAcceleration, RampParams.applyParameters]
    repeat' split
    all_goals simp_all

/-- Fields after `prepare`. -/
theorem RampGen.startSteps_fields (a : ArchId) (g : RampGen) :
    (g.startSteps a).ro = g.ro ∧ (g.startSteps a).parameters = g.parameters := by
  unfold RampGen.startSteps
  dsimp only
  repeat' split
  all_goals exact ⟨rfl, rfl⟩

theorem TargetInv.serve {a : ArchId} {s : Stepper} {D : Int} {pend : Bool} (h : TargetInv s D pend)
    (hact : s.rg.isActive = true) (qe : QueueEnd) :
    let g := s.rg.prepare a qe
    g.ro.targetPos = D ∧ g.ro.forceImmediateStop = false ∧ g.ro.config.parameters.keepRunning = false ∧
    g.parameters.keepRunning = false ∧ g.ro.config.parameters.anyChange = false ∧ g.ro.forceStop = false ∧
    (g.parameters.apply = true → g.parameters.anyChange = true) ∧ g.parameters.moveAbsolute = false ∧
    g.parameters.moveValue = 0 := by
  intro g
  have hs := h.stop hact
  have hro : ∀ g1 : RampGen, g1.ro.forceStop = false → (g1.updateTarget false qe).ro.forceStop = false := by
    intro g1 h1
    unfold RampGen.updateTarget
    dsimp only
    repeat' split
    all_goals exact h1
  simp only [g, RampGen.prepare, h.keep]
  have hS := RampGen.startSteps_fields a (s.rg.takeOver a)
  cases hap : s.rg.parameters.apply
  · -- nothing to take over
    have ht : s.rg.takeOver a = s.rg := by unfold RampGen.takeOver; rw [hap]; rfl
    rw [ht] at hS ⊢
    have hpend : pend = false := by
      cases hp : pend
      · rfl
      · have := (h.pendAbs hp).2.2; rw [hap] at this; cases this
    rcases h.pendRel hpend with ⟨h1, h2, h3⟩ | ⟨-, -, -, h4⟩
    · have hmv : s.rg.parameters.moveValue = 0 := by
        by_cases hm : s.rg.parameters.moveValue = 0
        · exact hm
        · have := h3 hm; rw [hap] at this; cases this
      have hu : (s.rg.startSteps a).updateTarget false qe = s.rg.startSteps a := by
        unfold RampGen.updateTarget
        dsimp only
        rw [hS.1, hs, h.cfgChange]
        rfl
      rw [hu]
      unfold RampGen.clearRecalc
      dsimp only
      rw [hS.1, hS.2]
      refine ⟨?_, h.imm, h.keep, h.keep', h.cfgChange, hs, h.applyChange, h1, hmv⟩
      rw [h2, hmv, Int.add_zero, h.range]
    · rw [hact] at h4; cases h4
  · have hro1 : (s.rg.takeOver a).ro.forceStop = false := by
      unfold RampGen.takeOver; rw [hap]; exact hs
    have hch := h.applyChange hap
    have hT : (s.rg.takeOver a).ro.config.parameters = s.rg.parameters ∧
        (s.rg.takeOver a).ro.targetPos = s.rg.ro.targetPos ∧ (s.rg.takeOver a).ro.forceImmediateStop = false ∧
        (s.rg.takeOver a).parameters.keepRunning = false ∧ (s.rg.takeOver a).parameters.moveAbsolute = false ∧
        (s.rg.takeOver a).parameters.moveValue = 0 ∧ (s.rg.takeOver a).parameters.apply = false := by
      unfold RampGen.takeOver
      rw [hap]
      refine ⟨?_, rfl, ?_, h.keep', rfl, rfl, rfl⟩
      · simp only [if_true, RampConfig.update, RampConfig.updateCubic]
        split <;> rfl
      · simp only [if_true, h.imm, Bool.false_and]
    obtain ⟨t1, t2, t3, t4, t5, t6, t7⟩ := hT
    have hpos : ((s.rg.takeOver a).startSteps a).updateTarget false qe =
        { (s.rg.takeOver a).startSteps a with
          ro := { (s.rg.takeOver a).ro with
            config := { (s.rg.takeOver a).ro.config with parameters := { s.rg.parameters with anyChange := false } }
            targetPos := D } } := by
      unfold RampGen.updateTarget
      dsimp only
      rw [hS.1, hro1, t1, hch, h.keep', t2]
      cases hp : pend
      · rcases h.pendRel hp with ⟨h1, h2, h3⟩ | ⟨-, -, -, h4⟩
        · rw [h1, h2]; rfl
        · rw [hact] at h4; cases h4
      · obtain ⟨h1, h2, h3⟩ := h.pendAbs hp
        rw [h1, h2]; rfl
    rw [hpos]
    unfold RampGen.clearRecalc
    dsimp only
    rw [hS.2]
    exact ⟨rfl, t3, h.keep', t4, rfl, hro1, fun hh => (by rw [t7] at hh; cases hh), t5, t6⟩

theorem TargetHist_inv {a : ArchId} {s : Stepper} {D : Int} {pend : Bool} (h : TargetHist a s D pend) :
    TargetInv s D pend ∧ i32 D = D := by
  induction h with
  | start s hi hf hk hk' hm ha hc ht =>
    refine ⟨⟨hf, hk, hk', hc, ha, ht.symm, fun h => (by cases h), fun _ => ?_, fun h => (by rw [hi] at h; cases h)⟩, ht.symm⟩
    cases hab : s.rg.parameters.moveAbsolute
    · left
      refine ⟨rfl, ?_, fun h => absurd hm h⟩
      rw [hm, Int.add_zero]; exact ht
    · right; exact ⟨rfl, hm, rfl, hi⟩
  | moveTo p hp hh hok ih =>
    rename_i s D pend
    obtain ⟨ih, hD⟩ := ih
    refine ⟨?_, hp⟩
    have hc : s.rg.parameters.checkValidConfig = MOVE_OK := by
      unfold Stepper.moveTo RampGen.moveTo at hok
      dsimp only at hok
      split at hok
      · exact hok
      · rename_i h; exact Decidable.not_not.mp h
    unfold Stepper.moveTo RampGen.moveTo
    dsimp only
    rw [hc, if_neg (fun h => h rfl)]
    exact ⟨ih.imm, ih.keep, rfl, ih.cfgChange, fun _ => rfl, ih.range, fun _ => ⟨rfl, rfl, rfl⟩, fun h => (by cases h),
      fun _ => rfl⟩
  | move m hh hok ih =>
    rename_i s D
    obtain ⟨ih, hD⟩ := ih
    refine ⟨?_, i32_idem _⟩
    unfold Stepper.move RampGen.move at hok ⊢
    dsimp only at hok ⊢
    split at hok
    · cases hok
    rename_i hn
    rw [if_neg hn]
    have hc : s.rg.parameters.checkValidConfig = MOVE_OK := by
      split at hok
      · exact hok
      · rename_i h; exact Decidable.not_not.mp h
    rw [hc, if_neg (fun h => h rfl)]
    refine ⟨ih.imm, ih.keep, rfl, ih.cfgChange, fun _ => rfl, ih.range, fun h => (by cases h), fun _ => Or.inl ⟨rfl, ?_,
      fun _ => rfl⟩, fun _ => rfl⟩
    change i32 (D + m) = i32 (s.rg.ro.targetPos +
      if s.rg.parameters.anyChange && !s.rg.parameters.moveAbsolute then i32 (s.rg.parameters.moveValue + m) else m)
    rcases ih.pendRel rfl with ⟨h1, h2, h3⟩ | ⟨h1, h2, h3, -⟩
    · rw [h1, h2]
      cases hch : s.rg.parameters.anyChange
      · have hm : s.rg.parameters.moveValue = 0 := by
          by_cases hm : s.rg.parameters.moveValue = 0
          · exact hm
          · have := ih.applyChange (h3 hm); rw [hch] at this; cases this
        rw [hm]
        simp only [Bool.false_and, Bool.false_eq_true, if_false]
        unfold i32; omega
      · simp only [Bool.not_false, Bool.and_self, if_true]
        unfold i32; omega
    · rw [h1, h3]
      simp
  | config c hh ih =>
    rename_i s D pend
    obtain ⟨ih, hD⟩ := ih
    obtain ⟨f1, f2, f3, f4, f5, f6, f7, f8⟩ := ConfigCall.run_fields c s
    have hact : (c.run s).rg.isActive = s.rg.isActive := by unfold RampGen.isActive; rw [f2]
    refine ⟨⟨(by rw [f1]; exact ih.imm), (by rw [f1]; exact ih.keep), (by rw [f3]; exact ih.keep'), (by rw [f1]; exact ih.cfgChange),
      fun h => ?_, (by rw [f1]; exact ih.range), fun h => ?_, fun h => ?_, fun h => ?_⟩, hD⟩
    · rcases f8 h with h1 | h1
      · exact f7 (ih.applyChange h1)
      · exact h1
    · obtain ⟨h1, h2, h3⟩ := ih.pendAbs h
      exact ⟨f5.trans h1, f4.trans h2, f6 h3⟩
    · rcases ih.pendRel h with ⟨h1, h2, h3⟩ | ⟨h1, h2, h3, h4⟩
      · left
        refine ⟨f5.trans h1, (by rw [f1, f4]; exact h2), fun hm => f6 (h3 (by rw [← f4]; exact hm))⟩
      · right
        exact ⟨f5.trans h1, f4.trans h2, (by rw [f1]; exact h3), hact.trans h4⟩
    · rw [f1]; exact ih.stop (hact ▸ h)
  | serve qe junk c g rw hw hh hact hg ih =>
    rename_i s D pend
    obtain ⟨ih, hD⟩ := ih
    obtain ⟨p1, p2, p3, p4, p5, p6, p7, p8, p9⟩ := ih.serve (a := a) hact qe
    have hgg : g = s.rg.prepare a qe := by
      unfold RampGen.getNextCommand at hg
      dsimp only at hg
      rw [p2] at hg
      simp only [Bool.false_eq_true, if_false] at hg
      split at hg
      · cases hg
      · cases hg; rfl
    subst hgg
    refine ⟨⟨p2, p3, p4, p5, p7, (by rw [p1]; exact hD), fun h => (by cases h), fun _ => Or.inl ⟨p8, ?_, fun h => absurd p9 h⟩,
      fun _ => p6⟩, hD⟩
    change D = i32 ((s.rg.prepare a qe).ro.targetPos + (s.rg.prepare a qe).parameters.moveValue)
    rw [p1, p9, Int.add_zero, hD]

/-- C43 for all histories in which `move()` is not called while a `moveTo()` is still waiting for the task: the target the
task works with is the one the history means. Missing for the full claim: see `C43_pending_moveTo_refuted`. -/
theorem C43_targets_partial (a : ArchId) (s : Stepper) (D : Int) (pend : Bool) (h : TargetHist a s D pend)
    (hact : s.rg.isActive = true) (qe : QueueEnd) (junk c : NextCommand) (g : RampGen)
    (hg : s.rg.getNextCommand a qe junk = some (g, c)) :
    g.ro.targetPos = D := by
  have := (TargetHist_inv (TargetHist.serve qe junk c g c.rw s.hw h hact hg)).1
  obtain ⟨p1, p2, -⟩ := (TargetHist_inv h).1.serve (a := a) hact qe
  unfold RampGen.getNextCommand at hg
  dsimp only at hg
  rw [p2] at hg
  simp only [Bool.false_eq_true, if_false] at hg
  split at hg
  · cases hg
  · cases hg; exact p1

/-- The uninitialised command variable, here with zeros. -/
def junk0 : NextCommand := ⟨⟨0, 0, true⟩, ⟨⟨.idle, .none⟩, 0, 0, 0⟩⟩

/-- C43 is false of the code in general: `moveTo(100)` directly followed by `move(10)`, both before the task runs,
should give target 110. The `moveTo()` is lost and the target is 10. -/
theorem C43_pending_moveTo_refuted :
    let s := (((configuredStepper .esp32).moveTo 100).1.move 10).1
    s.rg.isActive = true ∧
    (s.rg.getNextCommand .esp32 s.hw.q.qend junk0).map (fun r => r.1.ro.targetPos) = some 10 := by
  decide +kernel

/-- Non-vacuity: `moveTo(100)`, service, `move(10)`, `move(-30)`, speed change: target 80. -/
example : ∃ s, TargetHist .esp32 s 80 false ∧ s.rg.isActive = true ∧
    (s.rg.getNextCommand .esp32 s.hw.q.qend junk0).map (fun r => r.1.ro.targetPos) = some 80 := by
  let s0 := configuredStepper .esp32
  have h0 : TargetHist .esp32 s0 0 false := .start s0 rfl rfl rfl rfl rfl (by decide) rfl rfl
  have h1 := TargetHist.moveTo 100 rfl h0 (by decide)
  have h2 := TargetHist.serve s0.hw.q.qend junk0 _ _ ⟨⟨.accelerate, .up⟩, 1, 0, 40000⟩ s0.hw h1 (by decide +kernel)
    (Option.some_get (x := (s0.moveTo 100).1.rg.getNextCommand .esp32 s0.hw.q.qend junk0) (by decide +kernel)).symm
  have h3 := TargetHist.move 10 h2 (by decide +kernel)
  have h4 := TargetHist.move (-30) h3 (by decide +kernel)
  have h5 := TargetHist.config (.speed 4000) h4
  exact ⟨_, h5, by decide +kernel, by decide +kernel⟩

/-! ## C58: relative moves from standstill -/

/-- A calm environment: nothing is executed during `fill_queue`. -/
def calmEnv : Stepper.Env := ⟨40, fun _ => none, fun _ _ => ⟨0, false⟩, fun _ => false⟩

/-- All queued commands are executed and the hardware stops. -/
def drained (a : ArchId) (s : Stepper) : Stepper :=
  let hw := Hw.advances a 300 s.hw
  { s with hw := { hw with q := { hw.q with running := false } } }

/-- C58 for absolute moves: at standstill (ramp idle) an accepted `moveTo(p)` starts the ramp if and only if the motor is not at `p`, whatever the target of earlier
moves was. -/
theorem C58_moveTo_starts (s : Stepper) (p : Int) (hi : s.rg.isActive = false) (hok : (s.moveTo p).2 = MOVE_OK) :
    (s.moveTo p).1.rg.isActive = true ↔ p ≠ s.getPositionAfterCommandsCompleted := by
  have hst : s.rg.rw.state = RampState.IDLE := by
    unfold RampGen.isActive at hi; simpa using hi
  unfold Stepper.moveTo RampGen.moveTo at hok ⊢
  dsimp only at hok ⊢
  split at hok
  · contradiction
  rename_i hn
  rw [if_neg hn]
  have hq : s.getPositionAfterCommandsCompleted = s.hw.q.qend.pos := rfl
  rw [hi, hq]
  simp only [Bool.false_and, Bool.false_eq_true, if_false]
  unfold RampGen.startMove
  dsimp only
  by_cases hp : s.hw.q.qend.pos = p
  · simp only [hp, ne_eq, not_true, decide_false, Bool.false_eq_true, if_false, iff_false]
    have : RampGen.isActive { s.rg with parameters := s.rg.parameters.setTargetPosition p, ro := { s.rg.ro with forceStop := false } } = false := hi
    simpa using this
  · have hp' : p ≠ s.hw.q.qend.pos := fun h => hp h.symm
    simp only [ne_eq, hp, not_false_eq_true, decide_true, if_true, hp', iff_true]
    unfold RampGen.isActive RampRw.startRampIfNotRunning
    dsimp only
    rw [hst, if_pos rfl]
    exact (by decide : decide ((⟨.accelerate, .none⟩ : RampState) ≠ RampState.IDLE) = true)

/-- After `moveTo(1000)` and `forceStopAndNewPosition(5)` a second `moveTo(1000)` moves, `moveTo(5)` does not. -/
example : (configuredStepper .esp32).rg.isActive = false ∧
    (let s := { (configuredStepper .esp32) with rg := (configuredStepper .esp32).rg.setTargetPosition 1000 }
     (s.moveTo 1000).2 = MOVE_OK ∧ (s.moveTo 1000).1.rg.isActive = true ∧ (s.moveTo 0).1.rg.isActive = false) := by
  decide +kernel

/-- C58 is false of the code in general: after `forwardStep()` (position 1, at standstill) `move(10)` uses the
target of the last ramp (0) as base: the target becomes 10, so 9 steps are done instead of 10. -/
theorem C58_move_after_forwardStep_refuted :
    let s := drained .testPc
      ((configuredStepper .testPc).performOneStep .testPc none (fun _ => ⟨0, false⟩) false true).s
    s.isRunning = false ∧ s.getPositionAfterCommandsCompleted = 1 ∧
    ((s.move 10).1.rg.getNextCommand .testPc s.hw.q.qend junk0).map (fun r => r.1.ro.targetPos) = some 10 := by
  decide +kernel

/-- C58, if the position at standstill is the target of the last ramp: `move(m)` gives the target `m` steps away. -/
theorem C58_move_from_standstill_partial (a : ArchId) (s : Stepper) (m : Int) (hi : s.rg.isActive = false)
    (hf : s.rg.ro.forceImmediateStop = false) (hk : s.rg.ro.config.parameters.keepRunning = false)
    (hk' : s.rg.parameters.keepRunning = false)
    (hm : s.rg.parameters.moveValue = 0) (ha : s.rg.parameters.apply = true → s.rg.parameters.anyChange = true)
    (hc : s.rg.ro.config.parameters.anyChange = false)
    (ht : s.rg.ro.targetPos = i32 s.rg.ro.targetPos) (hpos : s.rg.ro.targetPos = s.getPositionAfterCommandsCompleted)
    (hok : (s.move m).2 = MOVE_OK) (hm0 : m ≠ 0) (junk c : NextCommand) (g : RampGen)
    (hg : (s.move m).1.rg.getNextCommand a s.hw.q.qend junk = some (g, c)) :
    g.ro.targetPos = i32 (s.getPositionAfterCommandsCompleted + m) := by
  have h := TargetHist.move (a := a) m (.start s hi hf hk hk' hm ha hc ht) hok
  rw [hpos] at h
  refine C43_targets_partial a _ _ _ h ?_ _ junk c g hg
  have hst : s.rg.rw.state = RampState.IDLE := by
    unfold RampGen.isActive at hi; simpa using hi
  unfold Stepper.move RampGen.move at hok ⊢
  dsimp only at hok ⊢
  split at hok
  · cases hok
  rename_i hn
  rw [if_neg hn]
  have hcv : s.rg.parameters.checkValidConfig = MOVE_OK := by
    split at hok
    · exact hok
    · rename_i h; exact Decidable.not_not.mp h
  rw [hcv, if_neg (fun h => h rfl)]
  unfold RampGen.startMove RampRw.startRampIfNotRunning RampGen.isActive
  simp [hm0, hst, RampState.IDLE]

/-! ## C41 -/

/-- C41: the first service after `stopMove()` sets the target to the end of the queue plus (forward) or minus (backward)
`stepsToStop()` and ends continuous running. `g.stepsToStop` is the value used by the planner; it is the one reported
before the call unless a pending acceleration change is taken over at the same time or the motor had not started. -/
theorem C41_stop_target (a : ArchId) (s : Stepper) (qe : QueueEnd) (junk c : NextCommand) (g : RampGen)
    (hf : s.rg.ro.forceImmediateStop = false) (hg : s.stopMove.rg.getNextCommand a qe junk = some (g, c)) :
    g.ro.targetPos = i32 (if qe.countUp then qe.pos + g.stepsToStop else qe.pos - g.stepsToStop) ∧
    g.isRunningContinuously = false ∧
    (s.rg.parameters.apply = false → s.rg.ro.config.parameters.recalcRampSteps = false →
      s.rg.rw.currTicks ≠ ticksForStoppedMotor → g.stepsToStop = s.rg.stepsToStop) := by
  have hS := RampGen.startSteps_fields a (s.stopMove.rg.takeOver a)
  have hs1 : (s.stopMove.rg.takeOver a).ro.forceStop = true := by
    unfold RampGen.takeOver; dsimp only; split <;> rfl
  have hi1 : (s.stopMove.rg.takeOver a).ro.forceImmediateStop = false := by
    have h1 : s.stopMove.rg.ro.forceImmediateStop = false := hf
    unfold RampGen.takeOver; dsimp only; split
    · change (s.stopMove.rg.ro.forceImmediateStop && _) = false
      rw [h1]; rfl
    · exact h1
  have hp : s.stopMove.rg.prepare a qe =
      (((s.stopMove.rg.takeOver a).startSteps a).updateTarget s.stopMove.rg.ro.config.parameters.keepRunning qe).clearRecalc :=
    rfl
  have hu : ((s.stopMove.rg.takeOver a).startSteps a).updateTarget s.stopMove.rg.ro.config.parameters.keepRunning qe =
      { (s.stopMove.rg.takeOver a).startSteps a with
        ro := { (s.stopMove.rg.takeOver a).ro with
          config := { (s.stopMove.rg.takeOver a).ro.config with
            parameters := { (s.stopMove.rg.takeOver a).ro.config.parameters with keepRunning := false } }
          targetPos := i32 (if qe.countUp
            then qe.pos + ((s.stopMove.rg.takeOver a).startSteps a).rw.performedRampUpSteps
            else qe.pos - ((s.stopMove.rg.takeOver a).startSteps a).rw.performedRampUpSteps) } } := by
    unfold RampGen.updateTarget
    dsimp only
    rw [hS.1, hs1]
    rfl
  have hgg : g = s.stopMove.rg.prepare a qe := by
    unfold RampGen.getNextCommand at hg
    dsimp only at hg
    have : (s.stopMove.rg.prepare a qe).ro.forceImmediateStop = false := by
      rw [hp, hu]; exact hi1
    rw [this] at hg
    simp only [Bool.false_eq_true, if_false] at hg
    split at hg
    · cases hg
    · cases hg; rfl
  rw [hgg, hp, hu]
  refine ⟨rfl, rfl, fun h1 h2 h3 => ?_⟩
  have ht : s.stopMove.rg.takeOver a = s.stopMove.rg := by
    unfold RampGen.takeOver
    have : s.stopMove.rg.parameters.apply = false := h1
    rw [this]; rfl
  change ((s.stopMove.rg.takeOver a).startSteps a).rw.performedRampUpSteps = _
  rw [ht]
  unfold RampGen.startSteps
  have h3' : s.stopMove.rg.rw.currTicks ≠ ticksForStoppedMotor := h3
  have h2' : s.stopMove.rg.ro.config.parameters.recalcRampSteps = false := h2
  dsimp only
  rw [if_neg h3', h2']
  rfl

/-- Non-vacuity: running forward with 200 ramp steps done at position 1000, `stopMove()` gives target 1200. -/
example : let s0 := ((configuredStepper .testPc).startRun true).1
    let s := { s0 with rg := { s0.rg with rw := ⟨⟨.accelerate, .up⟩, 200, 0, 8000⟩ } }
    ∃ g c, s.stopMove.rg.getNextCommand .testPc ⟨1000, true, true⟩ junk0 = some (g, c) ∧ c.command.steps > 0 ∧
      s.rg.ro.forceImmediateStop = false := by
  refine ⟨_, _, (Option.some_get (x := RampGen.getNextCommand .testPc _ ⟨1000, true, true⟩ junk0) ?_).symm, ?_, rfl⟩ <;>
    decide +kernel

/-! ## C44, C59 -/

/-- a waiting change of parameters does not clear the request for an immediate stop -/
def RampGen.KeepsStop (g : RampGen) : Prop :=
  g.parameters.apply = true → if g.parameters.moveAbsolute then g.parameters.moveValue = g.ro.targetPos else g.parameters.moveValue = 0

theorem RampGen.prepare_forced (a : ArchId) (g : RampGen) (qe : QueueEnd) (hap : g.KeepsStop)
    (hf : g.ro.forceImmediateStop = true) : (g.prepare a qe).ro.forceImmediateStop = true := by
  have ht : (g.takeOver a).ro.forceImmediateStop = true := by
    unfold RampGen.takeOver
    by_cases hx : g.parameters.apply = true
    · rw [if_pos hx]
      have hp : (({ g.ro.config with parameters := g.parameters } : RampConfig).update a).parameters = g.parameters := by
        unfold RampConfig.update RampConfig.updateCubic
        dsimp only
        split <;> rfl
      have h := hap hx
      dsimp only
      rw [hp, hf]
      by_cases hm : g.parameters.moveAbsolute = true
      · rw [if_pos hm] at h ⊢
        rw [h]; simp
      · rw [if_neg hm] at h ⊢
        rw [h]; simp
    · rw [if_neg hx]; exact hf
  have hS := RampGen.startSteps_fields a (g.takeOver a)
  unfold RampGen.prepare
  have h1 : ((g.takeOver a).startSteps a).ro.forceImmediateStop = true := by rw [hS.1]; exact ht
  unfold RampGen.clearRecalc RampGen.updateTarget
  dsimp only
  repeat' split
  all_goals exact h1

theorem RampGen.getNextCommand_forced (a : ArchId) (g g' : RampGen) (qe : QueueEnd) (junk c : NextCommand)
    (hap : g.KeepsStop) (hf : g.ro.forceImmediateStop = true)
    (h : g.getNextCommand a qe junk = some (g', c)) :
    c.command.ticks = 0 ∧ c.rw = RampRw.stopped ∧ g'.ro.targetPos = qe.pos ∧ g'.ro.forceImmediateStop = false := by
  unfold RampGen.getNextCommand at h
  dsimp only at h
  rw [RampGen.prepare_forced a g qe hap hf, if_pos rfl] at h
  cases h
  exact ⟨rfl, rfl, rfl, rfl⟩

theorem Queue.ticksInQueue_ignore (a : ArchId) (q : Queue) (b : Bool) :
    Queue.ticksInQueue a { q with ignoreCommands := b } = q.ticksInQueue a := by
  have h : ∀ n rp t, Queue.ticksLoop a { q with ignoreCommands := b } n rp t = Queue.ticksLoop a q n rp t := by
    intro n
    induction n with
    | zero => intro rp t; rfl
    | succ n ih =>
      intro rp t
      unfold Queue.ticksLoop
      dsimp only
      split
      · rfl
      · exact ih _ _
  unfold Queue.ticksInQueue
  dsimp only
  rw [h]

/-- No move command is waiting for the task: nothing is waiting, or only new speed, acceleration, … (`applySpeedAcceleration()`), or a move which
does not change the target. -/
def NoMoveWaiting (s : Stepper) : Prop :=
  s.rg.parameters.apply = true →
    if s.rg.parameters.moveAbsolute then s.rg.parameters.moveValue = s.rg.ro.targetPos else s.rg.parameters.moveValue = 0

/-- C44, if no earlier move command is still waiting for the task: the next task cycle after `forceStop()` adds no
command. If the queue is not full and needs commands, so that the task looks at the ramp, the ramp is idle afterwards,
the motor counts as stopped and the target is the position at the end of the queue. -/
theorem C44_force_stop_partial (a : ArchId) (s s' : Stepper) (env : Stepper.Env) (junk : NextCommand) (acc : List Cmd)
    (hap : NoMoveWaiting s) (h : s.forceStop.fillQueue a env junk = some (s', acc)) :
    acc = [] ∧ s'.hw.q.nextWriteIdx = s.hw.q.nextWriteIdx ∧ s'.hw.q.entry = s.hw.q.entry ∧ s'.hw.q.qend = s.hw.q.qend ∧
    (s.rg.isActive = true → s.rg.parameters.checkValidConfig = MOVE_OK → env.iterations ≠ 0 →
      s.hw.q.isQueueFull a = false → (s.hw.q.ticksInQueue a < s.forwardPlanning ∨ s.hw.q.queueEntries ≤ 1) →
      s'.rg.isActive = false ∧ s'.rg.stepsToStop = 0 ∧ s'.rg.ro.targetPos = s.hw.q.qend.pos) := by
  rcases Stepper.fillQueue_cases a env junk _ s' acc h with
    ⟨h1, h2, h3⟩ | ⟨h1, h2, f0, f, x, hf0, hj, hd, hn, ht, hacc0, hl, hacc, hs'⟩
  · rw [h2, h3]
    refine ⟨rfl, rfl, rfl, rfl, fun h4 h5 => ?_⟩
    exfalso
    rcases h1 with h1 | h1
    · have : s.rg.isActive = false := h1
      rw [h4] at this; cases this
    · exact h1 h5
  · have hrg : f0.s.rg = s.rg.forceStop := by rw [hf0]; rfl
    have hq : f0.s.hw.q = { s.hw.q with ignoreCommands := false } := by rw [hf0]; rfl
    have hap0 : f0.s.rg.KeepsStop := by rw [hrg]; exact hap
    have hfi0 : f0.s.rg.ro.forceImmediateStop = true := by rw [hrg]; rfl
    have hstart : ∀ t : Stepper, (t.startQueue true).1.hw.q.nextWriteIdx = t.hw.q.nextWriteIdx ∧
        (t.startQueue true).1.hw.q.entry = t.hw.q.entry ∧ (t.startQueue true).1.hw.q.qend = t.hw.q.qend ∧
        (t.startQueue true).1.rg = t.rg := by
      intro t
      unfold Stepper.startQueue
      dsimp only
      rw [Queue.addNull_q]
      split <;> exact ⟨rfl, rfl, rfl, rfl⟩
    -- the first iteration, if any, leaves the loop
    have hloop : (f = f0 ∧ (f0.cond a = false ∨ env.iterations = 0)) ∨
        (f.s.hw = f0.s.hw ∧ f.accepted = [] ∧ f.s.rg.rw = RampRw.stopped ∧ f.s.rg.ro.targetPos = f0.s.hw.q.qend.pos) := by
      cases hit : env.iterations with
      | zero => rw [hit] at hl; unfold Stepper.Fill.loop at hl; cases hl; exact Or.inl ⟨rfl, Or.inr rfl⟩
      | succ n =>
        rw [hit] at hl
        unfold Stepper.Fill.loop at hl
        cases hc : f0.cond a
        · rw [hc] at hl; simp at hl; exact Or.inl ⟨hl.1.symm, Or.inl rfl⟩
        · rw [hc, if_pos rfl] at hl
          split at hl
          · cases hl
          · rename_i g hg
            obtain ⟨rg, cmd, e1, e2, e3⟩ := Stepper.Fill.body_cases a env 0 f0 g true hg
            obtain ⟨z, -⟩ := RampGen.getNextCommand_forced a _ _ _ _ _ hap0 hfi0 e1
            rcases e3 with ⟨h4, -⟩ | ⟨-, h4, -⟩
            · exact absurd z h4
            · cases h4
          · rename_i g hg
            cases hl
            obtain ⟨rg, cmd, e1, e2, e3⟩ := Stepper.Fill.body_cases a env 0 f0 _ false hg
            obtain ⟨z1, z2, z3, z4⟩ := RampGen.getNextCommand_forced a _ _ _ _ _ hap0 hfi0 e1
            rcases e3 with ⟨h4, -⟩ | ⟨-, -, h4, h5, -⟩
            · exact absurd z1 h4
            · right
              rw [h4]
              exact ⟨rfl, h5.trans hacc0, z2, z3⟩
    have hfq : f.s.hw = f0.s.hw ∧ f.accepted = [] := by
      rcases hloop with ⟨h4, -⟩ | ⟨h4, h5, -⟩
      · rw [h4]; exact ⟨rfl, hacc0⟩
      · exact ⟨h4, h5⟩
    have hres : s'.hw.q.nextWriteIdx = f.s.hw.q.nextWriteIdx ∧ s'.hw.q.entry = f.s.hw.q.entry ∧
        s'.hw.q.qend = f.s.hw.q.qend ∧ s'.rg = f.s.rg := by
      rw [hs']; split
      · exact hstart f.s
      · exact ⟨rfl, rfl, rfl, rfl⟩
    refine ⟨hacc.trans hfq.2, ?_, ?_, ?_, fun h4 h5 h6 h7 h8 => ?_⟩
    · rw [hres.1, hfq.1, hq]
    · rw [hres.2.1, hfq.1, hq]
    · rw [hres.2.2.1, hfq.1, hq]
    · rcases hloop with ⟨-, h9 | h9⟩ | ⟨-, -, h10, h11⟩
      · exfalso
        have : f0.cond a = true := by
          unfold Stepper.Fill.cond
          rw [ht, hrg, hq]
          have e1 : Queue.isQueueFull a { s.hw.q with ignoreCommands := false } = false := h7
          have e2 : RampGen.isActive s.rg.forceStop = true := h4
          have e3 : f0.s.forwardPlanning = s.forwardPlanning := by rw [hf0]; rfl
          rw [e1, e2, e3]
          rcases h8 with h8 | h8
          · have : Queue.ticksInQueue a { s.hw.q with ignoreCommands := false } < s.forwardPlanning := by
              rw [Queue.ticksInQueue_ignore]; exact h8
            simp [this]
          · have : Queue.queueEntries { s.hw.q with ignoreCommands := false } ≤ 1 := h8
            simp [this]
        rw [this] at h9; cases h9
      · exact absurd h9 h6
      · unfold RampGen.isActive RampGen.stepsToStop
        rw [hres.2.2.2, h10, h11, hq]
        exact ⟨by decide, rfl, rfl⟩

/-- C44 is false of the code in general: a `moveTo(1000)` which the task has not seen yet lets the task drop the later
`forceStop()`: the first cycle after it starts the motion. -/
theorem C44_pending_move_refuted :
    let s := ((configuredStepper .testPc).moveTo 1000).1.forceStop
    ∃ s' acc, s.fillQueue .testPc calmEnv junk0 = some (s', acc) ∧ (⟨56608, 1, true⟩ : Cmd) ∈ acc ∧
      s'.rg.isActive = true := by
  refine ⟨_, _, (Option.some_get (x := Stepper.fillQueue .testPc calmEnv junk0 _) ?_).symm, ?_, ?_⟩ <;> decide +kernel

theorem exists_of_any {α : Type} {x : Option α} {p : α → Prop} [DecidablePred p]
    (h : x.any (fun y => decide (p y)) = true) : ∃ y, x = some y ∧ p y := by
  cases x with
  | none => cases h
  | some y => exact ⟨y, rfl, of_decide_eq_true h⟩

/-- One task cycle of `moveTo(1000)`, the queue drains, `forceStop()` and one more task cycle. -/
def stoppedMove (a : ArchId) : Option (Stepper × Stepper × List Cmd) := do
  let r ← ((configuredStepper a).moveTo 1000).1.fillQueue a calmEnv junk0
  let r2 ← (drained a r.1).forceStop.fillQueue a calmEnv junk0
  return (r.1, r2)

/-- Non-vacuity of C44: a running ramp is stopped. -/
example : ∃ r, stoppedMove .testPc = some r ∧ r.1.rg.isActive = true ∧ r.1.rg.parameters.apply = false ∧
    r.2.2 = [] ∧ r.2.1.rg.isActive = false ∧ r.2.1.hw.q.qend.pos = 5 := by
  apply exists_of_any
  decide +kernel

/-- C59 is false of the code: `forceStop()` at standstill leaves a flag which swallows the next `runForward()`: it returns
OK, but the first task cycle ends the ramp without a step. -/
theorem C59_run_after_forceStop_refuted :
    let s := (configuredStepper .testPc).forceStop
    s.isRunning = false ∧ (s.startRun true).2 = MOVE_OK ∧
    ∃ r, (s.startRun true).1.fillQueue .testPc calmEnv junk0 = some r ∧ r.2 = [] ∧ r.1.isRunning = false := by
  refine ⟨?_, ?_, ?_⟩
  · decide +kernel
  · decide +kernel
  · apply exists_of_any
    decide +kernel

/-! ## C45 -/

/-- C45 for an empty queue: `setCurrentPosition(p)` makes `getCurrentPosition()` return `p`. For every queue the end
position and the target are shifted by the same amount, so the way to go is unchanged. -/
theorem C45_set_position_partial (a : ArchId) (s : Stepper) (p : Int) (hp : i32 p = p)
    (hq : i32 s.hw.q.qend.pos = s.hw.q.qend.pos) :
    (s.hw.q.readIdx = s.hw.q.nextWriteIdx → (s.setCurrentPosition a p).getCurrentPosition a = p) ∧
    (∃ d, (s.setCurrentPosition a p).getPositionAfterCommandsCompleted = i32 (s.getPositionAfterCommandsCompleted + d) ∧
      i32 (s.getCurrentPosition a + d) = p ∧
      i32 ((s.setCurrentPosition a p).rg.ro.targetPos - s.rg.ro.targetPos) = i32 d) ∧
    i32 ((s.setCurrentPosition a p).rg.ro.targetPos - (s.setCurrentPosition a p).getPositionAfterCommandsCompleted) =
      i32 (s.rg.ro.targetPos - s.getPositionAfterCommandsCompleted) ∧
    (s.setPositionAfterCommandsCompleted p).getPositionAfterCommandsCompleted = p ∧
    i32 ((s.setPositionAfterCommandsCompleted p).rg.ro.targetPos - p) =
      i32 (s.rg.ro.targetPos - s.getPositionAfterCommandsCompleted) := by
  have hset : s.setCurrentPosition a p =
      if i32 (p - s.getCurrentPosition a) ≠ 0 then
        { s with
          hw := { s.hw with
            q := { s.hw.q with qend := { s.hw.q.qend with
              pos := i32 (s.hw.q.qend.pos + i32 (p - s.getCurrentPosition a)) } } }
          rg := s.rg.advanceTargetPosition (i32 (p - s.getCurrentPosition a)) }
      else s := rfl
  have hsetP : s.setPositionAfterCommandsCompleted p =
      if i32 (p - s.hw.q.qend.pos) ≠ 0 then
        { s with
          hw := { s.hw with q := { s.hw.q with qend := { s.hw.q.qend with pos := p } } }
          rg := s.rg.advanceTargetPosition (i32 (p - s.hw.q.qend.pos)) }
      else { s with hw := { s.hw with q := { s.hw.q with qend := { s.hw.q.qend with pos := p } } } } := rfl
  refine ⟨fun he => ?_, ⟨i32 (p - s.getCurrentPosition a), ?_, ?_, ?_⟩, ?_, ?_, ?_⟩
  · have hcur : s.getCurrentPosition a = s.hw.q.qend.pos := by
      unfold Stepper.getCurrentPosition Queue.getCurrentPosition
      rw [if_pos he]
      unfold toU32 i32 at *
      omega
    rw [hset, hcur]
    split
    · unfold Stepper.getCurrentPosition Queue.getCurrentPosition
      dsimp only
      rw [if_pos he]
      unfold toU32 i32 at *
      omega
    · rename_i h
      rw [hcur]
      unfold i32 at *
      omega
  · rw [hset]; split
    · rfl
    · rename_i h
      rw [Decidable.not_not.mp h, Int.add_zero]
      exact hq.symm
  · unfold i32 at *; omega
  · rw [hset]; split
    · change i32 (i32 (s.rg.ro.targetPos + _) - s.rg.ro.targetPos) = _
      unfold i32; omega
    · rename_i h
      rw [Decidable.not_not.mp h, Int.sub_self]
  · rw [hset]; split
    · change i32 (i32 (s.rg.ro.targetPos + _) - i32 (s.hw.q.qend.pos + _)) = i32 (s.rg.ro.targetPos - s.hw.q.qend.pos)
      unfold i32; omega
    · rfl
  · rw [hsetP]; split <;> rfl
  · rw [hsetP]; split
    · change i32 (i32 (s.rg.ro.targetPos + _) - p) = i32 (s.rg.ro.targetPos - s.hw.q.qend.pos)
      unfold i32; omega
    · rename_i h
      change i32 (s.rg.ro.targetPos - p) = i32 (s.rg.ro.targetPos - s.hw.q.qend.pos)
      have h0 := Decidable.not_not.mp h
      unfold i32 at *; omega

/-- C45 is false of the code with commands in the queue: the entries keep the low 16 bit of their old position, so after
`setCurrentPosition(30000)` during a command `getCurrentPosition()` still returns 0, and after
`setPositionAfterCommandsCompleted(30000)` it does not return the 29900 belonging to the not yet begun command of 100 steps. -/
theorem C45_pending_commands_refuted :
    let s := ((configuredStepper .testPc).addQueueEntry .testPc none (fun _ => ⟨0, false⟩) false ⟨20000, 100, true⟩ true).1.s
    s.getCurrentPosition .testPc = 0 ∧ (s.setCurrentPosition .testPc 30000).getCurrentPosition .testPc = 0 ∧
    (s.setPositionAfterCommandsCompleted 30000).getCurrentPosition .testPc = 0 := by
  decide +kernel

example : (configuredStepper .testPc).hw.q.readIdx = (configuredStepper .testPc).hw.q.nextWriteIdx ∧
    ((configuredStepper .testPc).setCurrentPosition .testPc 30000).getCurrentPosition .testPc = 30000 := by
  decide +kernel

/-! ## C48 -/

/-- C48: sign and value of the current acceleration, for an acceleration set by `setAcceleration()`. The direction flag
is not set before the first command of a ramp, the value is then 0 as the motor does not move yet. -/
theorem C48_current_acceleration (g : RampGen) (A : Nat) (hA : g.acceleration = A) (hr : A < 2147483648) :
    g.getCurrentAcceleration =
      match g.rw.state.phase, g.rw.state.dir with
      | .accelerate, .up => accelSign true true * A
      | .accelerate, .down => accelSign true false * A
      | .decelerate, .up => accelSign false true * A
      | .decelerate, .down => accelSign false false * A
      | .reverse, .up => accelSign false true * A
      | .reverse, .down => accelSign false false * A
      | _, _ => 0 := by
  unfold RampGen.getCurrentAcceleration
  subst hA
  rcases hs : g.rw.state with ⟨ph, d⟩
  have h1 : i32 (g.acceleration : Int) = g.acceleration := by unfold i32; omega
  have h2 : i32 (-(g.acceleration : Int)) = -g.acceleration := by unfold i32; omega
  cases ph <;> cases d <;> simp [RampPhase.isAcc, RampPhase.isDec, accelSign, h1, h2]

/-- The acceleration is the value given to `setAcceleration()`. -/
theorem C48_set_acceleration (s : Stepper) (A : Int) :
    (0 < A → (s.setAcceleration A).2 = 0 ∧ ((s.setAcceleration A).1.rg.acceleration : Int) = A) ∧
    (A ≤ 0 → (s.setAcceleration A).2 = -1 ∧ (s.setAcceleration A).1 = s) := by
  unfold Stepper.setAcceleration RampGen.setAcceleration
  constructor
  · intro h
    rw [if_neg (by omega)]
    exact ⟨rfl, Int.toNat_of_nonneg (by omega)⟩
  · intro h
    rw [if_pos h]
    exact ⟨rfl, rfl⟩

example : ({ RampGen.init with acceleration := 5000, rw := ⟨⟨.decelerate, .up⟩, 3, 0, 8000⟩ } : RampGen).getCurrentAcceleration
    = -5000 := by decide

/-! ## C53 -/

/-- C53: `isRunning()` is false exactly if the queue is stopped and empty and the ramp generator is idle. Then neither the
task nor the hardware does anything. -/
theorem C53_not_running (a : ArchId) (s : Stepper) :
    (s.isRunning = false ↔ s.hw.q.running = false ∧ s.hw.q.queueEntries = 0 ∧ s.rg.rw.state.code = 0) ∧
    (s.isRunning = false → (∀ env junk, s.fillQueue a env junk = some (s, [])) ∧ s.hw.advance a = s.hw) := by
  have hcode : s.rg.rw.state.code = 0 ↔ s.rg.isActive = false := by
    unfold RampGen.isActive RampState.code RampState.IDLE
    rcases s.rg.rw.state with ⟨p, d⟩
    cases p <;> cases d <;> simp
  constructor
  · rw [hcode]
    unfold Stepper.isRunning Stepper.isQueueEmpty Queue.isQueueEmpty
    cases s.hw.q.running <;> cases s.rg.isActive <;> simp
  · intro h
    unfold Stepper.isRunning at h
    simp only [Bool.or_eq_false_iff, Bool.not_eq_false'] at h
    refine ⟨fun env junk => ?_, ?_⟩
    · unfold Stepper.fillQueue; rw [h.1.2]; rfl
    · unfold Hw.advance
      have : s.hw.q.isQueueEmpty = true := h.2
      rw [this]; rfl

example : (configuredStepper .esp32).isRunning = false ∧ ((configuredStepper .esp32).moveTo 5).1.isRunning = true := by
  decide +kernel

/-! ## C56 -/

/-- A finished move of one step, then the task runs once more. `v` is the content of the uninitialised variable. -/
def oneStepMove (v : Nat) : Option Stepper := do
  let s := (((configuredStepper .testPc).setForwardPlanningTimeInMs .testPc 5).moveTo 1).1
  let junk := { junk0 with rw := { junk0.rw with performedRampUpSteps := v } }
  let r ← s.fillQueue .testPc calmEnv junk
  let r ← (drained .testPc r.1).fillQueue .testPc calmEnv junk
  return r.1

/-- C56 is false of the code: after the end of a move `stepsToStop()` returns the content of an uninitialised variable. -/
theorem C56_uninitialised_refuted :
    ∃ s, oneStepMove 1234 = some s ∧ s.isRunning = false ∧ s.rg.stepsToStop = 1234 := by
  apply exists_of_any
  decide +kernel

end FAS
