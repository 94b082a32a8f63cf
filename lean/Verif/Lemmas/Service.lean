import Verif.Lemmas.Planner
import Verif.Lemmas.Fill
import Verif.Spec.Ramp

/-!
# One service of the ramp generator
-/

namespace FAS

open Spec

theorem RampConfig.calculateRampSteps_lt (a : ArchId) (c : RampConfig) (t : Nat) :
    c.calculateRampSteps a t < 4294967296 := by
  unfold RampConfig.calculateRampSteps
  dsimp only
  split
  · unfold u32; omega
  · exact Planner.pmflToU32_lt _

theorem RampConfig.update_parameters (a : ArchId) (c : RampConfig) : (c.update a).parameters = c.parameters := by
  unfold RampConfig.update RampConfig.updateCubic
  dsimp only
  split <;> rfl

/-- What `getNextCommand` does to the ramp generator before planning. -/
structure Prepared (g g1 : RampGen) : Prop where
  state : g1.rw.state = g.rw.state
  pause : g1.rw.pauseTicksLeft = g.rw.pauseTicksLeft
  ticks : g1.rw.currTicks = g.rw.currTicks
  pmt : g1.parameters.minTravelTicks = g.parameters.minTravelTicks
  pjump : g1.parameters.sJump = g.parameters.sJump
  pvalid : g1.parameters.validSpeed = g.parameters.validSpeed
  papply : g1.parameters.apply = false
  pkeep : g1.parameters.keepRunning = g.parameters.keepRunning
  pkeepUp : g1.parameters.keepRunningCountUp = g.parameters.keepRunningCountUp
  fstop : g1.ro.forceStop = g.ro.forceStop
  fimm : g1.ro.forceImmediateStop = true → g.ro.forceImmediateStop = true
  cfg : (g.parameters.apply = true ∧ g1.ro.config.parameters.minTravelTicks = g.parameters.minTravelTicks ∧
      g1.ro.config.parameters.sJump = g.parameters.sJump ∧ g1.ro.config.parameters.validSpeed = g.parameters.validSpeed) ∨
    (g.parameters.apply = false ∧ g1.ro.config.parameters.minTravelTicks = g.ro.config.parameters.minTravelTicks ∧
      g1.ro.config.parameters.sJump = g.ro.config.parameters.sJump ∧
      g1.ro.config.parameters.validSpeed = g.ro.config.parameters.validSpeed)
  keep : g.ro.forceStop = false → (g.parameters.apply = true ∧
      g1.ro.config.parameters.keepRunning = g.parameters.keepRunning ∧
      g1.ro.config.parameters.keepRunningCountUp = g.parameters.keepRunningCountUp) ∨
    (g.parameters.apply = false ∧ g1.ro.config.parameters.keepRunning = g.ro.config.parameters.keepRunning ∧
      g1.ro.config.parameters.keepRunningCountUp = g.ro.config.parameters.keepRunningCountUp)
  stand : g.rw.currTicks = ticksForStoppedMotor → g1.ro.config.parameters.sJump = 0 → g1.rw.performedRampUpSteps = 0
  brake : g.rw.performedRampUpSteps < 4294967296 → g1.ro.config.parameters.sJump < 4294967296 →
    g1.rw.performedRampUpSteps < 4294967296

theorem prepared (a : ArchId) (g : RampGen) (qe : QueueEnd) : Prepared g (g.prepare a qe) := by
  -- take over
  have h1 : (g.takeOver a).rw = g.rw ∧ (g.takeOver a).parameters.minTravelTicks = g.parameters.minTravelTicks ∧
      (g.takeOver a).parameters.sJump = g.parameters.sJump ∧
      (g.takeOver a).parameters.validSpeed = g.parameters.validSpeed ∧ (g.takeOver a).parameters.apply = false ∧
      (g.takeOver a).parameters.keepRunning = g.parameters.keepRunning ∧
      (g.takeOver a).parameters.keepRunningCountUp = g.parameters.keepRunningCountUp ∧
      (g.takeOver a).ro.forceStop = g.ro.forceStop ∧
      ((g.takeOver a).ro.forceImmediateStop = true → g.ro.forceImmediateStop = true) ∧
      ((g.parameters.apply = true ∧ (g.takeOver a).ro.config.parameters = g.parameters) ∨
       (g.parameters.apply = false ∧ (g.takeOver a).ro.config = g.ro.config)) := by
    unfold RampGen.takeOver
    by_cases hap : g.parameters.apply = true
    · rw [if_pos hap]
      refine ⟨rfl, rfl, rfl, rfl, rfl, rfl, rfl, rfl, fun h => ?_, Or.inl ⟨hap, ?_⟩⟩
      · exact (Bool.and_eq_true_iff.mp h).1
      · exact RampConfig.update_parameters a _
    · rw [if_neg hap]
      have hap' : g.parameters.apply = false := by simpa using hap
      exact ⟨rfl, rfl, rfl, rfl, hap', rfl, rfl, rfl, fun h => h, Or.inr ⟨hap', rfl⟩⟩
  revert h1
  unfold RampGen.prepare
  generalize g.takeOver a = gt
  intro ⟨h1, h2, h3, h4, h5, h6, h7, h8, h9, h10⟩
  -- start steps
  have k1 : (gt.startSteps a).ro = gt.ro ∧ (gt.startSteps a).parameters = gt.parameters ∧
      (gt.startSteps a).rw.state = gt.rw.state ∧ (gt.startSteps a).rw.pauseTicksLeft = gt.rw.pauseTicksLeft ∧
      (gt.startSteps a).rw.currTicks = gt.rw.currTicks ∧
      (gt.rw.currTicks = ticksForStoppedMotor → gt.ro.config.parameters.sJump = 0 →
        (gt.startSteps a).rw.performedRampUpSteps = 0) ∧
      (gt.rw.performedRampUpSteps < 4294967296 → gt.ro.config.parameters.sJump < 4294967296 →
        (gt.startSteps a).rw.performedRampUpSteps < 4294967296) := by
    unfold RampGen.startSteps
    dsimp only
    by_cases hs : gt.rw.currTicks = ticksForStoppedMotor
    · rw [if_pos hs]
      refine ⟨rfl, rfl, rfl, rfl, rfl, fun _ h => ?_, fun _ h => ?_⟩
      · dsimp only; rw [h]; rfl
      · dsimp only
        split
        · split
          · exact RampConfig.calculateRampSteps_lt _ _ _
          · exact h
        · exact h
    · rw [if_neg hs]
      split
      · exact ⟨rfl, rfl, rfl, rfl, rfl, fun h => absurd h hs, fun _ _ => RampConfig.calculateRampSteps_lt _ _ _⟩
      · exact ⟨rfl, rfl, rfl, rfl, rfl, fun h => absurd h hs, fun h _ => h⟩
  revert k1
  generalize gt.startSteps a = gs
  intro ⟨k1, k2, k3, k4, k5, k6, k7⟩
  -- target
  have t1 : ∀ b, (gs.updateTarget b qe).rw = gs.rw ∧ (gs.updateTarget b qe).parameters = gs.parameters ∧
      (gs.updateTarget b qe).ro.forceStop = gs.ro.forceStop ∧
      (gs.updateTarget b qe).ro.forceImmediateStop = gs.ro.forceImmediateStop ∧
      (gs.updateTarget b qe).ro.config.parameters.minTravelTicks = gs.ro.config.parameters.minTravelTicks ∧
      (gs.updateTarget b qe).ro.config.parameters.sJump = gs.ro.config.parameters.sJump ∧
      (gs.updateTarget b qe).ro.config.parameters.validSpeed = gs.ro.config.parameters.validSpeed ∧
      (gs.ro.forceStop = false →
        (gs.updateTarget b qe).ro.config.parameters.keepRunning = gs.ro.config.parameters.keepRunning ∧
        (gs.updateTarget b qe).ro.config.parameters.keepRunningCountUp = gs.ro.config.parameters.keepRunningCountUp) := by
    intro b
    unfold RampGen.updateTarget
    dsimp only
    by_cases hf : gs.ro.forceStop = true
    · rw [if_pos hf]
      exact ⟨rfl, rfl, rfl, rfl, rfl, rfl, rfl, fun h => by rw [hf] at h; cases h⟩
    · rw [if_neg hf]
      by_cases hc : gs.ro.config.parameters.anyChange = true
      · rw [if_pos hc]
        by_cases h1 : gs.ro.config.parameters.keepRunning = true
        · rw [if_pos h1]; exact ⟨rfl, rfl, rfl, rfl, rfl, rfl, rfl, fun _ => ⟨rfl, rfl⟩⟩
        · rw [if_neg h1]
          split <;> exact ⟨rfl, rfl, rfl, rfl, rfl, rfl, rfl, fun _ => ⟨rfl, rfl⟩⟩
      · rw [if_neg hc]; exact ⟨rfl, rfl, rfl, rfl, rfl, rfl, rfl, fun _ => ⟨rfl, rfl⟩⟩
  obtain ⟨t1, t2, t3, t4, t5, t6, t7, t8⟩ := t1 g.ro.config.parameters.keepRunning
  revert t1 t2 t3 t4 t5 t6 t7 t8
  generalize gs.updateTarget g.ro.config.parameters.keepRunning qe = gu
  intro t1 t2 t3 t4 t5 t6 t7 t8
  have c1 : gu.clearRecalc.rw = gu.rw := rfl
  have c2 : gu.clearRecalc.parameters = gu.parameters := rfl
  have c3 : gu.clearRecalc.ro.forceStop = gu.ro.forceStop := rfl
  have c4 : gu.clearRecalc.ro.forceImmediateStop = gu.ro.forceImmediateStop := rfl
  have c5 : gu.clearRecalc.ro.config.parameters.minTravelTicks = gu.ro.config.parameters.minTravelTicks := rfl
  have c6 : gu.clearRecalc.ro.config.parameters.sJump = gu.ro.config.parameters.sJump := rfl
  have c7 : gu.clearRecalc.ro.config.parameters.validSpeed = gu.ro.config.parameters.validSpeed := rfl
  have c8 : gu.clearRecalc.ro.config.parameters.keepRunning = gu.ro.config.parameters.keepRunning := rfl
  have c9 : gu.clearRecalc.ro.config.parameters.keepRunningCountUp = gu.ro.config.parameters.keepRunningCountUp := rfl
  refine ⟨by rw [c1, t1, k3, h1], by rw [c1, t1, k4, h1], by rw [c1, t1, k5, h1], by rw [c2, t2, k2, h2],
    by rw [c2, t2, k2, h3], by rw [c2, t2, k2, h4], by rw [c2, t2, k2, h5], by rw [c2, t2, k2, h6], by rw [c2, t2, k2, h7],
    by rw [c3, t3, k1, h8], fun h => h9 (by rw [← k1, ← t4]; exact h), ?_, fun hf => ?_, fun h1' h2' => ?_, fun h1' h2' => ?_⟩
  · rw [c5, c6, c7, t5, t6, t7, k1]
    rcases h10 with ⟨ha, hb⟩ | ⟨ha, hb⟩
    · left; rw [hb]; exact ⟨ha, rfl, rfl, rfl⟩
    · right; rw [hb]; exact ⟨ha, rfl, rfl, rfl⟩
  · obtain ⟨t8, t9⟩ := t8 (by rw [k1, h8]; exact hf)
    rw [c8, c9, t8, t9, k1]
    rcases h10 with ⟨ha, hb⟩ | ⟨ha, hb⟩
    · left; rw [hb]; exact ⟨ha, rfl, rfl⟩
    · right; rw [hb]; exact ⟨ha, rfl, rfl⟩
  · rw [c1, t1]
    refine k6 (by rw [h1]; exact h1') ?_
    rw [c6, t6, k1] at h2'
    exact h2'
  · rw [c1, t1]
    refine k7 (by rw [h1]; exact h1') ?_
    rw [c6, t6, k1] at h2'
    exact h2'

theorem Spec.InRange.prepare {g : RampGen} (h : InRange g) (a : ArchId) (qe : QueueEnd) : InRange (g.prepare a qe) := by
  have p := prepared a g qe
  have hj : (g.prepare a qe).ro.config.parameters.sJump < 4294967296 := by
    rcases p.cfg with ⟨-, -, h1, -⟩ | ⟨-, -, h1, -⟩ <;> rw [h1]
    · exact h.jump
    · exact h.usedJump
  refine ⟨by rw [p.pmt]; exact h.speed, by rw [p.pjump]; exact h.jump, ?_, hj, p.brake h.brake hj, by rw [p.ticks]; exact h.period⟩
  rcases p.cfg with ⟨-, h1, -⟩ | ⟨-, h1, -⟩ <;> rw [h1]
  · exact h.speed
  · exact h.usedSpeed

/-- A step command of the planner: what the planner saw and what it delivers. -/
structure StepOutcome (a : ArchId) (g : RampGen) (qe : QueueEnd) (c : NextCommand) (remaining : Nat) (same : Bool) (ph : RampPhase)
    (P : Nat) : Prop where
  facts : Planner.StepFacts a g.ro.config g.rw c.command.countUp same remaining c ph P
  nopause : g.rw.pauseTicksLeft = 0
  towards : same = true ↔ Towards g qe.pos c.command.countUp
  stand : g.rw.performedRampUpSteps = 0 → same = true
  moving : g.rw.performedRampUpSteps ≠ 0 → c.command.countUp = qe.countUp
  cont : g.isRunningContinuously = true → remaining = 268435455
  way : g.isRunningContinuously = false → remaining = (shortestWay g.ro.targetPos qe.pos).natAbs ∧
    shortestWay g.ro.targetPos qe.pos ≠ -2147483648
  notDone : ¬(remaining = 0 ∧ g.rw.performedRampUpSteps ≤ 1)
  remLt : remaining < 2147483648

/-- The outcomes of one service of the ramp generator. -/
theorem service_cases {a : ArchId} {g g' : RampGen} {qe : QueueEnd} {junk c : NextCommand} (hr : InRange g)
    (h : g.getNextCommand a qe junk = some (g', c)) :
    -- immediate stop
    ((g.prepare a qe).ro.forceImmediateStop = true ∧
      g' = { g.prepare a qe with ro := { (g.prepare a qe).ro with forceImmediateStop := false, targetPos := qe.pos } } ∧
      c.command.ticks = 0 ∧ c.rw = RampRw.stopped) ∨
    (g' = g.prepare a qe ∧ g'.ro.forceImmediateStop = false ∧
      -- pause
      ((0 < g'.rw.pauseTicksLeft ∧ c = ⟨⟨u16 (Planner.pauseTicks g'.rw.pauseTicksLeft), 0, qe.countUp⟩,
          { g'.rw with pauseTicksLeft := g'.rw.pauseTicksLeft - Planner.pauseTicks g'.rw.pauseTicksLeft }⟩) ∨
      -- ramp complete
      (g'.rw.pauseTicksLeft = 0 ∧ g'.isRunningContinuously = false ∧ shortestWay g'.ro.targetPos qe.pos = 0 ∧
        g'.rw.performedRampUpSteps ≤ 1 ∧ c = Planner.complete junk) ∨
      -- steps
      (∃ remaining same ph P, StepOutcome a g' qe c remaining same ph P))) := by
  unfold RampGen.getNextCommand at h
  dsimp only at h
  have hr' := hr.prepare a qe
  by_cases hf : (g.prepare a qe).ro.forceImmediateStop = true
  · rw [if_pos hf] at h
    cases h
    exact Or.inl ⟨hf, rfl, rfl, rfl⟩
  · rw [if_neg hf] at h
    right
    generalize g.prepare a qe = g1 at h hr' hf
    cases hp : Planner.getNextCommand a g1.ro g1.rw qe junk with
    | none => rw [hp] at h; cases h
    | some c1 =>
      rw [hp] at h
      cases h
      refine ⟨rfl, by simpa using hf, ?_⟩
      rcases Planner.getNextCommand_cases hp with hpause | ⟨hnp, need, remaining, ht, hc⟩
      · exact Or.inl hpause
      · right
        have hlt := Planner.target_lt ht
        have htc := Planner.target_cases ht
        rcases hc with ⟨h0, h1, hc⟩ | ⟨hnd, countUp, hcu, hpl⟩
        · left
          rcases htc with ⟨-, -, h2⟩ | ⟨h2, -, h3, -⟩
          · omega
          · refine ⟨hnp, h2, ?_, h1, hc⟩
            unfold shortestWay
            omega
        · right
          have hsame0 : g'.rw.performedRampUpSteps = 0 → (countUp == need) = true := by
            intro h0; rw [hcu, if_pos h0]; simp
          rcases Planner.plan_facts hr'.brake hlt hr'.usedSpeed hr'.period hpl with ⟨hw, -⟩ | ⟨hw, ph, P, hfacts⟩
          · exfalso
            unfold Planner.wayToGo at hw
            split at hw
            · omega
            · rename_i h1
              exact h1 ⟨hsame0 hw, by omega⟩
          · have hdir := hfacts.dir
            refine ⟨remaining, (countUp == need), ph, P, ⟨by rw [hdir]; exact hfacts, hnp, ?_, hsame0, ?_, ?_, ?_, hnd, hlt⟩⟩
            · rw [hdir]
              unfold Towards RampGen.isRunningContinuously
              rcases htc with ⟨h2, h3, h4⟩ | ⟨h2, h3, h4, h5⟩
              · rw [h2, if_pos rfl, ← h3, beq_iff_eq]
              · rw [h2, if_neg (by simp), beq_iff_eq]
                unfold shortestWay
                generalize i32 (g'.ro.targetPos - qe.pos) = w at *
                rw [h5]
                by_cases hw0 : w = 0
                · rw [if_pos hw0]
                  have hp0 : g'.rw.performedRampUpSteps ≠ 0 := by omega
                  rw [if_neg hp0] at hcu
                  rw [hcu, hw0]
                  cases qe.countUp <;> simp
                · rw [if_neg hw0]
                  cases countUp
                  · simp; omega
                  · simp
            · intro hne
              rw [hdir, hcu, if_neg hne]
            · intro hk
              rcases htc with ⟨-, -, h4⟩ | ⟨h2, -⟩
              · exact h4
              · unfold RampGen.isRunningContinuously at hk; rw [h2] at hk; cases hk
            · intro hk
              rcases htc with ⟨h2, -⟩ | ⟨-, h3, h4, -⟩
              · unfold RampGen.isRunningContinuously at hk; rw [h2] at hk; cases hk
              · exact ⟨h4, h3⟩

theorem Prepared.valid (a : ArchId) (g : RampGen) (qe : QueueEnd) :
    (g.prepare a qe).parameters.checkValidConfig = g.parameters.checkValidConfig := by
  have h1 : (g.takeOver a).parameters.checkValidConfig = g.parameters.checkValidConfig := by
    unfold RampGen.takeOver
    split <;> rfl
  have h2 : ∀ g : RampGen, (g.startSteps a).parameters = g.parameters := by
    intro g
    unfold RampGen.startSteps
    dsimp only
    split
    · rfl
    · split <;> rfl
  have h3 : ∀ (g : RampGen) b, (g.updateTarget b qe).parameters = g.parameters := by
    intro g b
    unfold RampGen.updateTarget
    dsimp only
    repeat' split
    all_goals rfl
  unfold RampGen.prepare
  change ((((g.takeOver a).startSteps a).updateTarget _ qe)).parameters.checkValidConfig = _
  rw [h3, h2, h1]

theorem service_params {a : ArchId} {g g' : RampGen} {qe : QueueEnd} {junk c : NextCommand}
    (h : g.getNextCommand a qe junk = some (g', c)) : g'.parameters = (g.prepare a qe).parameters := by
  unfold RampGen.getNextCommand at h
  dsimp only at h
  split at h
  · cases h; rfl
  · split at h
    · cases h
    · cases h; rfl

/-- Induction over the services of one task cycle. -/
theorem fillQueue_rg_induct {a : ArchId} {env : Stepper.Env} {junk : NextCommand} {s s' : Stepper} {acc : List Cmd}
    (P : RampGen → Prop)
    (hserve : ∀ g g' qe junk c, P g → g.isActive = true → g.parameters.checkValidConfig = MOVE_OK →
      junk.rw.performedRampUpSteps < 4294967296 → g.getNextCommand a qe junk = some (g', c) →
      c.rw.performedRampUpSteps < 4294967296 ∧ P g' ∧ P (g'.afterCommandEnqueued c) ∧ P g'.stopRamp)
    (h0 : P s.rg) (hj : junk.rw.performedRampUpSteps < 4294967296)
    (h : s.fillQueue a env junk = some (s', acc)) : P s'.rg := by
  rcases Stepper.fillQueue_cases a env junk s s' acc h with ⟨-, h, -⟩ | ⟨ha, hv, f0, f, x, hf0, hc0, -, -, -, -, hl, -, hs'⟩
  · rw [h]; exact h0
  · have hinit : P f0.s.rg ∧ f0.s.rg.parameters.checkValidConfig = MOVE_OK ∧ f0.cmd.rw.performedRampUpSteps < 4294967296 := by
      rw [hf0, hc0]; exact ⟨h0, hv, hj⟩
    have hend := Stepper.Fill.loop_induct a env (fun f => P f.s.rg ∧ f.s.rg.parameters.checkValidConfig = MOVE_OK ∧
      f.cmd.rw.performedRampUpSteps < 4294967296) ?_ _ _ _ _ _ hinit hl
    · rw [hs']
      split
      · exact hend.1
      · exact hend.1
    · intro i g g2 b hcond hp hb
      obtain ⟨hp1, hp2, hp3⟩ := hp
      have hact : g.s.rg.isActive = true := by
        unfold Stepper.Fill.cond at hcond
        exact (Bool.and_eq_true_iff.mp hcond).2
      obtain ⟨rg, cmd, hg, hcmd, hcase⟩ := Stepper.Fill.body_cases a env i g g2 b hb
      obtain ⟨q1, q2, q3, q4⟩ := hserve _ _ _ _ _ hp1 hact hp2 hp3 hg
      have hv2 : rg.parameters.checkValidConfig = MOVE_OK := by
        rw [service_params hg, Prepared.valid, hp2]
      refine ⟨?_, ?_, by rw [hcmd]; exact q1⟩
      · rcases hcase with ⟨-, r, hr, -, hcase⟩ | ⟨-, -, hcase, -⟩
        · have hrg : r.1.s.rg = rg := by
            rw [hr]; exact (Stepper.addQueueEntry_frame a _ _ _ _ _ _).rg
          rcases hcase with ⟨-, -, h, -⟩ | ⟨-, -, h, -⟩ | ⟨-, -, h, -⟩
          · rw [h]; change P (r.1.s.rg.afterCommandEnqueued cmd); rw [hrg]; exact q3
          · rw [h, hrg]; exact q2
          · rw [h]; change P r.1.s.rg.stopRamp; rw [hrg]; exact q4
        · rw [hcase]; exact q3
      · rcases hcase with ⟨-, r, hr, -, hcase⟩ | ⟨-, -, hcase, -⟩
        · have hrg : r.1.s.rg = rg := by
            rw [hr]; exact (Stepper.addQueueEntry_frame a _ _ _ _ _ _).rg
          rcases hcase with ⟨-, -, h, -⟩ | ⟨-, -, h, -⟩ | ⟨-, -, h, -⟩
          · rw [h]; change (r.1.s.rg.afterCommandEnqueued cmd).parameters.checkValidConfig = _; rw [hrg]; exact hv2
          · rw [h, hrg]; exact hv2
          · rw [h]; change r.1.s.rg.stopRamp.parameters.checkValidConfig = _; rw [hrg]; exact hv2
        · rw [hcase]; exact hv2

/-- Induction over histories. -/
theorem RampHist.induct {a : ArchId} {ok : ApiCall → Prop} (P : RampGen → Prop) (hinit : P RampGen.init)
    (hcall : ∀ s c, P s.rg → ok c → P (ApiCall.exec a s c).rg)
    (hserve : ∀ g g' qe junk c, P g → g.isActive = true → g.parameters.checkValidConfig = MOVE_OK →
      junk.rw.performedRampUpSteps < 4294967296 → g.getNextCommand a qe junk = some (g', c) →
      c.rw.performedRampUpSteps < 4294967296 ∧ P g' ∧ P (g'.afterCommandEnqueued c) ∧ P g'.stopRamp)
    {s : Stepper} (h : RampHist a ok s) : P s.rg := by
  induction h with
  | start s h => rw [h]; exact hinit
  | call c _ hok ih => exact hcall _ _ ih hok
  | task env junk acc _ hj hf ih => exact fillQueue_rg_induct P hserve ih hj hf
  | other _ hs ih => rw [hs]; exact ih

theorem RampGen.startMove_rw (g : RampGen) (b : Bool) :
    (g.startMove b).rw = g.rw ∨ (g.startMove b).rw = g.rw.startRampIfNotRunning := by
  unfold RampGen.startMove
  cases b
  · left; rfl
  · right; rfl

theorem RampRw.start_facts (rw : RampRw) :
    rw.startRampIfNotRunning.performedRampUpSteps = rw.performedRampUpSteps ∧
    rw.startRampIfNotRunning.pauseTicksLeft = rw.pauseTicksLeft ∧
    (rw.startRampIfNotRunning = rw ∨ rw.state = RampState.IDLE ∧ rw.startRampIfNotRunning.currTicks = ticksForStoppedMotor) := by
  unfold RampRw.startRampIfNotRunning
  split
  · rename_i h; exact ⟨rfl, rfl, Or.inr ⟨h, rfl⟩⟩
  · exact ⟨rfl, rfl, Or.inl rfl⟩

/-- What a call does to the ramp generator. -/
inductive CallEffect (a : ArchId) (s : Stepper) (c : ApiCall) (g : RampGen) : Prop where
  /-- A rejected call or a call not touching parameters and state of the ramp. -/
  | keep (h1 : g.parameters = s.rg.parameters) (h2 : g.rw = s.rg.rw) (h3 : g.ro.config = s.rg.ro.config)
  /-- A configuration call. -/
  | config (k : ConfigCall) (hc : c = .config k) (h1 : g.rw = s.rg.rw) (h2 : g.ro = s.rg.ro) (h3 : g = (k.run s).rg)
  /-- An accepted move or run. -/
  | move (hv : s.rg.parameters.checkValidConfig = MOVE_OK) (h0 : g.parameters.apply = true)
      (h1 : g.parameters.minTravelTicks = s.rg.parameters.minTravelTicks) (h2 : g.parameters.sJump = s.rg.parameters.sJump)
      (h3 : g.parameters.validSpeed = s.rg.parameters.validSpeed)
      (h4 : g.rw = s.rg.rw ∨ g.rw = s.rg.rw.startRampIfNotRunning) (h5 : g.ro.config = s.rg.ro.config)
  /-- `keepRunning()` -/
  | continuous (h1 : g.parameters = s.rg.parameters) (h2 : g.rw = s.rg.rw)
      (h3 : g.ro.config = { s.rg.ro.config with parameters := { s.rg.ro.config.parameters with keepRunning := true } })
  /-- `forceStopAndNewPosition()` -/
  | stopped (h1 : g.parameters = s.rg.parameters) (h2 : g.rw = RampRw.stopped) (h3 : g.ro.config = s.rg.ro.config)

theorem config_frame (s : Stepper) (k : ConfigCall) : (k.run s).rg.rw = s.rg.rw ∧ (k.run s).rg.ro = s.rg.ro := by
  constructor
  · cases k <;> simp only [ConfigCall.run]
    · unfold Stepper.setSpeedInTicks; repeat' split
      all_goals rfl
    · unfold Stepper.setAcceleration RampGen.setAcceleration; dsimp only; split <;> rfl
    · rfl
    · rfl
    · unfold Stepper.applySpeedAcceleration RampGen.applySpeedAcceleration; dsimp only; split <;> rfl
  · cases k <;> simp only [ConfigCall.run]
    · unfold Stepper.setSpeedInTicks; repeat' split
      all_goals rfl
    · unfold Stepper.setAcceleration RampGen.setAcceleration; dsimp only; split <;> rfl
    · rfl
    · rfl
    · unfold Stepper.applySpeedAcceleration RampGen.applySpeedAcceleration; dsimp only; split <;> rfl

theorem call_effect (a : ArchId) (s : Stepper) (c : ApiCall) : CallEffect a s c (c.exec a s).rg := by
  cases c with
  | config k =>
    exact .config k rfl (config_frame s k).1 (config_frame s k).2 rfl
  | moveTo p =>
    change CallEffect a s _ (s.rg.moveTo p s.hw.q.qend).1
    unfold RampGen.moveTo
    dsimp only
    by_cases hv : s.rg.parameters.checkValidConfig = MOVE_OK
    · rw [if_neg (by simp [hv])]
      exact .move hv rfl rfl rfl rfl (RampGen.startMove_rw _ _) rfl
    · rw [if_pos hv]
      exact .keep rfl rfl rfl
  | move m =>
    change CallEffect a s _ (s.move m).1.rg
    unfold Stepper.move
    split
    · exact .keep rfl rfl rfl
    · dsimp only
      unfold RampGen.move
      dsimp only
      by_cases hv : s.rg.parameters.checkValidConfig = MOVE_OK
      · rw [if_neg (by simp [hv])]
        exact .move hv rfl rfl rfl rfl (RampGen.startMove_rw _ _) rfl
      · rw [if_pos hv]
        exact .keep rfl rfl rfl
  | run up =>
    change CallEffect a s _ (s.rg.startRun up).1
    unfold RampGen.startRun
    dsimp only
    by_cases hv : s.rg.parameters.checkValidConfig = MOVE_OK
    · rw [if_neg (by simp [hv])]
      exact .move hv rfl rfl rfl rfl (Or.inr rfl) rfl
    · rw [if_pos hv]
      exact .keep rfl rfl rfl
  | keepRunning => exact .continuous rfl rfl rfl
  | stopMove => exact .keep rfl rfl rfl
  | forceStop => exact .keep rfl rfl rfl
  | forceStopAndNewPosition p => exact .stopped rfl rfl rfl
  | setCurrentPosition p =>
    change CallEffect a s _ (s.setCurrentPosition a p).rg
    unfold Stepper.setCurrentPosition
    dsimp only
    split <;> exact .keep rfl rfl rfl
  | setPositionAfterCommandsCompleted p =>
    change CallEffect a s _ (s.setPositionAfterCommandsCompleted p).rg
    unfold Stepper.setPositionAfterCommandsCompleted
    dsimp only
    split <;> exact .keep rfl rfl rfl

/-- What a configuration call does to speed and jump start. -/
theorem config_effect (s : Stepper) (k : ConfigCall) :
    ((k.run s).rg.parameters.minTravelTicks = s.rg.parameters.minTravelTicks ∧
      (k.run s).rg.parameters.validSpeed = s.rg.parameters.validSpeed ∨
     ∃ t, k = .speed t ∧ (k.run s).rg.parameters.minTravelTicks = t ∧ (k.run s).rg.parameters.validSpeed = true) ∧
    ((k.run s).rg.parameters.sJump = s.rg.parameters.sJump ∨ ∃ n, k = .jump n ∧ (k.run s).rg.parameters.sJump = n) ∧
    ((k.run s).rg.parameters.apply = true ∨ (k.run s).rg.parameters.apply = s.rg.parameters.apply) ∧
    (k.run s).rg.parameters.keepRunning = s.rg.parameters.keepRunning ∧
    (k.run s).rg.parameters.keepRunningCountUp = s.rg.parameters.keepRunningCountUp := by
  cases k with
  | speed t =>
    unfold ConfigCall.run Stepper.setSpeedInTicks
    dsimp only
    split
    · exact ⟨Or.inl ⟨rfl, rfl⟩, Or.inl rfl, Or.inr rfl, rfl, rfl⟩
    · split
      · exact ⟨Or.inl ⟨rfl, rfl⟩, Or.inl rfl, Or.inr rfl, rfl, rfl⟩
      · dsimp only
        unfold RampParams.setSpeedInTicks
        split
        · exact ⟨Or.inr ⟨t, rfl, rfl, rfl⟩, Or.inl rfl, Or.inr rfl, rfl, rfl⟩
        · exact ⟨Or.inl ⟨rfl, rfl⟩, Or.inl rfl, Or.inr rfl, rfl, rfl⟩
  | acceleration x =>
    unfold ConfigCall.run Stepper.setAcceleration RampGen.setAcceleration
    dsimp only
    split
    · exact ⟨Or.inl ⟨rfl, rfl⟩, Or.inl rfl, Or.inr rfl, rfl, rfl⟩
    · dsimp only
      unfold RampParams.setAcceleration
      dsimp only
      split <;> exact ⟨Or.inl ⟨rfl, rfl⟩, Or.inl rfl, Or.inr rfl, rfl, rfl⟩
  | linear n =>
    unfold ConfigCall.run Stepper.setLinearAcceleration RampParams.setCubicAccelerationSteps
    dsimp only
    split <;> exact ⟨Or.inl ⟨rfl, rfl⟩, Or.inl rfl, Or.inr rfl, rfl, rfl⟩
  | jump n => exact ⟨Or.inl ⟨rfl, rfl⟩, Or.inr ⟨n, rfl, rfl⟩, Or.inr rfl, rfl, rfl⟩
  | applySpeedAcceleration =>
    unfold ConfigCall.run Stepper.applySpeedAcceleration RampGen.applySpeedAcceleration RampParams.applyParameters
    dsimp only
    split
    · split
      · exact ⟨Or.inl ⟨rfl, rfl⟩, Or.inl rfl, Or.inl rfl, rfl, rfl⟩
      · exact ⟨Or.inl ⟨rfl, rfl⟩, Or.inl rfl, Or.inr rfl, rfl, rfl⟩
    · exact ⟨Or.inl ⟨rfl, rfl⟩, Or.inl rfl, Or.inr rfl, rfl, rfl⟩

/-- One service keeps the fields within the range of their types. -/
theorem InRange_serve {a : ArchId} {g g' : RampGen} {qe : QueueEnd} {junk c : NextCommand} (hr : InRange g)
    (hj : junk.rw.performedRampUpSteps < 4294967296) (h : g.getNextCommand a qe junk = some (g', c)) :
    c.rw.performedRampUpSteps < 4294967296 ∧ InRange g' ∧ InRange (g'.afterCommandEnqueued c) ∧ InRange g'.stopRamp := by
  have hp := hr.prepare a qe
  have key : InRange g' ∧ c.rw.performedRampUpSteps < 4294967296 ∧ c.rw.currTicks < 4294967296 := by
    rcases service_cases hr h with ⟨-, h1, -, h2⟩ | ⟨h1, -, h2⟩
    · rw [h1, h2]
      refine ⟨⟨hp.speed, hp.jump, hp.usedSpeed, hp.usedJump, hp.brake, hp.period⟩, ?_, ?_⟩ <;> decide
    · rw [← h1] at hp
      refine ⟨hp, ?_⟩
      rcases h2 with ⟨-, h2⟩ | ⟨-, -, -, -, h2⟩ | ⟨remaining, same, ph, P, h2⟩
      · rw [h2]; exact ⟨hp.brake, hp.period⟩
      · rw [h2]
        refine ⟨hj, ?_⟩
        change ticksForStoppedMotor < _
        decide
      · have f := h2.facts
        have hb := hp.brake
        have hl := h2.remLt
        have h255 := f.steps_le
        have hlt := f.lt
        constructor
        · rcases f.kind with ⟨-, -, -, -, -, -, h3, h4, -⟩ | ⟨-, -, -, -, -, h3, -⟩ | ⟨-, -, h3⟩
          · omega
          · omega
          · by_cases hq : g'.rw.performedRampUpSteps < 4294967041
            · rcases h3 hq with ⟨-, -, -, h4⟩ | ⟨-, h4⟩ <;> omega
            · exact f.brakeLt hb
        · rcases f.period with ⟨-, -, h3⟩ | ⟨-, -, -, -, -, h3⟩
          · omega
          · rw [h3]; unfold u32; omega
  obtain ⟨k1, k2, k3⟩ := key
  refine ⟨k2, k1, ⟨k1.speed, k1.jump, k1.usedSpeed, k1.usedJump, k2, k3⟩, ⟨k1.speed, k1.jump, k1.usedSpeed, k1.usedJump, ?_, ?_⟩⟩
  · change 0 < 4294967296; decide
  · change ticksForStoppedMotor < 4294967296; decide

/-- A call keeps the fields within the range of their types. -/
theorem InRange_call (a : ArchId) (s : Stepper) (c : ApiCall) (hr : InRange s.rg) (hok : c.Typed) : InRange (c.exec a s).rg := by
  have hst := RampRw.start_facts s.rg.rw
  cases call_effect a s c with
  | keep h1 h2 h3 => exact ⟨by rw [h1]; exact hr.speed, by rw [h1]; exact hr.jump, by rw [h3]; exact hr.usedSpeed,
      by rw [h3]; exact hr.usedJump, by rw [h2]; exact hr.brake, by rw [h2]; exact hr.period⟩
  | config k hc h1 h2 h3 =>
    subst hc
    obtain ⟨e1, e2, -⟩ := config_effect s k
    refine ⟨?_, ?_, by rw [h2]; exact hr.usedSpeed, by rw [h2]; exact hr.usedJump, by rw [h1]; exact hr.brake,
      by rw [h1]; exact hr.period⟩
    · rw [h3]
      rcases e1 with ⟨e1, -⟩ | ⟨t, ht, e1, -⟩
      · rw [e1]; exact hr.speed
      · rw [e1]; subst ht; exact hok
    · rw [h3]
      rcases e2 with e2 | ⟨n, hn, e2⟩
      · rw [e2]; exact hr.jump
      · rw [e2]; subst hn; exact hok
  | move hv h0 h1 h2 h3 h4 h5 =>
    refine ⟨by rw [h1]; exact hr.speed, by rw [h2]; exact hr.jump, by rw [h5]; exact hr.usedSpeed,
      by rw [h5]; exact hr.usedJump, ?_, ?_⟩
    · rcases h4 with h4 | h4
      · rw [h4]; exact hr.brake
      · rw [h4, hst.1]; exact hr.brake
    · rcases h4 with h4 | h4
      · rw [h4]; exact hr.period
      · rw [h4]
        rcases hst.2.2 with h6 | ⟨-, h6⟩
        · rw [h6]; exact hr.period
        · rw [h6]; decide
  | continuous h1 h2 h3 => exact ⟨by rw [h1]; exact hr.speed, by rw [h1]; exact hr.jump, by rw [h3]; exact hr.usedSpeed,
      by rw [h3]; exact hr.usedJump, by rw [h2]; exact hr.brake, by rw [h2]; exact hr.period⟩
  | stopped h1 h2 h3 =>
    refine ⟨by rw [h1]; exact hr.speed, by rw [h1]; exact hr.jump, by rw [h3]; exact hr.usedSpeed,
      by rw [h3]; exact hr.usedJump, ?_, ?_⟩ <;> rw [h2] <;> decide

/-- In every history the fields stay within the range of their types. -/
theorem RampHist.inRange {a : ArchId} {s : Stepper} (h : RampHist a ApiCall.Typed s) : InRange s.rg := by
  refine RampHist.induct (fun g => InRange g) ⟨by decide, by decide, by decide, by decide, by decide, by decide⟩
    (fun s c hr hok => InRange_call a s c hr hok) ?_ h
  · intro g g' qe junk c hr _ _ hj hg
    exact InRange_serve hr hj hg

end FAS
