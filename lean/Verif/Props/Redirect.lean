import Verif.Props.Preempt
import Verif.Spec.Redirect

/-!
# A motor which is moving gets a new target: C98
-/

namespace FAS

open Spec

/-- The pause which is still to be put into the queue fits into its C++ type. -/
theorem RampHist.pauseBound {a : ArchId} {s : Stepper} (h : RampHist a ApiCall.Typed s) : s.rg.rw.pauseTicksLeft < 4294967296 := by
  suffices hs : InRange s.rg ∧ s.rg.rw.pauseTicksLeft < 4294967296 from hs.2
  refine RampHist.induct (fun g => InRange g ∧ g.rw.pauseTicksLeft < 4294967296) ?_ (fun s c hi hok => ?_) ?_ h
  · exact ⟨⟨by decide, by decide, by decide, by decide, by decide, by decide⟩, by decide⟩
  · refine ⟨InRange_call a s c hi.1 hok, ?_⟩
    have hst := RampRw.start_facts s.rg.rw
    cases call_effect a s c with
    | keep h1 h2 h3 => rw [h2]; exact hi.2
    | config k hc h1 h2 h3 => rw [h1]; exact hi.2
    | move hv h0 h1 h2 h3 h4 h5 =>
      rcases h4 with h4 | h4
      · rw [h4]; exact hi.2
      · rw [h4, hst.2.1]; exact hi.2
    | continuous h1 h2 h3 => rw [h2]; exact hi.2
    | stopped h1 h2 h3 => rw [h2]; decide
  · intro g g' qe junk c hi ha hv hj hg
    obtain ⟨r0, r1, r2, r3⟩ := InRange_serve hi.1 hj hg
    have hp := prepared a g qe
    have key : g'.rw = (g.prepare a qe).rw ∧ c.rw.pauseTicksLeft < 4294967296 := by
      rcases service_cases hi.1 hg with ⟨-, h1, h2, h3⟩ | ⟨h1, -, h2⟩
      · exact ⟨by rw [h1], by rw [h3]; decide⟩
      · refine ⟨by rw [h1], ?_⟩
        have hpl := hi.2
        rw [← hp.pause, ← h1] at hpl
        rcases h2 with ⟨h2, h3⟩ | ⟨-, -, -, -, h3⟩ | ⟨remaining, same, ph, P, ho⟩
        · rw [h3]
          change g'.rw.pauseTicksLeft - Planner.pauseTicks g'.rw.pauseTicksLeft < _
          omega
        · rw [h3]; change 0 < _; omega
        · have f := ho.facts
          have hlt := f.lt
          rcases f.period with ⟨h5, h6, h7⟩ | ⟨-, -, -, h5, h6, h7⟩
          · omega
          · have : c.rw.pauseTicksLeft ≤ 4294901760 := by rw [h6]; split <;> omega
            omega
    refine ⟨r0, ⟨r1, ?_⟩, ⟨r2, key.2⟩, ⟨r3, by change 0 < _; omega⟩⟩
    rw [key.1, hp.pause]; exact hi.2

/-- The state in which the task finds a moving ramp after `moveTo()`. -/
theorem moveTo_redirected (a : ArchId) (g : RampGen) (p : Int) (qe : QueueEnd) (hi : g.isActive = true) (hf : g.ro.forceImmediateStop = false)
    (hv : g.parameters.checkValidConfig = MOVE_OK) (hjump : g.parameters.sJump = 0) :
    (g.moveTo p qe).1.rw = g.rw ∧ (g.moveTo p qe).1.ro.forceStop = false ∧
    ((g.moveTo p qe).1.prepare a qe).ro.targetPos = p ∧ ((g.moveTo p qe).1.prepare a qe).isRunningContinuously = false ∧
    ((g.moveTo p qe).1.prepare a qe).ro.forceImmediateStop = false ∧
    ((g.moveTo p qe).1.prepare a qe).ro.config.parameters.minTravelTicks = g.parameters.minTravelTicks ∧
    ((g.moveTo p qe).1.prepare a qe).ro.config.parameters.sJump = 0 ∧
    ∃ c0 : RampConfig, c0.parameters = g.parameters.setTargetPosition p ∧
      (∀ n, ((g.moveTo p qe).1.prepare a qe).ro.config.calculateTicks a n = (c0.update a).calculateTicks a n) ∧
      (((g.moveTo p qe).1.prepare a qe).stepsToStop = 0 ∨ ((g.moveTo p qe).1.prepare a qe).stepsToStop = g.stepsToStop ∨
        (g.rw.currTicks ≠ ticksForStoppedMotor ∧ ((g.moveTo p qe).1.prepare a qe).stepsToStop = (c0.update a).calculateRampSteps a g.rw.currTicks)) := by
  have hst : g.rw.state ≠ RampState.IDLE := by unfold RampGen.isActive at hi; simpa using hi
  obtain ⟨G, hG⟩ : ∃ G, (g.moveTo p qe).1 = G := ⟨_, rfl⟩
  have hGp : G.parameters = g.parameters.setTargetPosition p := by
    rw [← hG]; unfold RampGen.moveTo; dsimp only; rw [if_neg (by rw [hv]; decide)]; rfl
  have hGr : G.rw = g.rw := by
    rw [← hG]; unfold RampGen.moveTo; dsimp only; rw [if_neg (by rw [hv]; decide)]
    unfold RampGen.startMove
    dsimp only
    have : g.rw.startRampIfNotRunning = g.rw := by unfold RampRw.startRampIfNotRunning; rw [if_neg hst]
    rw [this, ite_self]
  have hGo : G.ro = { g.ro with forceStop := false } := by
    rw [← hG]; unfold RampGen.moveTo; dsimp only; rw [if_neg (by rw [hv]; decide)]; rfl
  rw [hG]
  clear hG
  have hap : G.parameters.apply = true := by rw [hGp]; rfl
  have hu : ∀ c : RampConfig, (c.update a).parameters = c.parameters := by
    intro c; unfold RampConfig.update RampConfig.updateCubic; dsimp only; split <;> rfl
  obtain ⟨G1, hG1⟩ : ∃ G1, G.takeOver a = G1 := ⟨_, rfl⟩
  have h1c : G1.ro.config = ({ G.ro.config with parameters := G.parameters } : RampConfig).update a := by
    rw [← hG1]; unfold RampGen.takeOver; rw [if_pos hap]
  have h1w : G1.rw = g.rw := by
    rw [← hG1]; unfold RampGen.takeOver; rw [if_pos hap]; exact hGr
  have h1f : G1.ro.forceStop = false ∧ G1.ro.forceImmediateStop = false := by
    rw [← hG1]; unfold RampGen.takeOver; rw [if_pos hap]
    rw [hGo]
    refine ⟨rfl, ?_⟩
    dsimp only
    rw [hf]; rfl
  have h2 : (G1.startSteps a).ro = G1.ro := by
    unfold RampGen.startSteps
    dsimp only
    split
    · rfl
    · split <;> rfl
  have h1p : G1.ro.config.parameters = g.parameters.setTargetPosition p := by rw [h1c, hu]; exact hGp
  have h1j : G1.ro.config.parameters.sJump = 0 := by rw [h1p]; exact hjump
  have h3 : ∀ G2 : RampGen, G2.ro = G1.ro → ∀ b, (G2.updateTarget b qe).ro =
      { G1.ro with config := { G1.ro.config with parameters := { G1.ro.config.parameters with anyChange := false } }, targetPos := p } := by
    intro G2 h b
    unfold RampGen.updateTarget
    dsimp only
    rw [h, h1f.1, h1p]
    rfl
  have h4 : ∀ b, ((G1.startSteps a).updateTarget b qe).clearRecalc.ro =
      { G1.ro with config := { G1.ro.config with parameters := { G1.ro.config.parameters with anyChange := false, recalcRampSteps := false } }
                   targetPos := p } := by
    intro b
    unfold RampGen.clearRecalc
    dsimp only
    rw [h3 _ h2]
  have h5 : ∀ (G2 : RampGen) b, (G2.updateTarget b qe).clearRecalc.rw = G2.rw := by
    intro G2 b
    unfold RampGen.clearRecalc RampGen.updateTarget
    dsimp only
    repeat' split
    all_goals rfl
  unfold RampGen.prepare RampGen.isRunningContinuously RampGen.stepsToStop
  rw [hG1, h4, h5]
  dsimp only
  refine ⟨hGr, by rw [hGo], rfl, by rw [h1p]; rfl, h1f.2, by rw [h1p]; rfl, h1j,
    ({ G.ro.config with parameters := G.parameters } : RampConfig), hGp, fun n => ?_, ?_⟩
  · rw [← h1c]; rfl
  · rw [← h1c]
    unfold RampGen.startSteps
    dsimp only
    rw [h1w, h1j]
    split
    · left; rfl
    · rename_i hne
      split
      · exact Or.inr (Or.inr ⟨hne, rfl⟩)
      · exact Or.inr (Or.inl (by rw [h1w]))

/-- The braking distance which the task calculates with the new acceleration. -/
theorem rampSteps_bound {a : ArchId} {accel L ticks : Nat} {c : RampConfig} (h : Configured a accel 0 c) (ha : 0 < accel) (ha2 : accel < 2 ^ 31)
    (hL : a.minCmdTicks ≤ L) (h1 : L ≤ ticks) (h2 : ticks < 2 ^ 32) :
    c.calculateRampSteps a ticks ≤ 101 * a.ticksPerS ^ 2 / (200 * accel * L ^ 2) + 2 := by
  have hL0 : 0 < L := by
    have : 640 ≤ a.minCmdTicks := by cases a <;> decide
    omega
  have hid : idealRampSteps a accel ticks ≤ (a.ticksPerS ^ 2 : ℝ) / (2 * accel * L ^ 2) := by
    unfold idealRampSteps
    have hA : (0 : ℝ) < accel := by exact_mod_cast ha
    have hl : (0 : ℝ) < L := by exact_mod_cast hL0
    have hlt : (L : ℝ) ≤ ticks := by exact_mod_cast h1
    have ht : (0 : ℝ) < ticks := lt_of_lt_of_le hl hlt
    rw [div_pow, div_div]
    apply div_le_div_of_nonneg_left (by positivity) (by positivity)
    have : (L : ℝ) ^ 2 ≤ (ticks : ℝ) ^ 2 := by gcongr
    nlinarith
  have hfit : idealRampSteps a accel ticks < 2 ^ 32 := by
    refine lt_of_le_of_lt hid ?_
    have hA : (1 : ℝ) ≤ accel := by exact_mod_cast ha
    have h640 : a.ticksPerS ≤ 25000 * L := by
      have : a.ticksPerS ≤ 25000 * a.minCmdTicks := by cases a <;> decide
      omega
    have h640r : (a.ticksPerS : ℝ) ≤ 25000 * L := by exact_mod_cast h640
    have hl : (0 : ℝ) < L := by exact_mod_cast hL0
    rw [div_lt_iff₀ (by positivity)]
    have hsq : (a.ticksPerS : ℝ) ^ 2 ≤ (25000 * L) ^ 2 := by gcongr
    have hl2 : (0 : ℝ) < (L : ℝ) ^ 2 := by positivity
    nlinarith [mul_le_mul_of_nonneg_right hA hl2.le]
  have hlaw := (C61_ramp_steps_law h ha ha2 (ticks := ticks) (by omega) h2 hfit).1
  have hpos : 0 < 200 * accel * L ^ 2 := by positivity
  have h3 : (c.calculateRampSteps a ticks : ℝ) ≤ 101 * (a.ticksPerS : ℝ) ^ 2 / (200 * accel * L ^ 2) + 1 := by
    refine hlaw.trans ?_
    have : (101 : ℝ) * (a.ticksPerS : ℝ) ^ 2 / (200 * accel * L ^ 2) = 101 / 100 * ((a.ticksPerS ^ 2 : ℝ) / (2 * accel * L ^ 2)) := by
      have hA : (accel : ℝ) ≠ 0 := by exact_mod_cast ha.ne'
      have hl : (L : ℝ) ≠ 0 := by exact_mod_cast hL0.ne'
      field_simp
      ring
    rw [this]
    linarith
  have hpr : (0 : ℝ) < 200 * accel * L ^ 2 := by exact_mod_cast hpos
  rw [← sub_le_iff_le_add, le_div_iff₀ hpr] at h3
  have h4 : c.calculateRampSteps a ticks * (200 * accel * L ^ 2) ≤ 101 * a.ticksPerS ^ 2 + 200 * accel * L ^ 2 := by
    have : (c.calculateRampSteps a ticks : ℝ) * (200 * accel * L ^ 2) ≤ 101 * (a.ticksPerS : ℝ) ^ 2 + 200 * accel * L ^ 2 := by linarith
    exact_mod_cast this
  have h5 : c.calculateRampSteps a ticks ≤ (101 * a.ticksPerS ^ 2 + 200 * accel * L ^ 2) / (200 * accel * L ^ 2) := by
    rw [Nat.le_div_iff_mul_le hpos]; exact h4
  rw [Nat.add_div_right _ hpos] at h5
  omega

/-- The state after the configuration and `moveTo()` of a moving motor. -/
theorem redirect_inv (a : ArchId) (L : Nat) (s : Stepper) (hh : RampHist a (ApiCall.Slow L) s) (hst : Moving a L s)
    (speed : Nat) (accel : Int) (p : Int) (hs1 : L ≤ speed) (hs2 : speed ≤ 65535) (ha1 : 0 < accel) (ha2 : accel < 2147483648)
    (hdist : (shortestWay p s.getPositionAfterCommandsCompleted).natAbs + brakingBound a L accel.toNat s < 2147483648)
    (hfast : 5 * accel.toNat * max 40000 ((shortestWay p s.getPositionAfterCommandsCompleted).natAbs + brakingBound a L accel.toNat s + 1) ≤ a.ticksPerS ^ 2) :
    ∃ R M, MoveInv a L R p M (configuredMove s speed accel 0 0 p) ∧ (configuredMove s speed accel 0 0 p).hw.q.qend.pos = s.hw.q.qend.pos := by
  obtain ⟨hmin, hlimit, hL, hact, hforce, hpin, hdelay, hen, hready, hx1, hx2, hx3, hpos⟩ := hst
  have hi : s.hw.q.IdxOK a := ⟨hx1, hx2, hx3⟩
  have h16 : 640 ≤ L := by
    have : 640 ≤ a.minCmdTicks := by cases a <;> decide
    omega
  have hlim2 : s.getMaxSpeedInTicks ≤ speed := by omega
  obtain ⟨s1, hs⟩ : ∃ s1, ((((s.setSpeedInTicks speed).1.setAcceleration accel).1.setLinearAcceleration 0).setJumpStart 0) = s1 := ⟨_, rfl⟩
  obtain ⟨e1, e2, e3, e4, e5, e6, e7, e8⟩ := configured_facts s speed accel 0 0 hlim2 (by omega) ha1 s1 hs
  have hcm : configuredMove s speed accel 0 0 p = (s1.moveTo p).1 := by rw [← hs]; rfl
  have hhw : (configuredMove s speed accel 0 0 p).hw = s.hw := by rw [hcm]; exact e1
  have hhist : RampHist a (ApiCall.Slow L) (configuredMove s speed accel 0 0 p) := by
    have h1 := RampHist.call (.config (.speed speed)) hh (show L ≤ speed ∧ speed ≤ 65535 from ⟨hs1, hs2⟩)
    have h2 := RampHist.call (.config (.acceleration accel)) h1 trivial
    have h3 := RampHist.call (.config (.linear 0)) h2 trivial
    have h4 := RampHist.call (.config (.jump 0)) h3 rfl
    exact RampHist.call (.moveTo p) h4 trivial
  have hslow := RampHist.slow hmin hL hhist
  have hcf : (configuredMove s speed accel 0 0 p).dirChangeDelayTicks = s.dirChangeDelayTicks ∧
      (configuredMove s speed accel 0 0 p).autoEnable = s.autoEnable ∧ (configuredMove s speed accel 0 0 p).onDelayTicks = s.onDelayTicks := by
    have hset : (s.setSpeedInTicks speed).1 = { s with rg := { s.rg with parameters := s.rg.parameters.setSpeedInTicks speed } } := by
      unfold Stepper.setSpeedInTicks
      rw [if_neg (Nat.not_lt.mpr hlim2), if_neg (by unfold ticksForStoppedMotor; omega)]
    unfold configuredMove
    rw [hset]
    exact ⟨rfl, rfl, rfl⟩
  have hvalid : (configuredMove s speed accel 0 0 p).rg.parameters.checkValidConfig = MOVE_OK := by
    rw [hcm]
    unfold Stepper.moveTo RampGen.moveTo
    dsimp only
    rw [if_neg (by rw [e8]; decide)]
    exact e8
  have hrg : (configuredMove s speed accel 0 0 p).rg = (s1.rg.moveTo p s.hw.q.qend).1 := by rw [hcm]; unfold Stepper.moveTo; rw [e1]
  have hact1 : s1.rg.isActive = true := by unfold RampGen.isActive; rw [e3]; exact hact
  obtain ⟨f1, f2, f3, f4, f5, f6, f7, c0, f8, f9, f10⟩ := moveTo_redirected a s1.rg p s.hw.q.qend hact1 (by rw [e2]; exact hforce) e8 e7
  have hpb := RampHist.pauseBound (Spec.RampHist.typed hhist)
  have hq : s.getPositionAfterCommandsCompleted = s.hw.q.qend.pos := rfl
  rw [hq] at hpos hdist hfast
  rw [hrg] at hslow hpb
  rw [e3] at f1 f10
  have hper := hslow.period (by unfold RampGen.isActive; rw [f1]; exact hact)
  rw [f1] at hper
  have hconf : Configured a accel.toNat 0 (c0.update a) := ⟨c0, by rw [f8]; exact e5, by rw [f8]; exact e6, rfl⟩
  have hA : 0 < accel.toNat ∧ accel.toNat < 2 ^ 31 := by omega
  have hbrake : ((s1.rg.moveTo p s.hw.q.qend).1.prepare a s.hw.q.qend).stepsToStop ≤ brakingBound a L accel.toNat s := by
    have hcalc : s.rg.rw.currTicks ≠ ticksForStoppedMotor → (c0.update a).calculateRampSteps a s.rg.rw.currTicks ≤ 101 * a.ticksPerS ^ 2 / (200 * accel.toNat * L ^ 2) + 2 := by
      intro h0
      have hr := (RampHist.inRange (Spec.RampHist.typed hh)).period
      exact rampSteps_bound hconf hA.1 hA.2 hmin (hper.resolve_left h0) (by omega)
    unfold brakingBound
    generalize 101 * a.ticksPerS ^ 2 / (200 * accel.toNat * L ^ 2) = B at *
    rcases f10 with h | h | ⟨h0, h⟩
    · omega
    · have : s1.rg.stepsToStop = s.rg.stepsToStop := by unfold RampGen.stepsToStop; rw [e3]
      omega
    · have := hcalc h0
      omega
  have hfar := ticks_far a ha1 ha2 (lin := 0) (by omega) hdist hfast
  have hlive : Lively a ((s1.rg.moveTo p s.hw.q.qend).1.prepare a s.hw.q.qend).ro.config (s1.rg.moveTo p s.hw.q.qend).1.rw.currTicks := by
    refine ⟨by rw [f6, e4]; omega, Or.inl (by rw [f6, e4]; exact hs2), fun n h1 h2 => ?_⟩
    rw [f9]
    have := ticks_lively hconf hA.1 hA.2 (by omega) n h1 h2
    unfold ticksForStoppedMotor
    omega
  have hsafe : Safe a (2 * ((shortestWay p s.hw.q.qend.pos).natAbs + brakingBound a L accel.toNat s) + 1) ⟨(s1.rg.moveTo p s.hw.q.qend).1, s.hw.q.qend⟩ := by
    refine ⟨⟨hslow.range, hpb, f4, Or.inl f7, Or.inl ?_, ?_⟩, hlive, Or.inl fun n h1 h2 => ?_, ?_, by omega, ?_⟩
    · rw [f6, e4]; omega
    · change ((s1.rg.moveTo p s.hw.q.qend).1.prepare a s.hw.q.qend).stepsToStop < _
      omega
    · change 0 < ((s1.rg.moveTo p s.hw.q.qend).1.prepare a s.hw.q.qend).ro.config.calculateTicks a n
      rw [f9, C32_period_no_overflow hconf hA.1 hA.2 (by omega) (steps := n) (by omega) (by omega)]
      exact hfar n h1 h2
    · unfold motionReach
      refine Nat.le_trans (rank_le _ _ _) ?_
      change 2 * ((shortestWay ((s1.rg.moveTo p s.hw.q.qend).1.prepare a s.hw.q.qend).ro.targetPos s.hw.q.qend.pos).natAbs + _) + 1 ≤ _
      rw [f3]
      change 2 * (_ + ((s1.rg.moveTo p s.hw.q.qend).1.prepare a s.hw.q.qend).stepsToStop) + 1 ≤ _
      omega
    · change 0 < (s1.rg.moveTo p s.hw.q.qend).1.rw.currTicks
      rw [f1]
      unfold ticksForStoppedMotor at hper
      omega
  refine ⟨2 * ((shortestWay p s.hw.q.qend.pos).natAbs + brakingBound a L accel.toNat s) + 1, motionMeasure a ⟨(s1.rg.moveTo p s.hw.q.qend).1, s.hw.q.qend⟩ + 1, ⟨⟨Or.inr ?_, by rw [hhw]; exact hpos⟩, Or.inr ⟨by rw [hrg]; exact hslow, hvalid⟩,
    by rw [hhw]; exact hlimit, by rw [hcf.1]; exact hdelay, hvalid, by unfold Stepper.dirPin; rw [hhw]; exact hpin,
    by unfold EnableDelayed; rw [hcf.1, hcf.2.1, hcf.2.2]; exact hen, by rw [hhw]; exact hready, by rw [hhw]; exact hi⟩, by rw [hhw]⟩
  rw [hhw, hrg]
  exact ⟨by unfold RampGen.isActive; rw [f1]; exact hact, hsafe, by omega, fun h => absurd h (by rw [f2]; decide), f5, f3⟩

/-- **C98.** A motor which is moving gets a new target: any stepper without jump start and with set speeds of `L` to 65535 ticks (`RampHist`: any history of calls and task cycles), of which the ramp is active (`Moving`),
gets a new set speed, a new acceleration, and `moveTo(p)`. Whatever the hardware and other steppers do, and whenever the task runs: no task cycle has undefined behaviour; once the ramp is idle,
`getPositionAfterCommandsCompleted()` is `p`, and the steps of the commands `cmds`, which the task has queued since then, lead from where the queue ended to `p`; and there is a number `N`, such that the ramp is idle after `N` task cycles which were not hindered
(the queue was empty, the direction pin was not in use by another stepper). This holds with the old movement in any direction, at any speed, continuous or not, or braking after `stopMove()`.

Missing: jump start, linear acceleration for the new movement, set speeds outside of `L` to 65535 ticks, high accelerations with long distances (for 20000 steps/s² and less: every distance which together with the braking distance is below 2^31). -/
theorem C98_redirect_partial (a : ArchId) (L : Nat) (s : Stepper) (hh : RampHist a (ApiCall.Slow L) s) (hst : Moving a L s)
    (speed : Nat) (accel : Int) (p : Int) (hs1 : L ≤ speed) (hs2 : speed ≤ 65535) (ha1 : 0 < accel) (ha2 : accel < 2147483648) (hp : i32 p = p)
    (hdist : (shortestWay p s.getPositionAfterCommandsCompleted).natAbs + brakingBound a L accel.toNat s < 2147483648)
    (hfast : 5 * accel.toNat * max 40000 ((shortestWay p s.getPositionAfterCommandsCompleted).natAbs + brakingBound a L accel.toNat s + 1) ≤ a.ticksPerS ^ 2) :
    ∃ N, ∀ k cmds s', TaskHist a (configuredMove s speed accel 0 0 p) k cmds s' →
      (Powered s' → ∀ env junk, junk.rw.performedRampUpSteps < 4294967296 → ∃ r, s'.fillQueue a env junk = some r) ∧
      (s'.isRampGeneratorActive = false → s'.getPositionAfterCommandsCompleted = p ∧
        stepsOn s.getPositionAfterCommandsCompleted (signedSum cmds) = p) ∧
      (N ≤ k → s'.isRampGeneratorActive = false) := by
  obtain ⟨R, M, hinv0, hend⟩ := redirect_inv a L s hh hst speed accel p hs1 hs2 ha1 ha2 hdist hfast
  exact ⟨M, fun k cmds s' h => hinv0.arrives hst.limit1 hst.limit3 hp hst.pos hend k cmds s' h⟩

/-- The hypotheses are met: the stepper `creeping` is on its way to 300, and has got commands for six steps, from which it needs six steps to stop; it is sent back to -200 with another speed and acceleration. -/
example : ∃ s, RampHist .esp32 (ApiCall.Slow 16000) s ∧ Moving .esp32 16000 s ∧ s.getPositionAfterCommandsCompleted = 6 ∧ s.rg.stepsToStop = 6 ∧
    ∃ N, ∀ k cmds s', TaskHist .esp32 (configuredMove s 40000 1000 0 0 (-200)) k cmds s' →
      (Powered s' → ∀ env junk, junk.rw.performedRampUpSteps < 4294967296 → ∃ r, s'.fillQueue .esp32 env junk = some r) ∧
      (s'.isRampGeneratorActive = false → s'.getPositionAfterCommandsCompleted = -200 ∧ stepsOn 6 (signedSum cmds) = -200) ∧
      (N ≤ k → s'.isRampGeneratorActive = false) := by
  have hcomp : (emptyCycles 12 creeping).any (fun s => decide (s.isRampGeneratorActive = true) && decide (s.rg.ro.forceImmediateStop = false) &&
      decide (s.getMaxSpeedInTicks ≤ 16000) && decide (s.dirPin ≠ pinUndefined) && decide (s.dirChangeDelayTicks = 0) && decide (s.autoEnable = false) &&
      decide (s.hw.q.ready = true) && decide (s.hw.q.readIdx < 256) && decide (s.hw.q.nextWriteIdx < 256) && decide (s.hw.q.queueEntries ≤ 32) &&
      decide (s.getPositionAfterCommandsCompleted = 6) && decide (s.rg.stepsToStop = 6)) = true := by
    decide +kernel
  obtain ⟨s, e1, h1⟩ := (Option.any_eq_true _ _).mp hcomp
  simp only [Bool.and_eq_true, decide_eq_true_eq] at h1
  obtain ⟨⟨⟨⟨⟨⟨⟨⟨⟨⟨⟨h1, h2⟩, h3⟩, h4⟩, h5⟩, h6⟩, h7⟩, h8⟩, h9⟩, h10⟩, h11⟩, h12⟩ := h1
  obtain ⟨-, g1⟩ := emptyCycles_meanwhile 12 _ _ e1 creeping_hist
  have hm : Moving .esp32 16000 s := ⟨by decide, h3, by decide, h1, h2, h4, Or.inl h5, fun h => absurd h.1 (by rw [h6]; decide), h7, h8, h9, h10, by rw [h11]; decide⟩
  refine ⟨s, g1, hm, h11, h12, ?_⟩
  have := C98_redirect_partial .esp32 16000 s g1 hm 40000 1000 (-200) (by decide) (by decide) (by decide) (by decide) (by decide)
    (by rw [h11]; unfold brakingBound; rw [h12]; decide) (by rw [h11]; unfold brakingBound; rw [h12]; decide)
  rw [h11] at this
  exact this

end FAS
