import Verif.Lemmas.Service
import Verif.Props.RampGen

/-!
# Properties of the planner: C34–C40, C54, C56, C57, C59

`g.getNextCommand a qe junk = some (g', c)` is one service of the ramp generator: `qe` is the end of the command queue
(position and direction after all queued commands), `c` is the command delivered. `g'` has the braking distance
(`g'.stepsToStop`), period and target the planner has used; the new values are in `c.rw`. `junk` is the content of
uninitialised memory. `InRange g` holds in every history (`RampHist.inRange`).
-/

namespace FAS

open Spec

/-! ## C34 -/

/-- C34: every command is "no command", a pause of 1..65535 ticks, or 1..255 steps of 1..65535 ticks. Steps away from
the target (or if the motor cannot stop in time) are limited by the braking distance, otherwise by the distance to the target. -/
theorem C34_well_formed (a : ArchId) (g g' : RampGen) (qe : QueueEnd) (junk c : NextCommand) (hr : InRange g)
    (h : g.getNextCommand a qe junk = some (g', c)) :
    c.command.ticks = 0 ∨
    (c.command.steps = 0 ∧ 1 ≤ c.command.ticks ∧ c.command.ticks ≤ 65535) ∨
    (1 ≤ c.command.steps ∧ c.command.steps ≤ 255 ∧ 1 ≤ c.command.ticks ∧ c.command.ticks ≤ 65535 ∧
      (¬ Towards g' qe.pos c.command.countUp → c.command.steps ≤ g'.stepsToStop) ∧
      (g'.isRunningContinuously = false → Towards g' qe.pos c.command.countUp →
        c.command.steps ≤ max g'.stepsToStop (shortestWay g'.ro.targetPos qe.pos).natAbs ∧
        (g'.stepsToStop ≤ (shortestWay g'.ro.targetPos qe.pos).natAbs →
          c.command.steps ≤ (shortestWay g'.ro.targetPos qe.pos).natAbs))) := by
  rcases service_cases hr h with ⟨-, -, h1, -⟩ | ⟨-, -, h1⟩
  · exact Or.inl h1
  rcases h1 with ⟨h1, h2⟩ | ⟨-, -, -, -, h2⟩ | ⟨remaining, same, ph, P, ho⟩
  · right; left
    rw [h2]
    refine ⟨rfl, ?_⟩
    change 1 ≤ u16 (Planner.pauseTicks g'.rw.pauseTicksLeft) ∧ u16 (Planner.pauseTicks g'.rw.pauseTicksLeft) ≤ 65535
    unfold Planner.pauseTicks u16
    split <;> omega
  · left; rw [h2]; rfl
  · by_cases ht : c.command.ticks = 0
    · exact Or.inl ht
    right; right
    have f := ho.facts
    have htk : c.command.ticks ≤ 65535 := by
      rcases f.period with ⟨h1, -⟩ | ⟨-, -, -, h1, -⟩
      · rw [h1]; split <;> omega
      · rw [h1]; unfold u16; omega
    have hway := f.steps_way
    unfold Planner.wayToGo at hway
    refine ⟨f.steps_pos, f.steps_le, by omega, htk, fun hn => ?_, fun hk hto => ?_⟩
    · rw [if_neg (fun hh => hn (ho.towards.mp hh.1))] at hway
      exact hway
    · obtain ⟨hw, -⟩ := ho.way hk
      have hs := ho.towards.mpr hto
      rw [← hw]
      unfold RampGen.stepsToStop
      refine ⟨?_, fun hle => ?_⟩
      · split at hway <;> omega
      · rw [if_pos ⟨hs, hle⟩] at hway; exact hway

/-! ## C38 -/

/-- C38 (part 1): with braking distance 0 (motor stands still, no jump start) steps go towards the target.

Missing: jump start, see `C38_jump_start_refuted`. -/
theorem C38_start_direction_partial (a : ArchId) (g g' : RampGen) (qe : QueueEnd) (junk c : NextCommand) (hr : InRange g)
    (h : g.getNextCommand a qe junk = some (g', c)) (hs : IsStep c.command)
    (hb : g'.stepsToStop = 0 ∨ (g.rw.currTicks = ticksForStoppedMotor ∧ g'.ro.config.parameters.sJump = 0)) :
    Towards g' qe.pos c.command.countUp := by
  have hp := prepared a g qe
  rcases service_cases hr h with ⟨-, -, h1, -⟩ | ⟨hg, -, h1⟩
  · exact absurd h1 hs.1
  rcases h1 with ⟨-, h2⟩ | ⟨-, -, -, -, h2⟩ | ⟨remaining, same, ph, P, ho⟩
  · exact absurd hs.2 (by rw [h2]; exact (by decide : ¬ 1 ≤ 0))
  · exact absurd (show c.command.ticks = 0 by rw [h2]; rfl) hs.1
  · apply ho.towards.mp
    apply ho.stand
    rcases hb with hb | ⟨hb1, hb2⟩
    · exact hb
    · rw [← hg] at hp
      exact hp.stand hb1 hb2

theorem i32_sub_i32 (x y : Int) : i32 (x - i32 y) = i32 (x - y) := by unfold i32; omega

/-- C38 (part 2): a command towards the target does not pass it, as long as the braking distance is not larger than
the distance: the distance shrinks by exactly the number of steps and the target does not get behind the motor. -/
theorem C38_no_overshoot (a : ArchId) (g g' : RampGen) (qe : QueueEnd) (junk c : NextCommand) (hr : InRange g)
    (h : g.getNextCommand a qe junk = some (g', c)) (hs : IsStep c.command) (hk : g'.isRunningContinuously = false)
    (ht : Towards g' qe.pos c.command.countUp)
    (hb : g'.stepsToStop ≤ (shortestWay g'.ro.targetPos qe.pos).natAbs) :
    (shortestWay g'.ro.targetPos (posAfter qe.pos c.command)).natAbs + c.command.steps =
      (shortestWay g'.ro.targetPos qe.pos).natAbs ∧
    ¬ Towards g' (posAfter qe.pos c.command) (!c.command.countUp) := by
  rcases C34_well_formed a g g' qe junk c hr h with h1 | ⟨h1, -⟩ | ⟨h1, h2, -, -, -, h3⟩
  · exact absurd h1 hs.1
  · exact absurd hs.2 (by omega)
  · have h4 := (h3 hk ht).2 hb
    unfold Towards at ht ⊢
    rw [hk, if_neg (by simp)] at ht ⊢
    unfold shortestWay posAfter i32 at *
    cases hc : c.command.countUp <;> rw [hc] at ht <;> simp only [Bool.false_eq_true, if_false, if_true, Bool.not_true, Bool.not_false] at * <;> omega

/-! ## C37 -/

/-- C37 (one service): the ramp gets idle only if the target is reached (an immediate stop declares the current position
to be the target). Otherwise the ramp stays active. -/
theorem C37_service (a : ArchId) (g g' : RampGen) (qe : QueueEnd) (junk c : NextCommand) (hr : InRange g)
    (ha : g.isActive = true) (h : g.getNextCommand a qe junk = some (g', c)) (hi : (g'.afterCommandEnqueued c).isActive = false) :
    c.command.ticks = 0 ∧ shortestWay g'.ro.targetPos qe.pos = 0 ∧
    (g.ro.forceImmediateStop = false → g'.isRunningContinuously = false) := by
  have hp := prepared a g qe
  have hidle : c.rw.state = RampState.IDLE := by
    unfold RampGen.isActive RampGen.afterCommandEnqueued at hi
    simpa using hi
  rcases service_cases hr h with ⟨hf, hg, h1, -⟩ | ⟨hg, -, h1⟩
  · refine ⟨h1, ?_, fun hff => ?_⟩
    · rw [hg]; unfold shortestWay i32; dsimp only; omega
    · have := hp.fimm hf
      rw [hff] at this; cases this
  rcases h1 with ⟨-, h2⟩ | ⟨-, hk, hw, -, h2⟩ | ⟨remaining, same, ph, P, ho⟩
  · exfalso
    rw [h2] at hidle
    change g'.rw.state = _ at hidle
    rw [hg, hp.state] at hidle
    unfold RampGen.isActive at ha
    rw [hidle] at ha
    exact absurd ha (by decide)
  · exact ⟨by rw [h2]; rfl, hw, fun _ => hk⟩
  · exfalso
    rw [ho.facts.state] at hidle
    have hph : ph = .idle := (RampState.mk.inj hidle).1
    rcases ho.facts.kind with ⟨h1, -⟩ | ⟨h1, -⟩ | ⟨h1, -⟩
    · rw [hph] at h1; cases h1
    · rw [hph] at h1; cases h1
    · rw [hph] at h1; cases h1

theorem startQueue_qend (s : Stepper) (b : Bool) : (s.startQueue b).1.hw.q.qend = s.hw.q.qend ∧ (s.startQueue b).1.rg = s.rg := by
  unfold Stepper.startQueue
  dsimp only
  rw [Queue.addNull_q]
  split <;> exact ⟨rfl, rfl⟩

/-- C37: in every history, whenever a task cycle turns the ramp idle, then the position after all queued commands is the
target position, or the queue rejected a command with an error in this cycle. -/
theorem C37_finished_at_target (a : ArchId) (s s' : Stepper) (env : Stepper.Env) (junk : NextCommand) (acc : List Cmd)
    (hh : RampHist a ApiCall.Typed s) (hj : junk.rw.performedRampUpSteps < 4294967296)
    (h : s.fillQueue a env junk = some (s', acc)) (ha : s.rg.isActive = true) (hi : s'.rg.isActive = false) :
    shortestWay s'.rg.ro.targetPos s'.getPositionAfterCommandsCompleted = 0 ∨ AbortedRamp a env junk s := by
  have hr := RampHist.inRange hh
  unfold Stepper.fillQueue at h
  rw [if_neg (by simp [ha])] at h
  split at h
  · cases h; rw [ha] at hi; cases hi
  · dsimp only at h
    change (match Stepper.Fill.loop a env env.iterations 0 (fillStart a junk s) with
      | none => none
      | some (f, _) => if f.needDelayedStart then some ((f.s.startQueue true).1, f.accepted) else some (f.s, f.accepted)) =
      some (s', acc) at h
    have key : ∀ (n i : Nat) (f f' : Stepper.Fill) (x : Bool), FillState a env (fillStart a junk s) i f →
        InRange f.s.rg → f.cmd.rw.performedRampUpSteps < 4294967296 → f.s.rg.isActive = true →
        Stepper.Fill.loop a env n i f = some (f', x) → f'.s.rg.isActive = false →
        shortestWay f'.s.rg.ro.targetPos f'.s.hw.q.qend.pos = 0 ∨ AbortedRamp a env junk s := by
      intro n
      induction n with
      | zero =>
        intro i f f' x _ _ _ hact hl hina
        unfold Stepper.Fill.loop at hl
        cases hl
        rw [hact] at hina; cases hina
      | succ n ih =>
        intro i f f' x hst hrf hjf hact hl hina
        unfold Stepper.Fill.loop at hl
        by_cases hc : f.cond a = true
        · rw [if_pos hc] at hl
          cases hb : f.body a env i with
          | none => rw [hb] at hl; cases hl
          | some r =>
            obtain ⟨f2, b⟩ := r
            rw [hb] at hl
            obtain ⟨rg, cmd, hg, hcmd, hcase⟩ := Stepper.Fill.body_cases a env i f f2 b hb
            obtain ⟨q1, q2, q3, -⟩ := InRange_serve hrf hjf hg
            rcases hcase with ⟨htk, r, hr', -, hcase⟩ | ⟨htk, hbf, hs2, -⟩
            · have hrg : r.1.s.rg = rg := by
                rw [hr']; exact (Stepper.addQueueEntry_frame a _ _ _ _ _ _).rg
              rcases hcase with ⟨-, hbt, hs2, -⟩ | ⟨-, hbf, hs2, -⟩ | ⟨hneg, hbt, hs2, -⟩
              · subst hbt
                have hrg2 : f2.s.rg = rg.afterCommandEnqueued cmd := by rw [hs2]; change r.1.s.rg.afterCommandEnqueued cmd = _; rw [hrg]
                have hact2 : f2.s.rg.isActive = true := by
                  cases hq : f2.s.rg.isActive
                  · rw [hrg2] at hq
                    exact absurd (C37_service a _ _ _ _ _ hrf hact hg hq).1 htk
                  · rfl
                exact ih (i + 1) f2 f' x (FillState.step hst hc hb) (by rw [hrg2]; exact q3) (by rw [hcmd]; exact q1) hact2 hl hina
              · subst hbf
                cases hl
                exfalso
                rw [hs2, hrg] at hina
                have hrgs : rg.rw.state = f.s.rg.rw.state := by
                  have hp := prepared a f.s.rg f.s.hw.q.qend
                  rcases service_cases hrf hg with ⟨-, hgg, -⟩ | ⟨hgg, -⟩
                  · rw [hgg]; exact hp.state
                  · rw [hgg]; exact hp.state
                unfold RampGen.isActive at hina hact
                rw [hrgs] at hina
                rw [hact] at hina; cases hina
              · right
                exact ⟨i, f, rg, cmd, hst, hc, hg, htk, by rw [← hr']; exact hneg⟩
            · subst hbf
              cases hl
              left
              rw [hs2] at hina ⊢
              exact (C37_service a _ _ _ _ _ hrf hact hg hina).2.1
        · rw [if_neg hc] at hl
          cases hl
          rw [hact] at hina; cases hina
    cases hl : Stepper.Fill.loop a env env.iterations 0 (fillStart a junk s) with
    | none => rw [hl] at h; cases h
    | some p =>
      obtain ⟨f, x⟩ := p
      rw [hl] at h
      dsimp only at h
      have hk := key env.iterations 0 (fillStart a junk s) f x FillState.zero hr hj ha hl
      have hse : s'.rg = f.s.rg ∧ s'.hw.q.qend = f.s.hw.q.qend := by
        split at h
        · cases h; exact ⟨(startQueue_qend _ _).2, (startQueue_qend _ _).1⟩
        · cases h; exact ⟨rfl, rfl⟩
      unfold Stepper.getPositionAfterCommandsCompleted
      rw [hse.1, hse.2]
      exact hk (by rw [← hse.1]; exact hi)

/-! ## Examples -/

/-- The hypotheses of `C34_well_formed` and `C38_start_direction_partial` are met by a move to -1000. -/
example : ∃ r, ((configuredStepper .esp32).moveTo (-1000)).1.rg.getNextCommand .esp32 ⟨0, true, true⟩ junk0 = some r ∧
    InRange ((configuredStepper .esp32).moveTo (-1000)).1.rg ∧ IsStep r.2.command ∧ r.1.stepsToStop = 0 ∧ r.2.command.countUp = false := by
  obtain ⟨r, h1, h2⟩ : ∃ r, ((configuredStepper .esp32).moveTo (-1000)).1.rg.getNextCommand .esp32 ⟨0, true, true⟩ junk0 = some r ∧
      IsStep r.2.command ∧ r.1.stepsToStop = 0 ∧ r.2.command.countUp = false := by
    apply exists_of_any
    decide +kernel
  exact ⟨r, h1, ⟨by decide +kernel, by decide +kernel, by decide +kernel, by decide +kernel, by decide +kernel, by decide +kernel⟩, h2⟩

/-- The hypotheses of `C38_no_overshoot` are met while the motor moves. -/
example : ∃ d, Drive.run .esp32 (fun _ => junk0) 30 ⟨((configuredStepper .esp32).moveTo (-1000)).1.rg, ⟨0, true, true⟩⟩ = some d ∧
    ∃ r, d.g.getNextCommand .esp32 d.qe junk0 = some r ∧ IsStep r.2.command ∧ 10 < r.1.stepsToStop ∧
      r.1.isRunningContinuously = false ∧ Towards r.1 d.qe.pos r.2.command.countUp ∧
      r.1.stepsToStop ≤ (shortestWay r.1.ro.targetPos d.qe.pos).natAbs := by
  apply exists_of_any
  decide +kernel

/-- A move of 3 steps finishes within one task cycle (`C37_finished_at_target`). -/
example : ∃ r, ((configuredStepper .esp32).moveTo (-3)).1.fillQueue .esp32 { calmEnv with iterations := 3 } junk0 = some r ∧
    r.1.rg.isActive = true ∧
    ∃ r2, r.1.fillQueue .esp32 calmEnv junk0 = some r2 ∧ r2.1.rg.isActive = false ∧ r2.1.hw.q.qend.pos = -3 := by
  apply exists_of_any
  decide +kernel

/-- C38 does not hold with jump start: a motor which has moved forward before is at position 0 (standstill), and is to move to -100
with a jump start of 20 steps. The planner assumes a running motor and first makes 20 steps in the wrong direction. -/
theorem C38_jump_start_refuted :
    ∃ d, Drive.run .avr328 (fun _ => junk0) 22
        ⟨(((configuredStepper .avr328).setJumpStart 20).moveTo (-100)).1.rg, ⟨0, true, true⟩⟩ = some d ∧
      (((configuredStepper .avr328).setJumpStart 20).moveTo (-100)).2 = MOVE_OK ∧
      d.g.ro.targetPos = -100 ∧ d.qe.pos = 20 ∧ d.g.isActive = true := by
  apply exists_of_any
  decide +kernel

end FAS
