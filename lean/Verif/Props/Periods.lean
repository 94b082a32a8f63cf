import Verif.Props.Planner

/-!
# Step periods and speed: C35, C36, C39, C40
-/

namespace FAS

open Spec

/-! ## C36 -/

/-- The pauses delivered between two steps sum up to the pause left, whatever happens in between. -/
theorem pauses_sum (a : ArchId) (cs : List Cmd) : ∀ (g g2 : RampGen) (d : Cmd), InRange g →
    Services a g (cs ++ [d]) g2 → (∀ c ∈ cs, IsPause c) → IsStep d →
    ticksSum (cs.map Cmd.ticks) = g.rw.pauseTicksLeft ∧
    (32768 ≤ g.rw.pauseTicksLeft → ∀ c ∈ cs, 32768 ≤ c.ticks ∧ c.ticks ≤ 65535) := by
  induction cs with
  | nil =>
    intro g g2 d hr h _ hd
    rw [List.nil_append] at h
    have h0 : g.rw.pauseTicksLeft = 0 := by
      cases h with
      | cons qe junk c _ hj hg _ =>
        have hp := prepared a g qe
        rcases service_cases hr hg with ⟨-, -, h1, -⟩ | ⟨hgg, -, h1⟩
        · exact absurd h1 hd.1
        rcases h1 with ⟨-, h2⟩ | ⟨h2, -⟩ | ⟨remaining, same, ph, P, ho⟩
        · exact absurd hd.2 (by rw [h2]; exact (by decide : ¬ 1 ≤ 0))
        · rw [← hp.pause, ← hgg]; exact h2
        · rw [← hp.pause, ← hgg]; exact ho.nopause
    rw [h0]
    exact ⟨rfl, fun h => absurd h (by decide)⟩
  | cons x xs ih =>
    intro g g2 d hr h hall hd
    rw [List.cons_append] at h
    generalize hl : x :: (xs ++ [d]) = l at h
    cases h with
    | nil => cases hl
    | @cons _ g1 _ qe junk c cs' hj hg hrest =>
      obtain ⟨hx, hcs⟩ := List.cons.inj hl
      subst hcs
      have hxp := hall x (by simp)
      have hp := prepared a g qe
      obtain ⟨-, -, q3, -⟩ := InRange_serve hr hj hg
      rcases service_cases hr hg with ⟨-, -, h1, -⟩ | ⟨hgg, -, h1⟩
      · exact absurd (by rw [hx]; exact h1) hxp.1
      rcases h1 with ⟨h1, h2⟩ | ⟨-, -, -, -, h2⟩ | ⟨remaining, same, ph, P, ho⟩
      · have hleft : g.rw.pauseTicksLeft = _ := hp.pause.symm
        rw [← hgg] at hleft
        have ⟨e1, e2⟩ := ih _ _ d q3 hrest (fun c hc => hall c (by simp [hc])) hd
        have hnew : (g1.afterCommandEnqueued c).rw.pauseTicksLeft =
            g.rw.pauseTicksLeft - Planner.pauseTicks g.rw.pauseTicksLeft := by
          rw [h2, hleft]; rfl
        have htx : x.ticks = Planner.pauseTicks g.rw.pauseTicksLeft := by
          rw [hx, h2, hleft]
          change u16 (Planner.pauseTicks _) = _
          unfold u16 Planner.pauseTicks
          split <;> omega
        rw [hnew] at e1 e2
        rw [← hleft] at h1
        rw [List.map_cons]
        change x.ticks + ticksSum (xs.map Cmd.ticks) = _ ∧ _
        rw [e1, htx]
        unfold Planner.pauseTicks at htx e2 ⊢
        refine ⟨by split <;> omega, fun hge c hc => ?_⟩
        rcases List.mem_cons.mp hc with hc | hc
        · subst hc; rw [htx]; split <;> omega
        · by_cases hz : 65535 < g.rw.pauseTicksLeft
          · exact e2 (by rw [if_pos hz]; omega) c hc
          · exfalso
            unfold Planner.pauseTicks at e1
            rw [if_neg hz] at e1
            have hpos : 0 < c.ticks := Nat.pos_of_ne_zero (hall c (by simp [hc])).1
            have hle : ∀ (l : List Cmd) (c : Cmd), c ∈ l → c.ticks ≤ ticksSum (l.map Cmd.ticks) := by
              intro l
              induction l with
              | nil => intro c h; cases h
              | cons y ys ih =>
                intro c h
                rw [List.map_cons]
                change _ ≤ y.ticks + ticksSum (ys.map Cmd.ticks)
                rcases List.mem_cons.mp h with h | h
                · subst h; omega
                · have := ih c h; omega
            have := hle xs c hc
            omega
      · exact absurd (by rw [hx, h2]; rfl) hxp.1
      · exact absurd hxp.2 (by rw [hx]; have := ho.facts.steps_pos; omega)

/-- C36, for set speeds of at most 65535 ticks or a braking distance which is not exactly the one of the set speed: between
a step command and the next one, the pauses fill up the period exactly (the period is the one reported as
`getPeriodInTicksAfterCommandsCompleted()`), each pause has 32768..65535 ticks, and
(for a braking distance which is not exactly the one of the set speed) there is one step with at least 32768 ticks if the period exceeds
65535, else no pause at all.

Missing: the speeds above 65535 ticks while the braking distance is the one of the set speed, see
`C36_slow_speed_change_refuted`. -/
theorem C36_period_conserved_partial (a : ArchId) (g g1 g2 : RampGen) (qe : QueueEnd) (junk c : NextCommand) (cs : List Cmd) (d : Cmd)
    (hr : InRange g) (hj : junk.rw.performedRampUpSteps < 4294967296)
    (h : g.getNextCommand a qe junk = some (g1, c)) (hc : IsStep c.command)
    (hrest : Services a (g1.afterCommandEnqueued c) (cs ++ [d]) g2) (hcs : ∀ x ∈ cs, IsPause x) (hd : IsStep d)
    (hguard : g1.ro.config.parameters.minTravelTicks ≤ 65535 ∨ g1.stepsToStop ≠ g1.ro.config.maxRampUpSteps) :
    c.command.ticks + ticksSum (cs.map Cmd.ticks) = c.rw.currTicks ∧
    (∀ x ∈ cs, 32768 ≤ x.ticks ∧ x.ticks ≤ 65535) ∧
    (g1.stepsToStop ≠ g1.ro.config.maxRampUpSteps →
      (c.rw.currTicks ≤ 65535 → cs = []) ∧
      (65535 < c.rw.currTicks → c.command.steps = 1 ∧ 32768 ≤ c.command.ticks ∧ c.command.ticks ≤ 65535)) := by
  obtain ⟨-, -, q3, -⟩ := InRange_serve hr hj h
  obtain ⟨e1, e2⟩ := pauses_sum a cs _ _ d q3 hrest hcs hd
  have e1' : ticksSum (cs.map Cmd.ticks) = c.rw.pauseTicksLeft := e1
  have e2' : 32768 ≤ c.rw.pauseTicksLeft → ∀ c ∈ cs, 32768 ≤ c.ticks ∧ c.ticks ≤ 65535 := e2
  have hempty : c.rw.pauseTicksLeft = 0 → cs = [] := by
    intro h0
    cases cs with
    | nil => rfl
    | cons x xs =>
      exfalso
      rw [h0] at e1'
      have := (hcs x (by simp)).1
      rw [List.map_cons] at e1'
      change x.ticks + _ = 0 at e1'
      omega
  rcases service_cases hr h with ⟨-, -, h1, -⟩ | ⟨hgg, -, h1⟩
  · exact absurd h1 hc.1
  rcases h1 with ⟨-, h2⟩ | ⟨-, -, -, -, h2⟩ | ⟨remaining, same, ph, P, ho⟩
  · exact absurd hc.2 (by rw [h2]; exact (by decide : ¬ 1 ≤ 0))
  · exact absurd (by rw [h2]; rfl) hc.1
  have f := ho.facts
  have hlt := f.lt
  have hpauses : c.rw.pauseTicksLeft = P - (if 65535 < P then min (P / 2) 65535 else P) := by
    rcases f.period with ⟨h1, h2, -⟩ | ⟨-, -, -, -, h2, -⟩
    · omega
    · exact h2
  have hrange : ∀ x ∈ cs, 32768 ≤ x.ticks ∧ x.ticks ≤ 65535 := by
    by_cases hz : c.rw.pauseTicksLeft = 0
    · rw [hempty hz]; intro x hx; cases hx
    · apply e2'
      rw [hpauses] at hz ⊢
      split <;> split at hz <;> omega
  rw [e1']
  refine ⟨?_, hrange, fun hne => ?_⟩
  · rcases f.period with ⟨h1, h2, h3⟩ | ⟨-, h1, -, h2, h3, h4⟩
    · omega
    · rcases hguard with hg | hg
      · rw [h4, h2]
        have : c.rw.pauseTicksLeft + g1.ro.config.parameters.minTravelTicks ≤ 4294967295 := by
          rw [hpauses]; split <;> omega
        unfold u16 u32
        omega
      · exact absurd h1 hg
  · rcases f.period with ⟨h1, h2, h3⟩ | ⟨-, h1, -⟩
    · rw [h3]
      refine ⟨fun h4 => hempty (by rw [if_neg (by omega)] at h1; omega), fun h4 => ⟨f.slow h4, ?_⟩⟩
      rw [if_pos h4] at h1
      omega
    · exact absurd h1 hne

/-! ## C39, C40 -/

/-- C39: while the motor is moving, no step period is below the set period, unless the motor was already faster; then it
is not made faster. This holds for set speeds of at most 65535 ticks or a braking distance which is not exactly the one
of the set speed. From standstill without jump start it holds for set speeds of at least the minimum command time.

Missing: see `C36_slow_speed_change_refuted` (moving) and `C39_standstill_refuted`. -/
theorem C39_speed_limit_partial (a : ArchId) (g g' : RampGen) (qe : QueueEnd) (junk c : NextCommand) (hr : InRange g)
    (h : g.getNextCommand a qe junk = some (g', c)) (hs : IsStep c.command)
    (hguard : g'.ro.config.parameters.minTravelTicks ≤ 65535 ∨ g'.stepsToStop ≠ g'.ro.config.maxRampUpSteps) :
    (g.rw.currTicks ≠ ticksForStoppedMotor →
      min g'.ro.config.parameters.minTravelTicks g.rw.currTicks ≤ stepPeriod c) ∧
    (g.rw.currTicks = ticksForStoppedMotor → g'.ro.config.parameters.sJump = 0 →
      a.minCmdTicks ≤ g'.ro.config.parameters.minTravelTicks →
      g'.ro.config.parameters.minTravelTicks < ticksForStoppedMotor →
      g'.ro.config.parameters.minTravelTicks ≤ stepPeriod c) := by
  have hp := prepared a g qe
  rcases service_cases hr h with ⟨-, -, h1, -⟩ | ⟨hgg, -, h1⟩
  · exact absurd h1 hs.1
  rcases h1 with ⟨-, h2⟩ | ⟨-, -, -, -, h2⟩ | ⟨remaining, same, ph, P, ho⟩
  · exact absurd hs.2 (by rw [h2]; exact (by decide : ¬ 1 ≤ 0))
  · exact absurd (by rw [h2]; rfl) hs.1
  have f := ho.facts
  rw [← hgg] at hp
  have hct : g'.rw.currTicks = g.rw.currTicks := hp.ticks
  unfold stepPeriod
  constructor
  · intro hmov
    rcases f.period with ⟨h1, h2, h3⟩ | ⟨-, h1, -, h2, h3, h4⟩
    · rw [h2]
      rcases f.kind with ⟨-, -, -, -, h5, -⟩ | ⟨-, -, -, -, h5, -⟩ | ⟨-, h5, -⟩
      · omega
      · omega
      · have := h5 (by rw [hct]; exact hmov)
        omega
    · rcases hguard with hg | hg
      · rw [h2]; unfold u16; omega
      · exact absurd h1 hg
  · intro hst hj hmin hmax
    have hb : g'.rw.performedRampUpSteps = 0 := hp.stand hst hj
    have hrem : g'.rw.performedRampUpSteps < remaining := by
      have := ho.notDone; omega
    have hph := f.start (by rw [hct]; exact hst) hmin hmax (ho.stand hb) hrem
    rcases f.kind with ⟨-, -, -, -, h5, -⟩ | ⟨h5, -⟩ | ⟨h5, -⟩
    · rcases f.period with ⟨h1, h2, h3⟩ | ⟨h1, -⟩
      · omega
      · rw [hph] at h1; cases h1
    · rw [hph] at h5; cases h5
    · rw [hph] at h5; cases h5

/-- C40: while the motor is moving, the step period does not grow in state ACCELERATE, stays the same in COAST, and does
not shrink in DECELERATE and REVERSE. The last one needs a braking distance which is not exactly the one of the set speed, or a motor
which is not slower than a set speed of at most 65535 ticks.

Missing: see `C36_slow_speed_change_refuted`. -/
theorem C40_monotone_partial (a : ArchId) (g g' : RampGen) (qe : QueueEnd) (junk c : NextCommand) (hr : InRange g)
    (h : g.getNextCommand a qe junk = some (g', c)) (hs : IsStep c.command)
    (hmov : g.rw.currTicks ≠ ticksForStoppedMotor) :
    (c.rw.state.phase = .accelerate → stepPeriod c ≤ g.rw.currTicks) ∧
    (c.rw.state.phase = .coast → stepPeriod c = g.rw.currTicks) ∧
    ((g.rw.currTicks ≤ g'.ro.config.parameters.minTravelTicks ∧ g'.ro.config.parameters.minTravelTicks ≤ 65535) ∨
        g'.stepsToStop ≠ g'.ro.config.maxRampUpSteps →
      c.rw.state.phase = .decelerate ∨ c.rw.state.phase = .reverse → g.rw.currTicks ≤ stepPeriod c) ∧
    c.rw.state.phase ≠ .idle := by
  have hp := prepared a g qe
  rcases service_cases hr h with ⟨-, -, h1, -⟩ | ⟨hgg, -, h1⟩
  · exact absurd h1 hs.1
  rcases h1 with ⟨-, h2⟩ | ⟨-, -, -, -, h2⟩ | ⟨remaining, same, ph, P, ho⟩
  · exact absurd hs.2 (by rw [h2]; exact (by decide : ¬ 1 ≤ 0))
  · exact absurd (by rw [h2]; rfl) hs.1
  have f := ho.facts
  rw [← hgg] at hp
  have hct : g'.rw.currTicks = g.rw.currTicks := hp.ticks
  have hst : c.rw.state.phase = ph := by rw [f.state]
  unfold stepPeriod
  rw [hst]
  have hnorm : ph.isDec = false → c.command.ticks + c.rw.pauseTicksLeft = P := by
    intro hd
    rcases f.period with ⟨-, h2, -⟩ | ⟨h1, -⟩
    · exact h2
    · rw [hd] at h1; cases h1
  refine ⟨fun hph => ?_, fun hph => ?_, fun hguard hph => ?_, fun hph => ?_⟩
  · subst hph
    rw [hnorm rfl]
    rcases f.kind with ⟨-, -, -, -, -, h5, -⟩ | ⟨h5, -⟩ | ⟨h5, -⟩
    · omega
    · cases h5
    · cases h5
  · subst hph
    rw [hnorm rfl]
    rcases f.kind with ⟨h5, -⟩ | ⟨-, -, -, -, h5, -⟩ | ⟨h5, -⟩
    · cases h5
    · omega
    · cases h5
  · rcases f.period with ⟨h1, h2, h3⟩ | ⟨-, h1, -, h2, h3, h4⟩
    · rw [h2]
      rcases f.kind with ⟨h5, -⟩ | ⟨h5, -⟩ | ⟨-, h5, -⟩
      · rw [h5] at hph; rcases hph with hph | hph <;> cases hph
      · rw [h5] at hph; rcases hph with hph | hph <;> cases hph
      · have := h5 (by rw [hct]; exact hmov)
        omega
    · rcases hguard with ⟨hg1, hg2⟩ | hg
      · rw [h2]; unfold u16; omega
      · exact absurd h1 hg
  · rcases f.kind with ⟨h5, -⟩ | ⟨h5, -⟩ | ⟨h5, -⟩ <;> rw [hph] at h5 <;> cases h5

/-- A stepper with given speed limit, speed and acceleration. -/
def ratedStepper (a : ArchId) (speed : Nat) (accel : Int) : Stepper :=
  ((((Stepper.init a 1).setAbsoluteSpeedLimit 80).setSpeedInTicks speed).1.setAcceleration accel).1

/-- The stepper moves to 100000, and the task serves the ramp 20 times. Then the speed is changed and applied, and the ramp is served `n`
times. -/
def speedChange (a : ArchId) (accel : Int) (speed1 speed2 n : Nat) : Option Drive := do
  let s := (ratedStepper a speed1 accel).moveTo 100000
  let d ← Drive.run a (fun _ => junk0) 20 ⟨s.1.rg, s.1.hw.q.qend⟩
  let s := (({ s.1 with rg := d.g } : Stepper).setSpeedInTicks speed2).1.applySpeedAcceleration
  Drive.run a (fun _ => junk0) n ⟨s.rg, d.qe⟩

/-- C36, C39 and C40 do not hold for all speeds: a motor accelerates towards a set speed of 60000 ticks. Then the
speed is reduced to 92459 ticks. While decelerating, with a step period of 92416 ticks, the planner delivers a step with
26923 ticks followed by a pause of 51648 ticks: a period of 78571 ticks, which is faster than before and faster than the
set speed, while the reported period is 144107 ticks. -/
theorem C36_slow_speed_change_refuted :
    ∃ d, speedChange .avr328 3000 60000 92459 9 = some d ∧
      d.g.rw.currTicks = 92416 ∧
      ∃ r, d.g.getNextCommand .avr328 d.qe junk0 = some r ∧
        r.2.command = ⟨26923, 1, true⟩ ∧ r.2.rw.pauseTicksLeft = 51648 ∧ r.2.rw.currTicks = 144107 ∧
        r.2.rw.state.phase = .decelerate := by
  apply exists_of_any
  decide +kernel

/-- From standstill the motor may exceed the set speed (C39): ESP32, 10000 steps/s (1600 ticks) and an acceleration of 5e7 steps/s²:
`move(4)` makes 4 steps with 800 ticks. The acceleration is so high that the third and fourth step are to be slower than
the first two, and the command needs to fill the minimum command time. -/
theorem C39_standstill_refuted :
    ∃ r, ((ratedStepper .esp32 1600 50000000).move 4).1.rg.getNextCommand .esp32 ⟨0, true, true⟩ junk0 = some r ∧
      r.2.command = ⟨800, 4, true⟩ ∧ r.1.ro.config.parameters.minTravelTicks = 1600 := by
  apply exists_of_any
  decide +kernel

/-! ## C35 -/

/-- What the calls of `ApiCall.Slow` maintain. -/
structure SlowInv (L : Nat) (g : RampGen) : Prop where
  range : InRange g
  speed : g.parameters.validSpeed = true → L ≤ g.parameters.minTravelTicks ∧ g.parameters.minTravelTicks ≤ 65535
  used : g.ro.config.parameters.validSpeed = true →
    L ≤ g.ro.config.parameters.minTravelTicks ∧ g.ro.config.parameters.minTravelTicks ≤ 65535
  jump : g.parameters.sJump = 0
  usedJump : g.ro.config.parameters.sJump = 0
  valid : g.isActive = true → g.parameters.apply = true ∨ g.ro.config.parameters.validSpeed = true
  period : g.isActive = true → g.rw.currTicks = ticksForStoppedMotor ∨ L ≤ g.rw.currTicks
  pause : g.rw.pauseTicksLeft = 0 ∨ 32768 ≤ g.rw.pauseTicksLeft

theorem validSpeed_of_check {p : RampParams} (h : p.checkValidConfig = MOVE_OK) : p.validSpeed = true := by
  unfold RampParams.checkValidConfig at h
  cases hs : p.validSpeed
  · simp [hs] at h
    exact absurd h (by decide)
  · rfl

theorem isActive_stopped {g : RampGen} (h : g.rw = RampRw.stopped) : g.isActive = false := by
  unfold RampGen.isActive
  rw [h]
  decide

/-- One service of a slow ramp. -/
theorem SlowInv.serve {a : ArchId} {L : Nat} (hmin : a.minCmdTicks ≤ L) (hL : L ≤ 32768) {g g' : RampGen} {qe : QueueEnd}
    {junk c : NextCommand} (hi : SlowInv L g) (ha : g.isActive = true) (hv : g.parameters.checkValidConfig = MOVE_OK)
    (hj : junk.rw.performedRampUpSteps < 4294967296) (h : g.getNextCommand a qe junk = some (g', c)) :
    (c.command.ticks ≠ 0 → L ≤ c.command.ticks) ∧ SlowInv L g' ∧ SlowInv L (g'.afterCommandEnqueued c) ∧ SlowInv L g'.stopRamp := by
  obtain ⟨-, r1, r2, r3⟩ := InRange_serve hi.range hj h
  have hp := prepared a g qe
  have hvs := validSpeed_of_check hv
  have hmt := hi.speed hvs
  have hcfg : (g.prepare a qe).ro.config.parameters.validSpeed = true ∧
      L ≤ (g.prepare a qe).ro.config.parameters.minTravelTicks ∧
      (g.prepare a qe).ro.config.parameters.minTravelTicks ≤ 65535 ∧ (g.prepare a qe).ro.config.parameters.sJump = 0 := by
    rcases hp.cfg with ⟨h1, h2, h3, h4⟩ | ⟨h1, h2, h3, h4⟩
    · rw [h2, h3, h4]; exact ⟨hvs, hmt.1, hmt.2, hi.jump⟩
    · rw [h2, h3, h4]
      have hv2 : g.ro.config.parameters.validSpeed = true := by
        rcases hi.valid ha with h5 | h5
        · rw [h1] at h5; cases h5
        · exact h5
      exact ⟨hv2, (hi.used hv2).1, (hi.used hv2).2, hi.usedJump⟩
  have hst : ticksForStoppedMotor = 4294967295 := rfl
  -- the state after the service
  have key : g'.parameters = (g.prepare a qe).parameters ∧ g'.ro.config = (g.prepare a qe).ro.config ∧ g'.rw = (g.prepare a qe).rw ∧
      (c.command.ticks ≠ 0 → L ≤ c.command.ticks) ∧
      (c.rw.pauseTicksLeft = 0 ∨ 32768 ≤ c.rw.pauseTicksLeft) ∧
      (c.rw.currTicks = ticksForStoppedMotor ∨ L ≤ c.rw.currTicks) := by
    rcases service_cases hi.range h with ⟨-, h1, h2, h3⟩ | ⟨h1, -, h2⟩
    · refine ⟨by rw [h1], by rw [h1], by rw [h1], fun h => absurd h2 h, ?_, ?_⟩
      · left; rw [h3]; rfl
      · left; rw [h3]; rfl
    · refine ⟨by rw [h1], by rw [h1], by rw [h1], ?_⟩
      rw [← h1] at hp hcfg
      have hpl := hi.pause
      rw [← hp.pause] at hpl
      have hct := hi.period ha
      rw [← hp.ticks] at hct
      rcases h2 with ⟨h2, h3⟩ | ⟨-, -, -, -, h3⟩ | ⟨remaining, same, ph, P, ho⟩
      · rw [h3]
        have h32 : 32768 ≤ g'.rw.pauseTicksLeft := by omega
        refine ⟨fun _ => ?_, ?_, hct⟩
        · change L ≤ u16 (Planner.pauseTicks g'.rw.pauseTicksLeft)
          unfold u16 Planner.pauseTicks
          split <;> omega
        · change g'.rw.pauseTicksLeft - Planner.pauseTicks g'.rw.pauseTicksLeft = 0 ∨ 32768 ≤ g'.rw.pauseTicksLeft - Planner.pauseTicks g'.rw.pauseTicksLeft
          unfold Planner.pauseTicks
          split <;> omega
      · rw [h3]
        exact ⟨fun h => absurd rfl h, Or.inl rfl, Or.inl rfl⟩
      · have f := ho.facts
        have hlt := f.lt
        have hP : L ≤ P := by
          rcases f.kind with ⟨-, -, -, -, h5, -⟩ | ⟨-, -, -, h4, h5, -⟩ | ⟨hd, h5, -⟩
          · omega
          · omega
          · by_cases hs : g'.rw.currTicks = ticksForStoppedMotor
            · exfalso
              have hb : g'.rw.performedRampUpSteps = 0 := hp.stand (by rw [← hp.ticks]; exact hs) hcfg.2.2.2
              have hrem : g'.rw.performedRampUpSteps < remaining := by
                have := ho.notDone; omega
              have hph := f.start hs (by omega) (by omega) (ho.stand hb) hrem
              rw [hph] at hd
              cases hd
            · have := h5 hs
              omega
        rcases f.period with ⟨h5, h6, h7⟩ | ⟨-, -, -, h5, h6, h7⟩
        · refine ⟨fun _ => ?_, ?_, ?_⟩
          · rw [h5]; split <;> omega
          · split at h5 <;> omega
          · omega
        · refine ⟨fun _ => ?_, ?_, ?_⟩
          · rw [h5]; unfold u16; omega
          · rw [h6]; split <;> omega
          · rw [h7]; unfold u32
            have : c.rw.pauseTicksLeft ≤ 4294901760 := by rw [h6]; split <;> omega
            omega
  obtain ⟨k1, k2, k3, k4, k5, k6⟩ := key
  have e1 : g'.parameters.validSpeed = true →
      L ≤ g'.parameters.minTravelTicks ∧ g'.parameters.minTravelTicks ≤ 65535 := fun _ => by
    rw [k1, hp.pmt]; exact hmt
  have e2 : g'.parameters.sJump = 0 := by rw [k1, hp.pjump]; exact hi.jump
  have e3 : g'.ro.config.parameters.validSpeed = true →
      L ≤ g'.ro.config.parameters.minTravelTicks ∧ g'.ro.config.parameters.minTravelTicks ≤ 65535 := fun _ => by
    rw [k2]; exact ⟨hcfg.2.1, hcfg.2.2.1⟩
  have e4 : g'.ro.config.parameters.sJump = 0 := by rw [k2]; exact hcfg.2.2.2
  have e5 : g'.ro.config.parameters.validSpeed = true := by rw [k2]; exact hcfg.1
  refine ⟨k4, ⟨r1, e1, e3, e2, e4, fun _ => Or.inr e5, fun _ => ?_, ?_⟩, ⟨r2, e1, e3, e2, e4, fun _ => Or.inr e5, fun _ => k6, k5⟩,
    ⟨r3, e1, e3, e2, e4, fun _ => Or.inr e5, fun _ => Or.inl rfl, Or.inl rfl⟩⟩
  · rw [k3, hp.ticks]; exact hi.period ha
  · rw [k3, hp.pause]; exact hi.pause

theorem SlowInv.call {a : ArchId} {L : Nat} (s : Stepper) (c : ApiCall) (hi : SlowInv L s.rg)
    (hok : c.Slow L) : SlowInv L (c.exec a s).rg := by
  have hr : InRange (c.exec a s).rg := by
    refine InRange_call a s c hi.range ?_
    cases c <;> try trivial
    rename_i k
    cases k <;> try trivial
    · change _ < _; change _ ∧ _ at hok; omega
    · change _ < _; change _ = _ at hok; omega
  have hst := RampRw.start_facts s.rg.rw
  cases call_effect a s c with
  | keep h1 h2 h3 =>
    have hact : (c.exec a s).rg.isActive = s.rg.isActive := by unfold RampGen.isActive; rw [h2]
    exact ⟨hr, by rw [h1]; exact hi.speed, by rw [h3]; exact hi.used, by rw [h1]; exact hi.jump, by rw [h3]; exact hi.usedJump,
      by rw [h1, h3, hact]; exact hi.valid, by rw [h2, hact]; exact hi.period, by rw [h2]; exact hi.pause⟩
  | config k hc h1 h2 h3 =>
    subst hc
    obtain ⟨e1, e2, e3, -⟩ := config_effect s k
    rw [← h3] at e1 e2 e3
    have hact : (ApiCall.exec a s (.config k)).rg.isActive = s.rg.isActive := by unfold RampGen.isActive; rw [h1]
    refine ⟨hr, ?_, by rw [h2]; exact hi.used, ?_, by rw [h2]; exact hi.usedJump, ?_, by rw [h1, hact]; exact hi.period, by rw [h1]; exact hi.pause⟩
    · rcases e1 with ⟨e1, e4⟩ | ⟨t, ht, e1, -⟩
      · rw [e1, e4]; exact hi.speed
      · rw [e1]; subst ht; intro _; exact hok
    · rcases e2 with e2 | ⟨n, hn, e2⟩
      · rw [e2]; exact hi.jump
      · rw [e2]; subst hn; exact hok
    · rw [hact, h2]
      intro h
      rcases e3 with e3 | e3
      · exact Or.inl e3
      · rw [e3]; exact hi.valid h
  | move hv h0 h1 h2 h3 h4 h5 =>
    refine ⟨hr, by rw [h1, h3]; exact hi.speed, by rw [h5]; exact hi.used, by rw [h2]; exact hi.jump, by rw [h5]; exact hi.usedJump,
      fun _ => Or.inl h0, ?_, ?_⟩
    · rcases h4 with h4 | h4
      · have hact : (c.exec a s).rg.isActive = s.rg.isActive := by unfold RampGen.isActive; rw [h4]
        rw [hact, h4]; exact hi.period
      · intro h
        rcases hst.2.2 with h6 | ⟨-, h6⟩
        · rw [h6] at h4
          have hact : (c.exec a s).rg.isActive = s.rg.isActive := by unfold RampGen.isActive; rw [h4]
          rw [h4]; exact hi.period (by rw [← hact]; exact h)
        · rw [h4, h6]; exact Or.inl rfl
    · rcases h4 with h4 | h4
      · rw [h4]; exact hi.pause
      · rw [h4, hst.2.1]; exact hi.pause
  | continuous h1 h2 h3 =>
    have hact : (c.exec a s).rg.isActive = s.rg.isActive := by unfold RampGen.isActive; rw [h2]
    exact ⟨hr, by rw [h1]; exact hi.speed, by rw [h3]; exact hi.used, by rw [h1]; exact hi.jump, by rw [h3]; exact hi.usedJump,
      by rw [h1, h3, hact]; exact hi.valid, by rw [h2, hact]; exact hi.period, by rw [h2]; exact hi.pause⟩
  | stopped h1 h2 h3 =>
    have hact := isActive_stopped h2
    exact ⟨hr, by rw [h1]; exact hi.speed, by rw [h3]; exact hi.used, by rw [h1]; exact hi.jump, by rw [h3]; exact hi.usedJump,
      (by rw [hact]; intro h; cases h), (by rw [hact]; intro h; cases h), by rw [h2]; exact Or.inl rfl⟩

theorem RampHist.slow {a : ArchId} {L : Nat} (hmin : a.minCmdTicks ≤ L) (hL : L ≤ 32768) {s : Stepper}
    (h : RampHist a (ApiCall.Slow L) s) : SlowInv L s.rg := by
  refine RampHist.induct (SlowInv L) ?_ (fun s c hi hok => SlowInv.call s c hi hok) ?_ h
  · exact ⟨⟨by decide, by decide, by decide, by decide, by decide, by decide⟩, fun h => (by cases h), fun h => (by cases h), rfl, rfl,
      fun h => (by cases h), fun h => (by cases h), Or.inl rfl⟩
  · intro g g' qe junk c hi ha hv hj hg
    exact ⟨(InRange_serve hi.range hj hg).1, (hi.serve hmin hL ha hv hj hg).2⟩

/-- `AQE_ERROR_TICKS_TOO_LOW` is returned only for commands which are too short. -/
theorem addQueueEntry_tooLow (a : ArchId) (ext : ExtPin) (gaps : Nat → Gap) (busy : Bool) (s : Stepper) (c : Cmd)
    (start : Bool) (hd : s.dirChangeDelayTicks = 0 ∨ a.minCmdTicks ≤ s.dirChangeDelayTicks)
    (h : (s.addQueueEntry a ext gaps busy c start).2 = AQE_ERROR_TICKS_TOO_LOW) :
    c.ticks < s.hw.q.maxSpeedInTicks ∨ Queue.commandRateTicks c < a.minCmdTicks := by
  have hadd : ∀ (k : Stepper.Call) (c : Cmd) (st : Bool), (k.add a gaps c st).2 = AQE_ERROR_TICKS_TOO_LOW →
      Queue.commandRateTicks c < a.minCmdTicks := by
    intro k c st h
    change ((k.s.hw.gap a (gaps k.n)).q.add a c st).code = _ at h
    unfold Queue.add at h
    split at h
    · cases h
    · split at h
      · cases h
      · split at h
        · assumption
        · dsimp only at h
          split at h <;> cases h
  have hnull : ∀ (k : Stepper.Call) (st : Bool), (k.addNull a gaps st).2 ≠ AQE_ERROR_TICKS_TOO_LOW := by
    intro k st h
    change ((k.s.hw.gap a (gaps k.n)).q.addNull st).code = _ at h
    unfold Queue.addNull at h
    split at h
    · cases h
    · split at h
      · split at h <;> cases h
      · cases h
  have hauto : ∀ (k k' : Stepper.Call) (code : Int), k.autoEnable a ext gaps c start = (k', some code) →
      code ≠ AQE_ERROR_TICKS_TOO_LOW := by
    intro k k' code h
    unfold Stepper.Call.autoEnable at h
    dsimp only at h
    split at h
    · split at h
      · cases h; decide
      · split at h
        · obtain ⟨-, h⟩ := Prod.mk.inj h
          generalize Stepper.Call.addPauses _ _ _ _ _ = kk at h
          split at h
          · cases h; exact hnull _ _
          · cases h
        · cases h
    · cases h
  have hfr := fun (k : Stepper.Call) => Stepper.autoEnable_frame a ext gaps k c start
  have hdir : ∀ (k k' : Stepper.Call) (code : Int), k.s.dirChangeDelayTicks = s.dirChangeDelayTicks →
      k.dirChange a gaps c start = (k', some code) → code ≠ AQE_ERROR_TICKS_TOO_LOW := by
    intro k k' code hds h hc
    unfold Stepper.Call.dirChange at h
    split at h
    · split at h
      · have hp : ¬ Queue.commandRateTicks ⟨u16 (usToTicks a 500), 0, c.countUp⟩ < a.minCmdTicks := by
          change ¬ u16 (usToTicks a 500) < a.minCmdTicks
          cases a <;> decide
        split at h
        · cases h; cases hc
        · dsimp only at h
          split at h
          · obtain ⟨-, h⟩ := Prod.mk.inj h
            cases h
            exact hp (hadd _ _ _ hc)
          · obtain ⟨-, h⟩ := Prod.mk.inj h
            split at h
            · cases h; exact hp (hadd _ _ _ hc)
            · cases h
      · split at h
        · rename_i h1
          obtain ⟨-, h⟩ := Prod.mk.inj h
          split at h
          · cases h
            have := hadd _ _ _ hc
            unfold Queue.commandRateTicks at this
            rw [if_neg (by exact (by decide : ¬ 0 > 1))] at this
            have h2 : k.s.dirChangeDelayTicks < a.minCmdTicks := this
            omega
          · cases h
        · cases h
    · cases h
  unfold Stepper.addQueueEntry at h
  dsimp only at h
  split at h
  · left; assumption
  · split at h
    · cases h
    · split at h
      · cases h
      · right
        split at h
        · rename_i k' code heq
          exact absurd h (hauto _ _ _ heq)
        · rename_i k' heq
          split at h
          · rename_i k2 code heq2
            refine absurd h (hdir _ _ _ ?_ heq2)
            have := hfr ⟨s, 0, [], []⟩
            rw [heq] at this
            exact this.1.delay
          · apply hadd _ c start
            unfold Stepper.Call.final at h
            dsimp only at h
            split at h <;> exact h

/-- C35, for histories in which all speeds have a period of at least the minimum command time and at most 65535 ticks,
and without jump start: no command of the ramp generator is rejected as too short. `L` is the smallest of the periods; it is not below the
stepper's limit.

Missing: higher speeds (below the minimum command time several steps are needed in one command) - there the property does not hold,
see `C35_high_speed_refuted`, `C35_last_steps_refuted`; jump start and changes to periods above 65535 ticks, for which it does not hold either, see
`C35_jump_start_refuted`, `C35_slow_speed_change_refuted`. -/
theorem C35_accepted_partial (a : ArchId) (L : Nat) (hmin : a.minCmdTicks ≤ L) (hL : L ≤ 32768) (s : Stepper)
    (h : RampHist a (ApiCall.Slow L) s) (hmax : s.hw.q.maxSpeedInTicks ≤ L)
    (hd : s.dirChangeDelayTicks = 0 ∨ a.minCmdTicks ≤ s.dirChangeDelayTicks)
    (hv : s.rg.parameters.checkValidConfig = MOVE_OK) (env : Stepper.Env) (junk : NextCommand) (hj : junk.rw.performedRampUpSteps < 4294967296)
    (i : Nat) (f : Stepper.Fill) (hf : FillState a env (fillStart a junk s) i f) (hc : f.cond a = true)
    (rg : RampGen) (cmd : NextCommand) (hg : f.s.rg.getNextCommand a f.s.hw.q.qend f.cmd = some (rg, cmd)) (ht : cmd.command.ticks ≠ 0) :
    L ≤ cmd.command.ticks ∧
    (({ f.s with rg := rg } : Stepper).addQueueEntry a (env.ext i) (env.gaps i) (env.busy i) cmd.command (!f.delayedStart)).2
      ≠ AQE_ERROR_TICKS_TOO_LOW := by
  have hall : Stepper.SameConfig s f.s ∧ SlowInv L f.s.rg ∧ f.s.rg.parameters.checkValidConfig = MOVE_OK ∧
      f.cmd.rw.performedRampUpSteps < 4294967296 := by
    clear hc hg ht
    induction hf with
    | zero => exact ⟨⟨rfl, rfl, rfl, rfl, rfl, rfl, rfl, rfl, rfl, rfl, rfl, rfl⟩, (show SlowInv L s.rg from RampHist.slow hmin hL h), hv, hj⟩
    | @step i f f' _ hc hb ih =>
      obtain ⟨ih1, ih2, ih3, ih4⟩ := ih
      have hact : f.s.rg.isActive = true := by
        unfold Stepper.Fill.cond at hc
        exact (Bool.and_eq_true_iff.mp hc).2
      refine ⟨ih1.trans (Stepper.Fill.body_sameConfig a env i _ _ _ hb), ?_⟩
      obtain ⟨rg, cmd, hg, hcmd, hcase⟩ := Stepper.Fill.body_cases a env i f f' true hb
      obtain ⟨-, q2, q3, q4⟩ := ih2.serve hmin hL hact ih3 ih4 hg
      have hv2 : rg.parameters.checkValidConfig = MOVE_OK := by
        rw [service_params hg, Prepared.valid, ih3]
      refine ⟨?_, ?_, by rw [hcmd]; exact (InRange_serve ih2.range ih4 hg).1⟩
      · rcases hcase with ⟨-, r, hr, -, hcase⟩ | ⟨-, -, hcase, -⟩
        · have hrg : r.1.s.rg = rg := by
            rw [hr]; exact (Stepper.addQueueEntry_frame a _ _ _ _ _ _).rg
          rcases hcase with ⟨-, -, h, -⟩ | ⟨-, -, h, -⟩ | ⟨-, -, h, -⟩
          · rw [h]; change SlowInv L (r.1.s.rg.afterCommandEnqueued cmd); rw [hrg]; exact q3
          · rw [h, hrg]; exact q2
          · rw [h]; change SlowInv L r.1.s.rg.stopRamp; rw [hrg]; exact q4
        · rw [hcase]; exact q3
      · rcases hcase with ⟨-, r, hr, -, hcase⟩ | ⟨-, -, hcase, -⟩
        · have hrg : r.1.s.rg = rg := by
            rw [hr]; exact (Stepper.addQueueEntry_frame a _ _ _ _ _ _).rg
          rcases hcase with ⟨-, -, h, -⟩ | ⟨-, -, h, -⟩ | ⟨-, -, h, -⟩
          · rw [h]; change (r.1.s.rg.afterCommandEnqueued cmd).parameters.checkValidConfig = _; rw [hrg]; exact hv2
          · rw [h, hrg]; exact hv2
          · rw [h]; change r.1.s.rg.stopRamp.parameters.checkValidConfig = _; rw [hrg]; exact hv2
        · rw [hcase]; exact hv2
  obtain ⟨h1, h2, h3, h4⟩ := hall
  have hact : f.s.rg.isActive = true := by
    unfold Stepper.Fill.cond at hc
    exact (Bool.and_eq_true_iff.mp hc).2
  have hlow := (h2.serve hmin hL hact h3 h4 hg).1 ht
  refine ⟨hlow, fun hcode => ?_⟩
  rcases addQueueEntry_tooLow a _ _ _ _ _ _ (by
    change f.s.dirChangeDelayTicks = 0 ∨ a.minCmdTicks ≤ f.s.dirChangeDelayTicks; rw [h1.delay]; exact hd) hcode with h5 | h5
  · have h6 : cmd.command.ticks < f.s.hw.q.maxSpeedInTicks := h5
    rw [h1.max] at h6
    omega
  · have hwf := (C34_well_formed a f.s.rg rg f.s.hw.q.qend f.cmd cmd h2.range hg)
    have h6 : cmd.command.ticks ≤ 65535 ∧ cmd.command.steps ≤ 255 := by omega
    unfold Queue.commandRateTicks u32 at h5
    split at h5
    · rename_i h7
      have h8 : cmd.command.ticks * 1 ≤ cmd.command.ticks * cmd.command.steps := Nat.mul_le_mul_left _ (by omega)
      have h9 : cmd.command.ticks * cmd.command.steps ≤ 65535 * 255 := Nat.mul_le_mul h6.1 h6.2
      omega
    · omega

/-- The hypotheses of `C35_accepted_partial` are met by a stepper which got a `moveTo()`. -/
example : ∃ s f, RampHist .avr328 (ApiCall.Slow 1000) s ∧ s.hw.q.maxSpeedInTicks ≤ 1000 ∧ s.dirChangeDelayTicks = 0 ∧
    s.rg.parameters.checkValidConfig = MOVE_OK ∧
    FillState .avr328 calmEnv (fillStart .avr328 junk0 s) 0 f ∧ f.cond .avr328 = true ∧
    (∃ r, f.s.rg.getNextCommand .avr328 f.s.hw.q.qend f.cmd = some r ∧ IsStep r.2.command) := by
  refine ⟨ApiCall.exec .avr328 (ApiCall.exec .avr328 (ApiCall.exec .avr328 ((Stepper.init .avr328 1).setAbsoluteSpeedLimit 640)
    (.config (.speed 60000))) (.config (.acceleration 20))) (.moveTo 100), _,
    .call _ (.call _ (.call _ (.start _ rfl) (by change 1000 ≤ 60000 ∧ 60000 ≤ 65535; decide)) trivial) trivial, ?_, ?_, ?_, .zero, ?_, ?_⟩
  all_goals first | decide +kernel | (apply exists_of_any; decide +kernel)

/-- C35 does not hold for higher speeds: ESP32, speed 1000 ticks (16000 steps/s) and an acceleration of 1e7 steps/s².
The last command before the target has 2 steps with 1194 ticks each, which is less than the minimum command time
of 3200 ticks. It is rejected and the ramp is stopped: the motor is at 35 instead of 37 and the ramp is not active anymore. -/
theorem C35_last_steps_refuted :
    ∃ r, ((ratedStepper .esp32 1000 10000000).moveTo 37).1.fillQueue .esp32 calmEnv junk0 = some r ∧
      r.2 = [⟨3584, 1, true⟩, ⟨1194, 8, true⟩, ⟨1194, 26, true⟩] ∧ r.1.rg.isActive = false ∧
      r.1.rg.ro.targetPos = 37 ∧ r.1.hw.q.qend.pos = 35 := by
  apply exists_of_any
  decide +kernel

/-- C35 does not hold at the speed limit: avr328, speed and limit 320 ticks (50000 steps/s), acceleration 1.25e9
steps/s². `moveTo(4)` is planned as one command with 160 ticks, which is rejected: the motor does not move at all, and
the ramp is not active anymore. -/
theorem C35_high_speed_refuted :
    ∃ r, (((ratedStepper .avr328 320 1250000000).setAbsoluteSpeedLimit 320).moveTo 4).1.fillQueue .avr328 calmEnv junk0 = some r ∧
      r.2 = [] ∧ r.1.rg.isActive = false ∧ r.1.rg.ro.targetPos = 4 ∧ r.1.hw.q.qend.pos = 0 := by
  apply exists_of_any
  decide +kernel

/-- C35 does not hold with jump start: avr328, speed and limit 1047 ticks (15282 steps/s), acceleration 10000 steps/s², and a jump start to the
set speed. The jump start is converted to a number of ramp steps and back to a period, which is rounded to 1046 ticks: above the limit. `moveTo(2)` is rejected: the motor does
not move at all, and the ramp is not active anymore. (The set speed is exceeded, too: C39.) -/
theorem C35_jump_start_refuted :
    ∃ r, ((((ratedStepper .avr328 1047 10000).setAbsoluteSpeedLimit 1047).setJumpStart 100000).moveTo 2).1.fillQueue .avr328 calmEnv junk0 = some r ∧
      r.2 = [] ∧ r.1.rg.isActive = false ∧ r.1.rg.ro.targetPos = 2 ∧ r.1.hw.q.qend.pos = 0 := by
  apply exists_of_any
  decide +kernel

/-- C35 does not hold for periods above 65535 ticks: avr328, acceleration 3300 steps/s², a motor accelerates towards 400 steps/s (40000 ticks) on its way to 100000. Then the
speed is reduced to 243 steps/s (65753 ticks). With a step period of 65728 ticks and an empty queue, the planner delivers one step with 65753 - 65536 = 217 ticks. It is rejected: the motor stops at 9
without ramp, and the ramp is not active anymore. -/
theorem C35_slow_speed_change_refuted :
    ∃ d, speedChange .avr328 3300 40000 65753 1 = some d ∧ d.g.rw.currTicks = 65728 ∧ d.g.isActive = true ∧
      let s := ((ratedStepper .avr328 65753 3300).moveTo 100000).1
      ∃ r, ({ s with rg := d.g, hw := { s.hw with q := { s.hw.q with qend := d.qe } } } : Stepper).fillQueue .avr328 calmEnv junk0 = some r ∧
        r.2 = [] ∧ r.1.rg.isActive = false ∧ r.1.rg.ro.targetPos = 100000 ∧ r.1.hw.q.qend.pos = 9 := by
  apply exists_of_any
  decide +kernel

/-! ## Examples -/

/-- A slow step of 144107 ticks is followed by two pauses. -/
example : ∃ d, (Drive.run .esp32 (fun _ => junk0) 0 ⟨((ratedStepper .esp32 200000 100).moveTo 10).1.rg, ⟨0, true, true⟩⟩) = some d ∧
    ∃ r, d.g.getNextCommand .esp32 d.qe junk0 = some r ∧ IsStep r.2.command ∧ r.1.stepsToStop ≠ r.1.ro.config.maxRampUpSteps ∧
      65535 < r.2.rw.currTicks ∧
    ∃ r1, (r.1.afterCommandEnqueued r.2).getNextCommand .esp32 ⟨1, true, true⟩ r.2 = some r1 ∧ IsPause r1.2.command := by
  apply exists_of_any
  decide +kernel

/-- The hypotheses of C39 and C40 are met while accelerating, coasting and decelerating. -/
example : ∀ n ∈ [(5, RampPhase.accelerate), (30, .coast), (60, .decelerate)],
    ∃ d, (Drive.run .esp32 (fun _ => junk0) n.1 ⟨((ratedStepper .esp32 5000 100000).moveTo 300).1.rg, ⟨0, true, true⟩⟩) = some d ∧
    ∃ r, d.g.getNextCommand .esp32 d.qe junk0 = some r ∧ IsStep r.2.command ∧ r.1.ro.config.parameters.minTravelTicks = 5000 ∧
      d.g.rw.currTicks ≠ ticksForStoppedMotor ∧ r.2.rw.state.phase = n.2 := by
  decide +kernel

end FAS
