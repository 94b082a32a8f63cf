import Verif.Lemmas.Control
import Verif.Props.Preempt
import Verif.Props.Params

/-!
# C94: control calls interrupted by the task
-/

namespace FAS

open Spec

/-! ## The parts are those of the calls -/

theorem StopMoveCall.uninterrupted (a : ArchId) (s : Stepper) : StopMoveCall a s s s s.stopMove := ⟨.nothing _, .nothing _, rfl⟩

theorem ForceStopCall.uninterrupted (a : ArchId) (s : Stepper) : ForceStopCall a s s.ignoreCommands s.ignoreCommands s.forceStop :=
  ⟨.nothing _, .nothing _, rfl⟩

theorem KeepRunningCall.uninterrupted (a : ArchId) (s : Stepper) : KeepRunningCall a s s s s.keepRunning := ⟨.nothing _, .nothing _, rfl⟩

theorem ApplySettingsCall.uninterrupted (a : ArchId) (s : Stepper) : ApplySettingsCall a s s s s.applySpeedAcceleration := by
  refine ⟨.nothing _, .nothing _, ?_⟩
  unfold Stepper.applySpeedAcceleration RampGen.applySpeedAcceleration RampParams.applyParameters RampGen.applyWrite RampGen.applyRead1 RampGen.applyRead2
  cases h1 : s.rg.ro.forceImmediateStop <;> by_cases h2 : s.rg.parameters.anyChange = true <;> simp [h2]

theorem NewPositionCall.uninterrupted (a : ArchId) (p : Int) (s : Stepper) : ∃ s1 s2 s3 s4 s5, NewPositionCall a p s s1 s2 s3 s4 s5 (s.forceStopAndNewPosition p) :=
  ⟨_, _, _, _, _, .nothing _, .nothing _, .nothing _, .nothing _, .nothing _, rfl⟩

theorem SetPositionCall.uninterrupted (a : ArchId) (p : Int) (s : Stepper) : SetPositionCall a p s s (s.setCurrentPosition a p) := ⟨.nothing _, rfl⟩

/-! ## C94 -/

/-- C94 for `stopMove()`: wherever the task interrupts it, the call has the effect it has without interruption, at its last moment. Afterwards the ramp is stopping as long as it is
active.

Missing: if a `forceStop()` waits for the task, it may be served twice (`C94_stale_byte_refuted`). -/
theorem C94_stopMove_partial (a : ArchId) (s s1 s2 s' : Stepper) (h : StopMoveCall a s s1 s2 s') :
    (s.rg.ro.forceImmediateStop = false → s' = s2.stopMove) ∧
    ∀ s'', Interruption a s' s'' → s''.isRampGeneratorActive = true → s''.isStopping = true := by
  obtain ⟨h1, h2, h3⟩ := h
  refine ⟨fun hi => ?_, fun s'' m ha => ?_⟩
  · have i1 := h1.fimm hi
    have i2 := h2.fimm i1
    rw [h3]
    unfold Stepper.stopMove RampGen.stopWrite RampGen.initiateStop RampGen.stopByte
    dsimp only
    rw [i1, ← i2]
  · have hs : s''.rg.ro.forceStop = true := by rw [m.fstop, h3]; rfl
    unfold Stepper.isStopping RampGen.isStopping
    rw [hs]
    exact ha

/-- C94 for `forceStop()`: wherever the task interrupts it, the ramp is as after a call without interruption at its last moment. If no move command waits for the task at the begin of the call, then
the next task cycle adds no command, and makes the ramp idle if the queue needs commands. -/
theorem C94_forceStop (a : ArchId) (s s1 s2 s' : Stepper) (h : ForceStopCall a s s1 s2 s') :
    s'.rg = s2.forceStop.rg ∧ s'.hw = s2.hw ∧
    (NoMoveWaiting s → ∀ env junk t acc, s'.fillQueue a env junk = some (t, acc) →
      acc = [] ∧ t.hw.q.nextWriteIdx = s'.hw.q.nextWriteIdx ∧ t.hw.q.entry = s'.hw.q.entry ∧ t.hw.q.qend = s'.hw.q.qend ∧
      (s'.rg.isActive = true → s'.rg.parameters.checkValidConfig = MOVE_OK → env.iterations ≠ 0 →
        s'.hw.q.isQueueFull a = false → (s'.hw.q.ticksInQueue a < s'.forwardPlanning ∨ s'.hw.q.queueEntries ≤ 1) →
        t.rg.isActive = false ∧ t.rg.stepsToStop = 0 ∧ t.rg.ro.targetPos = s'.hw.q.qend.pos)) := by
  obtain ⟨h1, h2, h3⟩ := h
  have hf := h2.fstop
  have hrg : s'.rg = s2.forceStop.rg := by
    rw [h3]
    unfold Stepper.forceStop RampGen.forceStop RampGen.immediateWrite RampGen.stopByte
    dsimp only
    rw [← hf]
  refine ⟨hrg, by rw [h3], fun hn env junk t acc ht => ?_⟩
  have keep : ∀ x y : Stepper, Interruption a x y → NoMoveWaiting x → NoMoveWaiting y := by
    intro x y hm hx
    refine hm.induct (fun p ro => p.apply = true → if p.moveAbsolute then p.moveValue = ro.targetPos else p.moveValue = 0)
      (fun g g' qe junk c _ hn => ?_) hx
    rw [(service_ro hn).2.2.2, (prepFacts a g qe).apply]
    intro hx; cases hx
  have hn2 := keep _ _ h2 (keep _ _ h1 hn)
  have hn' : NoMoveWaiting s' := by
    unfold NoMoveWaiting at *
    rw [hrg]; exact hn2
  have hsame : s'.rg.forceStop = s'.rg := by rw [hrg]; rfl
  cases hact : s'.rg.isActive
  · rw [Stepper.fillQueue_inactive a env junk s' hact] at ht
    cases ht
    exact ⟨rfl, rfl, rfl, rfl, fun hx => by cases hx⟩
  · have heq : s'.forceStop.fillQueue a env junk = s'.fillQueue a env junk ∨ s'.rg.parameters.checkValidConfig ≠ MOVE_OK := by
      by_cases hv : s'.rg.parameters.checkValidConfig = MOVE_OK
      · left
        have e : s'.forceStop = s'.ignoreCommands := by
          unfold Stepper.forceStop Stepper.ignoreCommands
          rw [hsame]
        rw [e]
        have x1 : ¬ (!s'.rg.isActive) = true := by rw [hact]; decide
        have x2 : ¬ s'.rg.parameters.checkValidConfig ≠ MOVE_OK := fun h => h hv
        unfold Stepper.fillQueue
        rw [if_neg (show ¬ (!s'.ignoreCommands.rg.isActive) = true from x1), if_neg (show ¬ s'.ignoreCommands.rg.parameters.checkValidConfig ≠ MOVE_OK from x2),
          if_neg x1, if_neg x2]
        rfl
      · exact Or.inr hv
    rcases heq with heq | hv
    · rw [← heq] at ht
      have := C44_force_stop_partial a s' t env junk acc hn' ht
      rw [hact] at this
      exact this
    · unfold Stepper.fillQueue at ht
      rw [if_neg (by rw [hact]; decide), if_pos hv] at ht
      cases ht
      exact ⟨rfl, rfl, rfl, rfl, fun _ hx => absurd hx hv⟩

/-- C94 for `keepRunning()`: if no command waits for the task, then the call has the effect it has without interruption, at its last moment.

Missing: with a command waiting for the task, flags of the former command come back (`C94_keep_refuted`). -/
theorem C94_keepRunning_partial (a : ArchId) (s s1 s2 s' : Stepper) (hh : RampHist a ApiCall.Typed s) (h : KeepRunningCall a s s1 s2 s')
    (hp : s.rg.parameters.apply = false) : s' = s2.keepRunning := by
  obtain ⟨h1, h2, h3⟩ := h
  have p1 := (h1.params hp).symm ▸ hp
  obtain ⟨f1, f2⟩ := (h1.hist hh).flags
  have hx : ({ s2.rg.ro.config.parameters with keepRunning := true } : RampParams) = { s1.rg.ro.config.parameters with keepRunning := true } := by
    have := h2.induct (fun p ro => p.apply = false ∧ ro.forceStop = s1.rg.ro.forceStop ∧
        ({ ro.config.parameters with keepRunning := true } : RampParams) = { s1.rg.ro.config.parameters with keepRunning := true }) ?_ ⟨p1, rfl, rfl⟩
    · exact this.2.2
    · intro g g' qe junk c ⟨q1, q2, q3⟩ hn
      obtain ⟨r1, r2, -, r4⟩ := service_ro hn
      refine ⟨by rw [r4]; exact (prepFacts a g qe).apply, r2.trans q2, ?_⟩
      rw [r1, prepare_config, nextParams_of g q1]
      dsimp only
      have e1 := congrArg RampParams.anyChange q3
      have e2 := (congrArg RampParams.recalcRampSteps q3).trans f1
      dsimp only at e1 e2
      have e3 : (g.ro.config.parameters.anyChange && g.ro.forceStop) = g.ro.config.parameters.anyChange := by
        rw [e1, q2]
        cases hb : s1.rg.ro.forceStop
        · rw [f2 p1 hb]; rfl
        · rw [Bool.and_true]
      rw [e3, ← q3]
      have : ({ g.ro.config.parameters with keepRunning := true } : RampParams) = { g.ro.config.parameters with keepRunning := true, recalcRampSteps := false } := by
        rw [← e2]
      rw [this]
  rw [h3]
  unfold Stepper.keepRunning RampGen.setKeepRunning RampGen.keepWrite RampGen.keepRead
  have : s2.rg.ro.config.parameters.writeFlags { s1.rg.ro.config.parameters.flagByte with keepRunning := true } =
      { s2.rg.ro.config.parameters with keepRunning := true } := by
    have g1 := congrArg RampParams.apply hx
    have g2 := congrArg RampParams.anyChange hx
    have g3 := congrArg RampParams.recalcRampSteps hx
    have g4 := congrArg RampParams.validAcceleration hx
    have g5 := congrArg RampParams.validSpeed hx
    have g6 := congrArg RampParams.moveAbsolute hx
    have g7 := congrArg RampParams.keepRunningCountUp hx
    dsimp only at g1 g2 g3 g4 g5 g6 g7
    unfold RampParams.writeFlags RampParams.flagByte
    dsimp only
    rw [← g1, ← g2, ← g3, ← g4, ← g5, ← g6, ← g7]
  rw [this]

/-- C94 for `applySpeedAcceleration()`: wherever the task interrupts it, and for any number of task cycles afterwards, each service of the ramp works with the settings made before the call.
Without a command waiting for the task the call has the effect it has without interruption, at its last moment. During a `forceStop()` waiting for the task it has no effect, as documented in the code. -/
theorem C94_apply (a : ArchId) (s s1 s2 s' : Stepper) (h : ApplySettingsCall a s s1 s2 s') :
    (s.rg.ro.forceImmediateStop = false → s.rg.parameters.anyChange = true →
      ∀ s'', Interruption a s' s'' → ∀ qe junk g c, s''.rg.getNextCommand a qe junk = some (g, c) →
        settings g.ro.config.parameters = settings s.rg.parameters) ∧
    (s.rg.ro.forceImmediateStop = false → s.rg.parameters.apply = false → s' = s2.applySpeedAcceleration) ∧
    (s.rg.ro.forceImmediateStop = true → s' = s2) := by
  obtain ⟨h1, h2, h3⟩ := h
  -- what a service does with the settings
  have hset : ∀ (g g' : RampGen) (qe : QueueEnd) (junk c : NextCommand), g.getNextCommand a qe junk = some (g', c) →
      settings g'.parameters = settings g.parameters ∧ settings g'.ro.config.parameters = settings g.nextParams ∧
      (g.parameters.apply = false → g'.parameters = g.parameters) := by
    intro g g' qe junk c hn
    obtain ⟨r1, -, -, r4⟩ := service_ro hn
    refine ⟨?_, ?_, ?_⟩
    · rw [r4, prepare_params]; split <;> rfl
    · rw [r1, prepare_config]; rfl
    · intro hx; rw [r4, prepare_params, if_neg (by rw [hx]; decide)]
  refine ⟨fun hi hc => ?_, fun hi hp => ?_, fun hi => ?_⟩
  · -- after the call
    have hP : settings s'.rg.parameters = settings s.rg.parameters ∧
        (s'.rg.parameters.apply = true ∨ settings s'.rg.ro.config.parameters = settings s.rg.parameters) := by
      have hv : ∀ {x y : Stepper}, Interruption a x y → settings y.rg.parameters = settings x.rg.parameters := by
        intro x y hm
        obtain ⟨v1, v2, v3, v4, -⟩ := hm.values
        unfold settings
        rw [v1, v2, v3, v4]
      have hb : settings s1.rg.parameters = settings s.rg.parameters ∧ (s1.rg.parameters.anyChange = true ∨ settings s1.rg.ro.config.parameters = settings s.rg.parameters) := by
        refine h1.induct (fun p ro => settings p = settings s.rg.parameters ∧ (p.anyChange = true ∨ settings ro.config.parameters = settings s.rg.parameters))
          (fun g g' qe junk c hp hn => ?_) ⟨rfl, Or.inl hc⟩
        obtain ⟨k1, k2, k3⟩ := hset g g' qe junk c hn
        refine ⟨k1.trans hp.1, ?_⟩
        unfold RampGen.nextParams at k2
        by_cases hap : g.parameters.apply = true
        · right; rw [k2, if_pos hap]; exact hp.1
        · rw [if_neg hap] at k2
          rw [k3 (by simpa using hap), k2]
          exact hp.2
      have hw : s'.rg.parameters.apply = true ∨ (s' = s2 ∧ s1.rg.parameters.anyChange = false) := by
        rw [h3]
        unfold RampGen.applyWrite RampGen.applyRead1 RampGen.applyRead2
        rw [hi]
        cases hq : s1.rg.parameters.anyChange
        · right; exact ⟨rfl, rfl⟩
        · left; rfl
      have hs : settings s'.rg.parameters = settings s2.rg.parameters := by
        rw [h3]
        unfold RampGen.applyWrite
        split <;> rfl
      refine ⟨hs.trans ((hv h2).trans hb.1), ?_⟩
      rcases hw with hw | ⟨hw, hq⟩
      · exact Or.inl hw
      · right
        rw [hw]
        have hcfg : settings s1.rg.ro.config.parameters = settings s.rg.parameters := by
          rcases hb.2 with h | h
          · rw [hq] at h; cases h
          · exact h
        have := h2.induct (fun p ro => settings p = settings s.rg.parameters ∧ settings ro.config.parameters = settings s.rg.parameters)
          (fun g g' qe junk c hp hn => ?_) ⟨hb.1, hcfg⟩
        · exact this.2
        · obtain ⟨k1, k2, -⟩ := hset g g' qe junk c hn
          refine ⟨k1.trans hp.1, ?_⟩
          rw [k2]
          unfold RampGen.nextParams
          split
          · exact hp.1
          · exact hp.2
    have hkey : ∀ g : RampGen, settings g.parameters = settings s.rg.parameters →
        (g.parameters.apply = true ∨ settings g.ro.config.parameters = settings s.rg.parameters) → settings g.nextParams = settings s.rg.parameters := by
      intro g x1 x2
      unfold RampGen.nextParams
      by_cases hap : g.parameters.apply = true
      · rw [if_pos hap]; exact x1
      · rw [if_neg hap]
        rcases x2 with x2 | x2
        · exact absurd x2 hap
        · exact x2
    intro s'' m qe junk g c hn
    have hP' := m.induct (fun p ro => settings p = settings s.rg.parameters ∧ (p.apply = true ∨ settings ro.config.parameters = settings s.rg.parameters))
      (fun g g' qe junk c hp hn => ?_) hP
    · rw [(hset _ _ _ _ _ hn).2.1]
      exact hkey _ hP'.1 hP'.2
    · obtain ⟨k1, k2, -⟩ := hset g g' qe junk c hn
      exact ⟨k1.trans hp.1, Or.inr (k2.trans (hkey g hp.1 hp.2))⟩
  · have e1 := h1.params hp
    have e2 := (h2.params (by rw [e1]; exact hp)).trans e1
    have i2 := h2.fimm (h1.fimm hi)
    rw [h3]
    unfold Stepper.applySpeedAcceleration RampGen.applySpeedAcceleration RampParams.applyParameters RampGen.applyWrite RampGen.applyRead1 RampGen.applyRead2
    rw [hi, i2, e1, ← e2]
    by_cases hx : s2.rg.parameters.anyChange = true <;> simp [hx]
  · rw [h3]
    unfold RampGen.applyWrite RampGen.applyRead1
    rw [hi]
    rfl

/-- C94 for `forceStopAndNewPosition(p)`: wherever the task interrupts it, and for any number of task cycles afterwards, the ramp is idle with no steps to make, the queue is empty and the
position is `p`. -/
theorem C94_new_position (a : ArchId) (p : Int) (hp : i32 p = p) (s s1 s2 s3 s4 s5 s' : Stepper) (h : NewPositionCall a p s s1 s2 s3 s4 s5 s') :
    s'.rg = (s1.forceStopAndNewPosition p).rg ∧
    ∀ s'', Interruption a s' s'' → s''.rg = s'.rg ∧ s''.isRampGeneratorActive = false ∧ s''.rg.stepsToStop = 0 ∧ s''.isQueueEmpty = true ∧
      s''.getPositionAfterCommandsCompleted = p ∧ s''.getCurrentPosition a = p ∧ s''.rg.ro.targetPos = p := by
  obtain ⟨-, h2, h3, h4, h5, h6⟩ := h
  have idle : ∀ g : RampGen, g.rw.state = RampState.IDLE → g.isActive = false := by
    intro g hg
    unfold RampGen.isActive
    rw [hg]; decide
  obtain ⟨a1, -, -, -⟩ := h2.idle (idle _ rfl)
  have b0 : ({ s2 with rg := s2.rg.rampReset } : Stepper).rg = s1.rg.stopRamp := by
    change s2.rg.rampReset = _
    rw [a1]; rfl
  obtain ⟨a2, -, -, -⟩ := h3.idle (by rw [b0]; exact idle _ rfl)
  have b1 : s3.rg = s1.rg.stopRamp := a2.trans b0
  obtain ⟨a3, -, c3, d3⟩ := h4.idle (by change s3.rg.isActive = false; rw [b1]; exact idle _ rfl)
  have b2 : s4.rg = s1.rg.stopRamp := a3.trans b1
  have e4 : s4.hw.q.readIdx = s4.hw.q.nextWriteIdx := (d3 rfl).trans (show s3.dropQueue.hw.q.readIdx = _ by rw [c3]; rfl)
  obtain ⟨a5, b5, c5, d5⟩ := h5.idle (by change s4.rg.isActive = false; rw [b2]; exact idle _ rfl)
  have b3 : s5.rg = s1.rg.stopRamp := a5.trans b2
  have hrg : s'.rg = (s1.forceStopAndNewPosition p).rg := by
    rw [h6]
    change s5.rg.setTargetPosition p = _
    rw [b3]; rfl
  refine ⟨hrg, fun s'' m => ?_⟩
  have hi' : s'.rg.isActive = false := by rw [hrg]; exact idle _ rfl
  obtain ⟨a6, b6, c6, d6⟩ := m.idle hi'
  have hq : s'.hw = s5.hw := by rw [h6]
  have e5 : s5.hw.q.readIdx = s5.hw.q.nextWriteIdx := by
    rw [d5 e4, c5]; exact e4
  have e6 : s''.hw.q.readIdx = s''.hw.q.nextWriteIdx := by
    rw [d6 (by rw [hq]; exact e5), c6, hq]; exact e5
  have hpos : s''.hw.q.qend.pos = p := by rw [b6, hq, b5]; rfl
  refine ⟨a6, by unfold Stepper.isRampGeneratorActive; rw [a6]; exact hi', by rw [a6, hrg]; rfl, ?_, hpos, ?_, by rw [a6, hrg]; rfl⟩
  · unfold Stepper.isQueueEmpty Queue.isQueueEmpty Queue.queueEntries subU8
    rw [e6]
    simp only [beq_iff_eq]
    omega
  · unfold Stepper.getCurrentPosition Queue.getCurrentPosition
    dsimp only
    rw [if_pos e6, hpos]
    unfold toU32 i32 at *
    omega

/-- C94 for `setCurrentPosition(p)`: wherever the task interrupts it, the end of the queue and the target are shifted by the same distance, namely the one which makes the position at the begin of the
call to `p`. So the way to go is the one before. With commands in the queue see `C45_pending_commands_refuted`. -/
theorem C94_set_position (a : ArchId) (p : Int) (hp : i32 p = p) (s s1 s' : Stepper) (h : SetPositionCall a p s s1 s') (hq : i32 s1.hw.q.qend.pos = s1.hw.q.qend.pos)
    (ht : i32 s1.rg.ro.targetPos = s1.rg.ro.targetPos) :
    ∃ d, i32 (s.getCurrentPosition a + d) = p ∧
      s'.getPositionAfterCommandsCompleted = i32 (s1.getPositionAfterCommandsCompleted + d) ∧ s'.rg.ro.targetPos = i32 (s1.rg.ro.targetPos + d) ∧
      shortestWay s'.rg.ro.targetPos s'.getPositionAfterCommandsCompleted = shortestWay s1.rg.ro.targetPos s1.getPositionAfterCommandsCompleted ∧
      s'.rg.rw = s1.rg.rw ∧ s'.rg.parameters = s1.rg.parameters ∧ s'.hw.q.entry = s1.hw.q.entry := by
  obtain ⟨-, h2⟩ := h
  have hd : i32 (s.getCurrentPosition a + s.shiftRead a p) = p := by
    unfold Stepper.shiftRead
    unfold i32 at *
    omega
  refine ⟨s.shiftRead a p, hd, ?_⟩
  generalize s.shiftRead a p = d at h2
  rw [h2]
  unfold Stepper.shiftWrite Stepper.getPositionAfterCommandsCompleted
  by_cases hz : d ≠ 0
  · rw [if_pos hz]
    refine ⟨rfl, rfl, ?_, rfl, rfl, rfl⟩
    unfold RampGen.advanceTargetPosition shortestWay
    dsimp only
    unfold i32
    omega
  · rw [if_neg hz]
    have hz' : d = 0 := Decidable.not_not.mp hz
    rw [hz', Int.add_zero, Int.add_zero]
    exact ⟨hq.symm, ht.symm, rfl, rfl, rfl, rfl⟩

/-- C94 for the setters: interrupted between their test and their writes, they have the effect they have without interruption, at their last moment. -/
theorem C94_setters (a : ArchId) (c : ConfigCall) (s s1 s' : Stepper) (h : SetterCall a s s1 c s') : s' = c.run s1 := by
  cases h with
  | speed t h1 h2 hm =>
    obtain ⟨v1, -, -, -, v5, -⟩ := hm.values
    change _ = (s1.setSpeedInTicks t).1
    unfold Stepper.setSpeedInTicks
    rw [if_neg (by unfold Stepper.getMaxSpeedInTicks at *; rw [hm.limit]; omega), if_neg h2]
    unfold RampGen.speedWrite RampGen.speedTest RampParams.setSpeedInTicks
    rw [← v1, ← v5]
    cases hx : s1.rg.parameters.validSpeed <;> by_cases hy : s1.rg.parameters.minTravelTicks = t <;> simp [hy]
  | acceleration x h1 hm =>
    obtain ⟨-, v2, -, -, -, v6⟩ := hm.values
    change _ = (s1.setAcceleration x).1
    unfold Stepper.setAcceleration RampGen.setAcceleration
    rw [if_neg (by omega)]
    unfold RampGen.accelWrite RampGen.accelTest RampParams.setAcceleration
    rw [← v2, ← v6]
    cases hx : s1.rg.parameters.validAcceleration <;> by_cases hy : s1.rg.parameters.pmflAccel = pmflFrom x.toNat <;> simp [hy]
  | linear n hm =>
    obtain ⟨-, -, v3, -⟩ := hm.values
    change _ = s1.setLinearAcceleration n
    unfold Stepper.setLinearAcceleration RampGen.linearWrite RampGen.linearTest RampParams.setCubicAccelerationSteps
    rw [← v3]
    by_cases hy : s1.rg.parameters.sH = n <;> simp [hy]

/-! ## Refutations -/

/-- `moveTo(300)` with the first commands in the queue, which have been executed. -/
def underWay : Option Stepper := emptyCycles 1 creeping

/-- C94 is false of the code if an immediate stop is waiting for the task: on the way to 300, after `forceStop()`, the application calls `stopMove()`. The task comes after the byte with the bit has been
read, and serves the immediate stop. Then the call writes the byte with the bit of the immediate stop as it has been read. The next `runForward()` returns success, but the task ends it without a step. If
the task comes before or after `stopMove()`, then the motor runs. -/
theorem C94_stale_byte_refuted : ∃ s s2 s' : Stepper, RampHist .esp32 ApiCall.Typed s ∧ StopMoveCall .esp32 s s s2 s' ∧
    s'.isRampGeneratorActive = false ∧ (s'.startRun true).2 = MOVE_OK ∧
    (∃ t, (s'.startRun true).1.fillQueue .esp32 calmEnv junk0 = some t ∧ t.2 = [] ∧ t.1.isRampGeneratorActive = false) ∧
    (∃ t, (s2.stopMove.startRun true).1.fillQueue .esp32 calmEnv junk0 = some t ∧ t.2 ≠ [] ∧ t.1.isRampGeneratorActive = true) := by
  have hcomp : underWay.any (fun s1 => (s1.forceStop.fillQueue .esp32 calmEnv junk0).any (fun r =>
      let s' : Stepper := { r.1 with rg := r.1.rg.stopWrite s1.forceStop.rg.stopByte }
      decide (s'.isRampGeneratorActive = false) && decide ((s'.startRun true).2 = MOVE_OK) &&
      ((s'.startRun true).1.fillQueue .esp32 calmEnv junk0).any (fun t => decide (t.2 = [] ∧ t.1.isRampGeneratorActive = false)) &&
      ((r.1.stopMove.startRun true).1.fillQueue .esp32 calmEnv junk0).any (fun t => decide (t.2 ≠ [] ∧ t.1.isRampGeneratorActive = true)))) = true := by
    decide +kernel
  obtain ⟨s1, e1, h1⟩ := (Option.any_eq_true _ _).mp hcomp
  obtain ⟨⟨s2, acc⟩, e2, h2⟩ := (Option.any_eq_true _ _).mp h1
  simp only [Bool.and_eq_true, decide_eq_true_eq] at h2
  obtain ⟨⟨⟨k1, k2⟩, k3⟩, k4⟩ := h2
  obtain ⟨-, g1⟩ := emptyCycles_meanwhile 1 _ _ e1 creeping_hist
  exact ⟨s1.forceStop, s2, _, Slow.typed (.call .forceStop g1 trivial), ⟨.nothing _, .task calmEnv junk0 acc (.nothing _) (by decide) e2, rfl⟩,
    k1, k2, exists_of_any k3, exists_of_any k4⟩

/-- C94 is false of the code if a command is waiting for the task: while the motor runs forward, the application calls `runBackward()` and `keepRunning()`. The task comes after `keepRunning()` has read the
byte with the flags. Then the call writes the flags of `runForward()` back, and the motor runs forward for ever. -/
theorem C94_keep_refuted : ∃ s s2 s' : Stepper, RampHist .esp32 ApiCall.Typed s ∧ KeepRunningCall .esp32 s s s2 s' ∧
    (∀ qe junk g c, s2.keepRunning.rg.getNextCommand .esp32 qe junk = some (g, c) → g.isRunningContinuously = true ∧ g.ro.config.parameters.keepRunningCountUp = false) ∧
    s'.isRampGeneratorActive = true ∧
    ∀ s'', Interruption .esp32 s' s'' → ∀ qe junk g c, s''.rg.getNextCommand .esp32 qe junk = some (g, c) →
      g.isRunningContinuously = true ∧ g.ro.config.parameters.keepRunningCountUp = true := by
  have hcomp : (underWay.bind fun s0 => (s0.startRun true).1.fillQueue .esp32 calmEnv junk0).any (fun r1 =>
      ((r1.1.startRun false).1.fillQueue .esp32 calmEnv junk0).any (fun r2 =>
        let g := r2.1.rg
        let g' := g.keepWrite (r1.1.startRun false).1.rg.keepRead
        decide (g.parameters.apply = false) && decide (g.ro.forceStop = false) && decide (g.setKeepRunning.ro.config.parameters.keepRunningCountUp = false) &&
        decide (g'.isActive = true) && decide (g'.ro.config.parameters.keepRunning = true) && decide (g'.ro.config.parameters.keepRunningCountUp = true))) = true := by
    decide +kernel
  obtain ⟨⟨s1, acc1⟩, e1, h1⟩ := (Option.any_eq_true _ _).mp hcomp
  obtain ⟨⟨s2, acc2⟩, e2, h2⟩ := (Option.any_eq_true _ _).mp h1
  simp only [Bool.and_eq_true, decide_eq_true_eq] at h2
  obtain ⟨⟨⟨⟨⟨k1, k2⟩, k3⟩, k4⟩, k5⟩, k6⟩ := h2
  obtain ⟨s0, e0, e1⟩ := Option.bind_eq_some_iff.mp e1
  obtain ⟨-, g0⟩ := emptyCycles_meanwhile 1 _ _ e0 creeping_hist
  have g1 : RampHist .esp32 ApiCall.Typed (s0.startRun true).1 := .call (.run true) (Slow.typed g0) trivial
  have g2 : RampHist .esp32 ApiCall.Typed s1 := .task calmEnv junk0 acc1 g1 (by decide) e1
  have g3 : RampHist .esp32 ApiCall.Typed (s1.startRun false).1 := .call (.run false) g2 trivial
  refine ⟨_, s2, _, g3, ⟨.nothing _, .task calmEnv junk0 acc2 (.nothing _) (by decide) e2, rfl⟩, ?_, k4, ?_⟩
  · intro qe junk g c hn
    obtain ⟨r1, -, -, -⟩ := service_ro hn
    unfold RampGen.isRunningContinuously
    rw [r1, prepare_config, nextParams_of _ (show s2.keepRunning.rg.parameters.apply = false from k1)]
    refine ⟨?_, k3⟩
    change (true && !s2.rg.ro.forceStop) = true
    rw [k2]; rfl
  · intro s'' m qe junk g c hn
    have hP := m.induct (fun p ro => p.apply = false ∧ ro.forceStop = false ∧ ro.config.parameters.keepRunning = true ∧ ro.config.parameters.keepRunningCountUp = true)
      (fun g g' qe junk c hp hn => ?_) ⟨k1, ?_, k5, k6⟩
    · obtain ⟨p1, p2, p3, p4⟩ := hP
      obtain ⟨r1, -, -, -⟩ := service_ro hn
      unfold RampGen.isRunningContinuously
      rw [r1, prepare_config, nextParams_of _ p1]
      refine ⟨?_, p4⟩
      dsimp only
      rw [p3, p2]; rfl
    · obtain ⟨p1, p2, p3, p4⟩ := hp
      obtain ⟨r1, r2, -, r4⟩ := service_ro hn
      rw [r1, r2, r4, prepare_config, nextParams_of _ p1]
      refine ⟨(prepFacts _ g qe).apply, p2, ?_, p4⟩
      dsimp only
      rw [p3, p2]; rfl
    · exact k2

/-- C94 is false of the code if the task runs on a second core: the task plans the next command on the way to 300. Before it puts the command into the queue, the application calls `forceStopAndNewPosition(0)`.
Then the task goes on and writes the state of the ramp back: the ramp is active again, and the next task cycle makes steps. -/
theorem C94_second_core_refuted : ∃ (s : Stepper) (f1 : Stepper.Fill) (cmd : NextCommand), RampHist .esp32 ApiCall.Typed s ∧ (fillStart .esp32 junk0 s).cond .esp32 = true ∧
    (fillStart .esp32 junk0 s).plan .esp32 = some (f1, cmd) ∧
    ∃ t, (({ f1 with s := f1.s.forceStopAndNewPosition 0 } : Stepper.Fill).commit .esp32 calmEnv 0 cmd).1.s = t ∧ t.isRampGeneratorActive = true ∧
      t.getPositionAfterCommandsCompleted = 0 ∧ ∃ r, t.fillQueue .esp32 calmEnv junk0 = some r ∧ r.2.any (fun c => decide (0 < c.steps)) = true := by
  have hcomp : (emptyCycles 12 creeping).any (fun s => (fillStart .esp32 junk0 s).cond .esp32 && ((fillStart .esp32 junk0 s).plan .esp32).any (fun r =>
      let t := (({ r.1 with s := r.1.s.forceStopAndNewPosition 0 } : Stepper.Fill).commit .esp32 calmEnv 0 r.2).1.s
      decide (t.isRampGeneratorActive = true) && decide (t.getPositionAfterCommandsCompleted = 0) &&
      (t.fillQueue .esp32 calmEnv junk0).any (fun r => decide (r.2.any (fun c => decide (0 < c.steps)) = true)))) = true := by
    decide +kernel
  obtain ⟨s, e1, h1⟩ := (Option.any_eq_true _ _).mp hcomp
  obtain ⟨k0, h1⟩ := Bool.and_eq_true_iff.mp h1
  obtain ⟨⟨f1, cmd⟩, e2, h2⟩ := (Option.any_eq_true _ _).mp h1
  simp only [Bool.and_eq_true, decide_eq_true_eq] at h2
  obtain ⟨⟨k1, k2⟩, k3⟩ := h2
  obtain ⟨-, g1⟩ := emptyCycles_meanwhile 12 _ _ e1 creeping_hist
  exact ⟨s, f1, cmd, Slow.typed g1, k0, e2, _, rfl, k1, k2, by
    obtain ⟨r, e, h⟩ := (Option.any_eq_true _ _).mp k3
    exact ⟨r, e, of_decide_eq_true h⟩⟩

/-! ## The hypotheses are met -/

/-- On the way to 300 after 12 task cycles, all calls interrupted by a task cycle, which makes a step, at their last possible moment. -/
theorem C94_nonvacuous : ∃ s t : Stepper, RampHist .esp32 ApiCall.Typed s ∧ s.isRampGeneratorActive = true ∧ s.rg.ro.forceImmediateStop = false ∧ s.rg.parameters.apply = false ∧
    NoMoveWaiting s ∧ t.isRampGeneratorActive = true ∧ t.getPositionAfterCommandsCompleted ≠ s.getPositionAfterCommandsCompleted ∧
    StopMoveCall .esp32 s s t t.stopMove ∧ KeepRunningCall .esp32 s s t t.keepRunning ∧ SetPositionCall .esp32 1000 s t (t.shiftWrite (s.shiftRead .esp32 1000)) ∧
    (∃ s', ForceStopCall .esp32 s s.ignoreCommands t s') ∧
    (∃ s2 s3 s4 s5 s', NewPositionCall .esp32 1000 s t s2 s3 s4 s5 s' ∧ s'.getCurrentPosition .esp32 = 1000) ∧
    SetterCall .esp32 s t (.speed 30000) { t with rg := t.rg.speedWrite 30000 (s.rg.speedTest 30000) } := by
  have hcomp : (emptyCycles 12 creeping).any (fun s => (s.fillQueue .esp32 calmEnv junk0).any (fun r => (s.ignoreCommands.fillQueue .esp32 calmEnv junk0).any (fun r' =>
      decide (s.isRampGeneratorActive = true) && decide (s.rg.ro.forceImmediateStop = false) && decide (s.rg.parameters.apply = false) &&
      decide (r.1.isRampGeneratorActive = true) && decide (r.1.getPositionAfterCommandsCompleted ≠ s.getPositionAfterCommandsCompleted) &&
      decide (s.rg.parameters.checkValidConfig = MOVE_OK) && decide (s.getMaxSpeedInTicks ≤ 30000)))) = true := by
    decide +kernel
  obtain ⟨s, e1, h1⟩ := (Option.any_eq_true _ _).mp hcomp
  obtain ⟨⟨t, acc⟩, e2, h2⟩ := (Option.any_eq_true _ _).mp h1
  obtain ⟨-, -, h3⟩ := (Option.any_eq_true _ _).mp h2
  simp only [Bool.and_eq_true, decide_eq_true_eq] at h3
  obtain ⟨⟨⟨⟨⟨⟨k1, k2⟩, k3⟩, k4⟩, k5⟩, k6⟩, k7⟩ := h3
  obtain ⟨-, g1⟩ := emptyCycles_meanwhile 12 _ _ e1 creeping_hist
  have hh := Slow.typed g1
  have hm : Interruption .esp32 s t := .task calmEnv junk0 acc (.nothing _) (by decide) e2
  have hsame : s.ignoreCommands.fillQueue .esp32 calmEnv junk0 = s.fillQueue .esp32 calmEnv junk0 := by
    have x1 : ¬ (!s.rg.isActive) = true := by rw [show s.rg.isActive = true from k1]; decide
    have x2 : ¬ s.rg.parameters.checkValidConfig ≠ MOVE_OK := fun h => h k6
    unfold Stepper.fillQueue
    rw [if_neg (show ¬ (!s.ignoreCommands.rg.isActive) = true from x1), if_neg (show ¬ s.ignoreCommands.rg.parameters.checkValidConfig ≠ MOVE_OK from x2),
      if_neg x1, if_neg x2]
    rfl
  have hm' : Interruption .esp32 s.ignoreCommands t := .task calmEnv junk0 acc (.nothing _) (by decide) (hsame.trans e2)
  have w1 : StopMoveCall .esp32 s s t { t with rg := t.rg.stopWrite s.rg.stopByte } := ⟨.nothing _, hm, rfl⟩
  have w2 : KeepRunningCall .esp32 s s t { t with rg := t.rg.keepWrite s.rg.keepRead } := ⟨.nothing _, hm, rfl⟩
  have w3 : NewPositionCall .esp32 1000 s t _ _ _ _ _ := ⟨hm', .nothing _, .nothing _, .nothing _, .nothing _, rfl⟩
  have hnm : NoMoveWaiting s := by
    intro hx
    rw [k3] at hx; cases hx
  refine ⟨s, t, hh, k1, k2, k3, hnm, k4, k5, ?_, ?_, ⟨hm, rfl⟩, ⟨_, .nothing _, hm', rfl⟩,
    ⟨_, _, _, _, _, w3, ((C94_new_position .esp32 1000 (by decide) _ _ _ _ _ _ _ w3).2 _ (.nothing _)).2.2.2.2.2.1⟩, .speed 30000 k7 (by decide) hm⟩
  · rw [← (C94_stopMove_partial .esp32 _ _ _ _ w1).1 k2]; exact w1
  · rw [← C94_keepRunning_partial .esp32 _ _ _ _ hh w2 k3]; exact w2

end FAS
