import Verif.Lemmas.Preempt
import Verif.Props.Cycles

/-!
# C80: move commands interrupted by the task
-/

namespace FAS

open Spec

/-! ## The parts are those of the calls -/

/-- A `moveTo()` which is not interrupted is the `moveTo()` of the other properties. -/
theorem InterruptedMoveTo.uninterrupted (a : ArchId) (p : Int) (s : Stepper) (hv : s.rg.parameters.checkValidConfig = MOVE_OK) :
    InterruptedMoveTo a p (s.rg.moveToRead3 s.rg.moveToRead1 s.rg.moveToRead2 s.hw.q.qend p) s (s.moveTo p).1 := by
  refine ⟨s, s, s, _, _, _, hv, .nothing _, .nothing _, rfl, .nothing _, .nothing _, .nothing _, .nothing _, ?_⟩
  unfold Stepper.moveTo RampGen.moveTo
  dsimp only
  rw [if_neg (by rw [hv]; simp)]
  unfold RampGen.startMove RampGen.startIf RampGen.moveToRead3 RampGen.moveToRead1 RampGen.moveToRead2
  dsimp only
  generalize decide ((if (s.rg.isActive && !s.rg.ro.config.parameters.keepRunning) = true then s.rg.ro.targetPos else s.hw.q.qend.pos) ≠ p) = b
  cases b <;> rfl

/-- The same for `move()`. -/
theorem InterruptedMove.uninterrupted (a : ArchId) (m : Int) (s : Stepper) (hv : s.rg.parameters.checkValidConfig = MOVE_OK)
    (hd : ¬ (m < 0 ∧ s.dirPin = pinUndefined)) : InterruptedMove a m s (s.move m).1 := by
  refine ⟨s, _, _, _, hv, .nothing _, .nothing _, .nothing _, .nothing _, ?_⟩
  unfold Stepper.move RampGen.move
  dsimp only
  rw [if_neg hd, if_neg (by rw [hv]; simp)]
  unfold RampGen.startMove RampGen.startIf
  dsimp only
  split <;> rfl

/-- The same for `runForward()` and `runBackward()`. -/
theorem InterruptedRun.uninterrupted (a : ArchId) (up : Bool) (s : Stepper) (hv : s.rg.parameters.checkValidConfig = MOVE_OK) :
    InterruptedRun a up s (s.startRun up).1 := by
  refine ⟨s, _, _, _, hv, .nothing _, .nothing _, .nothing _, .nothing _, ?_⟩
  unfold Stepper.startRun RampGen.startRun
  dsimp only
  rw [if_neg (by rw [hv]; simp)]
  rfl

/-- Planning and committing make up an iteration of the task. -/
theorem Fill_body_halves (a : ArchId) (env : Stepper.Env) (i : Nat) (f : Stepper.Fill) :
    f.body a env i = (match f.plan a with | none => none | some (f', cmd) => some (f'.commit a env i cmd)) := by
  unfold Stepper.Fill.body Stepper.Fill.plan Stepper.Fill.commit
  cases f.s.rg.getNextCommand a f.s.hw.q.qend f.cmd with
  | none => rfl
  | some r =>
    dsimp only
    split
    · split
      · rfl
      · split <;> rfl
    · rfl

/-! ## moveTo() -/

theorem Quiet.served_nostop (a : ArchId) : Served a (fun g _ => Quiet g ∧ g.ro.forceStop = false) := by
  have hQ := Quiet.served a
  have hfs : ∀ g g' qe junk c, Quiet g → g.ro.forceStop = false → g.getNextCommand a qe junk = some (g', c) → g'.ro.forceStop = false := by
    intro g g' qe junk c h h1 hn
    rw [service_plain h.fimm hn, (prepFacts a g qe).fstop]; exact h1
  exact ⟨fun g pos h => h.1.range, fun g g' qe junk c h ha hn ht => ⟨hQ.refused g g' qe junk c h.1 ha hn ht, hfs g g' qe junk c h.1 h.2 hn⟩,
    fun g g' qe junk c h ha hj hn ht => ⟨hQ.taken g g' qe junk c h.1 ha hj hn ht, hfs g g' qe junk c h.1 h.2 hn⟩,
    fun g g' qe junk c h ha hj hn ht => ⟨hQ.finished g g' qe junk c h.1 ha hj hn ht, hfs g g' qe junk c h.1 h.2 hn⟩⟩

theorem InRange_start {g : RampGen} (h : InRange g) (b : Bool) : InRange (g.startIf b) := by
  have hst := RampRw.start_facts g.rw
  unfold RampGen.startIf
  split
  · refine ⟨h.speed, h.jump, h.usedSpeed, h.usedJump, ?_, ?_⟩
    · change g.rw.startRampIfNotRunning.performedRampUpSteps < _
      rw [hst.1]; exact h.brake
    · change g.rw.startRampIfNotRunning.currTicks < _
      rcases hst.2.2 with h1 | ⟨-, h1⟩
      · rw [h1]; exact h.period
      · rw [h1]; decide
  · exact h

theorem startIf_active {g : RampGen} : (g.startIf true).isActive = true := by
  unfold RampGen.startIf RampGen.isActive RampRw.startRampIfNotRunning
  rw [if_pos rfl]
  by_cases h : g.rw.state = RampState.IDLE
  · dsimp only; rw [if_pos h]; rfl
  · dsimp only; rw [if_neg h]; simpa using h

theorem Asked.headsFor {a : ArchId} {p : Int} {s : Stepper} (h : Asked true p s.rg s.hw.q.qend.pos) : HeadsFor a p s := by
  obtain ⟨g1, g2⟩ := h.going rfl
  refine ⟨fun hi => ?_, fun ha qe junk g c hn => ?_⟩
  · rcases g2 with g2 | g2
    · unfold Stepper.isRampGeneratorActive at hi
      rw [g2] at hi; cases hi
    · exact g2
  · have hg := service_plain h.fimm hn
    have hp := prepFacts a s.rg qe
    rcases h.prepare a qe with ⟨-, h1⟩ | ⟨⟨-, h1, h2⟩, -⟩
    · rw [g1] at h1; cases h1
    · rw [nextParams_of _ hp.apply] at h2
      rw [hg]
      exact ⟨h1, h2, hp.fstop.trans g1, hp.fimm h.fimm⟩

/-- An idle ramp and the position at the end of the queue stay as they are. -/
theorem Spec.Meanwhile.idle {a : ArchId} {s s' : Stepper} (h : Meanwhile a s s') (hi : s.rg.isActive = false) :
    s'.rg = s.rg ∧ s'.hw.q.qend = s.hw.q.qend := by
  induction h with
  | nothing => exact ⟨rfl, rfl⟩
  | elapse _ he ih => rw [he.ramp, he.queueEnd]; exact ih
  | @task s1 s2 env junk acc _ hj hfq hna ih =>
    rw [Stepper.fillQueue_inactive a env junk s1 (by rw [ih.1]; exact hi)] at hfq
    cases hfq; exact ih

/-- C80 for `moveTo()`: wherever the task interrupts the call, and however many task cycles come there, afterwards the ramp heads for `p`, for any number of further task
cycles: an active ramp works towards `p`, and when it is idle, then all steps to `p` have been put into the queue. No immediate stop may wait for the task at the begin of the
call, and if the call considers `p` to be the present target (`changed = false`), then the ramp was idle at the begin of the call, or it was on course: not about
to stop, and without another move waiting for the task. Missing: the other cases, see `C80_stop_refuted` and `C80_stale_byte_refuted`, and a task on a second core, see
`C80_second_core_refuted`. -/
theorem C80_moveTo_partial (a : ArchId) (p : Int) (changed : Bool) (s s' : Stepper) (hh : RampHist a ApiCall.Typed s)
    (hpos : i32 s.getPositionAfterCommandsCompleted = s.getPositionAfterCommandsCompleted)
    (hf : s.rg.ro.forceImmediateStop = false)
    (hcase : changed = true ∨ s.isRampGeneratorActive = false ∨ OnCourse a s)
    (hm : InterruptedMoveTo a p changed s s') :
    ∀ s'', Meanwhile a s' s'' → HeadsFor a p s'' := by
  obtain ⟨s1, s2, s3, s4, s5, s6, hv, m1, m2, hch, m3, m4, m5, m6, hs'⟩ := hm
  have hr := RampHist.inRange hh
  have hpos' : i32 s.hw.q.qend.pos = s.hw.q.qend.pos := hpos
  -- up to the write of the target
  have hq3 : Quiet s3.rg ∧ i32 s3.hw.q.qend.pos = s3.hw.q.qend.pos := by
    have q1 := m1.inv (Quiet.served a) ⟨hr, hf⟩ hpos'
    have q2 := m2.inv (Quiet.served a) q1.1 q1.2
    exact m3.inv (Quiet.served a) q2.1 q2.2
  have hgo : changed = false → s3.rg.ro.forceStop = false ∧ (s3.rg.isActive = true ∨ shortestWay p s3.hw.q.qend.pos = 0) ∨
      (s3.rg.isActive = false ∧ shortestWay p s3.hw.q.qend.pos = 0) := by
    intro hc
    have hread : (if s.rg.moveToRead1 && !s1.rg.moveToRead2 then s2.rg.ro.targetPos else s2.hw.q.qend.pos) = p := by
      rw [hc] at hch
      unfold RampGen.moveToRead3 at hch
      simpa using hch
    by_cases hact : s.isRampGeneratorActive = true
    · rcases hcase with h1 | h1 | h1
      · rw [hc] at h1; cases h1
      · rw [hact] at h1; cases h1
      · left
        have h0 : Heading a true s.rg.ro.targetPos s.rg.ro.config.parameters.keepRunning s.rg s.hw.q.qend.pos :=
          ⟨hr, hf, h1.noStop, rfl, rfl, fun qe => ⟨h1.target qe, h1.continuous qe⟩, fun _ => Or.inl hact, hh.idleValue⟩
        have i1 := m1.inv (Heading.served a _ _ _) h0 hpos'
        have i2 := m2.inv (Heading.served a _ _ _) i1.1 i1.2
        have i3 := m3.inv (Heading.served a _ _ _) i2.1 i2.2
        refine ⟨i3.1.fstop, ?_⟩
        rcases i3.1.going rfl with h2 | ⟨h2, h3⟩
        · exact Or.inl h2
        · right
          unfold RampGen.moveToRead1 RampGen.moveToRead2 at hread
          rw [show s.rg.isActive = true from hact, i1.1.keep, h2] at hread
          simp only [Bool.not_false, Bool.and_self, if_true] at hread
          rw [i2.1.target] at hread
          rw [← hread]; exact h3
    · right
      have hi : s.rg.isActive = false := by unfold Stepper.isRampGeneratorActive at hact; simpa using hact
      have j1 := m1.idle hi
      have j2 := m2.idle (by rw [j1.1]; exact hi)
      have j3 := m3.idle (by rw [j2.1, j1.1]; exact hi)
      refine ⟨by rw [j3.1, j2.1, j1.1]; exact hi, ?_⟩
      unfold RampGen.moveToRead1 at hread
      rw [hi] at hread
      simp only [Bool.false_and, Bool.false_eq_true, if_false] at hread
      rw [j3.2, hread]
      unfold shortestWay i32
      omega
  -- after it
  have hask : Asks p (s3.rg.moveToWrite p) := ⟨rfl, rfl, rfl, rfl⟩
  have hr3 : InRange (s3.rg.moveToWrite p) := ⟨hq3.1.range.speed, hq3.1.range.jump, hq3.1.range.usedSpeed, hq3.1.range.usedJump, hq3.1.range.brake, hq3.1.range.period⟩
  have hfinal : Asked true p s'.rg s'.hw.q.qend.pos ∧ i32 s'.hw.q.qend.pos = s'.hw.q.qend.pos := by
    have hclear : ∀ (ns : Bool) (g : RampGen) (b : StopByte) (pos : Int), b.forceImmediateStop = false → Asked false p g pos →
        (ns = true → g.isActive = true ∨ shortestWay p pos = 0) → Asked ns p (g.clearStop b) pos := by
      intro ns g b pos hb h hns
      refine ⟨⟨h.range.speed, h.range.jump, h.range.usedSpeed, h.range.usedJump, h.range.brake, h.range.period⟩, hb, ?_, fun h1 => ⟨rfl, hns h1⟩⟩
      rcases h.ask with h1 | ⟨h1, -, h2⟩
      · exact Or.inl h1
      · exact Or.inr ⟨h1, rfl, h2⟩
    have hstart : ∀ (g : RampGen) (pos : Int), Asked false p g pos → g.ro.forceStop = false → Asked true p (g.startIf true) pos := by
      intro g pos h hfs
      refine ⟨InRange_start h.range true, h.fimm, ?_, fun _ => ⟨hfs, Or.inl startIf_active⟩⟩
      rcases h.ask with h1 | ⟨h1, h2, -⟩
      · exact Or.inl h1
      · exact Or.inr ⟨h1, h2, Or.inl startIf_active⟩
    cases hc : changed
    · -- the ramp is not started
      rw [hc] at hs'
      rcases hgo hc with ⟨e1, e2⟩ | ⟨e1, e2⟩
      · have a3 : Asked true p (s3.rg.moveToWrite p) s3.hw.q.qend.pos := ⟨hr3, hq3.1.fimm, Or.inl hask, fun _ => ⟨e1, e2⟩⟩
        have a4 := m4.inv (Asked.served true a p) a3 hq3.2
        have a5 := m5.inv (Asked.served true a p) a4.1 a4.2
        have a6 := m6.inv (Asked.served true a p)
          (hclear true _ _ _ a4.1.fimm ⟨a5.1.range, a5.1.fimm, a5.1.ask, fun h => nomatch h⟩ (fun _ => (a5.1.going rfl).2)) a5.2
        rw [hs']
        exact a6
      · have i4 := m4.idle (show (s3.rg.moveToWrite p).isActive = false from e1)
        have i5 := m5.idle (by rw [i4.1]; exact e1)
        have a5 : Asked false p s5.rg s5.hw.q.qend.pos := by
          rw [i5.1, i5.2, i4.1, i4.2]
          exact ⟨hr3, hq3.1.fimm, Or.inl hask, fun h => nomatch h⟩
        have hw : shortestWay p s5.hw.q.qend.pos = 0 := by rw [i5.2, i4.2]; exact e2
        have a6 := m6.inv (Asked.served true a p) (hclear true _ _ _ (by rw [i4.1]; exact hq3.1.fimm) a5 (fun _ => Or.inr hw))
          (by rw [i5.2, i4.2]; exact hq3.2)
        rw [hs']
        exact a6
    · rw [hc] at hs'
      have a3 : Asked false p (s3.rg.moveToWrite p) s3.hw.q.qend.pos := ⟨hr3, hq3.1.fimm, Or.inl hask, fun h => nomatch h⟩
      have a4 := m4.inv (Asked.served false a p) a3 hq3.2
      have a5 := m5.inv (Asked.served false a p) a4.1 a4.2
      have c5 := hclear false _ s4.rg.stopByte _ a4.1.fimm a5.1 (fun h => nomatch h)
      have a6 := m6.inv (Asked.served false a p) c5 a5.2
      -- the stop stays cleared
      have hns : s6.rg.ro.forceStop = false := by
        exact (m6.inv (Quiet.served_nostop a) ⟨⟨c5.range, c5.fimm⟩, rfl⟩ a5.2).1.2
      rw [hs']
      exact ⟨hstart _ _ a6.1 hns, a6.2⟩
  intro s'' m7
  exact (m7.inv (Asked.served true a p) hfinal.1 hfinal.2).1.headsFor

/-! ## move() -/

/-- C80 for `move()`: wherever the task interrupts the call, afterwards the ramp heads for the target position at the begin of the call plus `m`. The ramp must be on course at the
begin of the call and not run continuously; for `m = 0` and an idle ramp the motor is at the target position. -/
theorem C80_move_partial (a : ArchId) (m : Int) (s s' : Stepper) (hh : RampHist a ApiCall.Typed s)
    (hpos : i32 s.getPositionAfterCommandsCompleted = s.getPositionAfterCommandsCompleted)
    (hf : s.rg.ro.forceImmediateStop = false) (hc : OnCourse a s) (hk : s.rg.isRunningContinuously = false)
    (h0 : m ≠ 0 ∨ s.isRampGeneratorActive = true ∨ shortestWay s.rg.ro.targetPos s.getPositionAfterCommandsCompleted = 0)
    (hm : InterruptedMove a m s s') :
    ∀ s'', Meanwhile a s' s'' → HeadsFor a (i32 (s.rg.ro.targetPos + m)) s'' := by
  obtain ⟨s3, s4, s5, s6, hv, m3, m4, m5, m6, hs'⟩ := hm
  have hr := RampHist.inRange hh
  have hpos' : i32 s.hw.q.qend.pos = s.hw.q.qend.pos := hpos
  have hk' : s.rg.ro.config.parameters.keepRunning = false := hk
  have i0 : Heading a (decide (m = 0)) s.rg.ro.targetPos false s.rg s.hw.q.qend.pos := by
    refine ⟨hr, hf, hc.noStop, rfl, hk', fun qe => ⟨hc.target qe, (hc.continuous qe).trans hk⟩, fun hx => ?_, hh.idleValue⟩
    rcases h0 with h0 | h0 | h0
    · exact absurd (of_decide_eq_true hx) h0
    · exact Or.inl h0
    · exact Or.inr ⟨rfl, h0⟩
  have i3 := m3.inv (Heading.served a _ _ _) i0 hpos'
  generalize hT : s.rg.ro.targetPos = T at *
  -- the write of the distance
  have c3 : Course a (decide (m = 0)) (i32 (T + m)) (s3.rg.moveWrite m) s3.hw.q.qend.pos := by
    refine ⟨⟨i3.1.range.speed, i3.1.range.jump, i3.1.range.usedSpeed, i3.1.range.usedJump, i3.1.range.brake, i3.1.range.period⟩, i3.1.fimm, i3.1.fstop,
      fun qe => ?_, fun hx => ?_⟩
    · have hp := prepFacts a (s3.rg.moveWrite m) qe
      have hn : (s3.rg.moveWrite m).nextParams = s3.rg.parameters.setTargetRelativePosition m := rfl
      refine ⟨?_, ?_⟩
      · rw [hp.target i3.1.fstop, hn]
        change (if true && !false then if false = true then _ else i32 ((if s3.rg.ro.config.parameters.keepRunning then qe.pos else s3.rg.ro.targetPos) +
          (if s3.rg.parameters.anyChange && !s3.rg.parameters.moveAbsolute then i32 (s3.rg.parameters.moveValue + m) else m)) else _) = _
        rw [i3.1.keep, i3.1.target]
        simp only [Bool.not_false, Bool.and_self, if_true, Bool.false_eq_true, if_false]
        split
        · rename_i hx
          obtain ⟨x1, x2⟩ := Bool.and_eq_true_iff.mp hx
          have x2' : s3.rg.parameters.moveAbsolute = false := by simpa using x2
          have hval : i32 (T + s3.rg.parameters.moveValue) = i32 T := by
            by_cases hap : s3.rg.parameters.apply = true
            · have hp3 := prepFacts a s3.rg qe
              have hn3 : s3.rg.nextParams = s3.rg.parameters := by unfold RampGen.nextParams; rw [if_pos hap]
              obtain ⟨f1, f2⟩ := i3.1.after qe
              rw [hp3.target i3.1.fstop, hn3, x1, x2', i3.1.target, i3.1.keep] at f1
              rw [hp3.keep, hn3, i3.1.fstop] at f2
              have f3 : s3.rg.parameters.keepRunning = false := by simpa using f2
              rw [f3] at f1
              simp only [Bool.not_false, Bool.and_self, if_true, Bool.false_eq_true, if_false] at f1
              generalize s3.rg.parameters.moveValue = v at *
              clear * - f1
              unfold i32 at *
              omega
            · rw [i3.1.idleValue (by simpa using hap), Int.add_zero]
          clear * - hval
          generalize s3.rg.parameters.moveValue = v at *
          unfold i32 at *
          omega
        · rfl
      · rw [hp.keep, hn]; rfl
    · rcases i3.1.going hx with h1 | ⟨-, h1⟩
      · exact Or.inl h1
      · right
        have hm0 : m = 0 := of_decide_eq_true hx
        rw [hm0, Int.add_zero]
        clear * - h1
        unfold shortestWay i32 at *
        omega
  have c4 := m4.inv (Course.served a _ _) c3 i3.2
  have c5 := m5.inv (Course.served a _ _) c4.1 c4.2
  have hcl : s5.rg.clearStop s4.rg.stopByte = s5.rg := by
    have e1 := c4.1.fimm
    have e2 := c5.1.fimm
    have e3 := c5.1.fstop
    unfold RampGen.clearStop RampGen.stopByte
    dsimp only
    rw [e1]
    generalize s5.rg = g at *
    obtain ⟨gp, ⟨gc, gt, gs, gi⟩, gw, ga⟩ := g
    dsimp only at e2 e3 ⊢
    rw [e2, e3]
  have c6 := m6.inv (Course.served a _ _) (by rw [hcl]; exact c5.1) c5.2
  have c7 : Course a true (i32 (T + m)) s'.rg s'.hw.q.qend.pos ∧ i32 s'.hw.q.qend.pos = s'.hw.q.qend.pos := by
    rw [hs']
    refine ⟨?_, c6.2⟩
    by_cases hm0 : m = 0
    · have hb : decide (m ≠ 0) = false := by simp [hm0]
      dsimp only
      rw [hb]
      change Course a true (i32 (T + m)) s6.rg s6.hw.q.qend.pos
      have hx : decide (m = 0) = true := by simp [hm0]
      rw [hx] at c6
      exact c6.1
    · have hb : decide (m ≠ 0) = true := by simp [hm0]
      dsimp only
      rw [hb]
      refine ⟨InRange_start c6.1.range true, c6.1.fimm, c6.1.fstop, fun qe => ?_, fun _ => Or.inl startIf_active⟩
      have hp := prepFacts a (s6.rg.startIf true) qe
      have hp6 := prepFacts a s6.rg qe
      obtain ⟨f1, f2⟩ := c6.1.after qe
      rw [hp6.target c6.1.fstop] at f1
      rw [hp6.keep] at f2
      exact ⟨(hp.target c6.1.fstop).trans f1, hp.keep.trans f2⟩
  intro s'' m7
  obtain ⟨c8, -⟩ := m7.inv (Course.served a _ _) c7.1 c7.2
  refine ⟨fun hi => ?_, fun ha qe junk g c hn => ?_⟩
  · rcases c8.going rfl with h1 | h1
    · unfold Stepper.isRampGeneratorActive at hi
      rw [h1] at hi; cases hi
    · exact h1
  · have hg := service_plain c8.fimm hn
    have hp := prepFacts a s''.rg qe
    rw [hg]
    exact ⟨(c8.after qe).1, (c8.after qe).2, hp.fstop.trans c8.fstop, hp.fimm c8.fimm⟩

/-! ## runForward(), runBackward() -/

/-- C80 for `runForward()` and `runBackward()`: wherever the task interrupts the call, and even if the ramp was about to stop, afterwards the ramp runs in
this direction without end. -/
theorem C80_run_partial (a : ArchId) (up : Bool) (s s' : Stepper) (hh : RampHist a ApiCall.Typed s)
    (hpos : i32 s.getPositionAfterCommandsCompleted = s.getPositionAfterCommandsCompleted)
    (hf : s.rg.ro.forceImmediateStop = false) (hm : InterruptedRun a up s s') :
    ∀ s'', Meanwhile a s' s'' → Endless a up s'' := by
  obtain ⟨s3, s4, s5, s6, hv, m3, m4, m5, m6, hs'⟩ := hm
  have hr := RampHist.inRange hh
  have q3 := m3.inv (Quiet.served a) ⟨hr, hf⟩ hpos
  have q4 := m4.inv (Quiet.served a) q3.1 q3.2
  have q5 := m5.inv (Quiet.served_nostop a) ⟨⟨⟨q4.1.range.speed, q4.1.range.jump, q4.1.range.usedSpeed, q4.1.range.usedJump, q4.1.range.brake, q4.1.range.period⟩, q3.1.fimm⟩, rfl⟩ q4.2
  obtain ⟨⟨⟨q6, q7⟩, q8⟩, q9⟩ := q5
  have r6 := m6.inv (Running.served a false up)
    ⟨⟨q6.speed, q6.jump, q6.usedSpeed, q6.usedJump, q6.brake, q6.period⟩, q7, q8, rfl, rfl, fun h => nomatch h⟩ q9
  have r7 : Running true up s'.rg ∧ i32 s'.hw.q.qend.pos = s'.hw.q.qend.pos := by
    rw [hs']
    exact ⟨⟨InRange_start r6.1.range true, r6.1.fimm, r6.1.fstop, r6.1.keep, r6.1.dir, fun _ => startIf_active⟩, r6.2⟩
  intro s'' m7
  obtain ⟨r8, -⟩ := m7.inv (Running.served a true up) r7.1 r7.2
  refine ⟨r8.going rfl, fun qe junk g c hn => ?_⟩
  have hg := service_plain r8.fimm hn
  have hp := prepFacts a s''.rg qe
  rw [hg]
  refine ⟨?_, by rw [hp.up]; exact r8.dir, hp.fstop.trans r8.fstop, hp.fimm r8.fimm⟩
  change (s''.rg.prepare a qe).ro.config.parameters.keepRunning = true
  rw [hp.keep, r8.keep, r8.fstop]; rfl

/-! ## The cases which are excluded -/

/-- The hypotheses of `C35_never_aborted_partial` about the configuration, for the ESP32 and 16000 ticks. -/
def ordinary (s : Stepper) : Bool :=
  decide (s.hw.q.maxSpeedInTicks ≤ 16000) && decide (s.dirChangeDelayTicks = 0) && decide (s.rg.parameters.checkValidConfig = MOVE_OK) &&
  decide (s.dirPin ≠ pinUndefined) && decide (s.autoEnable = false) && decide (s.hw.q.nextWriteIdx < 256)

/-- Task cycles, and the queue runs empty after each of them. -/
def emptyCycles : Nat → Stepper → Option Stepper
  | 0, s => some s
  | n + 1, s =>
    if ordinary s then
      match s.fillQueue .esp32 calmEnv junk0 with
      | none => none
      | some (s1, _) =>
        if ordinary s1 then emptyCycles n { s1 with hw := { s1.hw with q := { s1.hw.q with readIdx := s1.hw.q.nextWriteIdx } } } else none
    else none

theorem emptyCycles_meanwhile : ∀ n s s', emptyCycles n s = some s' → RampHist .esp32 (ApiCall.Slow 16000) s →
    Meanwhile .esp32 s s' ∧ RampHist .esp32 (ApiCall.Slow 16000) s' := by
  intro n
  have key : ∀ n s s', emptyCycles n s = some s' → ∀ s0, Meanwhile .esp32 s0 s → RampHist .esp32 (ApiCall.Slow 16000) s →
      Meanwhile .esp32 s0 s' ∧ RampHist .esp32 (ApiCall.Slow 16000) s' := by
    intro n
    induction n with
    | zero => intro s s' h s0 hm hh; cases h; exact ⟨hm, hh⟩
    | succ n ih =>
      intro s s' h s0 hm hh
      unfold emptyCycles at h
      split at h
      · rename_i ho
        split at h
        · cases h
        · rename_i s1 acc hf
          split at h
          · rename_i ho1
            unfold ordinary at ho ho1
            simp only [Bool.and_eq_true, decide_eq_true_eq] at ho ho1
            obtain ⟨⟨⟨⟨⟨o1, o2⟩, o3⟩, o4⟩, o5⟩, o6⟩ := ho
            have hna := C35_never_aborted_partial .esp32 16000 (by decide) (by decide) s hh o1 (Or.inl o2) o3 o4 (.undelayed (Or.inl o5)) calmEnv junk0 (by decide)
            refine ih _ s' h s0 (.elapse (.task calmEnv junk0 acc hm (by decide) hf hna) ⟨rfl, rfl, rfl, rfl, rfl, rfl, rfl, rfl, ho1.2, ho1.2, ?_⟩)
              (.other (.task calmEnv junk0 acc hh (by decide) hf) rfl)
            change subU8 s1.hw.q.nextWriteIdx s1.hw.q.nextWriteIdx ≤ _
            unfold subU8; omega
          · cases h
      · cases h
  intro s s' h hh
  exact key n s s' h s (.nothing s) hh

/-- The stepper `standing0` on its way to 300, slowly accelerating. -/
def creeping : Stepper := configuredMove standing0 20000 100 0 0 300

theorem creeping_hist : RampHist .esp32 (ApiCall.Slow 16000) creeping := by
  have h0 : RampHist .esp32 (ApiCall.Slow 16000) standing0 := .start _ rfl
  have h1 := RampHist.call (.config (.speed 20000)) h0 (by change 16000 ≤ 20000 ∧ 20000 ≤ 65535; omega)
  have h2 := RampHist.call (.config (.acceleration 100)) h1 trivial
  have h3 := RampHist.call (.config (.linear 0)) h2 trivial
  have h4 := RampHist.call (.config (.jump 0)) h3 rfl
  exact RampHist.call (.moveTo 300) h4 trivial

/-- An idle ramp stays where it is. -/
theorem idle_stays {a : ArchId} {s s' : Stepper} (h : Meanwhile a s s') (hi : s.isRampGeneratorActive = false) :
    s'.isRampGeneratorActive = false ∧ s'.getPositionAfterCommandsCompleted = s.getPositionAfterCommandsCompleted := by
  obtain ⟨h1, h2⟩ := h.idle hi
  unfold Stepper.isRampGeneratorActive Stepper.getPositionAfterCommandsCompleted
  rw [h1, h2]; exact ⟨hi, rfl⟩

theorem Slow.typed {L : Nat} {s : Stepper} (h : RampHist .esp32 (ApiCall.Slow L) s) : RampHist .esp32 ApiCall.Typed s := Spec.RampHist.typed h

/-- C80 is false of the code for a ramp which is about to stop: on the way to 300, after `stopMove()`, the application calls `moveTo(300)`. The call finds 300 to be
the present target. Then the task completes the stop, at position 2. The call goes on, does not start the ramp, and returns success. The motor never moves to 300. -/
theorem C80_stop_refuted : ∃ s s' : Stepper, RampHist .esp32 ApiCall.Typed s ∧ s.rg.ro.forceImmediateStop = false ∧
    InterruptedMoveTo .esp32 300 false s s' ∧
    ∀ s'', Meanwhile .esp32 s' s'' → s''.isRampGeneratorActive = false ∧ s''.getPositionAfterCommandsCompleted = 2 := by
  have hcomp : (emptyCycles 1 creeping).any (fun s1 =>
      decide (s1.stopMove.rg.ro.forceImmediateStop = false) && decide (s1.stopMove.rg.parameters.checkValidConfig = MOVE_OK) &&
      decide (s1.stopMove.rg.moveToRead3 s1.stopMove.rg.moveToRead1 s1.stopMove.rg.moveToRead2 s1.stopMove.hw.q.qend 300 = false) &&
      (emptyCycles 6 s1.stopMove).any (fun s2 =>
        decide (s2.isRampGeneratorActive = false) && decide (s2.getPositionAfterCommandsCompleted = 2))) = true := by
    decide +kernel
  obtain ⟨s1, e1, h1⟩ := (Option.any_eq_true _ _).mp hcomp
  obtain ⟨h1, h2⟩ := Bool.and_eq_true_iff.mp h1
  obtain ⟨s2, e2, h2⟩ := (Option.any_eq_true _ _).mp h2
  simp only [Bool.and_eq_true, decide_eq_true_eq] at h1 h2
  obtain ⟨⟨h1, h3⟩, h4⟩ := h1
  obtain ⟨h5, h6⟩ := h2
  obtain ⟨-, g1⟩ := emptyCycles_meanwhile 1 _ _ e1 creeping_hist
  have g2 : RampHist .esp32 (ApiCall.Slow 16000) s1.stopMove := .call .stopMove g1 trivial
  obtain ⟨m2, -⟩ := emptyCycles_meanwhile 6 _ _ e2 g2
  refine ⟨s1.stopMove, _, Slow.typed g2, h1, ⟨_, _, s2, _, _, _, h3, .nothing _, .nothing _, h4.symm, m2, .nothing _, .nothing _, .nothing _, rfl⟩, ?_⟩
  intro s'' m
  obtain ⟨i1, i2⟩ := idle_stays m h5
  exact ⟨i1, i2.trans h6⟩

/-- C80 is false of the code if an immediate stop is waiting for the task: on the way to 300, after `forceStop()`, the application calls `moveTo(500)`. The task comes while
the call clears `force_stop`, after the byte with this bit has been read. The task takes over the move and drops the immediate stop, but then the call writes the bit of the immediate stop
back as it has read it. The next task cycle stops the ramp at position 1, and the motor never moves to 500. -/
theorem C80_stale_byte_refuted : ∃ s s' s1 : Stepper, RampHist .esp32 ApiCall.Typed s ∧
    InterruptedMoveTo .esp32 500 true s s' ∧ Meanwhile .esp32 s' s1 ∧
    ∀ s'', Meanwhile .esp32 s1 s'' → s''.isRampGeneratorActive = false ∧ s''.getPositionAfterCommandsCompleted = 1 := by
  have hcomp : (emptyCycles 1 creeping).any (fun s1 =>
      let s := s1.forceStop
      let s3 : Stepper := { s with rg := s.rg.moveToWrite 500 }
      decide (s.rg.parameters.checkValidConfig = MOVE_OK) &&
      decide (s.rg.moveToRead3 s.rg.moveToRead1 s.rg.moveToRead2 s.hw.q.qend 500 = true) &&
      decide (s3.rg = (s.moveTo 500).1.rg) &&
      (emptyCycles 1 s3).any (fun s5 =>
        let s6 : Stepper := { s5 with rg := (s5.rg.clearStop s3.rg.stopByte).startIf true }
        decide (s6.rg = (s5.forceStop).rg) &&
        (emptyCycles 1 s6).any (fun s7 =>
          decide (s7.isRampGeneratorActive = false) && decide (s7.getPositionAfterCommandsCompleted = 1)))) = true := by
    decide +kernel
  obtain ⟨s1, e1, h1⟩ := (Option.any_eq_true _ _).mp hcomp
  dsimp only at h1
  obtain ⟨h1, h2⟩ := Bool.and_eq_true_iff.mp h1
  obtain ⟨s5, e5, h2⟩ := (Option.any_eq_true _ _).mp h2
  obtain ⟨h2, h3⟩ := Bool.and_eq_true_iff.mp h2
  obtain ⟨s7, e7, h3⟩ := (Option.any_eq_true _ _).mp h3
  simp only [Bool.and_eq_true, decide_eq_true_eq] at h1 h2 h3
  obtain ⟨⟨h4, h5⟩, h6⟩ := h1
  obtain ⟨h7, h8⟩ := h3
  obtain ⟨-, g1⟩ := emptyCycles_meanwhile 1 _ _ e1 creeping_hist
  have g2 : RampHist .esp32 (ApiCall.Slow 16000) s1.forceStop := .call .forceStop g1 trivial
  have g3 : RampHist .esp32 (ApiCall.Slow 16000) { s1.forceStop with rg := s1.forceStop.rg.moveToWrite 500 } :=
    .other (.call (.moveTo 500) g2 trivial) h6
  obtain ⟨m5, g5⟩ := emptyCycles_meanwhile 1 _ _ e5 g3
  have g6 : RampHist .esp32 (ApiCall.Slow 16000)
      { s5 with rg := (s5.rg.clearStop ({ s1.forceStop with rg := s1.forceStop.rg.moveToWrite 500 } : Stepper).rg.stopByte).startIf true } :=
    .other (.call .forceStop g5 trivial) h2
  obtain ⟨m7, -⟩ := emptyCycles_meanwhile 1 _ _ e7 g6
  refine ⟨s1.forceStop, _, s7, Slow.typed g2, ⟨_, _, s1.forceStop, _, s5, _, h4, .nothing _, .nothing _, h5.symm, .nothing _, .nothing _, m5, .nothing _, rfl⟩, m7, ?_⟩
  intro s'' m
  obtain ⟨i1, i2⟩ := idle_stays m h7
  exact ⟨i1, i2.trans h8⟩

/-- The stepper `standing0` after `moveTo(300)` and `moveTo(0)`, before the task: the ramp is active, the motor is at the target. -/
def returning : Stepper := (creeping.moveTo 0).1

/-- C80 is false of the code if the task runs on a second core: the task plans the next command of a ramp which has arrived at its target, the result is that the ramp
gets idle. Before the task writes this back, the application calls `moveTo(300)`. The call finds an active ramp, so it does not start it, and returns success. Then the task
makes the ramp idle. The motor never moves to 300. -/
theorem C80_second_core_refuted : ∃ (f f1 : Stepper.Fill) (cmd : NextCommand), RampHist .esp32 ApiCall.Typed returning ∧ f = fillStart .esp32 junk0 returning ∧ f.cond .esp32 = true ∧
    f.plan .esp32 = some (f1, cmd) ∧ (f1.s.moveTo 300).2 = MOVE_OK ∧
    ∀ env i s'', Meanwhile .esp32 (({ f1 with s := (f1.s.moveTo 300).1 } : Stepper.Fill).commit .esp32 env i cmd).1.s s'' →
      s''.isRampGeneratorActive = false ∧ s''.getPositionAfterCommandsCompleted = 0 := by
  have hcomp : ((fillStart .esp32 junk0 returning).cond .esp32 && ((fillStart .esp32 junk0 returning).plan .esp32).any (fun r =>
      decide ((r.1.s.moveTo 300).2 = MOVE_OK) && decide (r.2.command.ticks = 0) && decide (r.2.rw.state = RampState.IDLE) &&
      decide ((r.1.s.moveTo 300).1.hw.q.qend.pos = 0))) = true := by
    decide +kernel
  obtain ⟨h0, h1⟩ := Bool.and_eq_true_iff.mp hcomp
  obtain ⟨⟨f1, cmd⟩, e1, h1⟩ := (Option.any_eq_true _ _).mp h1
  simp only [Bool.and_eq_true, decide_eq_true_eq] at h1
  obtain ⟨⟨⟨h1, h2⟩, h3⟩, h4⟩ := h1
  refine ⟨_, f1, cmd, Slow.typed (.call (.moveTo 0) creeping_hist trivial), rfl, h0, e1, h1, fun env i s'' m => ?_⟩
  have hc : (({ f1 with s := (f1.s.moveTo 300).1 } : Stepper.Fill).commit .esp32 env i cmd).1.s =
      { (f1.s.moveTo 300).1 with rg := (f1.s.moveTo 300).1.rg.afterCommandEnqueued cmd } := by
    unfold Stepper.Fill.commit
    rw [if_neg (by rw [h2]; simp)]
  rw [hc] at m
  have hi : ({ (f1.s.moveTo 300).1 with rg := (f1.s.moveTo 300).1.rg.afterCommandEnqueued cmd } : Stepper).isRampGeneratorActive = false := by
    unfold Stepper.isRampGeneratorActive RampGen.isActive RampGen.afterCommandEnqueued
    dsimp only
    rw [h3]; decide
  obtain ⟨i1, i2⟩ := idle_stays m hi
  exact ⟨i1, i2.trans h4⟩

/-! ## The hypotheses are met -/

/-- `moveTo(300)` on the way to 300, interrupted by a task cycle after the write of the target. The ramp is on course. -/
example : ∃ s s' : Stepper, RampHist .esp32 ApiCall.Typed s ∧ s.isRampGeneratorActive = true ∧ OnCourse .esp32 s ∧
    i32 s.getPositionAfterCommandsCompleted = s.getPositionAfterCommandsCompleted ∧
    InterruptedMoveTo .esp32 300 false s s' ∧ s'.isRampGeneratorActive = true ∧ s'.getPositionAfterCommandsCompleted = 2 := by
  have hcomp : (emptyCycles 1 creeping).any (fun s =>
      let s3 : Stepper := { s with rg := s.rg.moveToWrite 300 }
      decide (s.rg.parameters.checkValidConfig = MOVE_OK) &&
      decide (s.rg.moveToRead3 s.rg.moveToRead1 s.rg.moveToRead2 s.hw.q.qend 300 = false) &&
      decide (s3.rg = (s.moveTo 300).1.rg) && decide (s.rg.isActive = true) && decide (s.rg.ro.forceStop = false) &&
      decide (s.rg.nextParams.anyChange = false) && decide (s.rg.parameters.apply = false) &&
      decide (i32 s.getPositionAfterCommandsCompleted = s.getPositionAfterCommandsCompleted) &&
      (emptyCycles 3 s3).any (fun s5 => decide (s5.rg.isActive = true) && decide (s5.getPositionAfterCommandsCompleted = 2))) = true := by
    decide +kernel
  obtain ⟨s, e1, h1⟩ := (Option.any_eq_true _ _).mp hcomp
  dsimp only at h1
  obtain ⟨h1, h2⟩ := Bool.and_eq_true_iff.mp h1
  obtain ⟨s5, e5, h2⟩ := (Option.any_eq_true _ _).mp h2
  simp only [Bool.and_eq_true, decide_eq_true_eq] at h1 h2
  obtain ⟨⟨⟨⟨⟨⟨⟨v1, v2⟩, v3⟩, v4⟩, v5⟩, v6⟩, v7⟩, v8⟩ := h1
  obtain ⟨-, g1⟩ := emptyCycles_meanwhile 1 _ _ e1 creeping_hist
  have g3 : RampHist .esp32 (ApiCall.Slow 16000) { s with rg := s.rg.moveToWrite 300 } := .other (.call (.moveTo 300) g1 trivial) v3
  obtain ⟨m5, -⟩ := emptyCycles_meanwhile 3 _ _ e5 g3
  refine ⟨s, _, Slow.typed g1, v4, ⟨v5, fun qe => ?_, fun qe => ?_⟩, v8,
    ⟨_, _, s, s5, _, _, v1, .nothing _, .nothing _, v2.symm, .nothing _, m5, .nothing _, .nothing _, rfl⟩, h2.1, h2.2⟩
  · rw [(prepFacts .esp32 s.rg qe).target v5, v6]; rfl
  · change (s.rg.prepare .esp32 qe).ro.config.parameters.keepRunning = s.rg.ro.config.parameters.keepRunning
    rw [(prepFacts .esp32 s.rg qe).keep, v5, nextParams_of _ v7]; simp

/-- `move(7)` on the way to 300, interrupted by task cycles after the write of the distance: the ramp has got the target 307. -/
example : ∃ s s' : Stepper, RampHist .esp32 ApiCall.Typed s ∧ s.isRampGeneratorActive = true ∧ OnCourse .esp32 s ∧ s.rg.isRunningContinuously = false ∧
    i32 s.getPositionAfterCommandsCompleted = s.getPositionAfterCommandsCompleted ∧ s.rg.ro.forceImmediateStop = false ∧
    InterruptedMove .esp32 7 s s' ∧ s'.isRampGeneratorActive = true ∧ s'.rg.ro.targetPos = 307 := by
  have hcomp : (emptyCycles 1 creeping).any (fun s =>
      let s3 : Stepper := { s with rg := s.rg.moveWrite 7 }
      decide (s.rg.parameters.checkValidConfig = MOVE_OK) &&
      decide (s3.rg = (s.move 7).1.rg) && decide (s.rg.isActive = true) && decide (s.rg.ro.forceStop = false) &&
      decide (s.rg.nextParams.anyChange = false) && decide (s.rg.parameters.apply = false) && decide (s.rg.isRunningContinuously = false) &&
      decide (s.rg.ro.forceImmediateStop = false) &&
      decide (i32 s.getPositionAfterCommandsCompleted = s.getPositionAfterCommandsCompleted) &&
      (emptyCycles 3 s3).any (fun s5 => decide ((s5.rg.startIf true).isActive = true) && decide (s5.rg.ro.targetPos = 307))) = true := by
    decide +kernel
  obtain ⟨s, e1, h1⟩ := (Option.any_eq_true _ _).mp hcomp
  dsimp only at h1
  obtain ⟨h1, h2⟩ := Bool.and_eq_true_iff.mp h1
  obtain ⟨s5, e5, h2⟩ := (Option.any_eq_true _ _).mp h2
  simp only [Bool.and_eq_true, decide_eq_true_eq] at h1 h2
  obtain ⟨⟨⟨⟨⟨⟨⟨⟨v1, v3⟩, v4⟩, v5⟩, v6⟩, v7⟩, v9⟩, v10⟩, v8⟩ := h1
  obtain ⟨-, g1⟩ := emptyCycles_meanwhile 1 _ _ e1 creeping_hist
  have g3 : RampHist .esp32 (ApiCall.Slow 16000) { s with rg := s.rg.moveWrite 7 } := .other (.call (.move 7) g1 trivial) v3
  obtain ⟨m5, -⟩ := emptyCycles_meanwhile 3 _ _ e5 g3
  refine ⟨s, _, Slow.typed g1, v4, ⟨v5, fun qe => ?_, fun qe => ?_⟩, v9, v8, v10,
    ⟨s, s5, _, _, v1, .nothing _, m5, .nothing _, .nothing _, rfl⟩, h2.1, h2.2⟩
  · rw [(prepFacts .esp32 s.rg qe).target v5, v6]; rfl
  · change (s.rg.prepare .esp32 qe).ro.config.parameters.keepRunning = s.rg.ro.config.parameters.keepRunning
    rw [(prepFacts .esp32 s.rg qe).keep, v5, nextParams_of _ v7]; simp

/-- `runBackward()` after `stopMove()`, interrupted by task cycles which complete the stop. -/
example : ∃ s s' : Stepper, RampHist .esp32 ApiCall.Typed s ∧ s.isStopping = true ∧
    i32 s.getPositionAfterCommandsCompleted = s.getPositionAfterCommandsCompleted ∧ s.rg.ro.forceImmediateStop = false ∧
    InterruptedRun .esp32 false s s' ∧ s'.getPositionAfterCommandsCompleted = 2 := by
  have hcomp : (emptyCycles 1 creeping).any (fun s1 =>
      let s := s1.stopMove
      decide (s.rg.parameters.checkValidConfig = MOVE_OK) && decide (s.isStopping = true) &&
      decide (s.rg.ro.forceImmediateStop = false) && decide (i32 s.getPositionAfterCommandsCompleted = s.getPositionAfterCommandsCompleted) &&
      (emptyCycles 6 s).any (fun s3 => decide (s3.isRampGeneratorActive = false) && decide (s3.getPositionAfterCommandsCompleted = 2))) = true := by
    decide +kernel
  obtain ⟨s1, e1, h1⟩ := (Option.any_eq_true _ _).mp hcomp
  dsimp only at h1
  obtain ⟨h1, h2⟩ := Bool.and_eq_true_iff.mp h1
  obtain ⟨s3, e3, h2⟩ := (Option.any_eq_true _ _).mp h2
  simp only [Bool.and_eq_true, decide_eq_true_eq] at h1 h2
  obtain ⟨⟨⟨v1, v2⟩, v3⟩, v4⟩ := h1
  obtain ⟨-, g1⟩ := emptyCycles_meanwhile 1 _ _ e1 creeping_hist
  have g2 : RampHist .esp32 (ApiCall.Slow 16000) s1.stopMove := .call .stopMove g1 trivial
  obtain ⟨m3, -⟩ := emptyCycles_meanwhile 6 _ _ e3 g2
  exact ⟨s1.stopMove, _, Slow.typed g2, v2, v4, v3, ⟨s3, _, _, _, v1, m3, .nothing _, .nothing _, .nothing _, rfl⟩, h2.2⟩

end FAS
