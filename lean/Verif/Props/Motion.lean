import Verif.Props.Periods

/-!
# Motion over many services: C54, C56, C57, C59
-/

namespace FAS

open Spec

/-! ## C54 -/

/-- What holds after an accepted run command. -/
structure RunInv (up : Bool) (g : RampGen) : Prop where
  range : InRange g
  noStop : g.ro.forceStop = false
  noForce : g.ro.forceImmediateStop = false
  keep : g.parameters.keepRunning = true ∧ g.parameters.keepRunningCountUp = up
  used : g.parameters.apply = true ∨
    (g.ro.config.parameters.keepRunning = true ∧ g.ro.config.parameters.keepRunningCountUp = up)

/-- What one service does after an accepted run command. -/
theorem RunInv.serve {a : ArchId} {up : Bool} {g g' : RampGen} {qe : QueueEnd} {junk c : NextCommand} (hi : RunInv up g)
    (hj : junk.rw.performedRampUpSteps < 4294967296) (h : g.getNextCommand a qe junk = some (g', c)) :
    RunInv up g' ∧ RunInv up (g'.afterCommandEnqueued c) ∧ RunInv up g'.stopRamp ∧
    g'.ro.config.parameters.keepRunning = true ∧ g'.ro.config.parameters.keepRunningCountUp = up ∧
    (g.isActive = true → (g'.afterCommandEnqueued c).isActive = true) := by
  obtain ⟨-, r1, r2, r3⟩ := InRange_serve hi.range hj h
  have hp := prepared a g qe
  have hk : (g.prepare a qe).ro.config.parameters.keepRunning = true ∧
      (g.prepare a qe).ro.config.parameters.keepRunningCountUp = up := by
    rcases hp.keep hi.noStop with ⟨-, h1, h2⟩ | ⟨h0, h1, h2⟩
    · rw [h1, h2]; exact hi.keep
    · rw [h1, h2]
      rcases hi.used with h3 | h3
      · rw [h0] at h3; cases h3
      · exact h3
  rcases service_cases hi.range h with ⟨hf, -⟩ | ⟨hg, hf, hc⟩
  · have := hp.fimm hf
    rw [hi.noForce] at this; cases this
  · rw [← hg] at hp hk
    have e1 : g'.ro.forceStop = false := by rw [hp.fstop]; exact hi.noStop
    have e2 : g'.parameters.keepRunning = true ∧ g'.parameters.keepRunningCountUp = up := by
      rw [hp.pkeep, hp.pkeepUp]; exact hi.keep
    refine ⟨⟨r1, e1, hf, e2, Or.inr hk⟩, ⟨r2, e1, hf, e2, Or.inr hk⟩, ⟨r3, e1, hf, e2, Or.inr hk⟩, hk.1, hk.2, fun ha => ?_⟩
    unfold RampGen.isActive at ha ⊢
    change decide (c.rw.state ≠ RampState.IDLE) = true
    rcases hc with ⟨-, h2⟩ | ⟨-, h2, -⟩ | ⟨remaining, same, ph, P, ho⟩
    · rw [h2]; change decide (g'.rw.state ≠ RampState.IDLE) = true; rw [hp.state]; exact ha
    · unfold RampGen.isRunningContinuously at h2; rw [hk.1] at h2; cases h2
    · rw [ho.facts.state]
      rcases ho.facts.kind with ⟨h2, -⟩ | ⟨h2, -⟩ | ⟨h2, -⟩
      · rw [h2]; cases c.command.countUp <;> rfl
      · rw [h2]; cases c.command.countUp <;> rfl
      · cases ph <;> first | (cases h2; done) | (cases c.command.countUp <;> rfl)

theorem RunHist.inv {a : ArchId} {up : Bool} {s : Stepper} (h : RunHist a up s) : RunInv up s.rg := by
  induction h with
  | start s h hf hok =>
    have hr := InRange_call a s (.run up) (RampHist.inRange h) trivial
    have hs : (s.startRun up).1.rg = (s.rg.startRun up).1 := rfl
    have hk : (s.rg.startRun up).2 = MOVE_OK := hok
    unfold RampGen.startRun at hs hk
    dsimp only at hs hk
    split at hk
    · contradiction
    · rename_i hv
      rw [if_neg hv] at hs
      refine ⟨hr, ?_, ?_, ?_, ?_⟩ <;> rw [hs]
      · exact hf
      · exact ⟨rfl, rfl⟩
      · exact Or.inl rfl
  | @config s c _ ht ih =>
    have hr := InRange_call a s (.config c) ih.range ht
    obtain ⟨-, -, e3, e4, e5⟩ := config_effect s c
    obtain ⟨-, h2⟩ := config_frame s c
    refine ⟨hr, by rw [h2]; exact ih.noStop, by rw [h2]; exact ih.noForce, by rw [e4, e5]; exact ih.keep, ?_⟩
    rw [h2]
    rcases e3 with e3 | e3
    · exact Or.inl e3
    · rw [e3]; exact ih.used
  | task env junk acc _ hj hf ih =>
    refine fillQueue_rg_induct (RunInv up) ?_ ih hj hf
    intro g g' qe junk c hi _ _ hj hg
    have := hi.serve hj hg
    exact ⟨(InRange_serve hi.range hj hg).1, this.1, this.2.1, this.2.2.1⟩
  | other _ hs ih => rw [hs]; exact ih

/-- One service of a ramp which runs continuously. -/
theorem RunInv.step {a : ArchId} {up : Bool} {g : RampGen} (hi : RunInv up g) (ha : g.isActive = true)
    {qe : QueueEnd} {junk c : NextCommand} (hj : junk.rw.performedRampUpSteps < 4294967296) {g' : RampGen}
    (h : g.getNextCommand a qe junk = some (g', c)) :
    (g'.afterCommandEnqueued c).isActive = true ∧ c.command.ticks ≤ 65535 ∧
    (1 ≤ c.command.steps →
      (qe.countUp = up → c.command.countUp = up) ∧
      (c.command.countUp ≠ up → c.command.countUp = qe.countUp ∧ 1 ≤ g'.stepsToStop ∧
        (g'.stepsToStop < 4294967041 → c.rw.performedRampUpSteps + c.command.steps = g'.stepsToStop))) := by
  obtain ⟨-, -, -, k1, k2, k3⟩ := hi.serve hj h
  have hlt : c.command.ticks ≤ 65535 := by
    have := C34_well_formed a g g' qe junk c hi.range h
    omega
  refine ⟨k3 ha, hlt, fun hsteps => ?_⟩
  rcases service_cases hi.range h with ⟨hf, -⟩ | ⟨hg, hf, hc⟩
  · have := (prepared a g qe).fimm hf
    rw [hi.noForce] at this; cases this
  · rcases hc with ⟨-, h2⟩ | ⟨-, h2, -⟩ | ⟨remaining, same, ph, P, ho⟩
    · exact absurd hsteps (by rw [h2]; exact (by decide : ¬ 1 ≤ 0))
    · unfold RampGen.isRunningContinuously at h2; rw [k1] at h2; cases h2
    · have ht : same = true ↔ c.command.countUp = up := by
        rw [ho.towards]
        unfold Towards RampGen.isRunningContinuously
        rw [k1, if_pos rfl, k2]
      have hother : c.command.countUp ≠ up → c.command.countUp = qe.countUp ∧ 1 ≤ g'.stepsToStop ∧
          (g'.stepsToStop < 4294967041 → c.rw.performedRampUpSteps + c.command.steps = g'.stepsToStop) := by
        intro hne
        have hs : ¬ same = true := fun h => hne (ht.mp h)
        have hp : g'.rw.performedRampUpSteps ≠ 0 := fun h => hs (ho.stand h)
        refine ⟨ho.moving hp, Nat.one_le_iff_ne_zero.mpr hp, fun hlt => ?_⟩
        rcases ho.facts.kind with ⟨-, h2, -⟩ | ⟨-, h2, -⟩ | ⟨-, -, h2⟩
        · exact absurd h2 hs
        · exact absurd h2 hs
        · rcases h2 hlt with ⟨h3, -⟩ | ⟨-, h3⟩
          · exact absurd h3 hs
          · exact h3
      refine ⟨fun hq => ?_, hother⟩
      by_cases hne : c.command.countUp = up
      · exact hne
      · rw [(hother hne).1]; exact hq

/-- C54: after an accepted `runForward()`/`runBackward()`, without further move or stop commands (changes of speed, acceleration,
... are allowed), no service makes an active ramp idle. Steps are in the requested direction, unless the motor still moves in the other
direction: then the braking distance shrinks by each step. Once the queue end has the requested direction, all
steps are in that direction. -/
theorem C54_run_keeps_running (a : ArchId) (up : Bool) (s : Stepper) (hh : RunHist a up s) (ha : s.rg.isActive = true)
    (qe : QueueEnd) (junk c : NextCommand) (hj : junk.rw.performedRampUpSteps < 4294967296) (g' : RampGen)
    (h : s.rg.getNextCommand a qe junk = some (g', c)) :
    (g'.afterCommandEnqueued c).isActive = true ∧ c.command.ticks ≤ 65535 ∧
    (1 ≤ c.command.steps →
      (qe.countUp = up → c.command.countUp = up) ∧
      (c.command.countUp ≠ up → c.command.countUp = qe.countUp ∧ 1 ≤ g'.stepsToStop ∧
        (g'.stepsToStop < 4294967041 → c.rw.performedRampUpSteps + c.command.steps = g'.stepsToStop))) :=
  (RunHist.inv hh).step ha hj h

/-! ## C56 -/

/-- C56: a ramp gets idle with `stepsToStop()` 0 if it was stopped immediately. If it finishes on its own, then the braking
distance of the planner is at most one step, but `stepsToStop()` is the number of steps in the caller's structure (`junk`), which is not
written in this case. The queue rejecting a command and `forceStopAndNewPosition()` give 0.

Missing: 0 for a finished move, which does not hold, see `C56_uninitialised_refuted`. -/
theorem C56_steps_to_stop_partial (a : ArchId) (g g' : RampGen) (qe : QueueEnd) (junk c : NextCommand) (hr : InRange g)
    (ha : g.isActive = true) (h : g.getNextCommand a qe junk = some (g', c)) (hi : (g'.afterCommandEnqueued c).isActive = false) :
    ((g.prepare a qe).ro.forceImmediateStop = true → (g'.afterCommandEnqueued c).stepsToStop = 0) ∧
    ((g.prepare a qe).ro.forceImmediateStop = false → g'.stepsToStop ≤ 1 ∧
      (g'.afterCommandEnqueued c).stepsToStop = junk.rw.performedRampUpSteps) ∧
    g'.stopRamp.stepsToStop = 0 ∧ ∀ (s : Stepper) p, (s.forceStopAndNewPosition p).rg.stepsToStop = 0 := by
  refine ⟨fun hf => ?_, fun hf => ?_, rfl, fun _ _ => rfl⟩
  · rcases service_cases hr h with ⟨-, -, -, h1⟩ | ⟨hg, h1, -⟩
    · change c.rw.performedRampUpSteps = 0; rw [h1]; rfl
    · rw [hg, hf] at h1; cases h1
  · rcases service_cases hr h with ⟨h1, -⟩ | ⟨hg, -, hc⟩
    · rw [hf] at h1; cases h1
    · have hidle : c.rw.state = RampState.IDLE := by
        unfold RampGen.isActive RampGen.afterCommandEnqueued at hi
        simpa using hi
      rcases hc with ⟨-, h2⟩ | ⟨-, -, -, h3, h2⟩ | ⟨remaining, same, ph, P, ho⟩
      · exfalso
        rw [h2] at hidle
        change g'.rw.state = _ at hidle
        rw [hg, (prepared a g qe).state] at hidle
        unfold RampGen.isActive at ha
        rw [hidle] at ha
        exact absurd ha (by decide)
      · refine ⟨h3, ?_⟩
        change c.rw.performedRampUpSteps = _
        rw [h2]; rfl
      · exfalso
        rw [ho.facts.state] at hidle
        have hph : ph = .idle := (RampState.mk.inj hidle).1
        rcases ho.facts.kind with ⟨h5, -⟩ | ⟨h5, -⟩ | ⟨h5, -⟩ <;> rw [hph] at h5 <;> cases h5

/-! ## C57 -/

/-- The state after the first preparation is settled. -/
theorem prepare_settled (a : ArchId) (g : RampGen) (qe : QueueEnd) :
    (g.prepare a qe).ro.config.parameters.recalcRampSteps = false ∧
    (g.ro.forceStop = false → (g.prepare a qe).ro.config.parameters.anyChange = false) ∧
    (g.ro.forceStop = true → (g.prepare a qe).isRunningContinuously = false ∧
      (g.prepare a qe).ro.targetPos = i32 (if qe.countUp then qe.pos + (g.prepare a qe).stepsToStop else qe.pos - (g.prepare a qe).stepsToStop)) := by
  have h1 : (g.takeOver a).ro.forceStop = g.ro.forceStop := by
    unfold RampGen.takeOver; split <;> rfl
  have h2 : ∀ g : RampGen, (g.startSteps a).ro = g.ro := by
    intro g
    unfold RampGen.startSteps
    dsimp only
    split
    · rfl
    · split <;> rfl
  refine ⟨rfl, fun hf => ?_, fun hf => ?_⟩
  · have hf2 : ((g.takeOver a).startSteps a).ro.forceStop = false := by rw [h2, h1, hf]
    unfold RampGen.prepare
    generalize (g.takeOver a).startSteps a = gs at hf2
    change (gs.updateTarget _ qe).ro.config.parameters.anyChange = false
    unfold RampGen.updateTarget
    dsimp only
    rw [if_neg (by rw [hf2]; decide)]
    by_cases hc : gs.ro.config.parameters.anyChange = true
    · rw [if_pos hc]
      repeat' split
      all_goals rfl
    · rw [if_neg hc]; simpa using hc
  · have hf2 : ((g.takeOver a).startSteps a).ro.forceStop = true := by rw [h2, h1, hf]
    unfold RampGen.prepare
    generalize (g.takeOver a).startSteps a = gs at hf2
    have e : gs.updateTarget g.ro.config.parameters.keepRunning qe =
        { gs with ro := { gs.ro with
            config := { gs.ro.config with parameters := { gs.ro.config.parameters with keepRunning := false } }
            targetPos := i32 (if qe.countUp then qe.pos + (gs.rw.performedRampUpSteps : Int) else qe.pos - (gs.rw.performedRampUpSteps : Int)) } } := by
      unfold RampGen.updateTarget
      dsimp only
      rw [if_pos hf2]
    rw [e]
    exact ⟨rfl, rfl⟩

/-- Preparation of a settled state. -/
theorem prepare_same (a : ArchId) (g : RampGen) (qe : QueueEnd) (hap : g.parameters.apply = false)
    (hrc : g.ro.config.parameters.recalcRampSteps = false) :
    (g.rw.currTicks ≠ ticksForStoppedMotor → (g.prepare a qe).stepsToStop = g.stepsToStop) ∧
    (g.ro.forceStop = false → g.ro.config.parameters.anyChange = false →
      (g.prepare a qe).ro.targetPos = g.ro.targetPos ∧ (g.prepare a qe).isRunningContinuously = g.isRunningContinuously) := by
  have h1 : g.takeOver a = g := by unfold RampGen.takeOver; rw [if_neg (by rw [hap]; decide)]
  unfold RampGen.prepare
  rw [h1]
  have h2 : (g.startSteps a).ro = g.ro := by
    unfold RampGen.startSteps
    dsimp only
    split
    · rfl
    · split <;> rfl
  have h3 : g.rw.currTicks ≠ ticksForStoppedMotor → (g.startSteps a).rw = g.rw := by
    intro h
    unfold RampGen.startSteps
    dsimp only
    rw [if_neg h, if_neg (by rw [hrc]; decide)]
  have h4 : ∀ (g : RampGen) b, (g.updateTarget b qe).rw = g.rw := by
    intro g b
    unfold RampGen.updateTarget
    dsimp only
    repeat' split
    all_goals rfl
  constructor
  · intro h
    change ((g.startSteps a).updateTarget _ qe).rw.performedRampUpSteps = _
    rw [h4, h3 h]; rfl
  · intro hf hc
    have h5 : (g.startSteps a).updateTarget g.ro.config.parameters.keepRunning qe = g.startSteps a := by
      unfold RampGen.updateTarget
      dsimp only
      rw [h2, if_neg (by rw [hf]; decide), if_neg (by rw [hc]; decide)]
    rw [h5]
    change (g.startSteps a).ro.targetPos = _ ∧ (g.startSteps a).ro.config.parameters.keepRunning = _
    rw [h2]
    exact ⟨rfl, rfl⟩

/-- Progress measure without the pauses: `w` is the signed way to the target, `p` the braking distance and `up` the direction of the motor. -/
def motionRank (w : Int) (p : Nat) (up : Bool) : Nat :=
  if w = 0 ∧ p ≤ 1 then 0
  else if p = 0 ∨ ((if up then 0 < w else w < 0) ∧ p ≤ w.natAbs) then 2 * w.natAbs
  else if (if up then 0 < w else w < 0) then 2 * max w.natAbs (p - w.natAbs) + 1
  else 2 * (w.natAbs + p) + 1

theorem motionRank_stop (p : Nat) (up : Bool) : motionRank (if up then (p : Int) else -(p : Int)) p up = 2 * p := by
  unfold motionRank
  cases up
  · simp only [Bool.false_eq_true, if_false]
    repeat' split
    all_goals omega
  · simp only [if_true]
    repeat' split
    all_goals omega

/-- One step command makes progress. -/
theorem motionRank_lt {w : Int} {p p' p2 n : Nat} {up q : Bool} {same : Bool} (hw : -2147483648 < w) (hw2 : w < 2147483648)
    (hn : 1 ≤ n) (hn2 : n ≤ 255) (hp : p < 2147483648)
    (hs : same = true ↔ (if up then 0 < w else w < 0)) (hm : p ≠ 0 → up = q)
    (hnd : ¬(w.natAbs = 0 ∧ p ≤ 1)) (hp2 : p2 = 0 ∨ p2 = p')
    (hk : (same = true ∧ p < w.natAbs ∧ p' = p + n ∧ p + n ≤ w.natAbs ∧ (p + 2 * n ≤ w.natAbs ∨ n = 1 ∨ 2 * n < w.natAbs)) ∨
      (same = true ∧ p < w.natAbs ∧ p' = p ∧ p + n ≤ w.natAbs) ∨
      (same = true ∧ p ≤ w.natAbs ∧ p' + n ≤ w.natAbs ∧ p' ≤ p) ∨
      (¬(same = true ∧ p ≤ w.natAbs) ∧ p' + n = p)) :
    motionRank (i32 (if up then w - n else w + n)) p2 up * 4294967296 + p2 < motionRank w p q * 4294967296 + p := by
  have hq : motionRank w p q = if p = 0 ∨ (same = true ∧ p ≤ w.natAbs) then 2 * w.natAbs
      else if same = true then 2 * max w.natAbs (p - w.natAbs) + 1 else 2 * (w.natAbs + p) + 1 := by
    unfold motionRank
    rw [if_neg (by omega)]
    by_cases hz : p = 0
    · rw [if_pos (Or.inl hz), if_pos (Or.inl hz)]
    · rw [← hm hz]
      simp only [hs]
  rw [hq]
  have hs' : same = true → (if up then 0 < w else w < 0) := hs.mp
  have hs2 : ¬ same = true → ¬ (if up then 0 < w else w < 0) := fun h h' => h (hs.mpr h')
  clear hq hm
  have hlt : p2 < 4294967296 := by
    rcases hp2 with hp2 | hp2
    · omega
    · rcases hk with hk | hk | hk | hk <;> omega
  suffices hsuff : ∀ Y, Y = (if p = 0 ∨ (same = true ∧ p ≤ w.natAbs) then 2 * w.natAbs
      else if same = true then 2 * max w.natAbs (p - w.natAbs) + 1 else 2 * (w.natAbs + p) + 1) →
      motionRank (i32 (if up then w - n else w + n)) p2 up < Y ∨
        (motionRank (i32 (if up then w - n else w + n)) p2 up = Y ∧ p2 < p) by
    have := hsuff _ rfl
    omega
  intro Y hY
  unfold motionRank
  have hi : ∀ x : Int, -4294967296 < x → x < 4294967296 → i32 x = x ∨ i32 x = x - 4294967296 ∧ 2147483648 ≤ x ∨ i32 x = x + 4294967296 ∧ x < -2147483648 := by
    intro x h1 h2; unfold i32; omega
  cases up
  · simp only [Bool.false_eq_true, if_false] at *
    have hi' := hi (w + n) (by omega) (by omega)
    have hr : -2147483648 ≤ i32 (w + n) ∧ i32 (w + n) < 2147483648 := by unfold i32; omega
    generalize i32 (w + n) = w2 at *
    clear hi hs hlt
    by_cases hsame : same = true
    · have hneg := hs' hsame
      clear hs' hs2
      have hw2' : w2 = w + n := by omega
      subst hw2'
      clear hi' hr
      rw [hsame] at hY hk
      rcases hk with ⟨-, hk⟩ | ⟨-, hk⟩ | ⟨-, hk⟩ | ⟨h4, hk⟩
      · rw [if_pos (by right; exact ⟨rfl, by omega⟩)] at hY
        subst hY
        rcases hp2 with hp2 | hp2 <;> subst hp2 <;> repeat' split
        all_goals omega
      · rw [if_pos (by right; exact ⟨rfl, by omega⟩)] at hY
        subst hY
        rcases hp2 with hp2 | hp2 <;> subst hp2 <;> repeat' split
        all_goals omega
      · rw [if_pos (by right; exact ⟨rfl, by omega⟩)] at hY
        subst hY
        rcases hp2 with hp2 | hp2 <;> subst hp2 <;> repeat' split
        all_goals omega
      · have h5 : w.natAbs < p := by
          by_cases h : w.natAbs < p
          · exact h
          · exact absurd ⟨rfl, by omega⟩ h4
        rw [if_neg (by omega), if_pos rfl] at hY
        subst hY
        clear h4
        rcases hp2 with hp2 | hp2 <;> subst hp2 <;> repeat' split
        all_goals omega
    · have hneg := hs2 hsame
      have hk4 : p' + n = p := by
        rcases hk with ⟨h, -⟩ | ⟨h, -⟩ | ⟨h, -⟩ | ⟨-, h⟩
        · exact absurd h hsame
        · exact absurd h hsame
        · exact absurd h hsame
        · exact h
      rw [if_neg (by rintro (h | ⟨h, -⟩); · omega
                     · exact hsame h), if_neg hsame] at hY
      subst hY
      clear hs' hs2 hk hsame
      rcases hp2 with hp2 | hp2 <;> subst hp2 <;> repeat' split
      all_goals omega
  · simp only [if_true] at *
    have hi' := hi (w - n) (by omega) (by omega)
    have hr : -2147483648 ≤ i32 (w - n) ∧ i32 (w - n) < 2147483648 := by unfold i32; omega
    generalize i32 (w - n) = w2 at *
    clear hi hs hlt
    by_cases hsame : same = true
    · have hneg := hs' hsame
      clear hs' hs2
      have hw2' : w2 = w - n := by omega
      subst hw2'
      clear hi' hr
      rw [hsame] at hY hk
      rcases hk with ⟨-, hk⟩ | ⟨-, hk⟩ | ⟨-, hk⟩ | ⟨h4, hk⟩
      · rw [if_pos (by right; exact ⟨rfl, by omega⟩)] at hY
        subst hY
        rcases hp2 with hp2 | hp2 <;> subst hp2 <;> repeat' split
        all_goals omega
      · rw [if_pos (by right; exact ⟨rfl, by omega⟩)] at hY
        subst hY
        rcases hp2 with hp2 | hp2 <;> subst hp2 <;> repeat' split
        all_goals omega
      · rw [if_pos (by right; exact ⟨rfl, by omega⟩)] at hY
        subst hY
        rcases hp2 with hp2 | hp2 <;> subst hp2 <;> repeat' split
        all_goals omega
      · have h5 : w.natAbs < p := by
          by_cases h : w.natAbs < p
          · exact h
          · exact absurd ⟨rfl, by omega⟩ h4
        rw [if_neg (by omega), if_pos rfl] at hY
        subst hY
        clear h4
        rcases hp2 with hp2 | hp2 <;> subst hp2 <;> repeat' split
        all_goals omega
    · have hneg := hs2 hsame
      have hk4 : p' + n = p := by
        rcases hk with ⟨h, -⟩ | ⟨h, -⟩ | ⟨h, -⟩ | ⟨-, h⟩
        · exact absurd h hsame
        · exact absurd h hsame
        · exact absurd h hsame
        · exact h
      rw [if_neg (by rintro (h | ⟨h, -⟩); · omega
                     · exact hsame h), if_neg hsame] at hY
      subst hY
      clear hs' hs2 hk hsame
      rcases hp2 with hp2 | hp2 <;> subst hp2 <;> repeat' split
      all_goals omega

/-- Progress measure of a move. -/
def motionMeasure (a : ArchId) (d : Drive) : Nat :=
  let g := d.g.prepare a d.qe
  (motionRank (shortestWay g.ro.targetPos d.qe.pos) g.stepsToStop d.qe.countUp * 4294967296 + g.stepsToStop) * 4294967296 +
    g.rw.pauseTicksLeft

/-- The set speed has more than 65535 ticks, there is no jump start, and the motor, whose last period is `ct`, is not faster. -/
def Crawls (cfg : RampConfig) (ct : Nat) : Prop :=
  65536 ≤ cfg.parameters.minTravelTicks ∧ cfg.parameters.minTravelTicks < ticksForStoppedMotor ∧
    cfg.parameters.minTravelTicks ≤ ct ∧ cfg.parameters.sJump = 0

/-- No period of the ramp is that of a stopped motor (4294967295 ticks), and the set speed has at most 65535 ticks or the motor `Crawls`. -/
def Lively (a : ArchId) (cfg : RampConfig) (ct : Nat) : Prop :=
  2 ≤ cfg.parameters.minTravelTicks ∧ (cfg.parameters.minTravelTicks ≤ 65535 ∨ Crawls cfg ct) ∧
    ∀ n, 1 ≤ n → n < 4294967296 → cfg.calculateTicks a n ≠ ticksForStoppedMotor

theorem minCmdTicks_small (a : ArchId) : a.minCmdTicks ≤ 32768 := by cases a <;> decide

/-- A motor which crawls goes on crawling: the target speed is never put in for a calculated period. -/
theorem Crawls.step {a : ArchId} {g g1 : RampGen} {qe : QueueEnd} {c : NextCommand} {remaining : Nat} {same : Bool} {ph : RampPhase}
    {P : Nat} (hc : Crawls g1.ro.config g.rw.currTicks) (hp : Prepared g g1) (ho : StepOutcome a g1 qe c remaining same ph P)
    (hb : g1.rw.performedRampUpSteps < 2147483648) :
    Crawls g1.ro.config P ∧ c.command.ticks = (if 65535 < P then min (P / 2) 65535 else P) ∧
      c.command.ticks + c.rw.pauseTicksLeft = P ∧ c.rw.currTicks = P := by
  obtain ⟨h1, h2, h3, h4⟩ := hc
  have f := ho.facts
  have hmin := minCmdTicks_small a
  rw [← hp.ticks] at h3
  refine ⟨⟨h1, h2, ?_, h4⟩, ?_⟩
  · rcases f.kind with ⟨-, -, -, -, h, -⟩ | ⟨-, -, -, -, h, -⟩ | ⟨hd, h, -⟩
    · exact h
    · omega
    · by_cases hst : g1.rw.currTicks = ticksForStoppedMotor
      · have h0 := hp.stand (by rw [← hp.ticks]; exact hst) h4
        have hs := ho.stand h0
        have hnd := ho.notDone
        have := f.start hst (by omega) h2 hs (by omega)
        rw [this] at hd
        cases hd
      · have := h hst
        omega
  · rcases f.period with h | ⟨hd, -, h, -⟩
    · exact h
    · obtain ⟨hs, hr, -⟩ := h (by omega)
      have := f.over hd hs hr h3
      omega

/-- A move (or stop) which is not continuous, with a set speed which is not a multiple of 65536
ticks unless the motor `Crawls`. The braking distance is below 2^31. With jump start, the set speed has at most 65535 ticks, and no step of the ramp is as slow as 4294967295 ticks. -/
structure Going (a : ArchId) (d : Drive) : Prop where
  range : InRange d.g
  pause : d.g.rw.pauseTicksLeft < 4294967296
  move : (d.g.prepare a d.qe).isRunningContinuously = false
  jump : (d.g.prepare a d.qe).ro.config.parameters.sJump = 0 ∨
    (Lively a (d.g.prepare a d.qe).ro.config d.g.rw.currTicks ∧ (d.g.rw.currTicks = ticksForStoppedMotor → d.g.rw.pauseTicksLeft = 0))
  speed : (d.g.prepare a d.qe).ro.config.parameters.minTravelTicks % 65536 ≠ 0 ∨ Crawls (d.g.prepare a d.qe).ro.config d.g.rw.currTicks
  brake : (d.g.prepare a d.qe).stepsToStop < 2147483648

/-- The ramp calculation is not changed by the preparation of a settled state. -/
theorem prepare_ticks (a : ArchId) (g : RampGen) (qe : QueueEnd) (hap : g.parameters.apply = false) :
    (g.prepare a qe).ro.config.parameters.minTravelTicks = g.ro.config.parameters.minTravelTicks ∧
    ∀ n, (g.prepare a qe).ro.config.calculateTicks a n = g.ro.config.calculateTicks a n := by
  have h1 : g.takeOver a = g := by unfold RampGen.takeOver; rw [if_neg (by rw [hap]; decide)]
  unfold RampGen.prepare
  rw [h1]
  have h2 : (g.startSteps a).ro = g.ro := by
    unfold RampGen.startSteps
    dsimp only
    split
    · rfl
    · split <;> rfl
  have h3 : ∀ (g : RampGen) b, (g.updateTarget b qe).ro.config.parameters.minTravelTicks = g.ro.config.parameters.minTravelTicks ∧
      (g.updateTarget b qe).ro.config.parameters.sH = g.ro.config.parameters.sH ∧
      (g.updateTarget b qe).ro.config.parameters.pmflAccel = g.ro.config.parameters.pmflAccel ∧
      (g.updateTarget b qe).ro.config.cubic = g.ro.config.cubic := by
    intro g b
    unfold RampGen.updateTarget
    dsimp only
    repeat' split
    all_goals exact ⟨rfl, rfl, rfl, rfl⟩
  obtain ⟨e1, e2, e3, e4⟩ := h3 (g.startSteps a) g.ro.config.parameters.keepRunning
  rw [h2] at e1 e2 e3 e4
  refine ⟨e1, fun n => ?_⟩
  unfold RampConfig.calculateTicks RampGen.clearRecalc
  dsimp only
  rw [e2, e3, e4]

theorem measure_lt {A B x y : Nat} (h : A < B) (hx : x < 4294967296) : A * 4294967296 + x < B * 4294967296 + y := by omega

theorem Going.serve {a : ArchId} {d d' : Drive} {junk : NextCommand} (hg : Going a d)
    (hj : junk.rw.performedRampUpSteps < 4294967296) (h : d.serve a junk = some d') :
    d'.g.isActive = false ∨ (Going a d' ∧ motionMeasure a d' < motionMeasure a d) := by
  unfold Drive.serve at h
  cases hn : d.g.getNextCommand a d.qe junk with
  | none => rw [hn] at h; cases h
  | some gc =>
    obtain ⟨g1, c⟩ := gc
    rw [hn] at h
    dsimp only at h
    cases h
    obtain ⟨-, -, r2, -⟩ := InRange_serve hg.range hj hn
    have hp := prepared a d.g d.qe
    have hs := prepare_settled a d.g d.qe
    have hmove := hg.move
    have hjump := hg.jump
    have hspeed := hg.speed
    have hbrake := hg.brake
    rcases service_cases hg.range hn with ⟨-, -, -, h1⟩ | ⟨hgg, -, hc⟩
    · left
      exact isActive_stopped h1
    · unfold motionMeasure
      dsimp only
      rw [← hgg] at hp hs hmove hjump hspeed hbrake ⊢
      have hfs := hp.fstop
      -- the state to be prepared again
      have hc1 : (g1.afterCommandEnqueued c).parameters = g1.parameters := rfl
      have hc2 : (g1.afterCommandEnqueued c).ro = g1.ro := rfl
      have hc3 : (g1.afterCommandEnqueued c).rw = c.rw := rfl
      generalize hg2 : g1.afterCommandEnqueued c = g2 at *
      generalize hqe : (if c.command.ticks = 0 then d.qe
        else { pos := i32 (posAfter d.qe.pos c.command), countUp := c.command.countUp, dir := d.qe.dir : QueueEnd }) = qe2
      have hp2 := prepared a g2 qe2
      have hs2 := prepare_settled a g2 qe2
      have hsm := prepare_same a g2 qe2 (by rw [hc1]; exact hp.papply) (by rw [hc2]; exact hs.1)
      rw [hc2] at hsm hs2
      have hcfg : (g2.prepare a qe2).ro.config.parameters.minTravelTicks = g1.ro.config.parameters.minTravelTicks ∧
          (g2.prepare a qe2).ro.config.parameters.sJump = g1.ro.config.parameters.sJump := by
        rcases hp2.cfg with ⟨h1, -⟩ | ⟨-, h1, h2, -⟩
        · rw [hc1, hp.papply] at h1; cases h1
        · rw [h1, h2, hc2]; exact ⟨rfl, rfl⟩
      have hcr : ∀ ct, Crawls g1.ro.config ct → Crawls (g2.prepare a qe2).ro.config ct := by
        intro ct ⟨h1, h2, h3, h4⟩
        exact ⟨by rw [hcfg.1]; exact h1, by rw [hcfg.1]; exact h2, by rw [hcfg.1]; exact h3, by rw [hcfg.2]; exact h4⟩
      have hlive : ∀ ct, Lively a g1.ro.config ct → Lively a (g2.prepare a qe2).ro.config ct := by
        have := prepare_ticks a g2 qe2 (by rw [hc1]; exact hp.papply)
        rw [hc2] at this
        intro ct ⟨l1, l2, l3⟩
        exact ⟨by rw [this.1]; exact l1, by rw [this.1]; exact l2.imp id (hcr ct), fun n h1 h2 => by rw [this.2]; exact l3 n h1 h2⟩
      have hcont : (g2.prepare a qe2).isRunningContinuously = false := by
        cases hf : g1.ro.forceStop
        · rw [(hsm.2 hf (hs.2.1 (by rw [← hfs]; exact hf))).2]
          unfold RampGen.isRunningContinuously at hmove ⊢
          rw [hc2]; exact hmove
        · exact (hs2.2.2 hf).1
      have hbr : (g2.rw.currTicks = ticksForStoppedMotor → g1.ro.config.parameters.sJump = 0) → (g2.prepare a qe2).stepsToStop = 0 ∨
          (g2.prepare a qe2).stepsToStop = c.rw.performedRampUpSteps := by
        intro hj0
        by_cases hst : g2.rw.currTicks = ticksForStoppedMotor
        · left
          exact hp2.stand hst (by rw [hcfg.2]; exact hj0 hst)
        · right
          rw [hsm.1 hst]
          unfold RampGen.stepsToStop
          rw [hc3]
      have hpl : (g2.prepare a qe2).rw.pauseTicksLeft = c.rw.pauseTicksLeft := by rw [hp2.pause, hc3]
      have htgt : g1.ro.forceStop = false → (g2.prepare a qe2).ro.targetPos = g1.ro.targetPos := by
        intro hf
        rw [(hsm.2 hf (hs.2.1 (by rw [← hfs]; exact hf))).1]
      have htgt2 : g1.ro.forceStop = true → (g2.prepare a qe2).ro.targetPos =
          i32 (if qe2.countUp then qe2.pos + (g2.prepare a qe2).stepsToStop else qe2.pos - (g2.prepare a qe2).stepsToStop) :=
        fun hf => (hs2.2.2 hf).2
      rcases hc with ⟨h1, h2⟩ | ⟨-, -, -, -, h2⟩ | ⟨remaining, same, ph, P, ho⟩
      · -- pause
        right
        have hct : c.rw.currTicks = g1.rw.currTicks := by rw [h2]
        have hpp : c.rw.performedRampUpSteps = g1.rw.performedRampUpSteps := by rw [h2]
        have hps : c.rw.pauseTicksLeft = g1.rw.pauseTicksLeft - Planner.pauseTicks g1.rw.pauseTicksLeft := by rw [h2]
        have hpause : 0 < Planner.pauseTicks g1.rw.pauseTicksLeft := by
          unfold Planner.pauseTicks; split <;> omega
        have hpos : i32 (posAfter d.qe.pos c.command) = i32 d.qe.pos := by
          rw [h2]; unfold posAfter; dsimp only; split <;> simp
        have hq2 : i32 qe2.pos = i32 d.qe.pos ∧ qe2.countUp = d.qe.countUp := by
          rw [← hqe]
          split
          · exact ⟨rfl, rfl⟩
          · refine ⟨?_, by rw [h2]⟩
            change i32 (i32 _) = _
            rw [hpos]; unfold i32; omega
        have hb2 : (g2.prepare a qe2).stepsToStop = g1.stepsToStop := by
          by_cases hst : g2.rw.currTicks = ticksForStoppedMotor
          · have hj0 : g1.ro.config.parameters.sJump = 0 := by
              rcases hjump with hjump | ⟨-, hjump⟩
              · exact hjump
              · have := hjump (by rw [hc3, hct, hp.ticks] at hst; exact hst)
                rw [hp.pause] at h1
                omega
            have e1 : (g2.prepare a qe2).rw.performedRampUpSteps = 0 := hp2.stand hst (by rw [hcfg.2]; exact hj0)
            have e2 : g1.rw.performedRampUpSteps = 0 := hp.stand (by rw [hc3, hct, hp.ticks] at hst; exact hst) hj0
            unfold RampGen.stepsToStop
            rw [e1, e2]
          · rw [hsm.1 hst]
            unfold RampGen.stepsToStop
            rw [hc3, hpp]
        have hw : shortestWay (g2.prepare a qe2).ro.targetPos qe2.pos = shortestWay g1.ro.targetPos d.qe.pos := by
          unfold shortestWay
          cases hf : g1.ro.forceStop
          · rw [htgt hf, ← i32_sub_i32, ← i32_sub_i32 _ d.qe.pos, hq2.1]
          · rw [htgt2 hf, hb2, hq2.2, (hs.2.2 (by rw [← hfs]; exact hf)).2]
            have := hq2.1
            split <;> (unfold i32 at *; omega)
        have hct2 : g2.rw.currTicks = d.g.rw.currTicks := by rw [hc3, hct, hp.ticks]
        refine ⟨⟨r2, ?_, hcont, ?_, ?_, by rw [hb2]; exact hbrake⟩, ?_⟩
        · change g2.rw.pauseTicksLeft < _
          rw [hc3, hps, hp.pause]
          have := hg.pause
          omega
        · rcases hjump with hjump | ⟨hj1, hj2⟩
          · left; rw [hcfg.2]; exact hjump
          · refine Or.inr ⟨?_, fun hst => ?_⟩
            · change Lively a _ g2.rw.currTicks
              rw [hct2]; exact hlive _ hj1
            change g2.rw.currTicks = _ at hst
            rw [hc3, hct, hp.ticks] at hst
            have := hj2 hst
            rw [hp.pause] at h1
            omega
        · change _ ∨ Crawls _ g2.rw.currTicks
          rw [hct2, hcfg.1]
          exact hspeed.imp id (hcr _)
        · rw [hw, hb2, hq2.2, hpl, hps]
          omega
      · -- complete
        left
        unfold RampGen.isActive
        rw [hc3, h2]
        rfl
      · -- steps
        right
        have f := ho.facts
        have hlt := f.lt
        have hn1 := f.steps_pos
        have hn2 := f.steps_le
        have hcstep := fun h => Crawls.step h hp ho hbrake
        have htk : c.command.ticks ≠ 0 := by
          have := f.pos
          rcases hspeed with hspeed | hspeed
          · rcases f.period with ⟨h1, -⟩ | ⟨-, -, -, h1, -⟩
            · rw [h1]; split <;> omega
            · rw [h1]; unfold u16; exact hspeed
          · rw [(hcstep hspeed).2.1]; split <;> omega
        have hcr2 : Crawls g1.ro.config d.g.rw.currTicks → Crawls (g2.prepare a qe2).ro.config g2.rw.currTicks := by
          intro h
          obtain ⟨h1, -, -, h2⟩ := hcstep h
          rw [hc3, h2]
          exact hcr _ h1
        rw [if_neg htk] at hqe
        have hway := ho.way hmove
        have hpause2 : c.rw.pauseTicksLeft < 4294967296 := by
          rcases f.period with ⟨-, h1, -⟩ | ⟨-, -, -, -, h1, -⟩
          · omega
          · rw [h1]; omega
        have hb : g1.rw.performedRampUpSteps = g1.stepsToStop := rfl
        have halive : Lively a g1.ro.config d.g.rw.currTicks → g2.rw.currTicks ≠ ticksForStoppedMotor := by
          intro ⟨l1, l2, l3⟩
          have hP := f.live l1 (by rcases l2 with l2 | l2; · unfold ticksForStoppedMotor; omega
                                   · exact l2.2.1) l3
          rw [hc3]
          rcases l2.symm with l2 | l2
          · rw [(hcstep l2).2.2.2]; exact hP
          unfold ticksForStoppedMotor at *
          rcases f.period with ⟨-, -, h1⟩ | ⟨-, -, -, -, h1, h2⟩
          · omega
          · rw [h2]; unfold u32
            have : c.rw.pauseTicksLeft ≤ 4294967294 - 65535 := by rw [h1]; split <;> omega
            omega
        have hbr := hbr (fun hst => by
          rcases hjump with hjump | ⟨hj1, -⟩
          · exact hjump
          · exact absurd hst (halive hj1))
        have hkind : (same = true ∧ g1.stepsToStop < remaining ∧ c.rw.performedRampUpSteps = g1.stepsToStop + c.command.steps ∧
              g1.stepsToStop + c.command.steps ≤ remaining ∧
              (g1.stepsToStop + 2 * c.command.steps ≤ remaining ∨ c.command.steps = 1 ∨ 2 * c.command.steps < remaining)) ∨
            (same = true ∧ g1.stepsToStop < remaining ∧ c.rw.performedRampUpSteps = g1.stepsToStop ∧
              g1.stepsToStop + c.command.steps ≤ remaining) ∨
            (same = true ∧ g1.stepsToStop ≤ remaining ∧ c.rw.performedRampUpSteps + c.command.steps ≤ remaining ∧
              c.rw.performedRampUpSteps ≤ g1.stepsToStop) ∨
            (¬(same = true ∧ g1.stepsToStop ≤ remaining) ∧ c.rw.performedRampUpSteps + c.command.steps = g1.stepsToStop) := by
          rcases f.kind with ⟨-, h1, h2, -, -, -, h3, h4, h5⟩ | ⟨-, h1, h2, -, -, h3, h4⟩ | ⟨-, -, h1⟩
          · exact Or.inl ⟨h1, h2, h3, h4, h5⟩
          · exact Or.inr (Or.inl ⟨h1, h2, h3, h4⟩)
          · rcases h1 (by omega) with h1 | h1
            · exact Or.inr (Or.inr (Or.inl h1))
            · exact Or.inr (Or.inr (Or.inr h1))
        have hbr2 : (g2.prepare a qe2).stepsToStop < 2147483648 := by
          have := ho.remLt
          rcases hbr with h1 | h1 <;> rw [h1]
          · omega
          · rcases hkind with h2 | h2 | h2 | h2 <;> omega
        refine ⟨⟨r2, ?_, hcont, ?_, by rw [hcfg.1]; exact hspeed.imp id hcr2, hbr2⟩, ?_⟩
        · change g2.rw.pauseTicksLeft < _
          rw [hc3]; exact hpause2
        · rcases hjump with hjump | ⟨hj1, -⟩
          · left; rw [hcfg.2]; exact hjump
          · refine Or.inr ⟨?_, fun hst => absurd hst (halive hj1)⟩
            obtain ⟨l1, l2, l3⟩ := hlive _ hj1
            refine ⟨l1, ?_, l3⟩
            rcases hj1.2.1 with h | h
            · left; rw [hcfg.1]; exact h
            · exact Or.inr (hcr2 h)
        · rw [hpl]
          refine measure_lt ?_ hpause2
          have hsame := ho.towards
          unfold Towards at hsame
          rw [hmove, if_neg (by decide)] at hsame
          have hnd := ho.notDone
          have hrange : -2147483648 < shortestWay g1.ro.targetPos d.qe.pos ∧ shortestWay g1.ro.targetPos d.qe.pos < 2147483648 := by
            have h1 := hway.2
            have h2 : -2147483648 ≤ shortestWay g1.ro.targetPos d.qe.pos ∧ shortestWay g1.ro.targetPos d.qe.pos < 2147483648 := by
              unfold shortestWay i32; omega
            omega
          have hmv := ho.moving
          rw [hway.1] at hkind hnd
          have hqp : qe2.pos = i32 (posAfter d.qe.pos c.command) := by rw [← hqe]
          have hqu : qe2.countUp = c.command.countUp := by rw [← hqe]
          rw [hqu] at htgt2 ⊢
          rw [hqp] at htgt2 ⊢
          cases hf : g1.ro.forceStop
          · rw [htgt hf]
            have hw2 : shortestWay g1.ro.targetPos (i32 (posAfter d.qe.pos c.command)) =
                i32 (if c.command.countUp then shortestWay g1.ro.targetPos d.qe.pos - c.command.steps
                  else shortestWay g1.ro.targetPos d.qe.pos + c.command.steps) := by
              unfold shortestWay posAfter
              rw [i32_sub_i32]
              cases c.command.countUp
              · simp only [Bool.false_eq_true, if_false]; unfold i32; omega
              · simp only [if_true]; unfold i32; omega
            rw [hw2]
            exact motionRank_lt hrange.1 hrange.2 hn1 hn2 hbrake hsame hmv hnd hbr hkind
          · have ht1 := (hs.2.2 (by rw [← hfs]; exact hf)).2
            have ht2 := htgt2 hf
            generalize hb2 : (g2.prepare a qe2).stepsToStop = p2 at *
            rw [ht2]
            have hp0 : g1.rw.performedRampUpSteps ≠ 0 := by
              intro h0
              apply hnd
              rw [ht1, hb.symm, h0]
              unfold shortestWay
              refine ⟨?_, by omega⟩
              cases d.qe.countUp <;> simp only [Bool.false_eq_true, if_false, if_true] <;> (unfold i32; omega)
            rw [← hmv hp0]
            have hw1 : shortestWay g1.ro.targetPos d.qe.pos =
                if c.command.countUp then (g1.stepsToStop : Int) else -(g1.stepsToStop : Int) := by
              rw [ht1, ← hmv hp0]
              unfold shortestWay
              cases c.command.countUp <;> simp only [Bool.false_eq_true, if_false, if_true] <;> (unfold i32; omega)
            have hw2 : ∀ x : Int, shortestWay (i32 (if c.command.countUp then x + (p2 : Int) else x - (p2 : Int))) x =
                if c.command.countUp then (p2 : Int) else -(p2 : Int) := by
              intro x
              unfold shortestWay
              cases c.command.countUp <;> simp only [Bool.false_eq_true, if_false, if_true] <;> (unfold i32; omega)
            rw [hw2, hw1]
            rw [hw1] at hkind hsame hnd
            rw [hb] at hp0
            rw [motionRank_stop, motionRank_stop]
            have hst : same = true := by
              apply hsame.mpr
              cases c.command.countUp
              · simp only [Bool.false_eq_true, if_false]; omega
              · simp only [if_true]; omega
            have habs : (if c.command.countUp = true then (g1.stepsToStop : Int) else -(g1.stepsToStop : Int)).natAbs = g1.stepsToStop := by
              split <;> omega
            rw [habs] at hkind
            have hle : c.rw.performedRampUpSteps + c.command.steps ≤ g1.stepsToStop := by
              rcases hkind with ⟨-, h2, -⟩ | ⟨-, h2, -⟩ | ⟨-, -, h2, -⟩ | ⟨h2, -⟩
              · omega
              · omega
              · exact h2
              · exact absurd ⟨hst, Nat.le_refl _⟩ h2
            omega

/-- C57: every move and every stop finishes: there is a number of services after which the ramp is idle, unless undefined
behaviour occurs on the way. `Going`: no continuous run, the set speed is not a multiple of 65536 ticks (unless there is no jump start
and the motor is not faster than that), the
braking distance is below 2^31 steps; with jump start, the set speed has at most 65535 ticks.

Missing: set speeds which are a multiple of 65536 ticks in a state where the motor is faster, and the undefined behaviour (distance of exactly 2^31 steps, division by
zero in the planner), which `C57_arrives_partial` excludes. -/
theorem C57_move_finishes_partial (a : ArchId) (d : Drive) (hg : Going a d) :
    ∃ N, ∀ (junk : Nat → NextCommand), (∀ i, (junk i).rw.performedRampUpSteps < 4294967296) →
      ∀ n, N ≤ n → ∀ d', Drive.run a junk n d = some d' → d'.g.isActive = false := by
  refine ⟨motionMeasure a d + 1, fun junk hj n => ?_⟩
  induction n generalizing d with
  | zero => intro h; omega
  | succ n ih =>
    intro hn d' hd
    unfold Drive.run at hd
    split at hd
    · cases hs : d.serve a (junk n) with
      | none => rw [hs] at hd; cases hd
      | some d1 =>
        rw [hs] at hd
        change Drive.run a junk n d1 = some d' at hd
        rcases hg.serve (hj n) hs with h1 | ⟨h1, h2⟩
        · have : d' = d1 := by
            cases n with
            | zero => unfold Drive.run at hd; exact (Option.some.inj hd).symm
            | succ n =>
              unfold Drive.run at hd
              rw [if_neg (by rw [h1]; decide)] at hd
              exact (Option.some.inj hd).symm
          rw [this]; exact h1
        · exact ih d1 h1 (by omega) d' hd
    · rename_i hna
      cases hd
      simpa using hna

/-- Upper bound for the steps which the ramp can do: distance and braking distance, counted twice. -/
def motionReach (a : ArchId) (d : Drive) : Nat :=
  motionRank (shortestWay (d.g.prepare a d.qe).ro.targetPos d.qe.pos) (d.g.prepare a d.qe).stepsToStop d.qe.countUp

/-- The motor moves towards the target, and the way is longer than the braking distance `p`. -/
def Ahead (w : Int) (p : Nat) (up : Bool) : Prop := (if up then 0 < w else w < 0) ∧ p < w.natAbs

/-- A braking motor, which is not ahead of its braking distance, gets not ahead of it. -/
theorem not_ahead_step {w : Int} {p p' n : Nat} {up same : Bool} (hw : -2147483648 < w) (hw2 : w < 2147483648)
    (hn : 1 ≤ n) (hn2 : n ≤ 255) (hp : p ≠ 0) (hs : same = true ↔ (if up then 0 < w else w < 0)) {R : Nat} (hr : motionRank w p up ≤ R)
    (hR : R < 4294967296) (hna : ¬Ahead w p up)
    (hk : (same = true ∧ p = w.natAbs ∧ p' + n = p) ∨ (¬(same = true ∧ p ≤ w.natAbs) ∧ p' + n = p)) :
    ¬Ahead (i32 (if up then w - n else w + n)) p' up := by
  unfold motionRank at hr
  unfold Ahead at *
  cases up
  · simp only [Bool.false_eq_true, if_false] at *
    cases same
    · simp only [Bool.false_eq_true, false_iff, Int.not_lt, false_and, not_false_eq_true, true_and, false_or] at hs hk
      rw [if_neg (show ¬(w < 0) by omega)] at hr
      unfold i32
      repeat' split at hr
      all_goals omega
    · simp only [true_iff, true_and] at hs hk
      unfold i32
      omega
  · simp only [if_true] at *
    cases same
    · simp only [Bool.false_eq_true, false_iff, Int.not_lt, false_and, not_false_eq_true, true_and, false_or] at hs hk
      rw [if_neg (show ¬(0 < w) by omega)] at hr
      unfold i32
      repeat' split at hr
      all_goals omega
    · simp only [true_iff, true_and] at hs hk
      unfold i32
      omega

/-- A move with a set speed for which one step is long enough for a command, and without jump start: the ramp reaches the set speed after `B` steps, and does not get beyond `B + 65` steps, however
steep it would go on. So only the periods up to there have to be defined. -/
structure Steep (a : ArchId) (R B : Nat) (d : Drive) : Prop where
  plain : d.g.ro.forceStop = false
  jump : (d.g.prepare a d.qe).ro.config.parameters.sJump = 0
  slow : a.minCmdTicks ≤ (d.g.prepare a d.qe).ro.config.parameters.minTravelTicks
  ticks : (d.g.prepare a d.qe).ro.config.parameters.minTravelTicks ≤ d.g.rw.currTicks
  first : 1 ≤ B
  far : ∀ n, B ≤ n → n < 4294967296 →
    (d.g.prepare a d.qe).ro.config.calculateTicks a n ≤ (d.g.prepare a d.qe).ro.config.parameters.minTravelTicks
  near : ∀ n, 1 ≤ n → n ≤ B + 65 → n ≤ max 65 R → 0 < (d.g.prepare a d.qe).ro.config.calculateTicks a n
  brake : (d.g.prepare a d.qe).stepsToStop ≤ B + 65
  top : B ≤ (d.g.prepare a d.qe).stepsToStop →
    d.g.rw.currTicks = (d.g.prepare a d.qe).ro.config.parameters.minTravelTicks ∨
    ¬Ahead (shortestWay (d.g.prepare a d.qe).ro.targetPos d.qe.pos) (d.g.prepare a d.qe).stepsToStop d.qe.countUp

set_option maxHeartbeats 800000 in
/-- This stays so. -/
theorem Steep.serve {a : ArchId} {R B : Nat} {d d' : Drive} {junk : NextCommand} (hk : Steep a R B d) (hg : Going a d)
    (hl : Lively a (d.g.prepare a d.qe).ro.config d.g.rw.currTicks) (hreach : motionReach a d ≤ R) (hsmall : R < 4294967296)
    (h : d.serve a junk = some d') (hact : d'.g.isActive = true) : Steep a R B d' := by
  unfold Drive.serve at h
  cases hn : d.g.getNextCommand a d.qe junk with
  | none => rw [hn] at h; cases h
  | some gc =>
    obtain ⟨g1, c⟩ := gc
    rw [hn] at h
    dsimp only at h
    cases h
    have hp := prepared a d.g d.qe
    have hs := prepare_settled a d.g d.qe
    have hmove := hg.move
    have hspeed := hg.speed
    have hbrake := hg.brake
    obtain ⟨k0, k1, k2, k3, k4, k5, k6, k7, k8⟩ := hk
    unfold motionReach at hreach
    rcases service_cases hg.range hn with ⟨-, -, -, h1⟩ | ⟨hgg, -, hc⟩
    · rw [isActive_stopped h1] at hact; cases hact
    · rw [← hgg] at hp hs hmove hspeed hbrake k1 k2 k3 k5 k6 k7 k8 hl hreach
      have hfs := hp.fstop
      have hc1 : (g1.afterCommandEnqueued c).parameters = g1.parameters := rfl
      have hc2 : (g1.afterCommandEnqueued c).ro = g1.ro := rfl
      have hc3 : (g1.afterCommandEnqueued c).rw = c.rw := rfl
      change Steep a R B ⟨g1.afterCommandEnqueued c, if c.command.ticks = 0 then d.qe
        else { pos := i32 (posAfter d.qe.pos c.command), countUp := c.command.countUp, dir := d.qe.dir : QueueEnd }⟩
      change (g1.afterCommandEnqueued c).isActive = true at hact
      generalize hg2 : g1.afterCommandEnqueued c = g2 at *
      generalize hqe : (if c.command.ticks = 0 then d.qe
        else { pos := i32 (posAfter d.qe.pos c.command), countUp := c.command.countUp, dir := d.qe.dir : QueueEnd }) = qe2
      have hp2 := prepared a g2 qe2
      have hsm := prepare_same a g2 qe2 (by rw [hc1]; exact hp.papply) (by rw [hc2]; exact hs.1)
      rw [hc2] at hsm
      have hcfg : (g2.prepare a qe2).ro.config.parameters.minTravelTicks = g1.ro.config.parameters.minTravelTicks ∧
          (g2.prepare a qe2).ro.config.parameters.sJump = g1.ro.config.parameters.sJump := by
        rcases hp2.cfg with ⟨h1, -⟩ | ⟨-, h1, h2, -⟩
        · rw [hc1, hp.papply] at h1; cases h1
        · rw [h1, h2, hc2]; exact ⟨rfl, rfl⟩
      have hcalc : ∀ n, (g2.prepare a qe2).ro.config.calculateTicks a n = g1.ro.config.calculateTicks a n := by
        have := prepare_ticks a g2 qe2 (by rw [hc1]; exact hp.papply)
        rw [hc2] at this
        exact this.2
      have hbr : (g2.prepare a qe2).stepsToStop = 0 ∨ (g2.prepare a qe2).stepsToStop = c.rw.performedRampUpSteps := by
        by_cases hst : g2.rw.currTicks = ticksForStoppedMotor
        · left
          exact hp2.stand hst (by rw [hcfg.2]; exact k1)
        · right
          rw [hsm.1 hst]
          unfold RampGen.stepsToStop
          rw [hc3]
      have hf : g1.ro.forceStop = false := by rw [hfs]; exact k0
      have htgt : (g2.prepare a qe2).ro.targetPos = g1.ro.targetPos := by
        rw [(hsm.2 hf (hs.2.1 (by rw [← hfs]; exact hf))).1]
      have hb : g1.rw.performedRampUpSteps = g1.stepsToStop := rfl
      rw [← hp.ticks] at k3 k8
      -- what has to be shown of the command
      suffices key : g1.ro.config.parameters.minTravelTicks ≤ c.rw.currTicks ∧
          (c.rw.performedRampUpSteps ≤ B + 65) ∧ (B ≤ c.rw.performedRampUpSteps →
            c.rw.currTicks = g1.ro.config.parameters.minTravelTicks ∨
            ¬Ahead (shortestWay g1.ro.targetPos qe2.pos) c.rw.performedRampUpSteps qe2.countUp) by
        obtain ⟨y1, y2, y3⟩ := key
        refine ⟨by change g2.ro.forceStop = false; rw [hc2]; exact hf, ?_, ?_, ?_, k4, fun n h1 h2 => ?_, fun n h1 h2 h3 => ?_, ?_, ?_⟩
        · change (g2.prepare a qe2).ro.config.parameters.sJump = 0; rw [hcfg.2]; exact k1
        · change _ ≤ (g2.prepare a qe2).ro.config.parameters.minTravelTicks; rw [hcfg.1]; exact k2
        · change (g2.prepare a qe2).ro.config.parameters.minTravelTicks ≤ g2.rw.currTicks; rw [hcfg.1, hc3]; exact y1
        · change (g2.prepare a qe2).ro.config.calculateTicks a n ≤ (g2.prepare a qe2).ro.config.parameters.minTravelTicks
          rw [hcfg.1, hcalc]; exact k5 n h1 h2
        · change 0 < (g2.prepare a qe2).ro.config.calculateTicks a n
          rw [hcalc]; exact k6 n h1 h2 h3
        · change (g2.prepare a qe2).stepsToStop ≤ _
          rcases hbr with h | h <;> rw [h]
          · omega
          · exact y2
        · change B ≤ (g2.prepare a qe2).stepsToStop → g2.rw.currTicks = (g2.prepare a qe2).ro.config.parameters.minTravelTicks ∨
            ¬Ahead (shortestWay (g2.prepare a qe2).ro.targetPos qe2.pos) (g2.prepare a qe2).stepsToStop qe2.countUp
          rw [hcfg.1, htgt, hc3]
          rcases hbr with h | h <;> rw [h]
          · intro h0; omega
          · exact y3
      rcases hc with ⟨h1, h2⟩ | ⟨-, -, -, -, h2⟩ | ⟨remaining, same, ph, P, ho⟩
      · -- pause
        have hct : c.rw.currTicks = g1.rw.currTicks := by rw [h2]
        have hpp : c.rw.performedRampUpSteps = g1.rw.performedRampUpSteps := by rw [h2]
        have hpos : i32 (posAfter d.qe.pos c.command) = i32 d.qe.pos := by
          rw [h2]; unfold posAfter; dsimp only; split <;> simp
        have hq2 : i32 qe2.pos = i32 d.qe.pos ∧ qe2.countUp = d.qe.countUp := by
          rw [← hqe]
          split
          · exact ⟨rfl, rfl⟩
          · refine ⟨?_, by rw [h2]⟩
            change i32 (i32 _) = _
            rw [hpos]; unfold i32; omega
        have hw : shortestWay g1.ro.targetPos qe2.pos = shortestWay g1.ro.targetPos d.qe.pos := by
          unfold shortestWay
          rw [← i32_sub_i32, ← i32_sub_i32 _ d.qe.pos, hq2.1]
        rw [hct, hpp, hw, hq2.2]
        exact ⟨k3, k7, k8⟩
      · -- complete
        exfalso
        unfold RampGen.isActive at hact
        rw [hc3, h2] at hact
        cases hact
      · -- steps
        have f := ho.facts
        have hlt := f.lt
        have hn1 := f.steps_pos
        have hn2 := f.steps_le
        have hcstep : Crawls g1.ro.config d.g.rw.currTicks → _ := fun h => Crawls.step h hp ho hbrake
        have htk : c.command.ticks ≠ 0 := by
          have := f.pos
          rcases hspeed with hspeed | hspeed
          · rcases f.period with ⟨h1, -⟩ | ⟨-, -, -, h1, -⟩
            · rw [h1]; split <;> omega
            · rw [h1]; unfold u16; exact hspeed
          · rw [(hcstep hspeed).2.1]; split <;> omega
        rw [if_neg htk] at hqe
        have hway := ho.way hmove
        have hsame := ho.towards
        unfold Towards at hsame
        rw [hmove, if_neg (by decide)] at hsame
        have hmv := ho.moving
        have hqp : qe2.pos = i32 (posAfter d.qe.pos c.command) := by rw [← hqe]
        have hqu : qe2.countUp = c.command.countUp := by rw [← hqe]
        have hrange : -2147483648 < shortestWay g1.ro.targetPos d.qe.pos ∧ shortestWay g1.ro.targetPos d.qe.pos < 2147483648 := by
          have h1 := hway.2
          have h2 : -2147483648 ≤ shortestWay g1.ro.targetPos d.qe.pos ∧ shortestWay g1.ro.targetPos d.qe.pos < 2147483648 := by
            unfold shortestWay i32; omega
          omega
        have hw2 : shortestWay g1.ro.targetPos (i32 (posAfter d.qe.pos c.command)) =
            i32 (if c.command.countUp then shortestWay g1.ro.targetPos d.qe.pos - c.command.steps
              else shortestWay g1.ro.targetPos d.qe.pos + c.command.steps) := by
          unfold shortestWay posAfter
          rw [i32_sub_i32]
          cases c.command.countUp
          · simp only [Bool.false_eq_true, if_false]; unfold i32; omega
          · simp only [if_true]; unfold i32; omega
        rw [hqp, hqu, hw2]
        obtain ⟨t1, t2, t3⟩ := f.turn k2 k3
        -- ahead of the braking distance, with `B` steps or more
        have hahead : B ≤ g1.rw.performedRampUpSteps → same = true → g1.rw.performedRampUpSteps < remaining →
            g1.rw.currTicks = g1.ro.config.parameters.minTravelTicks := by
          intro h1 h2 h3
          rcases k8 h1 with h4 | h4
          · exact h4
          · exfalso
            apply h4
            refine ⟨?_, by rw [← hway.1]; exact h3⟩
            rw [← hmv (by omega)]
            exact hsame.mp h2
        have hmts : g1.ro.config.parameters.minTravelTicks < ticksForStoppedMotor := by
          rcases hl.2.1 with h1 | h1
          · unfold ticksForStoppedMotor; omega
          · exact h1.2.1
        have hPmt : g1.ro.config.parameters.minTravelTicks ≤ P := by
          rcases f.kind with ⟨-, -, -, -, h, -⟩ | ⟨-, -, -, -, h, -⟩ | ⟨hd, h, -⟩
          · exact h
          · omega
          · by_cases hst : g1.rw.currTicks = ticksForStoppedMotor
            · have h0 := hp.stand (by rw [← hp.ticks]; exact hst) k1
              have hs := ho.stand h0
              have hnd := ho.notDone
              have := f.start hst k2 hmts hs (by omega)
              rw [this] at hd
              cases hd
            · have := h hst
              omega
        have hct : g1.ro.config.parameters.minTravelTicks ≤ c.rw.currTicks := by
          obtain ⟨l1, l2, l3⟩ := hl
          rcases l2.symm with l2 | l2
          · rw [(hcstep l2).2.2.2]; exact hPmt
          have hP := f.live l1 hmts l3
          unfold ticksForStoppedMotor at hP
          rcases f.period with ⟨-, -, h1⟩ | ⟨-, -, -, -, h1, h2⟩
          · omega
          · rw [h2]; unfold u32
            have : c.rw.pauseTicksLeft ≤ 4294967294 - 65535 := by rw [h1]; split <;> omega
            omega
        refine ⟨hct, ?_⟩
        rcases f.kind with ⟨e0, e1, e2, e3, -, -, e4, -⟩ | ⟨e0, e1, e2, e3, e5, e4, -⟩ | ⟨hd, -, h1⟩
        · -- acceleration
          have hlow : g1.rw.performedRampUpSteps < B := by
            apply Decidable.byContradiction
            intro h
            have := hahead (by omega) e1 e2
            omega
          obtain ⟨s1, n, s2, s3, s4⟩ := t3 e0
          refine ⟨by omega, fun h => Or.inl ?_⟩
          have h6 := k5 n (by omega) s3
          have hpc : c.rw.currTicks = P := by
            rcases f.period with ⟨-, -, h⟩ | ⟨h, -⟩
            · exact h
            · rw [e0] at h; cases h
          omega
        · -- coasting
          have hpc : c.rw.currTicks = P := by
            rcases f.period with ⟨-, -, h⟩ | ⟨h, -⟩
            · exact h
            · rw [e0] at h; cases h
          refine ⟨by omega, fun h => Or.inl ?_⟩
          have := hahead (by omega) e1 e2
          omega
        · -- braking
          have h1 := h1 (by omega)
          refine ⟨by rcases h1 with ⟨-, -, -, h⟩ | ⟨-, h⟩ <;> omega, fun hB => Or.inr ?_⟩
          have hpB : B ≤ g1.rw.performedRampUpSteps := by rcases h1 with ⟨-, -, -, h⟩ | ⟨-, h⟩ <;> omega
          have hup := hmv (by omega)
          have hna : ¬Ahead (shortestWay g1.ro.targetPos d.qe.pos) g1.stepsToStop c.command.countUp := by
            intro h
            have h2 := hsame.mpr h.1
            have h3 : g1.rw.performedRampUpSteps < remaining := by rw [hway.1]; exact h.2
            have h4 := hahead hpB h2 h3
            have h5 := t1 hd h2 h3
            omega
          rw [hway.1] at h1 t2
          rw [← hup] at hreach
          refine not_ahead_step hrange.1 hrange.2 hn1 hn2 (p := g1.stepsToStop) (by omega) hsame hreach hsmall hna ?_
          by_cases hx : same = true ∧ g1.stepsToStop ≤ (shortestWay g1.ro.targetPos d.qe.pos).natAbs
          · left
            have he : g1.stepsToStop = (shortestWay g1.ro.targetPos d.qe.pos).natAbs := by
              apply Decidable.byContradiction
              intro h
              exact hna ⟨hsame.mp hx.1, by omega⟩
            exact ⟨hx.1, he, t2 hd hx.1 he⟩
          · right
            refine ⟨hx, ?_⟩
            rcases h1 with ⟨h2, h3, -⟩ | ⟨-, h2⟩
            · exact absurd ⟨h2, h3⟩ hx
            · exact h2

/-- A move or stop of which no service has undefined behaviour: in addition to `Going`, all speeds of the ramp have a period (`Lively`, and not 0 for up to `R` ramp steps, or for those of a `Steep` move),
and the target can be reached with less than 2^31 steps. -/
structure Safe (a : ArchId) (R : Nat) (d : Drive) : Prop where
  going : Going a d
  lively : Lively a (d.g.prepare a d.qe).ro.config d.g.rw.currTicks
  periods : (∀ n, 1 ≤ n → n ≤ max 65535 R → 0 < (d.g.prepare a d.qe).ro.config.calculateTicks a n) ∨ ∃ B, Steep a R B d
  reach : motionReach a d ≤ R
  small : R < 4294967296
  ticks : 0 < d.g.rw.currTicks

/-- No undefined behaviour. -/
theorem Safe.defined {a : ArchId} {R : Nat} {d : Drive} (hs : Safe a R d) (junk : NextCommand) : ∃ d', d.serve a junk = some d' := by
  unfold Drive.serve
  suffices h : ∃ r, d.g.getNextCommand a d.qe junk = some r by
    obtain ⟨⟨g, c⟩, h⟩ := h
    rw [h]; exact ⟨_, rfl⟩
  unfold RampGen.getNextCommand
  dsimp only
  have hmove := hs.going.move
  have hbrake := hs.going.brake
  have hreach := hs.reach
  have hsmall := hs.small
  have hcalc : (∀ n, 1 ≤ n → n ≤ max 65535 R → 0 < (d.g.prepare a d.qe).ro.config.calculateTicks a n) ∨
      ∃ B, a.minCmdTicks ≤ (d.g.prepare a d.qe).ro.config.parameters.minTravelTicks ∧
        (d.g.prepare a d.qe).ro.config.parameters.minTravelTicks ≤ (d.g.prepare a d.qe).rw.currTicks ∧
        (d.g.prepare a d.qe).stepsToStop ≤ B + 65 ∧
        ∀ n, 1 ≤ n → n ≤ B + 65 → n ≤ max 65 R → 0 < (d.g.prepare a d.qe).ro.config.calculateTicks a n := by
    rcases hs.periods with h | ⟨B, h⟩
    · exact Or.inl h
    · exact Or.inr ⟨B, h.slow, by rw [(prepared a d.g d.qe).ticks]; exact h.ticks, h.brake, h.near⟩
  have hlive := hs.lively
  have hticks := hs.ticks
  rw [← (prepared a d.g d.qe).ticks] at hticks
  unfold motionReach at hreach
  generalize d.g.prepare a d.qe = g1 at *
  by_cases hf : g1.ro.forceImmediateStop = true
  · rw [if_pos hf]; exact ⟨_, rfl⟩
  · rw [if_neg hf]
    suffices h : ∃ c, Planner.getNextCommand a g1.ro g1.rw d.qe junk = some c by
      obtain ⟨c, h⟩ := h
      rw [h]; exact ⟨_, rfl⟩
    unfold Planner.getNextCommand
    split
    · exact ⟨_, rfl⟩
    · have hw : 2 * (shortestWay g1.ro.targetPos d.qe.pos).natAbs ≤ R ∧ g1.stepsToStop ≤ max 1 R := by
        unfold motionRank at hreach
        generalize d.qe.countUp = u at hreach
        cases u
        · simp only [Bool.false_eq_true, if_false] at hreach
          repeat' split at hreach
          all_goals omega
        · simp only [if_true] at hreach
          repeat' split at hreach
          all_goals omega
      have hne : i32 (g1.ro.targetPos - d.qe.pos) ≠ -2147483648 := by
        intro h
        unfold shortestWay at hw
        rw [h] at hw
        omega
      obtain ⟨need, rem, ht⟩ : ∃ need rem, Planner.target g1.ro d.qe = some (need, rem) := by
        unfold Planner.target
        dsimp only
        repeat' split
        all_goals first | exact ⟨_, _, rfl⟩ | contradiction
      have hrem := Planner.target_lt ht
      rw [ht]
      simp only [Option.bind_eq_bind, Option.bind_some]
      split
      · exact ⟨_, rfl⟩
      · have hb : g1.rw.performedRampUpSteps = g1.stepsToStop := rfl
        refine Planner.plan_defined junk (by omega) hrem hlive.1 hticks (fun n h1 h2 h3 => ?_)
        rcases hcalc with hcalc | ⟨B, b1, b2, b3, b4⟩
        · exact hcalc n h1 (by omega)
        · have := h3 b1 b2
          exact b4 n h1 (by omega) (by omega)

/-- What one service leaves. -/
theorem Safe.serve {a : ArchId} {R : Nat} {d d' : Drive} {junk : NextCommand} (hs : Safe a R d) (ha : d.g.isActive = true)
    (hj : junk.rw.performedRampUpSteps < 4294967296) (h : d.serve a junk = some d') :
    (d'.g.isActive = false ∧ ((d.g.prepare a d.qe).ro.forceImmediateStop = false →
      i32 d'.qe.pos = i32 d.qe.pos ∧ shortestWay (d.g.prepare a d.qe).ro.targetPos d.qe.pos = 0)) ∨
    (Safe a R d' ∧ d'.g.isActive = true ∧ motionMeasure a d' < motionMeasure a d ∧ (d'.g.prepare a d'.qe).ro.forceImmediateStop = false ∧
      (d.g.ro.forceStop = false → d'.g.ro.forceStop = false ∧
        (d'.g.prepare a d'.qe).ro.targetPos = (d.g.prepare a d.qe).ro.targetPos)) := by
  have hgo := hs.going.serve hj h
  have hsteep : ∀ B, Steep a R B d → d'.g.isActive = true → Steep a R B d' :=
    fun B hk hact => hk.serve hs.going hs.lively hs.reach hs.small h hact
  unfold Drive.serve at h
  cases hn : d.g.getNextCommand a d.qe junk with
  | none => rw [hn] at h; cases h
  | some gc =>
    obtain ⟨g1, c⟩ := gc
    rw [hn] at h
    dsimp only at h
    have hp := prepared a d.g d.qe
    have hse := prepare_settled a d.g d.qe
    have hlive := hs.lively
    have hcalc : (∀ n, 1 ≤ n → n ≤ max 65535 R → 0 < (d.g.prepare a d.qe).ro.config.calculateTicks a n) ∨
        ∃ B, d'.g.isActive = true → Steep a R B d' := by
      rcases hs.periods with h1 | ⟨B, h1⟩
      · exact Or.inl h1
      · exact Or.inr ⟨B, hsteep B h1⟩
    have hmv := hs.going.move
    have hbr := hs.going.brake
    rcases service_cases hs.going.range hn with ⟨hfi, -, -, h1⟩ | ⟨hgg, hfi, hc⟩
    · left
      cases h
      exact ⟨isActive_stopped h1, fun h => by rw [hfi] at h; cases h⟩
    · rw [← hgg] at hp hse hlive hcalc hmv hbr ⊢
      have key : (∃ x, c = Planner.complete x) ∨ (0 < c.rw.currTicks ∧
          (Crawls g1.ro.config d.g.rw.currTicks → Crawls g1.ro.config c.rw.currTicks)) := by
        rcases hc with ⟨-, h2⟩ | ⟨-, -, -, -, h2⟩ | ⟨remaining, same, ph, P, ho⟩
        · right; rw [h2]; change 0 < g1.rw.currTicks ∧ (_ → Crawls _ g1.rw.currTicks); rw [hp.ticks]; exact ⟨hs.ticks, id⟩
        · exact Or.inl ⟨_, h2⟩
        · right
          obtain ⟨l1, l2, l3⟩ := hlive
          have h3 := ho.facts.pos
          have hcs := fun h => Crawls.step h hp ho hbr
          refine ⟨?_, fun h => by rw [(hcs h).2.2.2]; exact (hcs h).1⟩
          rcases l2.symm with l2 | l2
          · rw [(hcs l2).2.2.2]; exact h3
          have hP := ho.facts.live l1 (by unfold ticksForStoppedMotor; omega) l3
          have h4 := ho.facts.lt
          unfold ticksForStoppedMotor at hP
          rcases ho.facts.period with ⟨-, -, h1⟩ | ⟨-, -, -, -, h1, h2⟩
          · omega
          · rw [h2]; unfold u32
            have : c.rw.pauseTicksLeft ≤ 4294967294 - 65535 := by rw [h1]; split <;> omega
            omega
      by_cases hcomp : ∃ x, c = Planner.complete x
      · left
        obtain ⟨x, hx⟩ := hcomp
        cases h
        refine ⟨?_, fun _ => ?_⟩
        · subst hx; rfl
        · have hq : c.command.ticks = 0 := by rw [hx]; rfl
          rw [if_pos hq]
          refine ⟨rfl, ?_⟩
          rcases hc with ⟨h1, h2⟩ | ⟨-, -, h1, -⟩ | ⟨remaining, same, ph, P, ho⟩
          · exfalso
            rw [hx] at h2
            have h3 := congrArg (fun c => c.command.ticks) h2
            change 0 = u16 (Planner.pauseTicks g1.rw.pauseTicksLeft) at h3
            unfold Planner.pauseTicks u16 at h3
            split at h3 <;> omega
          · exact h1
          · exfalso
            have := ho.facts.state
            have h3 := congrArg (fun r => r.dir) this
            have h4 : c.rw.state.dir = RampDir.none := by rw [hx]; rfl
            change c.rw.state.dir = (if c.command.countUp then RampDir.up else RampDir.down) at h3
            rw [h4] at h3
            split at h3 <;> cases h3
      · have hact : d'.g.isActive = true := by
          cases h
          unfold RampGen.isActive at ha ⊢
          change decide (c.rw.state ≠ RampState.IDLE) = true
          rcases hc with ⟨-, h2⟩ | ⟨-, -, -, -, h2⟩ | ⟨remaining, same, ph, P, ho⟩
          · rw [h2]; change decide (g1.rw.state ≠ RampState.IDLE) = true; rw [hp.state]; exact ha
          · exact absurd ⟨_, h2⟩ hcomp
          · rw [ho.facts.state]
            refine decide_eq_true (fun h => ?_)
            have h3 := congrArg (fun r => r.dir) h
            change (if c.command.countUp then RampDir.up else RampDir.down) = RampDir.none at h3
            split at h3 <;> cases h3
        right
        rcases hgo with hgo | ⟨hgo, hm⟩
        · rw [hact] at hgo; cases hgo
        have hd1 : d'.g.parameters = g1.parameters ∧ d'.g.ro = g1.ro ∧ d'.g.rw = c.rw := by cases h; exact ⟨rfl, rfl, rfl⟩
        clear h
        obtain ⟨hd1, hd2, hd3⟩ := hd1
        have ht := prepare_ticks a d'.g d'.qe (by rw [hd1]; exact hp.papply)
        rw [hd2] at ht
        have hp2 := prepared a d'.g d'.qe
        refine ⟨⟨hgo, ?_, ?_, ?_, hs.small, ?_⟩, hact, hm, ?_, ?_⟩
        · obtain ⟨l1, l2, l3⟩ := hlive
          refine ⟨by rw [ht.1]; exact l1, ?_, fun n h1 h2 => by rw [ht.2]; exact l3 n h1 h2⟩
          rcases l2 with l2 | l2
          · left; rw [ht.1]; exact l2
          · right
            rcases key with key | ⟨-, key⟩
            · exact absurd key hcomp
            obtain ⟨h1, h2, h3, h4⟩ := key l2
            have hj2 : (d'.g.prepare a d'.qe).ro.config.parameters.sJump = g1.ro.config.parameters.sJump := by
              rcases hp2.cfg with ⟨h1, -⟩ | ⟨-, -, h1, -⟩
              · rw [hd1, hp.papply] at h1; cases h1
              · rw [h1, hd2]
            rw [hd3]
            exact ⟨by rw [ht.1]; exact h1, by rw [ht.1]; exact h2, by rw [ht.1]; exact h3, by rw [hj2]; exact h4⟩
        · rcases hcalc with hcalc | ⟨B, hcalc⟩
          · left
            intro n h1 h2
            rw [ht.2]; exact hcalc n h1 h2
          · exact Or.inr ⟨B, hcalc hact⟩
        · have hle : motionReach a d' ≤ motionReach a d := by
            have hb1 := hs.going.brake
            have hb2 := hs.going.pause
            rw [← hp.pause, hgg] at hb2
            unfold motionMeasure at hm
            unfold motionReach
            dsimp only at hm
            generalize motionRank _ _ d'.qe.countUp = A at hm ⊢
            generalize motionRank _ _ d.qe.countUp = B at hm ⊢
            omega
          exact Nat.le_trans hle hs.reach
        · rw [hd3]
          rcases key with key | ⟨key, -⟩
          · exact absurd key hcomp
          · exact key
        · cases hx : (d'.g.prepare a d'.qe).ro.forceImmediateStop
          · rfl
          · have := hp2.fimm hx
            rw [hd2, hfi] at this; cases this
        · intro hf
          have hf2 : d'.g.ro.forceStop = false := by rw [hd2, hp.fstop]; exact hf
          refine ⟨hf2, ?_⟩
          have := (prepare_same a d'.g d'.qe (by rw [hd1]; exact hp.papply) (by rw [hd2]; exact hse.1)).2 hf2
            (by rw [hd2]; exact hse.2.1 hf)
          rw [this.1, hd2]

/-- C57, all at once: a move or stop in a `Safe` state finishes without undefined behaviour, and a move which is not stopped ends at its target. -/
theorem C57_arrives_partial (a : ArchId) (R : Nat) (d : Drive) (hs : Safe a R d) (ha : d.g.isActive = true) :
    ∃ N, ∀ (junk : Nat → NextCommand), (∀ i, (junk i).rw.performedRampUpSteps < 4294967296) →
      ∀ n, N ≤ n → ∃ d', Drive.run a junk n d = some d' ∧ d'.g.isActive = false ∧
        (d.g.ro.forceStop = false → (d.g.prepare a d.qe).ro.forceImmediateStop = false →
          shortestWay (d.g.prepare a d.qe).ro.targetPos d'.qe.pos = 0) := by
  refine ⟨motionMeasure a d + 1, fun junk hj n => ?_⟩
  induction n generalizing d with
  | zero => intro h; omega
  | succ n ih =>
    intro hn
    obtain ⟨d1, h1⟩ := hs.defined (junk n)
    unfold Drive.run
    rw [if_pos ha, h1]
    change ∃ d', Drive.run a junk n d1 = some d' ∧ _
    rcases hs.serve ha (hj n) h1 with ⟨h2, h3⟩ | ⟨h2, hact, h3, h4, h5⟩
    · refine ⟨d1, ?_, h2, fun hf hi => ?_⟩
      · cases n with
        | zero => rfl
        | succ n => unfold Drive.run; rw [if_neg (by rw [h2]; decide)]
      · obtain ⟨h4, h5⟩ := h3 hi
        rw [← h5]
        unfold shortestWay
        rw [← i32_sub_i32, h4, i32_sub_i32]
    · obtain ⟨d', h6, h7, h8⟩ := ih d1 h2 hact (by omega)
      refine ⟨d', h6, h7, fun hf hi => ?_⟩
      obtain ⟨h9, h10⟩ := h5 hf
      rw [← h10]
      exact h8 h9 h4

/-- A move of 300 steps meets the hypotheses of C57 ... -/
example : Going .esp32 ⟨((ratedStepper .esp32 5000 100000).moveTo 300).1.rg, ⟨0, true, true⟩⟩ :=
  ⟨⟨by decide +kernel, by decide +kernel, by decide +kernel, by decide +kernel, by decide +kernel, by decide +kernel⟩,
   by decide +kernel, by decide +kernel, Or.inl (by decide +kernel), Or.inl (by decide +kernel), by decide +kernel⟩

/-- ... and it finishes, at the target. -/
example : ∃ d, Drive.run .esp32 (fun _ => junk0) 80 ⟨((ratedStepper .esp32 5000 100000).moveTo 300).1.rg, ⟨0, true, true⟩⟩ = some d ∧
    d.g.isActive = false ∧ d.qe.pos = 300 := by
  apply exists_of_any
  decide +kernel

/-- Example for C56: the move finishes on its own. -/
example : ∃ d, Drive.run .esp32 (fun _ => junk0) 68 ⟨((ratedStepper .esp32 5000 100000).moveTo 300).1.rg, ⟨0, true, true⟩⟩ = some d ∧
    d.g.isActive = true ∧ ∃ r, d.g.getNextCommand .esp32 d.qe junk0 = some r ∧ (r.1.afterCommandEnqueued r.2).isActive = false := by
  apply exists_of_any
  decide +kernel

/-! ## C59 -/

/-- An idle ramp has no pause left. -/
theorem RampHist.idlePause {a : ArchId} {s : Stepper} (h : RampHist a ApiCall.Typed s) (hi : s.rg.isActive = false) :
    s.rg.rw.pauseTicksLeft = 0 := by
  have key : InRange s.rg ∧ (s.rg.isActive = false → s.rg.rw.pauseTicksLeft = 0) := by
    refine RampHist.induct (fun g => InRange g ∧ (g.isActive = false → g.rw.pauseTicksLeft = 0))
      ⟨⟨by decide, by decide, by decide, by decide, by decide, by decide⟩, fun _ => rfl⟩ ?_ ?_ h
    · intro s c ⟨hr, hp⟩ hok
      refine ⟨InRange_call a s c hr hok, ?_⟩
      have hkeep : (c.exec a s).rg.rw = s.rg.rw → ((c.exec a s).rg.isActive = false → (c.exec a s).rg.rw.pauseTicksLeft = 0) := by
        intro h; unfold RampGen.isActive; rw [h]; exact hp
      have hst := RampRw.start_facts s.rg.rw
      cases call_effect a s c with
      | keep h1 h2 h3 => exact hkeep h2
      | config k hc h1 h2 h3 => exact hkeep h1
      | move hv h0 h1 h2 h3 h4 h5 =>
        rcases h4 with h4 | h4
        · exact hkeep h4
        · intro h6
          unfold RampGen.isActive at h6
          rw [h4] at h6
          unfold RampRw.startRampIfNotRunning at h6
          split at h6
          · exact absurd (show decide ((⟨.accelerate, .none⟩ : RampState) ≠ RampState.IDLE) = false from h6) (by decide)
          · rename_i hne; simp [hne] at h6
      | continuous h1 h2 h3 => exact hkeep h2
      | stopped h1 h2 h3 => intro _; rw [h2]; rfl
    · intro g g' qe junk c ⟨hr, hp⟩ ha _ hj hg
      obtain ⟨q1, q2, q3, q4⟩ := InRange_serve hr hj hg
      have hpr := prepared a g qe
      have hrw : g'.rw.state = g.rw.state := by
        rcases service_cases hr hg with ⟨-, h1, -⟩ | ⟨h1, -⟩ <;> rw [h1] <;> exact hpr.state
      refine ⟨q1, ⟨q2, fun h => ?_⟩, ⟨q3, fun h => ?_⟩, ⟨q4, fun _ => rfl⟩⟩
      · exfalso
        unfold RampGen.isActive at h ha
        rw [hrw, ha] at h; cases h
      · change c.rw.pauseTicksLeft = 0
        have hidle : c.rw.state = RampState.IDLE := by
          unfold RampGen.isActive RampGen.afterCommandEnqueued at h
          simpa using h
        rcases service_cases hr hg with ⟨-, -, -, h1⟩ | ⟨h1, -, h2⟩
        · rw [h1]; rfl
        · rcases h2 with ⟨-, h2⟩ | ⟨-, -, -, -, h2⟩ | ⟨remaining, same, ph, P, ho⟩
          · exfalso
            rw [h2] at hidle
            change g'.rw.state = _ at hidle
            unfold RampGen.isActive at ha
            rw [← hrw, hidle] at ha
            exact absurd ha (by decide)
          · rw [h2]; rfl
          · exfalso
            rw [ho.facts.state] at hidle
            have hph : ph = .idle := (RampState.mk.inj hidle).1
            rcases ho.facts.kind with ⟨h5, -⟩ | ⟨h5, -⟩ | ⟨h5, -⟩ <;> rw [hph] at h5 <;> cases h5
  exact key.2 hi

/-- C59: in every history, if the ramp is idle and a run command is accepted, the next service of the ramp delivers a command with steps in
the requested direction. Guards: no force stop is pending; there is no jump start, or the last motion was in the same direction
(then with a set speed which is not a multiple of 65536 ticks).

Missing: pending force stop, see `C59_run_after_forceStop_refuted`; jump start in the other direction, see `C59_jump_start_refuted`. -/
theorem C59_run_starts_partial (a : ArchId) (s : Stepper) (up : Bool) (hh : RampHist a ApiCall.Typed s) (hi : s.rg.isActive = false)
    (hf : s.rg.ro.forceImmediateStop = false) (hok : (s.startRun up).2 = MOVE_OK) (qe : QueueEnd) (junk c : NextCommand) (g' : RampGen)
    (hj : s.rg.parameters.sJump = 0 ∨ (qe.countUp = up ∧ s.rg.parameters.minTravelTicks % 65536 ≠ 0))
    (h : (s.startRun up).1.rg.getNextCommand a qe junk = some (g', c)) :
    IsStep c.command ∧ c.command.countUp = up := by
  have hinv := RunHist.inv (RunHist.start s hh hf hok)
  have hps := RampHist.idlePause hh hi
  have hs : (s.startRun up).1.rg = (s.rg.startRun up).1 := rfl
  have hk : (s.rg.startRun up).2 = MOVE_OK := hok
  unfold RampGen.startRun at hs hk
  dsimp only at hs hk
  have hv : ¬ s.rg.parameters.checkValidConfig ≠ MOVE_OK := by
    intro hv
    rw [if_pos hv] at hk
    exact hv hk
  rw [if_neg hv] at hs
  have hidle : s.rg.rw.state = RampState.IDLE := by
    unfold RampGen.isActive at hi
    simpa using hi
  have e1 : (s.startRun up).1.rg.rw.pauseTicksLeft = 0 := by
    rw [hs]; change s.rg.rw.startRampIfNotRunning.pauseTicksLeft = 0
    rw [(RampRw.start_facts _).2.1]; exact hps
  have e2 : (s.startRun up).1.rg.rw.currTicks = ticksForStoppedMotor := by
    rw [hs]; change s.rg.rw.startRampIfNotRunning.currTicks = _
    unfold RampRw.startRampIfNotRunning
    rw [if_pos hidle]
  have e3 : (s.startRun up).1.rg.parameters.apply = true := by rw [hs]; rfl
  have e4 : (s.startRun up).1.rg.parameters.sJump = s.rg.parameters.sJump := by rw [hs]; rfl
  have e5 : (s.startRun up).1.rg.parameters.minTravelTicks = s.rg.parameters.minTravelTicks := by rw [hs]; rfl
  generalize (s.startRun up).1.rg = g at *
  have hp := prepared a g qe
  rcases service_cases hinv.range h with ⟨hff, -⟩ | ⟨hg, -, hc⟩
  · have := hp.fimm hff
    rw [hinv.noForce] at this; cases this
  · rw [← hg] at hp
    have hcfg : g'.ro.config.parameters.minTravelTicks = s.rg.parameters.minTravelTicks ∧
        g'.ro.config.parameters.sJump = s.rg.parameters.sJump := by
      rcases hp.cfg with ⟨-, h1, h2, -⟩ | ⟨h0, -⟩
      · rw [h1, h2, e5, e4]; exact ⟨rfl, rfl⟩
      · rw [e3] at h0; cases h0
    have hcont : g'.ro.config.parameters.keepRunning = true ∧ g'.ro.config.parameters.keepRunningCountUp = up := by
      rcases hp.keep hinv.noStop with ⟨-, h1, h2⟩ | ⟨h0, -⟩
      · rw [h1, h2]; exact hinv.keep
      · rw [e3] at h0; cases h0
    rcases hc with ⟨h1, -⟩ | ⟨-, h1, -⟩ | ⟨remaining, same, ph, P, ho⟩
    · rw [hp.pause, e1] at h1; omega
    · unfold RampGen.isRunningContinuously at h1; rw [hcont.1] at h1; cases h1
    · have f := ho.facts
      have ht : same = true ↔ c.command.countUp = up := by
        rw [ho.towards]
        unfold Towards RampGen.isRunningContinuously
        rw [hcont.1, if_pos rfl, hcont.2]
      have hpos := f.pos
      refine ⟨⟨?_, f.steps_pos⟩, ?_⟩
      · rcases f.period with ⟨h1, -⟩ | ⟨-, h1, h2, h3, -⟩
        · rw [h1]; split <;> omega
        · rcases hj with hj | ⟨-, hj⟩
          · exfalso
            have hb : g'.rw.performedRampUpSteps = 0 := hp.stand e2 (by rw [hcfg.2]; exact hj)
            have := h2 (by omega)
            have := f.steps_pos
            omega
          · rw [h3, hcfg.1]; exact hj
      · by_cases hb : g'.rw.performedRampUpSteps = 0
        · exact ht.mp (ho.stand hb)
        · rcases hj with hj | ⟨hj, -⟩
          · exact absurd (hp.stand e2 (by rw [hcfg.2]; exact hj)) hb
          · rw [ho.moving hb]; exact hj

/-- The hypotheses are met by a stepper which has never moved. -/
example : ∃ s, RampHist .esp32 ApiCall.Typed s ∧ s.rg.isActive = false ∧ s.rg.ro.forceImmediateStop = false ∧
    (s.startRun false).2 = MOVE_OK ∧ s.rg.parameters.sJump = 0 ∧
    (∃ r, (s.startRun false).1.rg.getNextCommand .esp32 ⟨0, true, true⟩ junk0 = some r ∧ r.2.command.countUp = false) := by
  refine ⟨ApiCall.exec .esp32 (ApiCall.exec .esp32 (((Stepper.init .esp32 1).setDirectionPin .esp32 none 7 true 0).1.setAbsoluteSpeedLimit 80)
    (.config (.speed 5000))) (.config (.acceleration 10000)),
    .call _ (.call _ (.start _ rfl) (by change 5000 < 4294967296; decide)) trivial, ?_, ?_, ?_, ?_, ?_⟩
  all_goals first | decide +kernel | (apply exists_of_any; decide +kernel)

/-- C59 does not hold with jump start: `runBackward()` at standstill, after a forward motion, makes 20 steps forward. -/
theorem C59_jump_start_refuted :
    ∃ d, Drive.run .avr328 (fun _ => junk0) 22
        ⟨(((configuredStepper .avr328).setJumpStart 20).startRun false).1.rg, ⟨0, true, true⟩⟩ = some d ∧
      (((configuredStepper .avr328).setJumpStart 20).startRun false).2 = MOVE_OK ∧ d.qe.pos = 20 := by
  apply exists_of_any
  decide +kernel

/-- The hypotheses of C54 are met while reversing. -/
example : ∃ d, Drive.run .avr328 (fun _ => junk0) 30 ⟨((configuredStepper .avr328).startRun true).1.rg, ⟨0, true, true⟩⟩ = some d ∧
    d.g.isActive = true ∧ (d.g.startRun false).2 = MOVE_OK ∧ d.g.ro.forceImmediateStop = false ∧
    ∃ r, (d.g.startRun false).1.getNextCommand .avr328 d.qe junk0 = some r ∧ r.2.command.countUp = true ∧ 1 ≤ r.2.command.steps ∧
      r.2.rw.state.phase = .reverse := by
  apply exists_of_any
  decide +kernel

end FAS
