import Verif.Spec.Control
import Verif.Lemmas.Preempt

/-!
# Lemmas about control calls interrupted by the task
-/

namespace FAS

open Spec

/-- The parameters in use after the first part of a service. -/
theorem prepare_config (a : ArchId) (g : RampGen) (qe : QueueEnd) : (g.prepare a qe).ro.config.parameters =
    { g.nextParams with
      keepRunning := g.nextParams.keepRunning && !g.ro.forceStop, anyChange := g.nextParams.anyChange && g.ro.forceStop
      recalcRampSteps := false } := by
  obtain ⟨t1, t2, t3, -⟩ := takeOver_config a g
  have hS := (RampGen.startSteps_fields a (g.takeOver a)).1
  rw [← hS] at t1 t3
  unfold RampGen.prepare RampGen.clearRecalc
  generalize (g.takeOver a).startSteps a = h at t1 t3
  rw [← t1, ← t3]
  unfold RampGen.updateTarget
  dsimp only
  cases h1 : h.ro.forceStop
  · simp only [Bool.false_eq_true, if_false]
    by_cases h2 : h.ro.config.parameters.anyChange = true
    · rw [if_pos h2]
      by_cases h3 : h.ro.config.parameters.keepRunning = true
      · rw [if_pos h3]; simp
      · rw [if_neg h3]
        by_cases h4 : h.ro.config.parameters.moveAbsolute = true
        · rw [if_pos h4]; simp
        · rw [if_neg h4]; simp
    · rw [if_neg h2]
      have h2' : h.ro.config.parameters.anyChange = false := by simpa using h2
      simp [h2']
  · simp

/-- The parameters of the application after the first part of a service. -/
theorem prepare_params (a : ArchId) (g : RampGen) (qe : QueueEnd) : (g.prepare a qe).parameters =
    if g.parameters.apply then
      { g.parameters with apply := false, anyChange := false, moveValue := 0, moveAbsolute := false, recalcRampSteps := false }
    else g.parameters := by
  have h1 : (g.prepare a qe).parameters = (g.takeOver a).parameters := by
    unfold RampGen.prepare RampGen.clearRecalc RampGen.updateTarget RampGen.startSteps
    dsimp only
    repeat' split
    all_goals rfl
  rw [h1]
  unfold RampGen.takeOver
  split <;> rfl

/-- A service and its first part. -/
theorem service_ro {a : ArchId} {g g' : RampGen} {qe : QueueEnd} {junk c : NextCommand} (h : g.getNextCommand a qe junk = some (g', c)) :
    g'.ro.config = (g.prepare a qe).ro.config ∧ g'.ro.forceStop = g.ro.forceStop ∧
    (g.ro.forceImmediateStop = false → g'.ro.forceImmediateStop = false) ∧ g'.parameters = (g.prepare a qe).parameters := by
  have hp := prepFacts a g qe
  unfold RampGen.getNextCommand at h
  dsimp only at h
  split at h
  · cases h; exact ⟨rfl, hp.fstop, fun _ => rfl, rfl⟩
  · split at h
    · cases h
    · cases h; exact ⟨rfl, hp.fstop, hp.fimm, rfl⟩

/-- Induction over the services of one task cycle, without the types of the variables. -/
theorem fillQueue_ro_induct {a : ArchId} {env : Stepper.Env} {junk : NextCommand} {s s' : Stepper} {acc : List Cmd}
    (P : RampParams → RampRo → Prop)
    (hserve : ∀ (g g' : RampGen) (qe : QueueEnd) (junk c : NextCommand), P g.parameters g.ro → g.getNextCommand a qe junk = some (g', c) → P g'.parameters g'.ro)
    (h0 : P s.rg.parameters s.rg.ro) (h : s.fillQueue a env junk = some (s', acc)) : P s'.rg.parameters s'.rg.ro := by
  rcases Stepper.fillQueue_cases a env junk s s' acc h with ⟨-, h, -⟩ | ⟨ha, hv, f0, f, x, hf0, hc0, -, -, -, -, hl, -, hs'⟩
  · rw [h]; exact h0
  · have hend := Stepper.Fill.loop_induct a env (fun f => P f.s.rg.parameters f.s.rg.ro) ?_ _ _ _ _ _ (by rw [hf0]; exact h0) hl
    · rw [hs']
      split
      · exact hend
      · exact hend
    · intro i g g2 b hcond hp hb
      obtain ⟨rg, cmd, hg, hcmd, hcase⟩ := Stepper.Fill.body_cases a env i g g2 b hb
      have hz := hserve _ _ _ _ _ hp hg
      rcases hcase with ⟨-, r, hr, -, hcase⟩ | ⟨-, -, hcase, -⟩
      · have hrg : r.1.s.rg = rg := by
          rw [hr]; exact (Stepper.addQueueEntry_frame a _ _ _ _ _ _).rg
        rcases hcase with ⟨-, -, h, -⟩ | ⟨-, -, h, -⟩ | ⟨-, -, h, -⟩
        · rw [h]; change P r.1.s.rg.parameters r.1.s.rg.ro; rw [hrg]; exact hz
        · rw [h, hrg]; exact hz
        · rw [h]; change P r.1.s.rg.parameters r.1.s.rg.ro; rw [hrg]; exact hz
      · rw [hcase]; exact hz

/-- Induction over an interruption. -/
theorem Spec.Interruption.induct {a : ArchId} (P : RampParams → RampRo → Prop)
    (hserve : ∀ (g g' : RampGen) (qe : QueueEnd) (junk c : NextCommand), P g.parameters g.ro → g.getNextCommand a qe junk = some (g', c) → P g'.parameters g'.ro)
    {s s' : Stepper} (h : Interruption a s s') (h0 : P s.rg.parameters s.rg.ro) : P s'.rg.parameters s'.rg.ro := by
  induction h with
  | nothing => exact h0
  | progress g _ ih => exact ih
  | counting n _ ih => exact ih
  | task env junk acc _ hj hf ih => exact fillQueue_ro_induct P hserve ih hf

/-- An interruption is part of a history. -/
theorem Spec.Interruption.hist {a : ArchId} {ok : ApiCall → Prop} {s s' : Stepper} (h : Interruption a s s') (hh : RampHist a ok s) :
    RampHist a ok s' := by
  induction h with
  | nothing => exact hh
  | progress g _ ih => exact .other ih rfl
  | counting n _ ih => exact .other ih rfl
  | task env junk acc _ hj hf ih => exact .task env junk acc ih hj hf

/-- The task does not change whether a stop is requested. -/
theorem Spec.Interruption.fstop {a : ArchId} {s s' : Stepper} (h : Interruption a s s') : s'.rg.ro.forceStop = s.rg.ro.forceStop :=
  h.induct (fun _ ro => ro.forceStop = s.rg.ro.forceStop) (fun _ _ _ _ _ hp hn => (service_ro hn).2.1.trans hp) rfl

/-- The task does not request an immediate stop. -/
theorem Spec.Interruption.fimm {a : ArchId} {s s' : Stepper} (h : Interruption a s s') (h0 : s.rg.ro.forceImmediateStop = false) :
    s'.rg.ro.forceImmediateStop = false :=
  h.induct (fun _ ro => ro.forceImmediateStop = false) (fun _ _ _ _ _ hp hn => (service_ro hn).2.2.1 hp) h0

/-- The task keeps parameters which are not applied. -/
theorem Spec.Interruption.params {a : ArchId} {s s' : Stepper} (h : Interruption a s s') (h0 : s.rg.parameters.apply = false) :
    s'.rg.parameters = s.rg.parameters := by
  refine h.induct (fun p _ => p = s.rg.parameters) (fun g g' qe junk c hp hn => ?_) rfl
  rw [(service_ro hn).2.2.2, prepare_params, if_neg (by rw [hp, h0]; decide)]
  exact hp

/-- The task keeps the settings of the application. -/
theorem Spec.Interruption.values {a : ArchId} {s s' : Stepper} (h : Interruption a s s') :
    s'.rg.parameters.minTravelTicks = s.rg.parameters.minTravelTicks ∧ s'.rg.parameters.pmflAccel = s.rg.parameters.pmflAccel ∧
    s'.rg.parameters.sH = s.rg.parameters.sH ∧ s'.rg.parameters.sJump = s.rg.parameters.sJump ∧
    s'.rg.parameters.validSpeed = s.rg.parameters.validSpeed ∧ s'.rg.parameters.validAcceleration = s.rg.parameters.validAcceleration := by
  refine h.induct (fun p _ => p.minTravelTicks = s.rg.parameters.minTravelTicks ∧ p.pmflAccel = s.rg.parameters.pmflAccel ∧
    p.sH = s.rg.parameters.sH ∧ p.sJump = s.rg.parameters.sJump ∧
    p.validSpeed = s.rg.parameters.validSpeed ∧ p.validAcceleration = s.rg.parameters.validAcceleration) (fun g g' qe junk c hp hn => ?_)
    ⟨rfl, rfl, rfl, rfl, rfl, rfl⟩
  rw [(service_ro hn).2.2.2, prepare_params]
  split <;> exact hp

/-- The task does not change the speed limit. -/
theorem Spec.Interruption.limit {a : ArchId} {s s' : Stepper} (h : Interruption a s s') : s'.hw.q.maxSpeedInTicks = s.hw.q.maxSpeedInTicks := by
  induction h with
  | nothing => rfl
  | @progress s1 g _ ih =>
    rw [← ih]
    have hadv : ∀ n (w : Hw), (w.advances a n).q.maxSpeedInTicks = w.q.maxSpeedInTicks := by
      intro n
      induction n with
      | zero => intro w; rfl
      | succ n ih =>
        intro w
        unfold Hw.advances
        rw [ih]
        unfold Hw.advanceRep Hw.advance Queue.complete
        dsimp only
        repeat' split
        all_goals rfl
    exact hadv _ _
  | counting n _ ih => exact ih
  | task env junk acc _ hj hf ih => rw [← ih]; exact ((Stepper.fillQueue_sameConfig a _ _ _ _ _ hf).max)

/-- The flags in use, at all times the task is not at work. -/
theorem Spec.RampHist.flags {a : ArchId} {ok : ApiCall → Prop} {s : Stepper} (h : RampHist a ok s) :
    s.rg.ro.config.parameters.recalcRampSteps = false ∧
    (s.rg.parameters.apply = false → s.rg.ro.forceStop = false → s.rg.ro.config.parameters.anyChange = false) := by
  induction h with
  | start s h => rw [h]; exact ⟨rfl, fun _ _ => rfl⟩
  | @call s c _ _ ih =>
    obtain ⟨i1, i2⟩ := ih
    cases c with
    | config c =>
      have hx : (c.run s).rg.ro = s.rg.ro ∧ (s.rg.parameters.apply = true → (c.run s).rg.parameters.apply = true) := by
        cases c with
        | speed t =>
          change (s.setSpeedInTicks t).1.rg.ro = _ ∧ (_ → (s.setSpeedInTicks t).1.rg.parameters.apply = true)
          unfold Stepper.setSpeedInTicks RampParams.setSpeedInTicks
          dsimp only
          repeat' split
          all_goals exact ⟨rfl, fun h => h⟩
        | acceleration x =>
          change (s.setAcceleration x).1.rg.ro = _ ∧ (_ → (s.setAcceleration x).1.rg.parameters.apply = true)
          unfold Stepper.setAcceleration RampGen.setAcceleration RampParams.setAcceleration
          dsimp only
          repeat' split
          all_goals exact ⟨rfl, fun h => h⟩
        | linear n =>
          change (s.setLinearAcceleration n).rg.ro = _ ∧ (_ → (s.setLinearAcceleration n).rg.parameters.apply = true)
          unfold Stepper.setLinearAcceleration RampParams.setCubicAccelerationSteps
          dsimp only
          repeat' split
          all_goals exact ⟨rfl, fun h => h⟩
        | jump n => exact ⟨rfl, fun h => h⟩
        | applySpeedAcceleration =>
          change s.applySpeedAcceleration.rg.ro = _ ∧ (_ → s.applySpeedAcceleration.rg.parameters.apply = true)
          unfold Stepper.applySpeedAcceleration RampGen.applySpeedAcceleration RampParams.applyParameters
          dsimp only
          repeat' split
          all_goals first | exact ⟨rfl, fun h => h⟩ | exact ⟨rfl, fun _ => rfl⟩
      change (c.run s).rg.ro.config.parameters.recalcRampSteps = false ∧
        ((c.run s).rg.parameters.apply = false → (c.run s).rg.ro.forceStop = false → (c.run s).rg.ro.config.parameters.anyChange = false)
      rw [hx.1]
      refine ⟨i1, fun h1 h2 => i2 ?_ h2⟩
      cases h3 : s.rg.parameters.apply
      · rfl
      · rw [hx.2 h3] at h1; cases h1
    | moveTo p =>
      change (s.moveTo p).1.rg.ro.config.parameters.recalcRampSteps = false ∧
        ((s.moveTo p).1.rg.parameters.apply = false → (s.moveTo p).1.rg.ro.forceStop = false → (s.moveTo p).1.rg.ro.config.parameters.anyChange = false)
      unfold Stepper.moveTo RampGen.moveTo
      dsimp only
      split
      · exact ⟨i1, i2⟩
      · exact ⟨i1, fun h1 => by cases h1⟩
    | move m =>
      change (s.move m).1.rg.ro.config.parameters.recalcRampSteps = false ∧
        ((s.move m).1.rg.parameters.apply = false → (s.move m).1.rg.ro.forceStop = false → (s.move m).1.rg.ro.config.parameters.anyChange = false)
      unfold Stepper.move RampGen.move
      dsimp only
      split
      · exact ⟨i1, i2⟩
      · split
        · exact ⟨i1, i2⟩
        · exact ⟨i1, fun h1 => by cases h1⟩
    | run up =>
      change (s.startRun up).1.rg.ro.config.parameters.recalcRampSteps = false ∧
        ((s.startRun up).1.rg.parameters.apply = false → (s.startRun up).1.rg.ro.forceStop = false → (s.startRun up).1.rg.ro.config.parameters.anyChange = false)
      unfold Stepper.startRun RampGen.startRun
      dsimp only
      split
      · exact ⟨i1, i2⟩
      · exact ⟨i1, fun h1 => by cases h1⟩
    | keepRunning => exact ⟨i1, i2⟩
    | stopMove => exact ⟨i1, fun _ h2 => by cases h2⟩
    | forceStop => exact ⟨i1, i2⟩
    | forceStopAndNewPosition p => exact ⟨i1, i2⟩
    | setCurrentPosition p =>
      change (s.setCurrentPosition a p).rg.ro.config.parameters.recalcRampSteps = false ∧
        ((s.setCurrentPosition a p).rg.parameters.apply = false → (s.setCurrentPosition a p).rg.ro.forceStop = false →
          (s.setCurrentPosition a p).rg.ro.config.parameters.anyChange = false)
      unfold Stepper.setCurrentPosition
      dsimp only
      split <;> exact ⟨i1, i2⟩
    | setPositionAfterCommandsCompleted p =>
      change (s.setPositionAfterCommandsCompleted p).rg.ro.config.parameters.recalcRampSteps = false ∧
        ((s.setPositionAfterCommandsCompleted p).rg.parameters.apply = false → (s.setPositionAfterCommandsCompleted p).rg.ro.forceStop = false →
          (s.setPositionAfterCommandsCompleted p).rg.ro.config.parameters.anyChange = false)
      unfold Stepper.setPositionAfterCommandsCompleted
      dsimp only
      split <;> exact ⟨i1, i2⟩
  | @task s s' env junk acc _ hj hf ih =>
    refine fillQueue_ro_induct (fun p ro => ro.config.parameters.recalcRampSteps = false ∧
      (p.apply = false → ro.forceStop = false → ro.config.parameters.anyChange = false)) (fun g g' qe junk c hp hn => ?_) ih hf
    obtain ⟨h1, h2, -, -⟩ := service_ro hn
    rw [h1, h2, prepare_config]
    exact ⟨rfl, fun _ h => by dsimp only; rw [h]; exact Bool.and_false _⟩
  | other _ h ih => rw [h]; exact ih

/-- An idle ramp: nothing but the progress of the hardware. -/
theorem Spec.Interruption.idle {a : ArchId} {s s' : Stepper} (h : Interruption a s s') (hi : s.rg.isActive = false) :
    s'.rg = s.rg ∧ s'.hw.q.qend = s.hw.q.qend ∧ s'.hw.q.nextWriteIdx = s.hw.q.nextWriteIdx ∧
    (s.hw.q.readIdx = s.hw.q.nextWriteIdx → s'.hw.q.readIdx = s.hw.q.readIdx) := by
  have hadv : ∀ n (w : Hw), (w.advances a n).q.qend = w.q.qend ∧ (w.advances a n).q.nextWriteIdx = w.q.nextWriteIdx ∧
      (w.q.readIdx = w.q.nextWriteIdx → (w.advances a n).q.readIdx = w.q.readIdx) := by
    intro n
    induction n with
    | zero => intro w; exact ⟨rfl, rfl, fun _ => rfl⟩
    | succ n ih =>
      intro w
      have hone : (w.advanceRep a).q.qend = w.q.qend ∧ (w.advanceRep a).q.nextWriteIdx = w.q.nextWriteIdx ∧
          (w.q.readIdx = w.q.nextWriteIdx → (w.advanceRep a).q.readIdx = w.q.readIdx) := by
        unfold Hw.advanceRep
        split
        · exact ⟨rfl, rfl, fun _ => rfl⟩
        · unfold Hw.advance
          by_cases he : w.q.isQueueEmpty = true
          · rw [if_pos he]; exact ⟨rfl, rfl, fun _ => rfl⟩
          · rw [if_neg he]
            have hne : ¬ w.q.readIdx = w.q.nextWriteIdx := by
              intro hx
              apply he
              unfold Queue.isQueueEmpty Queue.queueEntries subU8
              rw [hx]
              simp only [beq_iff_eq]
              omega
            unfold Queue.complete
            dsimp only
            repeat' split
            all_goals exact ⟨rfl, rfl, fun hx => absurd hx hne⟩
      unfold Hw.advances
      obtain ⟨i1, i2, i3⟩ := ih (w.advanceRep a)
      obtain ⟨o1, o2, o3⟩ := hone
      refine ⟨i1.trans o1, i2.trans o2, fun hx => ?_⟩
      rw [i3 (by rw [o3 hx, o2]; exact hx), o3 hx]
  induction h with
  | nothing => exact ⟨rfl, rfl, rfl, fun _ => rfl⟩
  | @progress s1 g _ ih =>
    obtain ⟨i1, i2, i3, i4⟩ := ih
    obtain ⟨o1, o2, o3⟩ := hadv g.advances s1.hw
    refine ⟨i1, o1.trans i2, o2.trans i3, fun hx => ?_⟩
    have := i4 hx
    exact (o3 (by rw [this, i3]; exact hx)).trans this
  | counting n _ ih => exact ih
  | @task s1 s2 env junk acc _ hj hf ih =>
    rw [Stepper.fillQueue_inactive a env junk s1 (by rw [ih.1]; exact hi)] at hf
    cases hf
    exact ih

end FAS
