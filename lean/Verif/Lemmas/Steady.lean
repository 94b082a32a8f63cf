import Verif.Lemmas.Brake

/-!
# Ramp generator with constant settings
-/

namespace FAS

open Spec

/-- The ramp of acceleration `A` without linear acceleration. -/
def steadyRamp (a : ArchId) (A n : Nat) : Nat :=
  ({ RampConfig.init with parameters := { RampParams.init with pmflAccel := pmflFrom A } } : RampConfig).calculateTicks a n

/-- The settings in use. -/
structure Settings (T A : Nat) (p : RampParams) (H : Nat := 0) : Prop where
  speed : p.minTravelTicks = T
  accel : p.pmflAccel = pmflFrom A
  linear : p.sH = H
  jump : p.sJump = 0

theorem Settings.ramp {a : ArchId} {T A : Nat} {c : RampConfig} (h : Settings T A c.parameters) : c.calculateTicks a = steadyRamp a A := by
  funext n
  unfold steadyRamp RampConfig.calculateTicks
  dsimp only
  have e : RampParams.init.sH = 0 := rfl
  rw [h.linear, h.accel, e, if_pos (Nat.zero_le _), if_pos (Nat.zero_le _)]

/-- The ramp of acceleration `A` with `H` steps of linear acceleration. -/
def linearRamp (a : ArchId) (A H n : Nat) : Nat :=
  (({ RampConfig.init with parameters := { RampParams.init with pmflAccel := pmflFrom A, sH := H } } : RampConfig).update a).calculateTicks a n

theorem Settings.update_ramp {a : ArchId} {T A H : Nat} {c : RampConfig} (h : Settings T A c.parameters H) : (c.update a).calculateTicks a = linearRamp a A H := by
  funext n
  unfold linearRamp RampConfig.calculateTicks
  rw [RampConfig.update_parameters, RampConfig.update_parameters]
  dsimp only
  rw [h.linear, h.accel]
  by_cases hn : n ≥ H
  · rw [if_pos hn, if_pos hn]
  · rw [if_neg hn, if_neg hn]
    unfold RampConfig.update RampConfig.updateCubic
    dsimp only
    have hH : H > 0 := by omega
    rw [h.linear, h.accel, if_pos hH, if_pos hH]

theorem linearRamp_zero (a : ArchId) (A : Nat) : linearRamp a A 0 = steadyRamp a A := by
  funext n
  unfold linearRamp steadyRamp RampConfig.calculateTicks
  rw [RampConfig.update_parameters]
  dsimp only
  have e : RampParams.init.sH = 0 := rfl
  rw [e, if_pos (Nat.zero_le _), if_pos (Nat.zero_le _)]

/-- The shortest period of the ramp `f` up to a number of steps. -/
def lowest (f : Nat → Nat) : Nat → Nat
  | 0 => f 0
  | 1 => f 1
  | n + 2 => min (lowest f (n + 1)) (f (n + 2))

theorem lowest_succ (f : Nat → Nat) {n : Nat} (h : 1 ≤ n) : lowest f (n + 1) = min (lowest f n) (f (n + 1)) := by
  obtain ⟨k, rfl⟩ : ∃ k, n = k + 1 := ⟨n - 1, by omega⟩
  rfl

theorem lowest_spec (f : Nat → Nat) {n : Nat} (h : 1 ≤ n) : ∃ m, 1 ≤ m ∧ m ≤ n ∧ lowest f n = f m := by
  induction n with
  | zero => omega
  | succ n ih =>
    by_cases h0 : n = 0
    · subst h0; exact ⟨1, by omega, by omega, rfl⟩
    · obtain ⟨m, h1, h2, h3⟩ := ih (by omega)
      rw [lowest_succ f (by omega)]
      by_cases h4 : lowest f n ≤ f (n + 1)
      · exact ⟨m, h1, by omega, by omega⟩
      · exact ⟨n + 1, by omega, by omega, by omega⟩

theorem lowest_anti (f : Nat → Nat) {s t : Nat} (h : 1 ≤ s) (hst : s ≤ t) : lowest f t ≤ lowest f s := by
  induction t with
  | zero => omega
  | succ t ih =>
    by_cases h0 : s = t + 1
    · rw [h0]
    · have := ih (by omega)
      rw [lowest_succ f (by omega)]
      omega

theorem lowest_le (f : Nat → Nat) {n : Nat} (h : 1 ≤ n) : lowest f n ≤ f n := by
  by_cases h0 : n = 1
  · subst h0; exact Nat.le_refl _
  · obtain ⟨k, rfl⟩ : ∃ k, n = k + 1 := ⟨n - 1, by omega⟩
    rw [lowest_succ f (by omega)]
    omega

theorem lowest_le_of (f : Nat → Nat) {m n : Nat} (h : 1 ≤ m) (hmn : m ≤ n) : lowest f n ≤ f m :=
  Nat.le_trans (lowest_anti f h hmn) (lowest_le f h)

/-- What calls with constant settings maintain. -/
structure SteadyInv (a : ArchId) (T A H : Nat) (g : RampGen) : Prop where
  speed : g.parameters.validSpeed = true → g.parameters.minTravelTicks = T
  accel : g.parameters.validAcceleration = true → g.parameters.pmflAccel = pmflFrom A
  linear : g.parameters.sH = H
  jump : g.parameters.sJump = 0
  valid : g.isActive = true → g.parameters.checkValidConfig = MOVE_OK
  used : g.isActive = true → g.parameters.apply = true ∨ (Settings T A g.ro.config.parameters H ∧ g.ro.config.calculateTicks a = linearRamp a A H)
  usedRecalc : g.ro.config.parameters.recalcRampSteps = false
  recalc : g.isActive = true → g.parameters.apply = true ∨ g.parameters.recalcRampSteps = false
  moving : g.isActive = true → g.rw.currTicks ≠ ticksForStoppedMotor →
    g.parameters.recalcRampSteps = false ∧ g.rw.performedRampUpSteps < 2147483648 ∧ g.rw.currTicks < 4294967296 ∧
    Planner.Brakeable a T (lowest (linearRamp a A H)) g.rw.currTicks g.rw.performedRampUpSteps

theorem valid_of_check {p : RampParams} (h : p.checkValidConfig = MOVE_OK) : p.validSpeed = true ∧ p.validAcceleration = true := by
  unfold RampParams.checkValidConfig at h
  cases hs : p.validSpeed
  · simp [hs] at h
    exact absurd h (by decide)
  · cases ha : p.validAcceleration
    · simp [hs, ha] at h
      exact absurd h (by decide)
    · exact ⟨rfl, rfl⟩

/-- The fields of the parameters which matter. -/
structure SameSettings (p q : RampParams) : Prop where
  speed : p.minTravelTicks = q.minTravelTicks
  accel : p.pmflAccel = q.pmflAccel
  linear : p.sH = q.sH
  jump : p.sJump = q.sJump
  vs : p.validSpeed = q.validSpeed
  va : p.validAcceleration = q.validAcceleration

theorem SameSettings.settings {p q : RampParams} (h : SameSettings p q) {T A H : Nat} (hq : Settings T A q H) : Settings T A p H :=
  ⟨h.speed.trans hq.speed, h.accel.trans hq.accel, h.linear.trans hq.linear, h.jump.trans hq.jump⟩

theorem SameSettings.valid {p q : RampParams} (h : SameSettings p q) : p.checkValidConfig = q.checkValidConfig := by
  unfold RampParams.checkValidConfig
  rw [h.vs, h.va]

/-- The state in which the planner finds an active ramp. -/
theorem SteadyInv.prepare {a : ArchId} {T A H : Nat} {g : RampGen} (hi : SteadyInv a T A H g) (ha : g.isActive = true) (qe : QueueEnd) :
    SameSettings (g.prepare a qe).parameters g.parameters ∧ (g.prepare a qe).parameters.recalcRampSteps = false ∧
    (Settings T A (g.prepare a qe).ro.config.parameters H ∧ (g.prepare a qe).ro.config.calculateTicks a = linearRamp a A H) ∧
    (g.prepare a qe).ro.config.parameters.recalcRampSteps = false ∧
    (g.prepare a qe).rw.currTicks = g.rw.currTicks ∧ (g.prepare a qe).rw.state = g.rw.state ∧
    ((g.rw.currTicks = ticksForStoppedMotor ∧ (g.prepare a qe).rw.performedRampUpSteps = 0) ∨
     (g.rw.currTicks ≠ ticksForStoppedMotor ∧ (g.prepare a qe).rw.performedRampUpSteps = g.rw.performedRampUpSteps)) := by
  have hv := valid_of_check (hi.valid ha)
  -- take over
  have h1 : (g.takeOver a).rw = g.rw ∧ SameSettings (g.takeOver a).parameters g.parameters ∧
      (g.takeOver a).parameters.recalcRampSteps = false ∧
      (Settings T A (g.takeOver a).ro.config.parameters H ∧ (g.takeOver a).ro.config.calculateTicks a = linearRamp a A H) ∧
      (g.rw.currTicks ≠ ticksForStoppedMotor → (g.takeOver a).ro.config.parameters.recalcRampSteps = false) := by
    unfold RampGen.takeOver
    by_cases hap : g.parameters.apply = true
    · rw [if_pos hap]
      dsimp only
      rw [RampConfig.update_parameters]
      exact ⟨rfl, ⟨rfl, rfl, rfl, rfl, rfl, rfl⟩, rfl, ⟨⟨hi.speed hv.1, hi.accel hv.2, hi.linear, hi.jump⟩,
        Settings.update_ramp (T := T) ⟨hi.speed hv.1, hi.accel hv.2, hi.linear, hi.jump⟩⟩, fun h => (hi.moving ha h).1⟩
    · rw [if_neg hap]
      have e1 := (hi.used ha).resolve_left hap
      have e2 := (hi.recalc ha).resolve_left hap
      exact ⟨rfl, ⟨rfl, rfl, rfl, rfl, rfl, rfl⟩, e2, e1, fun _ => hi.usedRecalc⟩
  revert h1
  unfold RampGen.prepare
  generalize g.takeOver a = gt
  intro ⟨h1, h2, h3, h4, h5⟩
  -- start steps
  have k1 : (gt.startSteps a).ro = gt.ro ∧ (gt.startSteps a).parameters = gt.parameters ∧
      (gt.startSteps a).rw.state = gt.rw.state ∧
      (gt.startSteps a).rw.currTicks = gt.rw.currTicks ∧
      ((gt.rw.currTicks = ticksForStoppedMotor ∧ (gt.startSteps a).rw.performedRampUpSteps = 0) ∨
       (gt.rw.currTicks ≠ ticksForStoppedMotor ∧ (gt.startSteps a).rw.performedRampUpSteps = gt.rw.performedRampUpSteps)) := by
    unfold RampGen.startSteps
    dsimp only
    by_cases hs : gt.rw.currTicks = ticksForStoppedMotor
    · rw [if_pos hs]
      refine ⟨rfl, rfl, rfl, rfl, Or.inl ⟨hs, ?_⟩⟩
      dsimp only
      rw [h4.1.jump]; rfl
    · rw [if_neg hs, if_neg (by rw [h5 (by rw [← h1]; exact hs)]; decide)]
      exact ⟨rfl, rfl, rfl, rfl, Or.inr ⟨hs, rfl⟩⟩
  revert k1
  generalize gt.startSteps a = gs
  intro ⟨k1, k2, k3, k4, k5⟩
  have t1 : ∀ b, (gs.updateTarget b qe).rw = gs.rw ∧ (gs.updateTarget b qe).parameters = gs.parameters ∧
      SameSettings (gs.updateTarget b qe).ro.config.parameters gs.ro.config.parameters ∧
      (gs.updateTarget b qe).ro.config.calculateTicks a = gs.ro.config.calculateTicks a := by
    intro b
    unfold RampGen.updateTarget
    dsimp only
    repeat' split
    all_goals exact ⟨rfl, rfl, ⟨rfl, rfl, rfl, rfl, rfl, rfl⟩, rfl⟩
  obtain ⟨t1, t2, t3, t4⟩ := t1 g.ro.config.parameters.keepRunning
  revert t1 t2 t3 t4
  generalize gs.updateTarget g.ro.config.parameters.keepRunning qe = gu
  intro t1 t2 t3 t4
  have c1 : gu.clearRecalc.rw = gu.rw := rfl
  have c2 : gu.clearRecalc.parameters = gu.parameters := rfl
  have c3 : SameSettings gu.clearRecalc.ro.config.parameters gu.ro.config.parameters := ⟨rfl, rfl, rfl, rfl, rfl, rfl⟩
  rw [c1, c2, t1, t2, k2, k3, k4, ← h1]
  have c4 : gu.clearRecalc.ro.config.calculateTicks a = gu.ro.config.calculateTicks a := rfl
  refine ⟨h2, h3, ⟨c3.settings (t3.settings (by rw [k1]; exact h4.1)), by rw [c4, t4, k1]; exact h4.2⟩, rfl, rfl, rfl, k5⟩

theorem isActive_iff (g : RampGen) : g.isActive = true ↔ g.rw.state ≠ RampState.IDLE := by
  unfold RampGen.isActive; simp

/-- One service. -/
theorem SteadyInv.serve {a : ArchId} {T A H : Nat} (hgood : Planner.GoodRamp a T (lowest (linearRamp a A H)) (linearRamp a A H)) (hmin : a.minCmdTicks ≤ T) (hT : T < ticksForStoppedMotor)
    {g g' : RampGen} {qe : QueueEnd} {junk c : NextCommand} (hi : SteadyInv a T A H g) (ha : g.isActive = true)
    (h : g.getNextCommand a qe junk = some (g', c)) :
    SteadyInv a T A H g' ∧ SteadyInv a T A H (g'.afterCommandEnqueued c) ∧ SteadyInv a T A H g'.stopRamp := by
  obtain ⟨p1, p2, p3, p4, p5, p6, p7⟩ := hi.prepare ha qe
  -- everything but the movement
  have base : ∀ g2 : RampGen, g2.parameters = (g.prepare a qe).parameters → g2.ro.config = (g.prepare a qe).ro.config →
      (g2.isActive = true → g2.rw.currTicks ≠ ticksForStoppedMotor → g2.rw.performedRampUpSteps < 2147483648 ∧ g2.rw.currTicks < 4294967296 ∧
        Planner.Brakeable a T (lowest (linearRamp a A H)) g2.rw.currTicks g2.rw.performedRampUpSteps) → SteadyInv a T A H g2 := by
    intro g2 e1 e2 e3
    refine ⟨?_, ?_, ?_, ?_, ?_, ?_, ?_, ?_, ?_⟩
    · rw [e1, p1.vs, p1.speed]; exact hi.speed
    · rw [e1, p1.va, p1.accel]; exact hi.accel
    · rw [e1, p1.linear]; exact hi.linear
    · rw [e1, p1.jump]; exact hi.jump
    · intro _; rw [e1, p1.valid]; exact hi.valid ha
    · intro _; rw [e2]; exact Or.inr p3
    · rw [e2]; exact p4
    · intro _; rw [e1]; exact Or.inr p2
    · intro h1 h2; rw [e1]; exact ⟨p2, e3 h1 h2⟩
  have hmov : g.rw.currTicks ≠ ticksForStoppedMotor → (g.prepare a qe).rw.performedRampUpSteps < 2147483648 ∧ (g.prepare a qe).rw.currTicks < 4294967296 ∧
      Planner.Brakeable a T (lowest (linearRamp a A H)) (g.prepare a qe).rw.currTicks (g.prepare a qe).rw.performedRampUpSteps := by
    intro h1
    obtain ⟨-, m1, m2, m3⟩ := hi.moving ha h1
    have e := (p7.resolve_left (fun h => h1 h.1)).2
    rw [e, p5]
    exact ⟨m1, m2, m3⟩
  have hstop : ∀ g2 : RampGen, g2.rw = RampRw.stopped → g2.isActive = true → g2.rw.currTicks ≠ ticksForStoppedMotor →
      g2.rw.performedRampUpSteps < 2147483648 ∧ g2.rw.currTicks < 4294967296 ∧
      Planner.Brakeable a T (lowest (linearRamp a A H)) g2.rw.currTicks g2.rw.performedRampUpSteps := by
    intro g2 e h1 h2
    exact absurd (by rw [e]; rfl) h2
  unfold RampGen.getNextCommand at h
  dsimp only at h
  by_cases hf : (g.prepare a qe).ro.forceImmediateStop = true
  · rw [if_pos hf] at h
    cases h
    refine ⟨base _ rfl rfl (fun _ h2 => ?_), base _ rfl rfl (hstop _ rfl), base _ rfl rfl (hstop _ rfl)⟩
    exact hmov (by rw [← p5]; exact h2)
  · rw [if_neg hf] at h
    cases hp : Planner.getNextCommand a (g.prepare a qe).ro (g.prepare a qe).rw qe junk with
    | none => rw [hp] at h; cases h
    | some c1 =>
      rw [hp] at h
      cases h
      refine ⟨base _ rfl rfl (fun _ h2 => hmov (by rw [← p5]; exact h2)), base _ rfl rfl ?_, base _ rfl rfl (hstop _ rfl)⟩
      change _ → c.rw.currTicks ≠ _ → c.rw.performedRampUpSteps < _ ∧ c.rw.currTicks < _ ∧ Planner.Brakeable a T (lowest (linearRamp a A H)) c.rw.currTicks c.rw.performedRampUpSteps
      rcases Planner.getNextCommand_cases hp with ⟨-, hc⟩ | ⟨hnp, need, remaining, ht, ⟨-, -, hc⟩ | ⟨hnd, countUp, hcu, hpl⟩⟩
      · intro _ h2
        rw [hc] at h2 ⊢
        exact hmov (by rw [← p5]; exact h2)
      · intro _ h2
        rw [hc] at h2
        exact absurd rfl h2
      · intro _ h2
        have hct : (g.prepare a qe).rw.currTicks < 4294967296 ∧ (g.prepare a qe).rw.performedRampUpSteps < 2147483648 := by
          rcases p7 with ⟨e1, e2⟩ | ⟨e1, e2⟩
          · rw [p5, e1, e2]; decide
          · exact ⟨(hmov e1).2.1, (hmov e1).1⟩
        have hr := p3.2
        replace p3 := p3.1
        have := Planner.plan_brake (a := a) (f := lowest (linearRamp a A H)) (by rw [hr, p3.speed]; exact hgood) (by rw [p3.speed]; exact hmin) (by rw [p3.speed]; exact hT) hct.2
          (Planner.target_lt ht) hct.1 (by intro h0; rw [hcu, if_pos h0]; simp) hnd ?_ hpl
        · rw [p3.speed] at this
          obtain ⟨b1, b2, b3, b4⟩ := this
          refine ⟨b3, ?_, b4⟩
          have hlt := Planner.plan_facts (by omega) (Planner.target_lt ht) (by rw [p3.speed]; unfold ticksForStoppedMotor at hT; omega) hct.1 hpl
          rcases hlt with ⟨-, e⟩ | ⟨-, ph, P, hs⟩
          · rw [e]; change ticksForStoppedMotor < _; decide
          · rcases hs.period with ⟨-, -, e⟩ | ⟨-, -, -, -, -, e⟩
            · rw [e]; exact hs.lt
            · rw [e]; unfold u32; omega
        · rw [p3.speed]
          rcases p7 with ⟨e1, e2⟩ | ⟨e1, e2⟩
          · exact Or.inl ⟨by rw [p5]; exact e1, e2⟩
          · exact Or.inr ⟨by rw [p5]; exact e1, (hmov e1).2.2⟩

/-- Calls which are no settings leave the settings. -/
theorem call_settings (a : ArchId) (s : Stepper) (c : ApiCall) (hc : ∀ k, c ≠ .config k) :
    SameSettings (c.exec a s).rg.parameters s.rg.parameters ∧
    (c.exec a s).rg.parameters.recalcRampSteps = s.rg.parameters.recalcRampSteps := by
  cases c with
  | config k => exact absurd rfl (hc k)
  | moveTo p =>
    change SameSettings (s.rg.moveTo p s.hw.q.qend).1.parameters _ ∧ (s.rg.moveTo p s.hw.q.qend).1.parameters.recalcRampSteps = _
    unfold RampGen.moveTo
    dsimp only
    split <;> exact ⟨⟨rfl, rfl, rfl, rfl, rfl, rfl⟩, rfl⟩
  | move m =>
    change SameSettings (s.move m).1.rg.parameters _ ∧ (s.move m).1.rg.parameters.recalcRampSteps = _
    unfold Stepper.move
    split
    · exact ⟨⟨rfl, rfl, rfl, rfl, rfl, rfl⟩, rfl⟩
    · dsimp only
      unfold RampGen.move
      dsimp only
      split <;> exact ⟨⟨rfl, rfl, rfl, rfl, rfl, rfl⟩, rfl⟩
  | run up =>
    change SameSettings (s.rg.startRun up).1.parameters _ ∧ (s.rg.startRun up).1.parameters.recalcRampSteps = _
    unfold RampGen.startRun
    dsimp only
    split <;> exact ⟨⟨rfl, rfl, rfl, rfl, rfl, rfl⟩, rfl⟩
  | keepRunning => exact ⟨⟨rfl, rfl, rfl, rfl, rfl, rfl⟩, rfl⟩
  | stopMove => exact ⟨⟨rfl, rfl, rfl, rfl, rfl, rfl⟩, rfl⟩
  | forceStop => exact ⟨⟨rfl, rfl, rfl, rfl, rfl, rfl⟩, rfl⟩
  | forceStopAndNewPosition p => exact ⟨⟨rfl, rfl, rfl, rfl, rfl, rfl⟩, rfl⟩
  | setCurrentPosition p =>
    change SameSettings (s.setCurrentPosition a p).rg.parameters _ ∧ (s.setCurrentPosition a p).rg.parameters.recalcRampSteps = _
    unfold Stepper.setCurrentPosition
    dsimp only
    split <;> exact ⟨⟨rfl, rfl, rfl, rfl, rfl, rfl⟩, rfl⟩
  | setPositionAfterCommandsCompleted p =>
    change SameSettings (s.setPositionAfterCommandsCompleted p).rg.parameters _ ∧ (s.setPositionAfterCommandsCompleted p).rg.parameters.recalcRampSteps = _
    unfold Stepper.setPositionAfterCommandsCompleted
    dsimp only
    split <;> exact ⟨⟨rfl, rfl, rfl, rfl, rfl, rfl⟩, rfl⟩

/-- What the settings do to the parameters. -/
theorem steady_config {T A H : Nat} (s : Stepper) (k : ConfigCall) (hok : ApiCall.Steady T A H (.config k)) :
    ((k.run s).rg.parameters.minTravelTicks = s.rg.parameters.minTravelTicks ∧ (k.run s).rg.parameters.validSpeed = s.rg.parameters.validSpeed ∨
      (k.run s).rg.parameters.minTravelTicks = T ∧ (k.run s).rg.parameters.validSpeed = true) ∧
    ((k.run s).rg.parameters.pmflAccel = s.rg.parameters.pmflAccel ∧ (k.run s).rg.parameters.validAcceleration = s.rg.parameters.validAcceleration ∧
        ((k.run s).rg.parameters.recalcRampSteps = s.rg.parameters.recalcRampSteps ∨ s.rg.parameters.sH ≠ H) ∨
      (k.run s).rg.parameters.pmflAccel = pmflFrom A ∧ (k.run s).rg.parameters.validAcceleration = true ∧
        (s.rg.parameters.validAcceleration = false ∨ s.rg.parameters.pmflAccel ≠ pmflFrom A)) ∧
    ((k.run s).rg.parameters.sH = s.rg.parameters.sH ∨ (k.run s).rg.parameters.sH = H) ∧
    ((k.run s).rg.parameters.sJump = s.rg.parameters.sJump ∨ (k.run s).rg.parameters.sJump = 0) ∧
    ((k.run s).rg.parameters.apply = true ∨ (k.run s).rg.parameters.apply = s.rg.parameters.apply) := by
  cases k with
  | speed t =>
    unfold ConfigCall.run Stepper.setSpeedInTicks
    dsimp only
    split
    · exact ⟨Or.inl ⟨rfl, rfl⟩, Or.inl ⟨rfl, rfl, Or.inl rfl⟩, Or.inl rfl, Or.inl rfl, Or.inr rfl⟩
    · split
      · exact ⟨Or.inl ⟨rfl, rfl⟩, Or.inl ⟨rfl, rfl, Or.inl rfl⟩, Or.inl rfl, Or.inl rfl, Or.inr rfl⟩
      · dsimp only
        unfold RampParams.setSpeedInTicks
        split
        · exact ⟨Or.inr ⟨hok, rfl⟩, Or.inl ⟨rfl, rfl, Or.inl rfl⟩, Or.inl rfl, Or.inl rfl, Or.inr rfl⟩
        · exact ⟨Or.inl ⟨rfl, rfl⟩, Or.inl ⟨rfl, rfl, Or.inl rfl⟩, Or.inl rfl, Or.inl rfl, Or.inr rfl⟩
  | acceleration x =>
    have hx : x = A := hok
    subst hx
    unfold ConfigCall.run Stepper.setAcceleration RampGen.setAcceleration
    dsimp only
    split
    · exact ⟨Or.inl ⟨rfl, rfl⟩, Or.inl ⟨rfl, rfl, Or.inl rfl⟩, Or.inl rfl, Or.inl rfl, Or.inr rfl⟩
    · dsimp only
      unfold RampParams.setAcceleration
      dsimp only
      split
      · rename_i h
        refine ⟨Or.inl ⟨rfl, rfl⟩, Or.inr ⟨rfl, rfl, ?_⟩, Or.inl rfl, Or.inl rfl, Or.inr rfl⟩
        simpa using h
      · exact ⟨Or.inl ⟨rfl, rfl⟩, Or.inl ⟨rfl, rfl, Or.inl rfl⟩, Or.inl rfl, Or.inl rfl, Or.inr rfl⟩
  | linear n =>
    have hn : n = H := hok
    subst hn
    unfold ConfigCall.run Stepper.setLinearAcceleration RampParams.setCubicAccelerationSteps
    dsimp only
    split
    · rename_i h
      exact ⟨Or.inl ⟨rfl, rfl⟩, Or.inl ⟨rfl, rfl, Or.inr h⟩, Or.inr rfl, Or.inl rfl, Or.inr rfl⟩
    · exact ⟨Or.inl ⟨rfl, rfl⟩, Or.inl ⟨rfl, rfl, Or.inl rfl⟩, Or.inl rfl, Or.inl rfl, Or.inr rfl⟩
  | jump n =>
    have hn : n = 0 := hok
    exact ⟨Or.inl ⟨rfl, rfl⟩, Or.inl ⟨rfl, rfl, Or.inl rfl⟩, Or.inl rfl, Or.inr hn, Or.inr rfl⟩
  | applySpeedAcceleration =>
    unfold ConfigCall.run Stepper.applySpeedAcceleration RampGen.applySpeedAcceleration RampParams.applyParameters
    dsimp only
    split
    · split
      · exact ⟨Or.inl ⟨rfl, rfl⟩, Or.inl ⟨rfl, rfl, Or.inl rfl⟩, Or.inl rfl, Or.inl rfl, Or.inl rfl⟩
      · exact ⟨Or.inl ⟨rfl, rfl⟩, Or.inl ⟨rfl, rfl, Or.inl rfl⟩, Or.inl rfl, Or.inl rfl, Or.inr rfl⟩
    · exact ⟨Or.inl ⟨rfl, rfl⟩, Or.inl ⟨rfl, rfl, Or.inl rfl⟩, Or.inl rfl, Or.inl rfl, Or.inr rfl⟩

theorem SteadyInv.call {a : ArchId} {T A H : Nat} (s : Stepper) (c : ApiCall) (hi : SteadyInv a T A H s.rg) (hok : c.Steady T A H) :
    SteadyInv a T A H (c.exec a s).rg := by
  have hact : ∀ {g : RampGen}, g.rw = s.rg.rw → g.isActive = s.rg.isActive := by intro g h; unfold RampGen.isActive; rw [h]
  have hst := RampRw.start_facts s.rg.rw
  cases call_effect a s c with
  | keep h1 h2 h3 =>
    have := hact h2
    exact ⟨by rw [h1]; exact hi.speed, by rw [h1]; exact hi.accel, by rw [h1]; exact hi.linear, by rw [h1]; exact hi.jump,
      by rw [h1, this]; exact hi.valid, by rw [h1, h3, this]; exact hi.used, by rw [h3]; exact hi.usedRecalc, by rw [h1, this]; exact hi.recalc,
      by rw [h1, h2, this]; exact hi.moving⟩
  | config k hc h1 h2 h3 =>
    subst hc
    obtain ⟨e1, e2, e3, e4, e5⟩ := steady_config s k hok
    rw [← h3] at e1 e2 e3 e4 e5
    have hac := hact h1
    have e3' : (ApiCall.exec a s (.config k)).rg.parameters.sH = H := by
      rcases e3 with e | e
      · rw [e]; exact hi.linear
      · exact e
    -- once the acceleration is valid, nothing is recalculated
    have hrec : s.rg.isActive = true → (ApiCall.exec a s (.config k)).rg.parameters.recalcRampSteps = s.rg.parameters.recalcRampSteps := by
      intro h
      have hv := valid_of_check (hi.valid h)
      rcases e2 with ⟨-, -, e | e⟩ | ⟨-, -, e | e⟩
      · exact e
      · exact absurd hi.linear e
      · rw [hv.2] at e; cases e
      · exact absurd (hi.accel hv.2) e
    refine ⟨?_, ?_, e3', ?_, ?_, ?_, by rw [h2]; exact hi.usedRecalc, ?_, ?_⟩
    · rcases e1 with ⟨e, e'⟩ | ⟨e, -⟩
      · rw [e, e']; exact hi.speed
      · exact fun _ => e
    · rcases e2 with ⟨e, e', -⟩ | ⟨e, -⟩
      · rw [e, e']; exact hi.accel
      · exact fun _ => e
    · rcases e4 with e | e
      · rw [e]; exact hi.jump
      · exact e
    · rw [hac]
      intro h
      have hv := valid_of_check (hi.valid h)
      unfold RampParams.checkValidConfig
      have v1 : (ApiCall.exec a s (.config k)).rg.parameters.validSpeed = true := by
        rcases e1 with ⟨-, e⟩ | ⟨-, e⟩
        · rw [e]; exact hv.1
        · exact e
      have v2 : (ApiCall.exec a s (.config k)).rg.parameters.validAcceleration = true := by
        rcases e2 with ⟨-, e, -⟩ | ⟨-, e, -⟩
        · rw [e]; exact hv.2
        · exact e
      rw [v1, v2]; rfl
    · rw [hac, h2]
      intro h
      rcases e5 with e | e
      · exact Or.inl e
      · rw [e]; exact hi.used h
    · rw [hac]
      intro h
      rw [hrec h]
      rcases e5 with e | e
      · exact Or.inl e
      · rw [e]; exact hi.recalc h
    · rw [hac, h1]
      intro h h'
      rw [hrec h]
      exact hi.moving h h'
  | move hv h0 h1 h2 h3 h4 h5 =>
    by_cases hk : ∃ k, c = .config k
    · obtain ⟨k, hk⟩ := hk
      subst hk
      -- a setting is no move command
      have hfr := config_frame s k
      obtain ⟨e1, e2, e3, e4, e5⟩ := steady_config s k hok
      have hac := hact hfr.1
      have e3' : (k.run s).rg.parameters.sH = H := by
        rcases e3 with e | e
        · rw [e]; exact hi.linear
        · exact e
      have hvv := valid_of_check hv
      have hrec : (k.run s).rg.parameters.recalcRampSteps = s.rg.parameters.recalcRampSteps := by
        rcases e2 with ⟨-, -, e | e⟩ | ⟨-, -, e | e⟩
        · exact e
        · exact absurd hi.linear e
        · rw [hvv.2] at e; cases e
        · exact absurd (hi.accel hvv.2) e
      have v1 : (k.run s).rg.parameters.validSpeed = true := by
        rcases e1 with ⟨-, e⟩ | ⟨-, e⟩
        · rw [e]; exact hvv.1
        · exact e
      have v2 : (k.run s).rg.parameters.validAcceleration = true := by
        rcases e2 with ⟨-, e, -⟩ | ⟨-, e, -⟩
        · rw [e]; exact hvv.2
        · exact e
      change SteadyInv a T A H (k.run s).rg
      refine ⟨?_, ?_, e3', ?_, ?_, ?_, by rw [hfr.2]; exact hi.usedRecalc, ?_, ?_⟩
      · rcases e1 with ⟨e, e'⟩ | ⟨e, -⟩
        · rw [e, e']; exact hi.speed
        · exact fun _ => e
      · rcases e2 with ⟨e, e', -⟩ | ⟨e, -⟩
        · rw [e, e']; exact hi.accel
        · exact fun _ => e
      · rcases e4 with e | e
        · rw [e]; exact hi.jump
        · exact e
      · intro _
        unfold RampParams.checkValidConfig
        rw [v1, v2]; rfl
      · intro _; exact Or.inl h0
      · intro _; exact Or.inl h0
      · rw [hac, hfr.1, hrec]; exact hi.moving
    · obtain ⟨e, er⟩ := call_settings a s c (fun k hc => hk ⟨k, hc⟩)
      refine ⟨by rw [e.vs, e.speed]; exact hi.speed, by rw [e.va, e.accel]; exact hi.accel, by rw [e.linear]; exact hi.linear,
        by rw [e.jump]; exact hi.jump, fun _ => by rw [e.valid]; exact hv, fun _ => Or.inl h0, by rw [h5]; exact hi.usedRecalc, fun _ => Or.inl h0, ?_⟩
      rw [er]
      rcases h4 with h4 | h4
      · rw [hact h4, h4]; exact hi.moving
      · rcases hst.2.2 with h6 | ⟨-, h6⟩
        · rw [h6] at h4
          rw [hact h4, h4]; exact hi.moving
        · intro _ h7
          rw [h4, h6] at h7
          exact absurd rfl h7
  | continuous h1 h2 h3 =>
    have := hact h2
    refine ⟨by rw [h1]; exact hi.speed, by rw [h1]; exact hi.accel, by rw [h1]; exact hi.linear, by rw [h1]; exact hi.jump,
      by rw [h1, this]; exact hi.valid, ?_, by rw [h3]; exact hi.usedRecalc, by rw [h1, this]; exact hi.recalc, by rw [h1, h2, this]; exact hi.moving⟩
    rw [h1, h3, this]
    intro h
    rcases hi.used h with e | e
    · exact Or.inl e
    · exact Or.inr ⟨⟨e.1.speed, e.1.accel, e.1.linear, e.1.jump⟩, e.2⟩
  | stopped h1 h2 h3 =>
    have hin : (c.exec a s).rg.isActive = false := by unfold RampGen.isActive; rw [h2]; decide
    exact ⟨by rw [h1]; exact hi.speed, by rw [h1]; exact hi.accel, by rw [h1]; exact hi.linear, by rw [h1]; exact hi.jump,
      (by rw [hin]; intro h; cases h), (by rw [hin]; intro h; cases h), by rw [h3]; exact hi.usedRecalc, (by rw [hin]; intro h; cases h),
      (by rw [hin]; intro h; cases h)⟩

end FAS
