import Verif.Props.Redirect
import Verif.Props.Brake
import Verif.Spec.Halt

/-!
# A moving motor gets a new target or `stopMove()`: C98, C99
-/

namespace FAS

open Spec

/-- The ramp is that of an acceleration of at most `A`, with any number of steps of linear acceleration. -/
def MildRamp (a : ArchId) (A : Nat) (cfg : RampConfig) : Prop :=
  ∃ A' H', 0 < A' ∧ A' ≤ A ∧ H' < 4294967294 ∧ ∃ c, Configured a A' H' c ∧ cfg.calculateTicks a = c.calculateTicks a

/-- What calls with accelerations up to `A` maintain. -/
structure MildInv (a : ArchId) (A : Nat) (g : RampGen) : Prop where
  accel : g.parameters.validAcceleration = true → ∃ A', 0 < A' ∧ A' ≤ A ∧ g.parameters.pmflAccel = pmflFrom A'
  linear : g.parameters.sH < 4294967294
  valid : g.isActive = true → g.parameters.checkValidConfig = MOVE_OK
  used : g.isActive = true → g.parameters.apply = true ∨ MildRamp a A g.ro.config
  usedRecalc : g.ro.config.parameters.recalcRampSteps = false

/-- The state in which the planner finds an active ramp. -/
theorem MildInv.prepare {a : ArchId} {A : Nat} {g : RampGen} (hi : MildInv a A g) (ha : g.isActive = true) (qe : QueueEnd) :
    SameSettings (g.prepare a qe).parameters g.parameters ∧ MildRamp a A (g.prepare a qe).ro.config ∧
    (g.prepare a qe).ro.config.parameters.recalcRampSteps = false ∧
    (g.rw.currTicks ≠ ticksForStoppedMotor → (g.prepare a qe).stepsToStop =
      if g.parameters.apply = true ∧ g.parameters.recalcRampSteps = true then
        ({ g.ro.config with parameters := g.parameters }.update a).calculateRampSteps a g.rw.currTicks
      else g.stepsToStop) := by
  have hv := valid_of_check (hi.valid ha)
  have h1 : (g.takeOver a).rw = g.rw ∧ SameSettings (g.takeOver a).parameters g.parameters ∧ MildRamp a A (g.takeOver a).ro.config ∧
      ((g.takeOver a).ro.config.parameters.recalcRampSteps = true ↔ g.parameters.apply = true ∧ g.parameters.recalcRampSteps = true) ∧
      (g.parameters.apply = true → (g.takeOver a).ro.config = { g.ro.config with parameters := g.parameters }.update a) := by
    unfold RampGen.takeOver
    by_cases hap : g.parameters.apply = true
    · rw [if_pos hap]
      dsimp only
      obtain ⟨A', h1, h2, h3⟩ := hi.accel hv.2
      refine ⟨rfl, ⟨rfl, rfl, rfl, rfl, rfl, rfl⟩, ⟨A', _, h1, h2, hi.linear, _, ⟨_, h3, rfl, rfl⟩, rfl⟩, ?_, fun _ => rfl⟩
      rw [RampConfig.update_parameters]
      exact ⟨fun h => ⟨hap, h⟩, fun h => h.2⟩
    · rw [if_neg hap]
      exact ⟨rfl, ⟨rfl, rfl, rfl, rfl, rfl, rfl⟩, (hi.used ha).resolve_left hap,
        ⟨fun h => absurd h (by rw [hi.usedRecalc]; decide), fun h => absurd h.1 hap⟩, fun h => absurd h hap⟩
  revert h1
  unfold RampGen.prepare
  generalize g.takeOver a = gt
  intro ⟨h1, h2, h3, h4, h5⟩
  have k1 : (gt.startSteps a).ro = gt.ro ∧ (gt.startSteps a).parameters = gt.parameters ∧
      (gt.rw.currTicks ≠ ticksForStoppedMotor → (gt.startSteps a).rw.performedRampUpSteps =
        if gt.ro.config.parameters.recalcRampSteps = true then gt.ro.config.calculateRampSteps a gt.rw.currTicks else gt.rw.performedRampUpSteps) := by
    unfold RampGen.startSteps
    dsimp only
    by_cases hs : gt.rw.currTicks = ticksForStoppedMotor
    · rw [if_pos hs]
      exact ⟨rfl, rfl, fun h => absurd hs h⟩
    · rw [if_neg hs]
      refine ⟨by split <;> rfl, by split <;> rfl, fun _ => ?_⟩
      split <;> rfl
  revert k1
  generalize gt.startSteps a = gs
  intro ⟨k1, k2, k3⟩
  have t1 : ∀ b, (gs.updateTarget b qe).rw = gs.rw ∧ (gs.updateTarget b qe).parameters = gs.parameters ∧
      (gs.updateTarget b qe).ro.config.calculateTicks a = gs.ro.config.calculateTicks a := by
    intro b
    unfold RampGen.updateTarget
    dsimp only
    repeat' split
    all_goals exact ⟨rfl, rfl, rfl⟩
  obtain ⟨t1, t2, t3⟩ := t1 g.ro.config.parameters.keepRunning
  revert t1 t2 t3
  generalize gs.updateTarget g.ro.config.parameters.keepRunning qe = gu
  intro t1 t2 t3
  have c1 : gu.clearRecalc.rw = gu.rw := rfl
  have c2 : gu.clearRecalc.parameters = gu.parameters := rfl
  have c4 : gu.clearRecalc.ro.config.calculateTicks a = gu.ro.config.calculateTicks a := rfl
  refine ⟨by rw [c2, t2, k2]; exact h2, ?_, rfl, fun hs => ?_⟩
  · obtain ⟨A', H', m1, m2, m3, c, m4, m5⟩ := h3
    exact ⟨A', H', m1, m2, m3, c, m4, by rw [c4, t3, k1]; exact m5⟩
  · unfold RampGen.stepsToStop
    rw [c1, t1, k3 (by rw [h1]; exact hs), h1]
    by_cases hp : g.parameters.apply = true ∧ g.parameters.recalcRampSteps = true
    · rw [if_pos hp, if_pos (h4.mpr hp), h5 hp.1]
    · rw [if_neg hp, if_neg (fun h => hp (h4.mp h))]

/-- One service. -/
theorem MildInv.serve {a : ArchId} {A : Nat} {g g' : RampGen} {qe : QueueEnd} {junk c : NextCommand} (hi : MildInv a A g) (ha : g.isActive = true)
    (h : g.getNextCommand a qe junk = some (g', c)) :
    MildInv a A g' ∧ MildInv a A (g'.afterCommandEnqueued c) ∧ MildInv a A g'.stopRamp := by
  obtain ⟨p1, p2, p3, -⟩ := hi.prepare ha qe
  have base : ∀ g2 : RampGen, g2.parameters = (g.prepare a qe).parameters → g2.ro.config = (g.prepare a qe).ro.config → MildInv a A g2 := by
    intro g2 e1 e2
    refine ⟨?_, ?_, ?_, ?_, ?_⟩
    · rw [e1, p1.va, p1.accel]; exact hi.accel
    · rw [e1, p1.linear]; exact hi.linear
    · intro _; rw [e1, p1.valid]; exact hi.valid ha
    · intro _; rw [e2]; exact Or.inr p2
    · rw [e2]; exact p3
  unfold RampGen.getNextCommand at h
  dsimp only at h
  by_cases hf : (g.prepare a qe).ro.forceImmediateStop = true
  · rw [if_pos hf] at h
    cases h
    exact ⟨base _ rfl rfl, base _ rfl rfl, base _ rfl rfl⟩
  · rw [if_neg hf] at h
    cases hp : Planner.getNextCommand a (g.prepare a qe).ro (g.prepare a qe).rw qe junk with
    | none => rw [hp] at h; cases h
    | some c1 =>
      rw [hp] at h
      cases h
      exact ⟨base _ rfl rfl, base _ rfl rfl, base _ rfl rfl⟩

/-- What the settings do to the parameters. -/
theorem mild_config {L A : Nat} (s : Stepper) (k : ConfigCall) (hok : ApiCall.Mild L A (.config k)) :
    ((k.run s).rg.parameters.pmflAccel = s.rg.parameters.pmflAccel ∧ (k.run s).rg.parameters.validAcceleration = s.rg.parameters.validAcceleration ∨
      ∃ A', 0 < A' ∧ A' ≤ A ∧ (k.run s).rg.parameters.pmflAccel = pmflFrom A') ∧
    ((k.run s).rg.parameters.sH = s.rg.parameters.sH ∨ (k.run s).rg.parameters.sH < 4294967294) ∧
    ((k.run s).rg.parameters.apply = true ∨ (k.run s).rg.parameters.apply = s.rg.parameters.apply) ∧
    (s.rg.parameters.checkValidConfig = MOVE_OK → (k.run s).rg.parameters.checkValidConfig = MOVE_OK) := by
  have hchk : ∀ p q : RampParams, (p.validSpeed = true → q.validSpeed = true) → (p.validAcceleration = true → q.validAcceleration = true) →
      p.checkValidConfig = MOVE_OK → q.checkValidConfig = MOVE_OK := by
    intro p q h1 h2 h
    obtain ⟨h3, h4⟩ := valid_of_check h
    unfold RampParams.checkValidConfig
    rw [h1 h3, h2 h4]
    rfl
  cases k with
  | speed t =>
    unfold ConfigCall.run Stepper.setSpeedInTicks
    dsimp only
    split
    · exact ⟨Or.inl ⟨rfl, rfl⟩, Or.inl rfl, Or.inr rfl, id⟩
    · split
      · exact ⟨Or.inl ⟨rfl, rfl⟩, Or.inl rfl, Or.inr rfl, id⟩
      · dsimp only
        unfold RampParams.setSpeedInTicks
        split
        · exact ⟨Or.inl ⟨rfl, rfl⟩, Or.inl rfl, Or.inr rfl, hchk _ _ (fun _ => rfl) id⟩
        · exact ⟨Or.inl ⟨rfl, rfl⟩, Or.inl rfl, Or.inr rfl, id⟩
  | acceleration x =>
    have hx : x ≤ A := hok
    unfold ConfigCall.run Stepper.setAcceleration RampGen.setAcceleration
    dsimp only
    split
    · exact ⟨Or.inl ⟨rfl, rfl⟩, Or.inl rfl, Or.inr rfl, id⟩
    · dsimp only
      unfold RampParams.setAcceleration
      dsimp only
      split
      · exact ⟨Or.inr ⟨x.toNat, by omega, by omega, rfl⟩, Or.inl rfl, Or.inr rfl, hchk _ _ id (fun _ => rfl)⟩
      · exact ⟨Or.inl ⟨rfl, rfl⟩, Or.inl rfl, Or.inr rfl, id⟩
  | linear n =>
    have hn : n < 4294967294 := hok
    unfold ConfigCall.run Stepper.setLinearAcceleration RampParams.setCubicAccelerationSteps
    dsimp only
    split
    · exact ⟨Or.inl ⟨rfl, rfl⟩, Or.inr hn, Or.inr rfl, hchk _ _ id id⟩
    · exact ⟨Or.inl ⟨rfl, rfl⟩, Or.inl rfl, Or.inr rfl, id⟩
  | jump n => exact ⟨Or.inl ⟨rfl, rfl⟩, Or.inl rfl, Or.inr rfl, hchk _ _ id id⟩
  | applySpeedAcceleration =>
    unfold ConfigCall.run Stepper.applySpeedAcceleration RampGen.applySpeedAcceleration RampParams.applyParameters
    dsimp only
    split
    · split
      · exact ⟨Or.inl ⟨rfl, rfl⟩, Or.inl rfl, Or.inl rfl, hchk _ _ id id⟩
      · exact ⟨Or.inl ⟨rfl, rfl⟩, Or.inl rfl, Or.inr rfl, id⟩
    · exact ⟨Or.inl ⟨rfl, rfl⟩, Or.inl rfl, Or.inr rfl, id⟩

theorem MildInv.call {a : ArchId} {L A : Nat} (s : Stepper) (c : ApiCall) (hi : MildInv a A s.rg) (hok : c.Mild L A) :
    MildInv a A (c.exec a s).rg := by
  have hact : ∀ {g : RampGen}, g.rw = s.rg.rw → g.isActive = s.rg.isActive := by intro g h; unfold RampGen.isActive; rw [h]
  by_cases hk : ∃ k, c = .config k
  · obtain ⟨k, hk⟩ := hk
    subst hk
    obtain ⟨h1, h2⟩ := config_frame s k
    obtain ⟨e1, e2, e3, e4⟩ := mild_config s k hok
    have hac := hact h1
    change MildInv a A (k.run s).rg
    refine ⟨?_, ?_, ?_, ?_, by rw [h2]; exact hi.usedRecalc⟩
    · rcases e1 with ⟨e, e'⟩ | e
      · rw [e, e']; exact hi.accel
      · exact fun _ => e
    · rcases e2 with e | e
      · rw [e]; exact hi.linear
      · exact e
    · rw [hac]; exact fun h => e4 (hi.valid h)
    · rw [hac, h2]
      intro h
      rcases e3 with e | e
      · exact Or.inl e
      · rw [e]; exact hi.used h
  · cases call_effect a s c with
    | keep h1 h2 h3 =>
      have := hact h2
      exact ⟨by rw [h1]; exact hi.accel, by rw [h1]; exact hi.linear, by rw [h1, this]; exact hi.valid, by rw [h1, h3, this]; exact hi.used,
        by rw [h3]; exact hi.usedRecalc⟩
    | config k hc h1 h2 h3 => exact absurd ⟨k, hc⟩ hk
    | move hv h0 h1 h2 h3 h4 h5 =>
      have hs := (call_settings a s c (fun k hc => hk ⟨k, hc⟩)).1
      exact ⟨by rw [hs.va, hs.accel]; exact hi.accel, by rw [hs.linear]; exact hi.linear, fun _ => by rw [hs.valid]; exact hv, fun _ => Or.inl h0,
        by rw [h5]; exact hi.usedRecalc⟩
    | continuous h1 h2 h3 =>
      have := hact h2
      refine ⟨by rw [h1]; exact hi.accel, by rw [h1]; exact hi.linear, by rw [h1, this]; exact hi.valid, ?_, by rw [h3]; exact hi.usedRecalc⟩
      rw [h1, h3, this]; exact hi.used
    | stopped h1 h2 h3 =>
      have hact := isActive_stopped h2
      exact ⟨by rw [h1]; exact hi.accel, by rw [h1]; exact hi.linear, (by rw [hact]; intro h; cases h), (by rw [hact]; intro h; cases h),
        by rw [h3]; exact hi.usedRecalc⟩

theorem Spec.RampHist.mild_slow {a : ArchId} {L A : Nat} {s : Stepper} (h : RampHist a (ApiCall.Mild L A) s) : RampHist a (ApiCall.Slow L) s := by
  induction h with
  | start s h => exact .start s h
  | call c _ hok ih =>
    refine .call c ih ?_
    cases c <;> try trivial
    rename_i k
    cases k <;> trivial
  | task env junk acc _ hj hf ih => exact .task env junk acc ih hj hf
  | other _ hs ih => exact .other ih hs

theorem RampHist.mild {a : ArchId} {L A : Nat} {s : Stepper} (h : RampHist a (ApiCall.Mild L A) s) : MildInv a A s.rg := by
  suffices hs : InRange s.rg ∧ MildInv a A s.rg from hs.2
  refine RampHist.induct (fun g => InRange g ∧ MildInv a A g) ?_ (fun s c hi hok => ⟨InRange_call a s c hi.1 ?_, MildInv.call s c hi.2 hok⟩) ?_ h
  · exact ⟨⟨by decide, by decide, by decide, by decide, by decide, by decide⟩, fun h => (by cases h), by decide, fun h => (by cases h), fun h => (by cases h), rfl⟩
  · cases c <;> try trivial
    rename_i k
    cases k <;> try trivial
    · change _ < _; change _ ∧ _ at hok; omega
    · change _ < _; change _ = _ at hok; omega
  · intro g g' qe junk c hi ha hv hj hg
    obtain ⟨r0, r1, r2, r3⟩ := InRange_serve hi.1 hj hg
    obtain ⟨m1, m2, m3⟩ := hi.2.serve ha hg
    exact ⟨r0, ⟨r1, m1⟩, ⟨r2, m2⟩, ⟨r3, m3⟩⟩

/-- The settings with which the planner finds an active ramp. -/
theorem mild_settings {a : ArchId} {L A : Nat} {s : Stepper} (hh : RampHist a (ApiCall.Mild L A) s) (hmin : a.minCmdTicks ≤ L) (hL : L ≤ 32768)
    (hact : s.rg.isActive = true) (qe : QueueEnd) : L ≤ (s.rg.prepare a qe).ro.config.parameters.minTravelTicks ∧
    (s.rg.prepare a qe).ro.config.parameters.minTravelTicks ≤ 65535 ∧ (s.rg.prepare a qe).ro.config.parameters.sJump = 0 := by
  have hi := RampHist.slow hmin hL (Spec.RampHist.mild_slow hh)
  have hv := validSpeed_of_check ((RampHist.mild hh).valid hact)
  rcases (prepared a s.rg qe).cfg with ⟨h1, h2, h3, -⟩ | ⟨h1, h2, h3, -⟩
  · rw [h2, h3]; exact ⟨(hi.speed hv).1, (hi.speed hv).2, hi.jump⟩
  · rw [h2, h3]
    have hv2 : s.rg.ro.config.parameters.validSpeed = true := by
      rcases hi.valid hact with h5 | h5
      · rw [h1] at h5; cases h5
      · exact h5
    exact ⟨(hi.used hv2).1, (hi.used hv2).2, hi.usedJump⟩

/-- The state of a moving motor after a call, which lets it go to `p`. -/
theorem mild_inv (a : ArchId) (L A : Nat) (s : Stepper) (hh : RampHist a (ApiCall.Mild L A) s) (hst : Moving a L s) (hA2 : A < 2147483648)
    (p : Int) (W : Nat) (hmove : (s.rg.prepare a s.hw.q.qend).isRunningContinuously = false) (htarget : (s.rg.prepare a s.hw.q.qend).ro.targetPos = p)
    (hrank : motionReach a ⟨s.rg, s.hw.q.qend⟩ ≤ 2 * W + 1) (hn : (s.rg.prepare a s.hw.q.qend).stepsToStop ≤ W) (hW : W < 2147483648)
    (hfast : 5 * A * max 40000 (W + 1) ≤ a.ticksPerS ^ 2) : ∃ R M, MoveInv a L R p M s := by
  obtain ⟨hmin, hlimit, hL, hact, hforce, hpin, hdelay, hen, hready, hx1, hx2, hx3, hpos⟩ := hst
  have h16 : 640 ≤ L := by
    have : 640 ≤ a.minCmdTicks := by cases a <;> decide
    omega
  have hact1 : s.rg.isActive = true := hact
  have hslow := RampHist.slow hmin hL (Spec.RampHist.mild_slow hh)
  have hpb := RampHist.pauseBound (Spec.RampHist.typed (Spec.RampHist.mild_slow hh))
  have hinv := RampHist.mild hh
  have hvalid := hinv.valid hact1
  obtain ⟨e1, e2, e3⟩ := mild_settings hh hmin hL hact1 s.hw.q.qend
  obtain ⟨-, ⟨A', H', m1, m2, m3, c, hconf, hcalc⟩, -, -⟩ := hinv.prepare hact1 s.hw.q.qend
  have hp := prepared a s.rg s.hw.q.qend
  have hfi : (s.rg.prepare a s.hw.q.qend).ro.forceImmediateStop = false := by
    cases h : (s.rg.prepare a s.hw.q.qend).ro.forceImmediateStop
    · rfl
    · have h1 := hp.fimm h
      rw [hforce] at h1; cases h1
  have hst0 : ticksForStoppedMotor = 4294967295 := rfl
  have hper := hslow.period hact1
  have hfar := ticks_far a (accel := (A' : Int)) (by omega) (by omega) m3 hW
    (Nat.le_trans (Nat.mul_le_mul_right _ (Nat.mul_le_mul_left 5 (by omega))) hfast)
  have hsafe : Safe a (2 * W + 1) ⟨s.rg, s.hw.q.qend⟩ := by
    refine ⟨⟨hslow.range, hpb, hmove, Or.inl e3, Or.inl ?_, ?_⟩, ⟨?_, Or.inl e2, fun n h1 h2 => ?_⟩, Or.inl fun n h1 h2 => ?_, hrank, by omega, ?_⟩
    · change (s.rg.prepare a s.hw.q.qend).ro.config.parameters.minTravelTicks % 65536 ≠ 0
      omega
    · change (s.rg.prepare a s.hw.q.qend).stepsToStop < _
      omega
    · change _ ≤ (s.rg.prepare a s.hw.q.qend).ro.config.parameters.minTravelTicks
      omega
    · change (s.rg.prepare a s.hw.q.qend).ro.config.calculateTicks a n ≠ _
      rw [hcalc]
      have := ticks_lively hconf m1 (by omega) m3 n h1 h2
      omega
    · change 0 < (s.rg.prepare a s.hw.q.qend).ro.config.calculateTicks a n
      rw [hcalc, C32_period_no_overflow hconf m1 (by omega) m3 (steps := n) (by omega) (by omega)]
      exact hfar n h1 h2
    · change 0 < s.rg.rw.currTicks
      omega
  refine ⟨2 * W + 1, motionMeasure a ⟨s.rg, s.hw.q.qend⟩ + 1, ⟨Or.inr ?_, hpos⟩, Or.inr ⟨hslow, hvalid⟩,
    hlimit, hdelay, hvalid, hpin, hen, hready, hx1, hx2, hx3⟩
  exact ⟨hact1, hsafe, Nat.lt_succ_self _, fun _ => ⟨e3, e2⟩, hfi, htarget⟩

/-- The braking distance at the next service. -/
theorem mild_brake {a : ArchId} {L A : Nat} {s : Stepper} (hh : RampHist a (ApiCall.Mild L A) s) (hmin : a.minCmdTicks ≤ L) (hL : L ≤ 32768)
    (hact : s.rg.isActive = true) :
    (s.rg.rw.currTicks = ticksForStoppedMotor ∧ (s.rg.prepare a s.hw.q.qend).stepsToStop = 0) ∨
    (s.rg.rw.currTicks ≠ ticksForStoppedMotor ∧ (s.rg.prepare a s.hw.q.qend).stepsToStop = brakingSteps a s) := by
  by_cases h0 : s.rg.rw.currTicks = ticksForStoppedMotor
  · exact Or.inl ⟨h0, (prepared a s.rg s.hw.q.qend).stand h0 (mild_settings hh hmin hL hact s.hw.q.qend).2.2⟩
  · exact Or.inr ⟨h0, ((RampHist.mild hh).prepare hact s.hw.q.qend).2.2.2 h0⟩

/-- The state after `stopMove()` of a moving motor. -/
theorem stop_inv (a : ArchId) (L A : Nat) (s : Stepper) (hh : RampHist a (ApiCall.Mild L A) s) (hst : Moving a L s) (hA2 : A < 2147483648)
    (hn : brakingSteps a s < 2147483648) (hfast : 5 * A * max 40000 (brakingSteps a s + 1) ≤ a.ticksPerS ^ 2) :
    ∃ R M, MoveInv a L R (stopPosition a s) M s.stopMove := by
  have hh1 : RampHist a (ApiCall.Mild L A) s.stopMove := .call .stopMove hh trivial
  have hst1 : Moving a L s.stopMove := by
    obtain ⟨hmin, hlimit, hL, hact, hforce, hpin, hdelay, hen, hready, hx1, hx2, hx3, hpos⟩ := hst
    exact ⟨hmin, hlimit, hL, hact, hforce, hpin, hdelay, hen, hready, hx1, hx2, hx3, hpos⟩
  have hse := (prepare_settled a s.stopMove.rg s.stopMove.hw.q.qend).2.2 rfl
  have p7 := mild_brake hh1 hst.limit1 hst.limit3 hst1.active
  have hq : s.getPositionAfterCommandsCompleted = s.hw.q.qend.pos := rfl
  have hqe : s.stopMove.hw.q.qend = s.hw.q.qend := rfl
  have hrw : s.stopMove.rg.rw.currTicks = s.rg.rw.currTicks ∧ brakingSteps a s.stopMove = brakingSteps a s := ⟨rfl, rfl⟩
  rw [hrw.1, hrw.2] at p7
  have htarget : (s.stopMove.rg.prepare a s.stopMove.hw.q.qend).ro.targetPos = stopPosition a s := by
    rw [hse.2, hqe]
    rw [hqe] at p7
    unfold stopPosition stepsOn
    rw [hq]
    rcases p7 with ⟨h1, h2⟩ | ⟨h1, h2⟩
    · rw [if_pos h1, h2]
      simp only [Int.natCast_zero, Int.add_zero, Int.sub_zero, ite_self]
      exact hst.pos
    · rw [if_neg h1, h2]
      split <;> rfl
  obtain ⟨N, hN⟩ : ∃ N, (s.stopMove.rg.prepare a s.stopMove.hw.q.qend).stepsToStop = N := ⟨_, rfl⟩
  rw [hN] at p7
  have hn1 : N ≤ brakingSteps a s ∧ N < 2147483648 := by omega
  refine mild_inv a L A s.stopMove hh1 hst1 hA2 _ N hse.1 htarget ?_ (Nat.le_of_eq hN) hn1.2
    (Nat.le_trans (Nat.mul_le_mul_left _ (by omega)) hfast)
  unfold motionReach
  dsimp only
  have hw : shortestWay (s.stopMove.rg.prepare a s.stopMove.hw.q.qend).ro.targetPos s.stopMove.hw.q.qend.pos =
      if s.stopMove.hw.q.qend.countUp then (N : Int) else -(N : Int) := by
    rw [hse.2, hN]
    unfold shortestWay
    cases s.stopMove.hw.q.qend.countUp <;> simp only [Bool.false_eq_true, if_false, if_true] <;> (unfold i32; omega)
  rw [hw, hN, motionRank_stop]
  omega

/-- **C99.** `stopMove()` of a moving motor: any stepper without jump start, with set speeds of `L` to 65535 ticks and accelerations of at most `A` steps/s² (`RampHist`: any history of changes of speed, acceleration and linear acceleration,
of moves, stops, changes of direction and position, and task cycles), of which the ramp is active (`Moving`), gets `stopMove()`. Whatever the hardware and other steppers do, and whenever the task runs: no task cycle has undefined behaviour; once the ramp is idle,
the commands which the task has queued since then have led exactly to `stopPosition a s`, i.e. `stepsToStop()` steps beyond the end of the queue in the direction of the movement; and there is a number `N`, such that the ramp is idle after `N` task cycles
which were not hindered (the queue was empty, the direction pin was not in use by another stepper).

If the application has applied a change of the acceleration, which the task has not taken over yet, the braking distance is the one with the new acceleration instead of `stepsToStop()` (`brakingSteps`); a change which is not applied does no harm.

Missing: jump start, set speeds outside of `L` to 65535 ticks,
high accelerations with long braking distances (for 20000 steps/s² and less: every braking distance below 2^31). -/
theorem C99_stop_partial (a : ArchId) (L A : Nat) (s : Stepper) (hh : RampHist a (ApiCall.Mild L A) s) (hst : Moving a L s) (hA2 : A < 2147483648)
    (hn : brakingSteps a s < 2147483648) (hfast : 5 * A * max 40000 (brakingSteps a s + 1) ≤ a.ticksPerS ^ 2) :
    ∃ N, ∀ k cmds s', TaskHist a s.stopMove k cmds s' →
      (Powered s' → ∀ env junk, junk.rw.performedRampUpSteps < 4294967296 → ∃ r, s'.fillQueue a env junk = some r) ∧
      (s'.isRampGeneratorActive = false → s'.getPositionAfterCommandsCompleted = stopPosition a s ∧
        stepsOn s.getPositionAfterCommandsCompleted (signedSum cmds) = stopPosition a s) ∧
      (N ≤ k → s'.isRampGeneratorActive = false) := by
  obtain ⟨R, M, hinv0⟩ := stop_inv a L A s hh hst hA2 hn hfast
  refine ⟨M, fun k cmds s' h => hinv0.arrives (s0 := s.stopMove) hst.limit1 hst.limit3 ?_ hst.pos rfl k cmds s' h⟩
  unfold stopPosition stepsOn
  have := hst.pos
  split
  · exact this
  · split <;> exact i32_i32 _

theorem emptyCycles_mild : ∀ n s s', emptyCycles n s = some s' → RampHist .esp32 (ApiCall.Mild 16000 200) s → RampHist .esp32 (ApiCall.Mild 16000 200) s' := by
  intro n
  induction n with
  | zero => intro s s' h hh; cases h; exact hh
  | succ n ih =>
    intro s s' h hh
    unfold emptyCycles at h
    split at h
    · split at h
      · cases h
      · rename_i s1 acc hf
        split at h
        · exact ih _ s' h (.other (.task calmEnv junk0 acc hh (by decide) hf) rfl)
        · cases h
    · cases h

theorem creeping_mild : RampHist .esp32 (ApiCall.Mild 16000 200) creeping := by
  have h0 : RampHist .esp32 (ApiCall.Mild 16000 200) standing0 := .start _ rfl
  have h1 := RampHist.call (.config (.speed 20000)) h0 (show 16000 ≤ 20000 ∧ 20000 ≤ 65535 by decide)
  have h2 := RampHist.call (.config (.acceleration 100)) h1 (show (100 : Int) ≤ (200 : Nat) by decide)
  have h3 := RampHist.call (.config (.linear 0)) h2 (show 0 < 4294967294 by decide)
  have h4 := RampHist.call (.config (.jump 0)) h3 rfl
  exact RampHist.call (.moveTo 300) h4 trivial

/-- The stepper `creeping` gets other settings on its way: a slower speed, twice the acceleration, and linear acceleration. -/
def creepingChanged (s : Stepper) : Stepper :=
  (((s.setSpeedInTicks 30000).1.setAcceleration 200).1.setLinearAcceleration 5).applySpeedAcceleration

theorem creepingChanged_mild {s : Stepper} (h : RampHist .esp32 (ApiCall.Mild 16000 200) s) : RampHist .esp32 (ApiCall.Mild 16000 200) (creepingChanged s) := by
  have h1 := RampHist.call (.config (.speed 30000)) h (show 16000 ≤ 30000 ∧ 30000 ≤ 65535 by decide)
  have h2 := RampHist.call (.config (.acceleration 200)) h1 (show (200 : Int) ≤ (200 : Nat) by decide)
  have h3 := RampHist.call (.config (.linear 5)) h2 (show 5 < 4294967294 by decide)
  exact RampHist.call (.config .applySpeedAcceleration) h3 trivial

/-- The task finds the new target after `move()` of an active ramp. -/
theorem move_redirected (a : ArchId) (g : RampGen) (m : Int) (qe : QueueEnd) (hi : g.isActive = true)
    (hv : g.parameters.checkValidConfig = MOVE_OK) :
    (g.move m).1.rw = g.rw ∧ (g.move m).1.ro.forceImmediateStop = g.ro.forceImmediateStop ∧
    ((g.move m).1.prepare a qe).ro.targetPos = i32 ((if g.isRunningContinuously then qe.pos else g.ro.targetPos) +
      ((if g.parameters.anyChange = true ∧ g.parameters.moveAbsolute = false then g.parameters.moveValue else 0) + m)) ∧
    ((g.move m).1.prepare a qe).isRunningContinuously = false := by
  have hst : g.rw.state ≠ RampState.IDLE := by unfold RampGen.isActive at hi; simpa using hi
  obtain ⟨G, hG⟩ : ∃ G, (g.move m).1 = G := ⟨_, rfl⟩
  have hGp : G.parameters = g.parameters.setTargetRelativePosition m := by
    rw [← hG]; unfold RampGen.move; dsimp only; rw [if_neg (by rw [hv]; decide)]; rfl
  have hGr : G.rw = g.rw := by
    rw [← hG]; unfold RampGen.move; dsimp only; rw [if_neg (by rw [hv]; decide)]
    unfold RampGen.startMove
    dsimp only
    have : g.rw.startRampIfNotRunning = g.rw := by unfold RampRw.startRampIfNotRunning; rw [if_neg hst]
    rw [this, ite_self]
  have hGo : G.ro = { g.ro with forceStop := false } := by
    rw [← hG]; unfold RampGen.move; dsimp only; rw [if_neg (by rw [hv]; decide)]; rfl
  rw [hG]
  clear hG
  have hap : G.parameters.apply = true := by rw [hGp]; rfl
  have hu : ∀ c : RampConfig, (c.update a).parameters = c.parameters := by
    intro c; unfold RampConfig.update RampConfig.updateCubic; dsimp only; split <;> rfl
  obtain ⟨v, hv2⟩ : ∃ v, (if g.parameters.anyChange = true ∧ g.parameters.moveAbsolute = false then g.parameters.moveValue else 0) + m = v := ⟨_, rfl⟩
  rw [hv2]
  have hmv : (∀ x, i32 (x + G.parameters.moveValue) = i32 (x + v)) ∧ G.parameters.moveAbsolute = false ∧ G.parameters.keepRunning = false ∧ G.parameters.anyChange = true := by
    rw [hGp]
    unfold RampParams.setTargetRelativePosition
    dsimp only
    refine ⟨fun x => ?_, rfl, rfl, rfl⟩
    rw [← hv2]
    cases g.parameters.anyChange <;> cases g.parameters.moveAbsolute <;> simp
    unfold i32
    omega
  obtain ⟨G1, hG1⟩ : ∃ G1, G.takeOver a = G1 := ⟨_, rfl⟩
  have h1 : G1.ro.config.parameters = G.parameters ∧ G1.ro.forceStop = false ∧ G1.ro.targetPos = g.ro.targetPos := by
    rw [← hG1]; unfold RampGen.takeOver; rw [if_pos hap]
    refine ⟨hu _, ?_, ?_⟩
    · change G.ro.forceStop = false
      rw [hGo]
    · change G.ro.targetPos = _
      rw [hGo]
  have h2 : (G1.startSteps a).ro = G1.ro := by
    unfold RampGen.startSteps
    dsimp only
    split
    · rfl
    · split <;> rfl
  refine ⟨hGr, by rw [hGo], ?_⟩
  unfold RampGen.prepare RampGen.isRunningContinuously
  rw [hG1]
  unfold RampGen.clearRecalc RampGen.updateTarget
  dsimp only
  rw [h2, h1.1, h1.2.1, h1.2.2, hmv.2.1, hmv.2.2.1, hmv.2.2.2, hGo]
  simp only [Bool.false_eq_true, if_false, if_true]
  exact ⟨hmv.1 _, trivial⟩

/-- **C98** for `moveTo(p)` with the settings as they are, among them linear acceleration, after any changes of the settings (histories as in C99): the motor arrives at `p`. The guards contain only the distance and the braking distance. -/
theorem C98_moveTo_partial (a : ArchId) (L A : Nat) (s : Stepper) (hh : RampHist a (ApiCall.Mild L A) s) (hst : Moving a L s) (hA2 : A < 2147483648)
    (p : Int) (hp : i32 p = p) (hdist : (shortestWay p s.getPositionAfterCommandsCompleted).natAbs + brakingSteps a (s.moveTo p).1 < 2147483648)
    (hfast : 5 * A * max 40000 ((shortestWay p s.getPositionAfterCommandsCompleted).natAbs + brakingSteps a (s.moveTo p).1 + 1) ≤ a.ticksPerS ^ 2) :
    ∃ N, ∀ k cmds s', TaskHist a (s.moveTo p).1 k cmds s' →
      (Powered s' → ∀ env junk, junk.rw.performedRampUpSteps < 4294967296 → ∃ r, s'.fillQueue a env junk = some r) ∧
      (s'.isRampGeneratorActive = false → s'.getPositionAfterCommandsCompleted = p ∧
        stepsOn s.getPositionAfterCommandsCompleted (signedSum cmds) = p) ∧
      (N ≤ k → s'.isRampGeneratorActive = false) := by
  have hv := (RampHist.mild hh).valid hst.active
  have hj := (RampHist.slow hst.limit1 hst.limit3 (Spec.RampHist.mild_slow hh)).jump
  obtain ⟨f1, -, f3, f4, -⟩ := moveTo_redirected a s.rg p s.hw.q.qend hst.active hst.noForceStop hv hj
  have hhw : (s.moveTo p).1.hw = s.hw := rfl
  have hrg : (s.moveTo p).1.rg = (s.rg.moveTo p s.hw.q.qend).1 := rfl
  have hh1 : RampHist a (ApiCall.Mild L A) (s.moveTo p).1 := .call (.moveTo p) hh trivial
  have hst1 : Moving a L (s.moveTo p).1 := by
    obtain ⟨hmin, hlimit, hL, hact, hforce, hpin, hdelay, hen, hready, hx1, hx2, hx3, hpos⟩ := hst
    refine ⟨hmin, hlimit, hL, ?_, ?_, hpin, hdelay, hen, hready, hx1, hx2, hx3, hpos⟩
    · change (s.rg.moveTo p s.hw.q.qend).1.isActive = true
      unfold RampGen.isActive; rw [f1]; exact hact
    · rw [hrg]; unfold RampGen.moveTo; dsimp only; rw [if_neg (by rw [hv]; decide)]; exact hforce
  have hb := mild_brake hh1 hst.limit1 hst.limit3 hst1.active
  rw [hhw, hrg] at hb
  obtain ⟨R, M, hinv⟩ := mild_inv a L A _ hh1 hst1 hA2 p _ f4 f3 (by
    unfold motionReach
    refine Nat.le_trans (rank_le _ _ _) ?_
    change 2 * ((shortestWay ((s.rg.moveTo p s.hw.q.qend).1.prepare a s.hw.q.qend).ro.targetPos s.hw.q.qend.pos).natAbs +
      ((s.rg.moveTo p s.hw.q.qend).1.prepare a s.hw.q.qend).stepsToStop) + 1 ≤
      2 * ((shortestWay p s.getPositionAfterCommandsCompleted).natAbs + brakingSteps a (s.moveTo p).1) + 1
    rw [f3]
    change 2 * ((shortestWay p s.getPositionAfterCommandsCompleted).natAbs + _) + 1 ≤ _
    omega) (by
    change ((s.rg.moveTo p s.hw.q.qend).1.prepare a s.hw.q.qend).stepsToStop ≤ _
    omega) hdist hfast
  exact ⟨M, fun k cmds s' h => hinv.arrives (s0 := (s.moveTo p).1) hst.limit1 hst.limit3 hp hst.pos rfl k cmds s' h⟩

/-- **C98** for `move(m)` likewise: a motor which is on the way to `targetPos()` arrives `m` steps beyond of it; one which runs continuously, `m` steps beyond of the end of the queue.
Calls of `move()` before, which the task has not served yet, add up with it. Missing: a `moveTo()` which the task has not served yet should count, but is discarded (see C43). -/
theorem C98_move_partial (a : ArchId) (L A : Nat) (s : Stepper) (hh : RampHist a (ApiCall.Mild L A) s) (hst : Moving a L s) (hA2 : A < 2147483648)
    (m : Int) (p : Int) (hp : p = stepsOn (if s.rg.isRunningContinuously then s.getPositionAfterCommandsCompleted else s.rg.ro.targetPos) (pendingMove s + m))
    (hdist : (shortestWay p s.getPositionAfterCommandsCompleted).natAbs + brakingSteps a (s.move m).1 < 2147483648)
    (hfast : 5 * A * max 40000 ((shortestWay p s.getPositionAfterCommandsCompleted).natAbs + brakingSteps a (s.move m).1 + 1) ≤ a.ticksPerS ^ 2) :
    ∃ N, ∀ k cmds s', TaskHist a (s.move m).1 k cmds s' →
      (Powered s' → ∀ env junk, junk.rw.performedRampUpSteps < 4294967296 → ∃ r, s'.fillQueue a env junk = some r) ∧
      (s'.isRampGeneratorActive = false → s'.getPositionAfterCommandsCompleted = p ∧
        stepsOn s.getPositionAfterCommandsCompleted (signedSum cmds) = p) ∧
      (N ≤ k → s'.isRampGeneratorActive = false) := by
  have hv := (RampHist.mild hh).valid hst.active
  obtain ⟨f1, f2, f3, f4⟩ := move_redirected a s.rg m s.hw.q.qend hst.active hv
  have hs1 : (s.move m).1 = { s with rg := (s.rg.move m).1 } := by
    unfold Stepper.move
    rw [if_neg (fun h => hst.dirPin h.2)]
  have hhw : (s.move m).1.hw = s.hw := by rw [hs1]
  have hrg : (s.move m).1.rg = (s.rg.move m).1 := by rw [hs1]
  have hh1 : RampHist a (ApiCall.Mild L A) (s.move m).1 := .call (.move m) hh trivial
  have hst1 : Moving a L (s.move m).1 := by
    rw [hs1]
    obtain ⟨hmin, hlimit, hL, hact, hforce, hpin, hdelay, hen, hready, hx1, hx2, hx3, hpos⟩ := hst
    refine ⟨hmin, hlimit, hL, ?_, ?_, hpin, hdelay, hen, hready, hx1, hx2, hx3, hpos⟩
    · change (s.rg.move m).1.isActive = true
      unfold RampGen.isActive; rw [f1]; exact hact
    · change (s.rg.move m).1.ro.forceImmediateStop = false
      rw [f2]; exact hforce
  have hb := mild_brake hh1 hst.limit1 hst.limit3 hst1.active
  rw [hhw, hrg] at hb
  replace f3 : ((s.rg.move m).1.prepare a s.hw.q.qend).ro.targetPos = p := by rw [f3, hp]; rfl
  obtain ⟨R, M, hinv⟩ := mild_inv a L A _ hh1 hst1 hA2 p
    ((shortestWay p s.getPositionAfterCommandsCompleted).natAbs + brakingSteps a (s.move m).1) (by rw [hhw, hrg]; exact f4) (by rw [hhw, hrg]; exact f3) (by
    rw [hhw, hrg]
    unfold motionReach
    refine Nat.le_trans (rank_le _ _ _) ?_
    dsimp only
    rw [f3]
    change 2 * ((shortestWay p s.getPositionAfterCommandsCompleted).natAbs + ((s.rg.move m).1.prepare a s.hw.q.qend).stepsToStop) + 1 ≤ _
    omega) (by rw [hhw, hrg]; omega) hdist hfast
  exact ⟨M, fun k cmds s' h => hinv.arrives (s0 := (s.move m).1) hst.limit1 hst.limit3 (by rw [hp]; exact i32_i32 _) hst.pos (by rw [hhw]; rfl) k cmds s' h⟩

/-- The hypotheses are met: the stepper `creeping` is on its way to 300, gets another speed, acceleration and linear acceleration, and has got commands for nine steps; with `stopMove()` it stops seven steps further,
with `move(-50)` it goes to 250, with `moveTo(-200)` to -200. -/
example : ∃ s, RampHist .esp32 (ApiCall.Mild 16000 200) s ∧ Moving .esp32 16000 s ∧ s.getPositionAfterCommandsCompleted = 9 ∧ stopPosition .esp32 s = 16 ∧
    (∃ N, ∀ k cmds s', TaskHist .esp32 (s.move (-50)).1 k cmds s' →
      (Powered s' → ∀ env junk, junk.rw.performedRampUpSteps < 4294967296 → ∃ r, s'.fillQueue .esp32 env junk = some r) ∧
      (s'.isRampGeneratorActive = false → s'.getPositionAfterCommandsCompleted = 250 ∧ stepsOn 9 (signedSum cmds) = 250) ∧
      (N ≤ k → s'.isRampGeneratorActive = false)) ∧
    (∃ N, ∀ k cmds s', TaskHist .esp32 (s.moveTo (-200)).1 k cmds s' →
      (Powered s' → ∀ env junk, junk.rw.performedRampUpSteps < 4294967296 → ∃ r, s'.fillQueue .esp32 env junk = some r) ∧
      (s'.isRampGeneratorActive = false → s'.getPositionAfterCommandsCompleted = -200 ∧ stepsOn 9 (signedSum cmds) = -200) ∧
      (N ≤ k → s'.isRampGeneratorActive = false)) ∧
    ∃ N, ∀ k cmds s', TaskHist .esp32 s.stopMove k cmds s' →
      (Powered s' → ∀ env junk, junk.rw.performedRampUpSteps < 4294967296 → ∃ r, s'.fillQueue .esp32 env junk = some r) ∧
      (s'.isRampGeneratorActive = false → s'.getPositionAfterCommandsCompleted = 16 ∧ stepsOn 9 (signedSum cmds) = 16) ∧
      (N ≤ k → s'.isRampGeneratorActive = false) := by
  have hcomp : ((emptyCycles 12 creeping).bind fun s => emptyCycles 3 (creepingChanged s)).any (fun s => decide (s.isRampGeneratorActive = true) && decide (s.rg.ro.forceImmediateStop = false) &&
      decide (s.getMaxSpeedInTicks ≤ 16000) && decide (s.dirPin ≠ pinUndefined) && decide (s.dirChangeDelayTicks = 0) && decide (s.autoEnable = false) &&
      decide (s.hw.q.ready = true) && decide (s.hw.q.readIdx < 256) && decide (s.hw.q.nextWriteIdx < 256) && decide (s.hw.q.queueEntries ≤ 32) &&
      decide (s.getPositionAfterCommandsCompleted = 9) && decide (brakingSteps .esp32 s = 7) && decide (stopPosition .esp32 s = 16) &&
      decide (s.rg.parameters.anyChange = false) && decide (s.rg.isRunningContinuously = false) && decide (s.rg.ro.targetPos = 300) && decide (brakingSteps .esp32 (s.move (-50)).1 = 7) && decide (brakingSteps .esp32 (s.moveTo (-200)).1 = 7)) = true := by
    decide +kernel
  obtain ⟨s, e1, h1⟩ := (Option.any_eq_true _ _).mp hcomp
  simp only [Bool.and_eq_true, decide_eq_true_eq] at h1
  obtain ⟨⟨⟨⟨⟨⟨⟨⟨⟨⟨⟨⟨⟨⟨⟨⟨⟨h1, h2⟩, h3⟩, h4⟩, h5⟩, h6⟩, h7⟩, h8⟩, h9⟩, h10⟩, h11⟩, h12⟩, h13⟩, h14⟩, h15⟩, h16⟩, h17⟩, h18⟩ := h1
  obtain ⟨s0, e0, e1⟩ := Option.bind_eq_some_iff.mp e1
  have g1 := emptyCycles_mild 3 _ _ e1 (creepingChanged_mild (emptyCycles_mild 12 _ _ e0 creeping_mild))
  have hm : Moving .esp32 16000 s := ⟨by decide, h3, by decide, h1, h2, h4, Or.inl h5, fun h => absurd h.1 (by rw [h6]; decide), h7, h8, h9, h10, by rw [h11]; decide⟩
  refine ⟨s, g1, hm, h11, h13, ?_, ?_, ?_⟩
  · have := C98_move_partial .esp32 16000 200 s g1 hm (by decide) (-50) 250
      (by unfold pendingMove; rw [h14, h15, h16, h11, if_neg (show ¬(false = true ∧ _) from fun h => nomatch h.1)]; decide) (by rw [h11, h17]; decide) (by rw [h11, h17]; decide)
    rw [h11] at this
    exact this
  · have := C98_moveTo_partial .esp32 16000 200 s g1 hm (by decide) (-200) (by decide)
      (by rw [h11, h18]; decide) (by rw [h11, h18]; decide)
    rw [h11] at this
    exact this
  have := C99_stop_partial .esp32 16000 200 s g1 hm (by decide) (by rw [h12]; decide)
    (by rw [h12]; decide)
  rw [h11, h13] at this
  exact this

/-- The same if the task has not yet taken over the new settings: the stepper is six steps away from the start; with the former acceleration it would need six steps to stop, with the new settings four. -/
example : ∃ s, RampHist .esp32 (ApiCall.Mild 16000 200) s ∧ Moving .esp32 16000 s ∧ s.getPositionAfterCommandsCompleted = 6 ∧ s.rg.stepsToStop = 6 ∧ stopPosition .esp32 s = 10 ∧
    ∃ N, ∀ k cmds s', TaskHist .esp32 s.stopMove k cmds s' →
      (Powered s' → ∀ env junk, junk.rw.performedRampUpSteps < 4294967296 → ∃ r, s'.fillQueue .esp32 env junk = some r) ∧
      (s'.isRampGeneratorActive = false → s'.getPositionAfterCommandsCompleted = 10 ∧ stepsOn 6 (signedSum cmds) = 10) ∧
      (N ≤ k → s'.isRampGeneratorActive = false) := by
  have hcomp : ((emptyCycles 12 creeping).map creepingChanged).any (fun s => decide (s.isRampGeneratorActive = true) && decide (s.rg.ro.forceImmediateStop = false) &&
      decide (s.getMaxSpeedInTicks ≤ 16000) && decide (s.dirPin ≠ pinUndefined) && decide (s.dirChangeDelayTicks = 0) && decide (s.autoEnable = false) &&
      decide (s.hw.q.ready = true) && decide (s.hw.q.readIdx < 256) && decide (s.hw.q.nextWriteIdx < 256) && decide (s.hw.q.queueEntries ≤ 32) &&
      decide (s.getPositionAfterCommandsCompleted = 6) && decide (s.rg.stepsToStop = 6) && decide (stopPosition .esp32 s = 10) &&
      decide (brakingSteps .esp32 s < 100)) = true := by
    decide +kernel
  obtain ⟨s, e1, h1⟩ := (Option.any_eq_true _ _).mp hcomp
  simp only [Bool.and_eq_true, decide_eq_true_eq] at h1
  obtain ⟨⟨⟨⟨⟨⟨⟨⟨⟨⟨⟨⟨⟨h1, h2⟩, h3⟩, h4⟩, h5⟩, h6⟩, h7⟩, h8⟩, h9⟩, h10⟩, h11⟩, h12⟩, h13⟩, h14⟩ := h1
  obtain ⟨s0, e0, e1⟩ := Option.map_eq_some_iff.mp e1
  have g1 : RampHist .esp32 (ApiCall.Mild 16000 200) s := e1 ▸ creepingChanged_mild (emptyCycles_mild 12 _ _ e0 creeping_mild)
  have hm : Moving .esp32 16000 s := ⟨by decide, h3, by decide, h1, h2, h4, Or.inl h5, fun h => absurd h.1 (by rw [h6]; decide), h7, h8, h9, h10, by rw [h11]; decide⟩
  refine ⟨s, g1, hm, h11, h12, h13, ?_⟩
  have := C99_stop_partial .esp32 16000 200 s g1 hm (by decide) (by omega) (by
    have : max 40000 (brakingSteps .esp32 s + 1) = 40000 := by omega
    rw [this]; decide)
  rw [h11, h13] at this
  exact this

/-- Two calls of `move()` add up: the stepper on its way to 300 gets `move(20)` and, before the task has served it, `move(-50)`. It goes to 270. -/
example : ∃ s, RampHist .esp32 (ApiCall.Mild 16000 200) s ∧ Moving .esp32 16000 s ∧ s.getPositionAfterCommandsCompleted = 6 ∧ s.rg.ro.targetPos = 300 ∧ pendingMove s = 20 ∧
    ∃ N, ∀ k cmds s', TaskHist .esp32 (s.move (-50)).1 k cmds s' →
      (Powered s' → ∀ env junk, junk.rw.performedRampUpSteps < 4294967296 → ∃ r, s'.fillQueue .esp32 env junk = some r) ∧
      (s'.isRampGeneratorActive = false → s'.getPositionAfterCommandsCompleted = 270 ∧ stepsOn 6 (signedSum cmds) = 270) ∧
      (N ≤ k → s'.isRampGeneratorActive = false) := by
  have hcomp : ((emptyCycles 12 creeping).map fun s => (s.move 20).1).any (fun s => decide (s.isRampGeneratorActive = true) && decide (s.rg.ro.forceImmediateStop = false) &&
      decide (s.getMaxSpeedInTicks ≤ 16000) && decide (s.dirPin ≠ pinUndefined) && decide (s.dirChangeDelayTicks = 0) && decide (s.autoEnable = false) &&
      decide (s.hw.q.ready = true) && decide (s.hw.q.readIdx < 256) && decide (s.hw.q.nextWriteIdx < 256) && decide (s.hw.q.queueEntries ≤ 32) &&
      decide (s.getPositionAfterCommandsCompleted = 6) && decide (s.rg.ro.targetPos = 300) && decide (pendingMove s = 20) && decide (s.rg.isRunningContinuously = false) &&
      decide (brakingSteps .esp32 (s.move (-50)).1 = 6)) = true := by
    decide +kernel
  obtain ⟨s, e1, h1⟩ := (Option.any_eq_true _ _).mp hcomp
  simp only [Bool.and_eq_true, decide_eq_true_eq] at h1
  obtain ⟨⟨⟨⟨⟨⟨⟨⟨⟨⟨⟨⟨⟨⟨h1, h2⟩, h3⟩, h4⟩, h5⟩, h6⟩, h7⟩, h8⟩, h9⟩, h10⟩, h11⟩, h12⟩, h13⟩, h14⟩, h15⟩ := h1
  obtain ⟨s0, e0, e1⟩ := Option.map_eq_some_iff.mp e1
  have g1 : RampHist .esp32 (ApiCall.Mild 16000 200) s := e1 ▸ RampHist.call (.move 20) (emptyCycles_mild 12 _ _ e0 creeping_mild) trivial
  have hm : Moving .esp32 16000 s := ⟨by decide, h3, by decide, h1, h2, h4, Or.inl h5, fun h => absurd h.1 (by rw [h6]; decide), h7, h8, h9, h10, by rw [h11]; decide⟩
  refine ⟨s, g1, hm, h11, h12, h13, ?_⟩
  have := C98_move_partial .esp32 16000 200 s g1 hm (by decide) (-50) 270
    (by rw [h11, h12, h13, h14]; decide) (by rw [h11, h15]; decide) (by rw [h11, h15]; decide)
  rw [h11] at this
  exact this

end FAS
