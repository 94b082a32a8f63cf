import Verif.Props.Motion
import Verif.Props.Speed
import Verif.Lemmas.Params
import Verif.Spec.Api

/-!
# Parameters and when they are used: C66, C68, C69, C70
-/

namespace FAS

open Spec Stepper

/-! ## C69 -/

theorem checkValid_iff (p : RampParams) : p.checkValidConfig = MOVE_OK ↔ p.validSpeed = true ∧ p.validAcceleration = true := by
  unfold RampParams.checkValidConfig
  cases p.validSpeed <;> cases p.validAcceleration <;> decide

/-- A set call changes the parameters only. -/
theorem setCall_withP (a : ArchId) (s : Stepper) (c : SetCall) :
    c.run a s = s.withP (c.run a s).rg.parameters (c.run a s).rg.acceleration ∧
    (c.run a s).rg.parameters.apply = s.rg.parameters.apply ∧
    (s.rg.parameters.checkValidConfig = MOVE_OK → (c.run a s).rg.parameters.checkValidConfig = MOVE_OK) := by
  have hsp : ∀ t, (s.setSpeedInTicks t).1 = s.withP (s.setSpeedInTicks t).1.rg.parameters (s.setSpeedInTicks t).1.rg.acceleration ∧
      (s.setSpeedInTicks t).1.rg.parameters.apply = s.rg.parameters.apply ∧
      (s.rg.parameters.checkValidConfig = MOVE_OK → (s.setSpeedInTicks t).1.rg.parameters.checkValidConfig = MOVE_OK) := by
    intro t
    unfold setSpeedInTicks
    split
    · exact ⟨rfl, rfl, id⟩
    · split
      · exact ⟨rfl, rfl, id⟩
      · refine ⟨rfl, ?_, ?_⟩
        · dsimp only; unfold RampParams.setSpeedInTicks; split <;> rfl
        · rw [checkValid_iff, checkValid_iff]
          dsimp only; unfold RampParams.setSpeedInTicks
          split
          · exact fun h => ⟨rfl, h.2⟩
          · exact id
  cases c with
  | speedInTicks t => exact hsp t
  | speedInUs us =>
    unfold SetCall.run setSpeedInUs
    dsimp only
    split
    · exact ⟨rfl, rfl, id⟩
    · exact hsp _
  | speedInHz hz =>
    unfold SetCall.run setSpeedInHz
    dsimp only
    split
    · exact ⟨rfl, rfl, id⟩
    · exact hsp _
  | speedInMilliHz hz =>
    unfold SetCall.run setSpeedInMilliHz
    dsimp only
    split
    · exact ⟨rfl, rfl, id⟩
    · exact hsp _
  | acceleration x =>
    unfold SetCall.run setAcceleration RampGen.setAcceleration
    dsimp only
    split
    · exact ⟨rfl, rfl, id⟩
    · refine ⟨rfl, ?_, ?_⟩
      · dsimp only; unfold RampParams.setAcceleration; dsimp only; split <;> rfl
      · rw [checkValid_iff, checkValid_iff]
        dsimp only; unfold RampParams.setAcceleration
        dsimp only
        split
        · exact fun h => ⟨h.1, rfl⟩
        · exact id
  | linearAcceleration n =>
    refine ⟨rfl, ?_, ?_⟩
    · change (s.rg.parameters.setCubicAccelerationSteps n).apply = _
      unfold RampParams.setCubicAccelerationSteps; split <;> rfl
    · rw [checkValid_iff, checkValid_iff]
      change _ → (s.rg.parameters.setCubicAccelerationSteps n).validSpeed = true ∧ (s.rg.parameters.setCubicAccelerationSteps n).validAcceleration = true
      unfold RampParams.setCubicAccelerationSteps
      split <;> exact id
  | jumpStart n => exact ⟨rfl, rfl, id⟩

/-- Two runs which differ by parameters not applied look the same. -/
theorem run_withP (a : ArchId) : ∀ (es : List ParamEvent) (s : Stepper) (p : RampParams) (x : Nat), s.rg.parameters.apply = false →
    p.apply = false → s.rg.parameters.checkValidConfig = MOVE_OK → p.checkValidConfig = MOVE_OK →
    (ParamEvent.run a (s.withP p x) es).map visible = (ParamEvent.run a s (withoutSets es)).map visible
  | [], _, _, _, _, _, _, _ => rfl
  | .set c :: es, s, p, x, h1, h2, h3, h4 => by
    obtain ⟨e1, e2, e3⟩ := setCall_withP a (s.withP p x) c
    change (ParamEvent.run a (c.run a (s.withP p x)) es).map visible = (ParamEvent.run a s (withoutSets es)).map visible
    rw [e1]
    exact run_withP a es s _ _ h1 (e2.trans h2) h3 (e3 h4)
  | .stopMove :: es, s, p, x, h1, h2, h3, h4 => run_withP a es s.stopMove p x h1 h2 h3 h4
  | .keepRunning :: es, s, p, x, h1, h2, h3, h4 => run_withP a es s.keepRunning p x h1 h2 h3 h4
  | .forceStop :: es, s, p, x, h1, h2, h3, h4 => run_withP a es s.forceStop p x h1 h2 h3 h4
  | .hardware f :: es, s, p, x, h1, h2, h3, h4 => run_withP a es { s with hw := f s.hw } p x h1 h2 h3 h4
  | .task env junk :: es, s, p, x, h1, h2, h3, h4 => by
    have hw : withoutSets (.task env junk :: es) = .task env junk :: withoutSets es := rfl
    rw [hw]
    unfold ParamEvent.run
    rw [fillQueue_withP a env junk s p x h1 h2 h3 h4]
    cases hf : s.fillQueue a env junk with
    | none => rfl
    | some r =>
      obtain ⟨s1, cmds⟩ := r
      have hp := fillQueue_params a env junk s s1 cmds h1 hf
      have ih := run_withP a es s1 p x (by rw [hp]; exact h1) h2 (by rw [hp]; exact h3) h4
      dsimp only [Option.map_some]
      rw [Option.map_map, Option.map_map]
      have e : ∀ o : Option (Stepper × List Cmd), o.map (visible ∘ fun r => (r.1, cmds ++ r.2)) =
          (o.map visible).map (fun v => (cmds ++ v.1, v.2)) := by
        intro o; cases o <;> rfl
      rw [e, e, ih]

/-- C69, first part: once the task has seen the latest move command (`apply` is not pending), calls of `setSpeedIn...()`, `setAcceleration()`, `setLinearAcceleration()`
and `setJumpStart()` with any arguments, at any time and in any order, have no effect on anything visible: without a further move command the
same commands are queued, and state, speed and target of the ramp are the same as without these calls. In particular
`stopMove()` does not make them valid. -/
theorem C69_no_effect_before_apply (a : ArchId) (s : Stepper) (es : List ParamEvent) (hconf : s.rg.parameters.checkValidConfig = MOVE_OK)
    (happly : s.rg.parameters.apply = false) :
    (ParamEvent.run a s es).map visible = (ParamEvent.run a s (withoutSets es)).map visible :=
  run_withP a es s s.rg.parameters s.rg.acceleration happly happly hconf hconf

/-- The parameters of the ramp in use agree with the ones of the application. -/
structure Agree (g : RampGen) : Prop where
  speed : g.parameters.validSpeed = true → g.ro.config.parameters.minTravelTicks = g.parameters.minTravelTicks
  accel : g.parameters.validAcceleration = true → g.ro.config.parameters.pmflAccel = g.parameters.pmflAccel
  linear : g.ro.config.parameters.sH = g.parameters.sH

/-- Invariant: without a change since the last take over, the parameters agree. -/
structure ParamInv (g : RampGen) : Prop where
  accel : g.parameters.validAcceleration = true → g.parameters.pmflAccel = pmflFrom g.acceleration
  same : g.parameters.anyChange = false → Agree g

theorem prepare_agree (a : ArchId) (g : RampGen) (qe : QueueEnd) :
    (g.parameters.apply = true ∨ Agree g → Agree (g.prepare a qe)) ∧
    (g.prepare a qe).acceleration = g.acceleration ∧ (g.prepare a qe).parameters.pmflAccel = g.parameters.pmflAccel ∧
    (g.prepare a qe).parameters.validAcceleration = g.parameters.validAcceleration ∧
    (g.prepare a qe).parameters.validSpeed = g.parameters.validSpeed ∧
    (g.prepare a qe).parameters.minTravelTicks = g.parameters.minTravelTicks ∧ (g.prepare a qe).parameters.sH = g.parameters.sH ∧
    ((g.prepare a qe).parameters.anyChange = false → g.parameters.apply = true ∨ g.parameters.anyChange = false) := by
  have h1 : (g.parameters.apply = true ∨ Agree g → Agree (g.takeOver a)) ∧ (g.takeOver a).acceleration = g.acceleration ∧
      (g.takeOver a).parameters.pmflAccel = g.parameters.pmflAccel ∧
      (g.takeOver a).parameters.validAcceleration = g.parameters.validAcceleration ∧
      (g.takeOver a).parameters.validSpeed = g.parameters.validSpeed ∧
      (g.takeOver a).parameters.minTravelTicks = g.parameters.minTravelTicks ∧ (g.takeOver a).parameters.sH = g.parameters.sH ∧
      ((g.takeOver a).parameters.anyChange = false → g.parameters.apply = true ∨ g.parameters.anyChange = false) := by
    unfold RampGen.takeOver
    by_cases h : g.parameters.apply = true
    · rw [if_pos h]
      refine ⟨fun _ => ?_, rfl, rfl, rfl, rfl, rfl, rfl, fun _ => Or.inl h⟩
      have e := RampConfig.update_parameters a { g.ro.config with parameters := g.parameters }
      constructor
      · intro _; dsimp only; rw [e]
      · intro _; dsimp only; rw [e]
      · dsimp only; rw [e]
    · rw [if_neg h]
      exact ⟨fun h' => h'.resolve_left h, rfl, rfl, rfl, rfl, rfl, rfl, Or.inr⟩
  obtain ⟨s1, s2⟩ := RampGen.startSteps_fields a (g.takeOver a)
  have s3 : ((g.takeOver a).startSteps a).acceleration = (g.takeOver a).acceleration := by
    unfold RampGen.startSteps; dsimp only; repeat' split
    all_goals rfl
  have u : ∀ (g : RampGen) b, (g.updateTarget b qe).parameters = g.parameters ∧ (g.updateTarget b qe).acceleration = g.acceleration ∧
      (g.updateTarget b qe).ro.config.parameters.minTravelTicks = g.ro.config.parameters.minTravelTicks ∧
      (g.updateTarget b qe).ro.config.parameters.pmflAccel = g.ro.config.parameters.pmflAccel ∧
      (g.updateTarget b qe).ro.config.parameters.sH = g.ro.config.parameters.sH := by
    intro g b
    unfold RampGen.updateTarget
    dsimp only
    repeat' split
    all_goals exact ⟨rfl, rfl, rfl, rfl, rfl⟩
  obtain ⟨u1, u2, u3, u4, u5⟩ := u ((g.takeOver a).startSteps a) g.ro.config.parameters.keepRunning
  have p1 : (g.prepare a qe).parameters = (g.takeOver a).parameters := u1.trans s2
  have p2 : (g.prepare a qe).acceleration = (g.takeOver a).acceleration := u2.trans s3
  have p3 : (g.prepare a qe).ro.config.parameters.minTravelTicks = (g.takeOver a).ro.config.parameters.minTravelTicks := u3.trans (by rw [s1])
  have p4 : (g.prepare a qe).ro.config.parameters.pmflAccel = (g.takeOver a).ro.config.parameters.pmflAccel := u4.trans (by rw [s1])
  have p5 : (g.prepare a qe).ro.config.parameters.sH = (g.takeOver a).ro.config.parameters.sH := u5.trans (by rw [s1])
  rw [p1, p2]
  refine ⟨fun h => ?_, h1.2⟩
  obtain ⟨e1, e2, e3⟩ := h1.1 h
  exact ⟨by rw [p1, p3]; exact e1, by rw [p1, p4]; exact e2, by rw [p1, p5]; exact e3⟩

theorem ParamInv.congr {g g' : RampGen} (h : ParamInv g) (h1 : g'.parameters = g.parameters) (h2 : g'.acceleration = g.acceleration)
    (h3 : g'.ro.config.parameters.minTravelTicks = g.ro.config.parameters.minTravelTicks)
    (h4 : g'.ro.config.parameters.pmflAccel = g.ro.config.parameters.pmflAccel)
    (h5 : g'.ro.config.parameters.sH = g.ro.config.parameters.sH) : ParamInv g' := by
  refine ⟨by rw [h1, h2]; exact h.accel, fun hc => ?_⟩
  rw [h1] at hc
  obtain ⟨e1, e2, e3⟩ := h.same hc
  exact ⟨by rw [h1, h3]; exact e1, by rw [h1, h4]; exact e2, by rw [h1, h5]; exact e3⟩

/-- What a service makes of the parameters. -/
theorem service_agree {a : ArchId} {g g' : RampGen} {qe : QueueEnd} {junk c : NextCommand} (h : g.getNextCommand a qe junk = some (g', c)) :
    g'.parameters = (g.prepare a qe).parameters ∧ g'.acceleration = (g.prepare a qe).acceleration ∧
    g'.ro.config = (g.prepare a qe).ro.config := by
  unfold RampGen.getNextCommand at h
  dsimp only at h
  split at h
  · cases h; exact ⟨rfl, rfl, rfl⟩
  · split at h
    · cases h
    · cases h; exact ⟨rfl, rfl, rfl⟩

theorem ParamInv.serve {a : ArchId} {g g' : RampGen} {qe : QueueEnd} {junk c : NextCommand} (hi : ParamInv g)
    (h : g.getNextCommand a qe junk = some (g', c)) : ParamInv g' := by
  obtain ⟨h1, h2, h3, h4, h5, h6, h7, h8⟩ := prepare_agree a g qe
  obtain ⟨e1, e2, e3⟩ := service_agree h
  refine ParamInv.congr (g := g.prepare a qe) ⟨?_, fun hc => h1 ?_⟩ e1 e2 (by rw [e3]) (by rw [e3]) (by rw [e3])
  · rw [h2, h3, h4]; exact hi.accel
  · rcases h8 hc with h | h
    · exact Or.inl h
    · exact Or.inr (hi.same h)

theorem ParamInv.config {s : Stepper} (hi : ParamInv s.rg) (k : ConfigCall) : ParamInv (k.run s).rg := by
  cases k with
  | speed t =>
    unfold ConfigCall.run setSpeedInTicks
    dsimp only
    split
    · exact hi
    · split
      · exact hi
      · unfold RampParams.setSpeedInTicks
        split
        · exact ⟨hi.accel, fun hc => nomatch hc⟩
        · exact hi
  | acceleration x =>
    unfold ConfigCall.run setAcceleration RampGen.setAcceleration
    dsimp only
    split
    · exact hi
    · unfold RampParams.setAcceleration
      dsimp only
      split
      · exact ⟨fun _ => rfl, fun hc => nomatch hc⟩
      · rename_i h
        have h' : s.rg.parameters.pmflAccel = pmflFrom x.toNat := by
          simp only [Bool.or_eq_true, Bool.not_eq_true', decide_eq_true_eq, not_or, Decidable.not_not, ne_eq] at h
          exact h.2
        refine ⟨fun _ => h', fun hc => ?_⟩
        have := hi.same hc
        exact ⟨this.speed, this.accel, this.linear⟩
  | linear n =>
    unfold ConfigCall.run setLinearAcceleration RampParams.setCubicAccelerationSteps
    dsimp only
    split
    · exact ⟨hi.accel, fun hc => nomatch hc⟩
    · exact hi
  | jump n => exact ⟨hi.accel, fun hc => ⟨(hi.same hc).speed, (hi.same hc).accel, (hi.same hc).linear⟩⟩
  | applySpeedAcceleration =>
    unfold ConfigCall.run applySpeedAcceleration RampGen.applySpeedAcceleration
    dsimp only
    split
    · unfold RampParams.applyParameters
      split
      · rename_i hc
        exact ⟨hi.accel, fun hc' => absurd (show s.rg.parameters.anyChange = false from hc') (by rw [hc]; decide)⟩
      · exact hi
    · exact hi

theorem ParamInv.call (a : ArchId) {s : Stepper} (hi : ParamInv s.rg) (c : ApiCall) : ParamInv (c.exec a s).rg := by
  cases c with
  | config k => exact hi.config k
  | moveTo p =>
    unfold ApiCall.exec moveTo RampGen.moveTo
    dsimp only
    split
    · exact hi
    · exact ⟨hi.accel, fun hc => nomatch hc⟩
  | move m =>
    unfold ApiCall.exec move RampGen.move
    dsimp only
    split
    · exact hi
    · dsimp only
      split
      · exact hi
      · exact ⟨hi.accel, fun hc => nomatch hc⟩
  | run up =>
    unfold ApiCall.exec startRun RampGen.startRun
    dsimp only
    split
    · exact hi
    · exact ⟨hi.accel, fun hc => nomatch hc⟩
  | keepRunning => exact hi.congr rfl rfl rfl rfl rfl
  | stopMove => exact hi.congr rfl rfl rfl rfl rfl
  | forceStop => exact hi.congr rfl rfl rfl rfl rfl
  | forceStopAndNewPosition p => exact hi.congr rfl rfl rfl rfl rfl
  | setCurrentPosition p =>
    unfold ApiCall.exec setCurrentPosition
    dsimp only
    split
    · exact hi.congr rfl rfl rfl rfl rfl
    · exact hi
  | setPositionAfterCommandsCompleted p =>
    unfold ApiCall.exec setPositionAfterCommandsCompleted
    dsimp only
    split
    · exact hi.congr rfl rfl rfl rfl rfl
    · exact hi.congr rfl rfl rfl rfl rfl

theorem RampHist.paramInv {a : ArchId} {s : Stepper} (h : RampHist a ApiCall.Typed s) : ParamInv s.rg := by
  have := RampHist.induct (a := a) (ok := ApiCall.Typed) (fun g => ParamInv g ∧ InRange g) ?_ ?_ ?_ h
  · exact this.1
  · exact ⟨⟨(fun hc => nomatch hc), (fun _ => ⟨(fun hc => nomatch hc), (fun hc => nomatch hc), rfl⟩)⟩, RampHist.inRange (a := a) (.start { Stepper.init a 0 with rg := RampGen.init } rfl)⟩
  · intro s c hi hok
    exact ⟨hi.1.call a c, InRange_call a s c hi.2 hok⟩
  · intro g g' qe junk c hi _ _ hj hg
    have hs := hi.1.serve hg
    obtain ⟨r0, r1, r2, r3⟩ := InRange_serve hi.2 hj hg
    exact ⟨r0, ⟨hs, r1⟩, ⟨hs.congr rfl rfl rfl rfl rfl, r2⟩, ⟨hs.congr rfl rfl rfl rfl rfl, r3⟩⟩

/-- What `setSpeedInTicks()` does to the parameters. -/
theorem setSpeed_cases (s : Stepper) (t : Nat) : (s.setSpeedInTicks t).1.hw = s.hw ∧ (s.setSpeedInTicks t).1.rg.ro = s.rg.ro ∧
    (s.setSpeedInTicks t).1.rg.rw = s.rg.rw ∧ (s.setSpeedInTicks t).1.getMaxSpeedInTicks = s.getMaxSpeedInTicks ∧
    (s.setSpeedInTicks t).1.rg.acceleration = s.rg.acceleration ∧
    (s.setSpeedInTicks t).1.rg.parameters.apply = s.rg.parameters.apply ∧
    ((s.setSpeedInTicks t).1.rg.parameters = s.rg.parameters ∨
      ((s.setSpeedInTicks t).1.rg.parameters.anyChange = true ∧ (s.rg.parameters.validSpeed = false ∨ s.rg.parameters.minTravelTicks ≠ t))) := by
  unfold setSpeedInTicks
  split
  · exact ⟨rfl, rfl, rfl, rfl, rfl, rfl, Or.inl rfl⟩
  · split
    · exact ⟨rfl, rfl, rfl, rfl, rfl, rfl, Or.inl rfl⟩
    · unfold RampParams.setSpeedInTicks
      by_cases h : (!s.rg.parameters.validSpeed || decide (s.rg.parameters.minTravelTicks ≠ t)) = true
      · rw [if_pos h]
        refine ⟨rfl, rfl, rfl, rfl, rfl, rfl, Or.inr ⟨rfl, ?_⟩⟩
        simpa using h
      · rw [if_neg h]
        exact ⟨rfl, rfl, rfl, rfl, rfl, rfl, Or.inl rfl⟩

/-- What `setAcceleration()` keeps. -/
theorem setAcc_frame (s : Stepper) (x : Int) : (s.setAcceleration x).1.rg.ro = s.rg.ro ∧ (s.setAcceleration x).1.rg.rw = s.rg.rw ∧
    (s.setAcceleration x).1.hw = s.hw ∧ (s.setAcceleration x).1.getMaxSpeedInTicks = s.getMaxSpeedInTicks ∧
    (s.setAcceleration x).1.rg.parameters.minTravelTicks = s.rg.parameters.minTravelTicks ∧
    (s.setAcceleration x).1.rg.parameters.validSpeed = s.rg.parameters.validSpeed ∧
    ((s.setAcceleration x).1.rg.parameters.anyChange = false → s.rg.parameters.anyChange = false) ∧
    (0 < x → (s.setAcceleration x).1.rg.acceleration = x.natAbs ∧ (s.setAcceleration x).1.rg.parameters.validAcceleration = true) := by
  unfold Stepper.setAcceleration RampGen.setAcceleration
  dsimp only
  by_cases hx : x ≤ 0
  · rw [if_pos hx]
    exact ⟨rfl, rfl, rfl, rfl, rfl, rfl, id, fun h => absurd h (by omega)⟩
  · rw [if_neg hx]
    have hn : x.toNat = x.natAbs := by omega
    unfold RampParams.setAcceleration
    dsimp only
    by_cases hc : (!s.rg.parameters.validAcceleration || decide (s.rg.parameters.pmflAccel ≠ pmflFrom x.toNat)) = true
    · rw [if_pos hc]
      exact ⟨rfl, rfl, rfl, rfl, rfl, rfl, (fun h => nomatch h), fun _ => ⟨hn, rfl⟩⟩
    · rw [if_neg hc]
      refine ⟨rfl, rfl, rfl, rfl, rfl, rfl, id, fun _ => ⟨hn, ?_⟩⟩
      simp only [Bool.or_eq_true, not_or] at hc
      have := hc.1
      cases hv : s.rg.parameters.validAcceleration
      · rw [hv] at this; exact absurd rfl this
      · rfl

theorem apply_frame (s : Stepper) : s.applySpeedAcceleration.rg.ro = s.rg.ro ∧ s.applySpeedAcceleration.rg.rw = s.rg.rw ∧
    s.applySpeedAcceleration.rg.acceleration = s.rg.acceleration ∧
    s.applySpeedAcceleration.rg.parameters.minTravelTicks = s.rg.parameters.minTravelTicks ∧
    s.applySpeedAcceleration.rg.parameters.validSpeed = s.rg.parameters.validSpeed := by
  unfold Stepper.applySpeedAcceleration RampGen.applySpeedAcceleration
  dsimp only
  split
  · unfold RampParams.applyParameters
    split <;> exact ⟨rfl, rfl, rfl, rfl, rfl⟩
  · exact ⟨rfl, rfl, rfl, rfl, rfl⟩

theorem apply_cases {s : Stepper} (hf : s.rg.ro.forceImmediateStop = false) : s.applySpeedAcceleration.rg.parameters.apply = true ∨
    (s.rg.parameters.anyChange = false ∧ s.applySpeedAcceleration.rg.parameters.anyChange = false) := by
  unfold Stepper.applySpeedAcceleration RampGen.applySpeedAcceleration
  rw [hf]
  dsimp only
  rw [if_pos (show (!false) = true from rfl)]
  unfold RampParams.applyParameters
  by_cases h : s.rg.parameters.anyChange = true
  · rw [if_pos h]; exact Or.inl rfl
  · rw [if_neg h]; exact Or.inr ⟨by simpa using h, by simpa using h⟩

/-- `moveByAcceleration(0)` applies the parameters. -/
theorem zero_applied (s : Stepper) (hf : s.rg.ro.forceImmediateStop = false) (hv : s.rg.parameters.validSpeed = true) (t : Nat) :
    let s' := ((((s.setSpeedInTicks t).1.setAcceleration 1).1.applySpeedAcceleration).setSpeedInTicks s.getSpeedInTicks).1
    s'.rg.parameters.apply = true ∨ s'.rg.parameters.anyChange = false := by
  obtain ⟨-, a2, -, -, -, -, a6⟩ := setSpeed_cases s t
  generalize (s.setSpeedInTicks t).1 = s1 at *
  obtain ⟨b1, -, -, -, b4, b5, b6, -⟩ := setAcc_frame s1 1
  generalize (s1.setAcceleration 1).1 = s2 at *
  have c := apply_cases (s := s2) (by rw [b1, a2]; exact hf)
  obtain ⟨-, -, -, c3, c4⟩ := apply_frame s2
  generalize s2.applySpeedAcceleration = s3 at *
  obtain ⟨-, -, -, -, -, d5, d6⟩ := setSpeed_cases s3 s.getSpeedInTicks
  generalize (s3.setSpeedInTicks s.getSpeedInTicks).1 = s4 at *
  intro s'
  change s4.rg.parameters.apply = true ∨ s4.rg.parameters.anyChange = false
  rcases c with c | ⟨c, c'⟩
  · exact Or.inl (d5.trans c)
  · have h1 := b6 c
    rcases a6 with a6 | ⟨a6, -⟩
    · rcases d6 with d6 | ⟨-, d6⟩
      · rw [d6]; exact Or.inr c'
      · exfalso
        rw [c3, c4, b4, b5, a6] at d6
        rcases d6 with d6 | d6
        · rw [hv] at d6; cases d6
        · exact d6 rfl
    · rw [a6] at h1; cases h1

/-- C69, second part: after an accepted move command or `applySpeedAcceleration()`, from the next service by the task on the ramp is calculated with the values set
before. -/
theorem C69_used_after_apply (a : ArchId) (s s' : Stepper) (hh : RampHist a ApiCall.Typed s) (hconf : s'.rg.parameters.checkValidConfig = MOVE_OK)
    (hc : ApplyCall a s s') (qe : QueueEnd) (junk c : NextCommand) (g : RampGen) (hg : s'.rg.getNextCommand a qe junk = some (g, c)) :
    CalculatesWith g s'.getSpeedInTicks s'.getAcceleration s'.rg.parameters.sH := by
  have hi := RampHist.paramInv hh
  have key : ParamInv s'.rg ∧ (s'.rg.parameters.apply = true ∨ s'.rg.parameters.anyChange = false) := by
    have hrun : ∀ {s : Stepper}, ParamInv s.rg → ∀ up, (s.startRun up).2 = MOVE_OK →
        ParamInv (s.startRun up).1.rg ∧ (s.startRun up).1.rg.parameters.apply = true := by
      intro s hi up hok
      refine ⟨hi.call a (.run up), ?_⟩
      unfold startRun RampGen.startRun at hok ⊢
      dsimp only at hok ⊢
      split at hok
      · contradiction
      · rename_i h; rw [if_neg h]; rfl
    cases hc with
    | moveTo p hok =>
      refine ⟨hi.call a (.moveTo p), Or.inl ?_⟩
      unfold Stepper.moveTo RampGen.moveTo at hok ⊢
      dsimp only at hok ⊢
      split at hok
      · contradiction
      · rename_i h; rw [if_neg h]; rfl
    | move m hok =>
      refine ⟨hi.call a (.move m), Or.inl ?_⟩
      unfold Stepper.move RampGen.move at hok ⊢
      dsimp only at hok ⊢
      split at hok
      · exact absurd hok (show ¬ MOVE_ERR_NO_DIRECTION_PIN = MOVE_OK by decide)
      · rename_i h
        rw [if_neg h]
        dsimp only at hok ⊢
        split at hok
        · contradiction
        · rename_i h; rw [if_neg h]; rfl
    | run up hok => exact ⟨(hrun hi up hok).1, Or.inl (hrun hi up hok).2⟩
    | applySpeedAcceleration hf =>
      exact ⟨hi.config .applySpeedAcceleration, (apply_cases hf).imp id (fun h => h.2)⟩
    | moveByAcceleration x rev _ hf hv hm =>
      unfold Stepper.moveByAcceleration at hm
      by_cases hx : x > 0
      · rw [if_pos hx] at hm
        have h1 := Option.some.inj hm
        have h2 : (startRun (s.setAcceleration x).1 true).1 = s' := congrArg Prod.fst h1
        have h3 : (startRun (s.setAcceleration x).1 true).2 = MOVE_OK := congrArg Prod.snd h1
        rw [← h2]
        have := hrun (s := (s.setAcceleration x).1) (hi.config (.acceleration x)) true h3
        exact ⟨this.1, Or.inl this.2⟩
      · rw [if_neg hx] at hm
        by_cases hn : x < 0
        · rw [if_pos hn] at hm
          split at hm
          · cases hm
          · dsimp only at hm
            split at hm
            · have h1 := Option.some.inj hm
              have h2 : (startRun (s.setAcceleration (-x)).1 false).1 = s' := congrArg Prod.fst h1
              have h3 : (startRun (s.setAcceleration (-x)).1 false).2 = MOVE_OK := congrArg Prod.snd h1
              rw [← h2]
              have := hrun (s := (s.setAcceleration (-x)).1) (hi.config (.acceleration (-x))) false h3
              exact ⟨this.1, Or.inl this.2⟩
            · have h1 := congrArg Prod.fst (Option.some.inj hm)
              dsimp only at h1
              have hf' : (s.setAcceleration (-x)).1.rg.ro.forceImmediateStop = false := by rw [(setAcc_frame s (-x)).1]; exact hf
              rw [← h1]
              exact ⟨((hi.config (.acceleration (-x))).config .applySpeedAcceleration).call a .stopMove, (apply_cases hf').imp id (fun h => h.2)⟩
        · have hx0 : x = 0 := by omega
          rw [if_neg hn] at hm
          have h1 := congrArg Prod.fst (Option.some.inj hm)
          dsimp only at h1
          rw [← h1]
          refine ⟨(((hi.config (.speed _)).config (.acceleration 1)).config .applySpeedAcceleration).config (.speed _), ?_⟩
          exact zero_applied s hf (hv hx0) _
  obtain ⟨hi', hap⟩ := key
  obtain ⟨v1, v2⟩ := (checkValid_iff _).mp hconf
  obtain ⟨h1, h2, h3, h4, h5, h6, h7, -⟩ := prepare_agree a s'.rg qe
  obtain ⟨-, -, e3⟩ := service_agree hg
  obtain ⟨f1, f2, f3⟩ := h1 (hap.imp id hi'.same)
  unfold CalculatesWith
  rw [e3]
  refine ⟨?_, ?_, ?_⟩
  · rw [f1 (h5.trans v1), h6]; rfl
  · rw [f2 (h4.trans v2), h3, hi'.accel v2]; rfl
  · rw [f3, h7]


/-- The hypotheses of `C69_no_effect_before_apply` are met: a running move gets other values, which would be seen if applied. -/
example :
    let s := ((configuredStepper .esp32).moveTo 1000).1
    let es : List ParamEvent := [.set (.speedInTicks 20000), .task calmEnv junk0, .set (.acceleration 50), .hardware (Hw.advances .esp32 20), .task calmEnv junk0]
    (s.fillQueue .esp32 calmEnv junk0).any (fun r =>
      r.1.rg.parameters.checkValidConfig = MOVE_OK && !r.1.rg.parameters.apply &&
      ((ParamEvent.run .esp32 { r.1 with hw := Hw.advances .esp32 20 r.1.hw } es).map (fun x => x.2.length)).any (fun n => 0 < n)) = true := by
  decide +kernel

/-- C69, third part: once the task has taken over the parameters, `applySpeedAcceleration()` without any change has no effect at all. -/
theorem C69_apply_without_change (a : ArchId) (s : Stepper) (hap : s.rg.parameters.apply = true) (qe : QueueEnd) (junk c : NextCommand) (g : RampGen)
    (hg : s.rg.getNextCommand a qe junk = some (g, c)) (rw : RampRw) (hw : Hw) :
    let s' : Stepper := { s with rg := { g with rw := rw }, hw := hw }
    s'.applySpeedAcceleration = s' ∧ s'.keepRunning.applySpeedAcceleration = s'.keepRunning := by
  have hp : g.parameters.anyChange = false := by
    have h1 : (s.rg.prepare a qe).parameters.anyChange = false := by
      have h2 : (s.rg.takeOver a).parameters.anyChange = false := by
        unfold RampGen.takeOver; rw [if_pos hap]
      have hS := RampGen.startSteps_fields a (s.rg.takeOver a)
      unfold RampGen.prepare RampGen.clearRecalc RampGen.updateTarget
      dsimp only
      repeat' split
      all_goals
        rw [hS.2]
        exact h2
    unfold RampGen.getNextCommand at hg
    dsimp only at hg
    split at hg
    · cases hg; exact h1
    · split at hg
      · cases hg
      · cases hg; exact h1
  have key : ∀ t : Stepper, t.rg.parameters.anyChange = false → t.applySpeedAcceleration = t := by
    intro t ht
    unfold applySpeedAcceleration RampGen.applySpeedAcceleration RampParams.applyParameters
    rw [ht]
    simp
  exact ⟨key _ hp, key _ hp⟩

example : let s := ((configuredStepper .esp32).moveTo 1000).1
    s.rg.parameters.apply = true ∧ (s.rg.getNextCommand .esp32 s.hw.q.qend junk0).isSome = true ∧ s.applySpeedAcceleration ≠ (configuredStepper .esp32) := by
  refine ⟨rfl, by decide +kernel, fun h => ?_⟩
  have := congrArg (fun s : Stepper => s.rg.parameters.apply) h
  exact absurd this (by decide +kernel)

/-- C69 is false of the code as long as the task has not served the move command: a speed set after `moveTo()` is used without a
further call. The periods of the first 150 services are compared with the ones of `moveTo()` alone. -/
theorem C69_pending_refuted :
    let s := ((configuredStepper .esp32).moveTo 1000).1
    let s' := (s.setSpeedInTicks 60000).1
    ∃ d d', Drive.run .esp32 (fun _ => junk0) 150 ⟨s.rg, s.hw.q.qend⟩ = some d ∧ Drive.run .esp32 (fun _ => junk0) 150 ⟨s'.rg, s'.hw.q.qend⟩ = some d' ∧
      d.g.rw.currTicks < 60000 ∧ d'.g.rw.currTicks = 60000 := by
  intro s s'
  have h : ((Drive.run .esp32 (fun _ => junk0) 150 ⟨s.rg, s.hw.q.qend⟩).any fun d => decide (d.g.rw.currTicks < 60000)) = true := by decide +kernel
  have h' : ((Drive.run .esp32 (fun _ => junk0) 150 ⟨s'.rg, s'.hw.q.qend⟩).any fun d => decide (d.g.rw.currTicks = 60000)) = true := by decide +kernel
  cases hd : Drive.run .esp32 (fun _ => junk0) 150 ⟨s.rg, s.hw.q.qend⟩ with
  | none => rw [hd] at h; cases h
  | some d =>
    cases hd' : Drive.run .esp32 (fun _ => junk0) 150 ⟨s'.rg, s'.hw.q.qend⟩ with
    | none => rw [hd'] at h'; cases h'
    | some d' =>
      rw [hd] at h; rw [hd'] at h'
      exact ⟨d, d', rfl, rfl, of_decide_eq_true h, of_decide_eq_true h'⟩

/-- The hypotheses of `C69_used_after_apply` are met by all five calls. -/
example :
    let s := configuredStepper .esp32
    (s.moveTo 10).2 = MOVE_OK ∧ (s.move (-10)).2 = MOVE_OK ∧ (s.startRun true).2 = MOVE_OK ∧ s.rg.ro.forceImmediateStop = false ∧
    (s.moveByAcceleration 30 true).map Prod.snd = some MOVE_OK ∧ (s.moveByAcceleration 0 true).map Prod.snd = some MOVE_OK ∧
    (s.moveByAcceleration (-30) false).map Prod.snd = some MOVE_OK ∧
    s.rg.parameters.checkValidConfig = MOVE_OK ∧ (s.moveTo 10).1.getSpeedInTicks = 5000 ∧ (s.moveTo 10).1.getAcceleration = 10000 ∧
    ((s.moveTo 10).1.rg.getNextCommand .esp32 s.hw.q.qend junk0).isSome = true := by
  decide +kernel

theorem configured_hist (a : ArchId) : RampHist a ApiCall.Typed (configuredStepper a) := by
  have h0 : RampHist a ApiCall.Typed (((Stepper.init a 1).setDirectionPin a none 7 true 0).1.setAbsoluteSpeedLimit 80) := .start _ (by cases a <;> rfl)
  have h1 := RampHist.call (.config (.speed 5000)) h0 (show (5000 : Nat) < 4294967296 by decide)
  exact RampHist.call (.config (.acceleration 10000)) h1 trivial

/-! ## C66 -/

/-- C66, acceleration not 0: `moveByAcceleration()` sets the acceleration. With a positive one the motor runs forward, with a negative one and
`allow_reverse` backward, as after `runForward()` and `runBackward()` (`RunHist`: C54, C59); otherwise it is stopped with the new acceleration, as after
`stopMove()`. It is an error if the speed is not set. The position and the queue are untouched.

Missing: acceleration 0 (`C66_zero_speeds_up_refuted`), and `INT32_MIN`, whose negation overflows. -/
theorem C66_by_acceleration_partial (a : ArchId) (s : Stepper) (hh : RampHist a ApiCall.Typed s) (hf : s.rg.ro.forceImmediateStop = false)
    (accel : Int) (rev : Bool) (h0 : accel ≠ 0) (hmin : accel ≠ -2147483648) :
    ∃ s' r, s.moveByAcceleration accel rev = some (s', r) ∧ s'.hw = s.hw ∧ s'.getSpeedInTicks = s.getSpeedInTicks ∧ s'.getAcceleration = accel.natAbs ∧
      (0 < accel ∨ rev = true ∧ s.dirPin ≠ pinUndefined →
        (r = MOVE_OK ↔ s.rg.parameters.validSpeed = true) ∧
        (r = MOVE_OK → RunHist a (decide (0 < accel)) s' ∧ s'.isRunning = true) ∧ (r ≠ MOVE_OK → s'.rg.rw = s.rg.rw ∧ s'.rg.ro = s.rg.ro)) ∧
      (accel < 0 → rev = false ∨ s.dirPin = pinUndefined →
        r = MOVE_OK ∧ s'.isStopping = s.isRampGeneratorActive ∧ RampHist a ApiCall.Typed s' ∧ ∃ s1, ApplyCall a s1 s1.applySpeedAcceleration ∧
          s' = s1.applySpeedAcceleration.stopMove ∧ s1.getAcceleration = accel.natAbs) := by
  have hset : ∀ x : Int, 0 < x → ((s.setAcceleration x).1.hw = s.hw ∧ (s.setAcceleration x).1.getSpeedInTicks = s.getSpeedInTicks ∧
      (s.setAcceleration x).1.getAcceleration = x.natAbs ∧ (s.setAcceleration x).1.rg.parameters.validSpeed = s.rg.parameters.validSpeed ∧
      (s.setAcceleration x).1.rg.parameters.validAcceleration = true ∧ (s.setAcceleration x).1.rg.ro = s.rg.ro ∧
      (s.setAcceleration x).1.rg.rw = s.rg.rw ∧ (s.setAcceleration x).1.dirPin = s.dirPin) := by
    intro x hx
    obtain ⟨h1, h2, h3, -, h5, h6, -, h8⟩ := setAcc_frame s x
    exact ⟨h3, h5, (h8 hx).1, h6, (h8 hx).2, h1, h2, congrArg (fun h : Hw => h.q.dirPin) h3⟩
  have hrun : ∀ x : Int, 0 < x → ∀ up, ∃ s' r, (s.setAcceleration x).1.startRun up = (s', r) ∧ s'.hw = s.hw ∧
      s'.getSpeedInTicks = s.getSpeedInTicks ∧ s'.getAcceleration = x.natAbs ∧
      (r = MOVE_OK ↔ s.rg.parameters.validSpeed = true) ∧ (r = MOVE_OK → RunHist a up s' ∧ s'.isRunning = true) ∧
      (r ≠ MOVE_OK → s'.rg.rw = s.rg.rw ∧ s'.rg.ro = s.rg.ro) := by
    intro x hx up
    obtain ⟨e1, e2, e3, e4, e5, e6, e7, e8⟩ := hset x hx
    have hh' : RampHist a ApiCall.Typed (s.setAcceleration x).1 := RampHist.call (.config (.acceleration x)) hh trivial
    generalize (s.setAcceleration x).1 = s1 at *
    have hiff : s1.rg.parameters.checkValidConfig = MOVE_OK ↔ s.rg.parameters.validSpeed = true := by
      rw [checkValid_iff, e4]; exact ⟨fun h => h.1, fun h => ⟨h, e5⟩⟩
    refine ⟨(s1.startRun up).1, (s1.startRun up).2, rfl, ?_⟩
    have hst : ∀ hok : (s1.startRun up).2 = MOVE_OK, RunHist a up (s1.startRun up).1 := fun hok => RunHist.start s1 hh' (by rw [e6]; exact hf) hok
    unfold Stepper.startRun RampGen.startRun at hst ⊢
    dsimp only at hst ⊢
    by_cases hv : s1.rg.parameters.checkValidConfig = MOVE_OK
    · rw [if_neg (not_not_intro hv)] at hst ⊢
      refine ⟨e1, e2, e3, ⟨fun _ => hiff.mp hv, fun _ => rfl⟩, fun h => ⟨hst h, ?_⟩, fun h => absurd rfl h⟩
      unfold Stepper.isRunning RampGen.isActive RampRw.startRampIfNotRunning
      dsimp only
      split
      · have : ({ phase := RampPhase.accelerate, dir := RampDir.none } : RampState) ≠ RampState.IDLE := by decide
        simp [this]
      · rename_i h; simp [show s1.rg.rw.state ≠ RampState.IDLE by simpa using h]
    · rw [if_pos hv] at hst ⊢
      exact ⟨e1, e2, e3, ⟨fun h => absurd h hv, fun h => absurd (hiff.mpr h) hv⟩, fun h => absurd h hv, fun _ => ⟨e7, e6⟩⟩
  by_cases hp : 0 < accel
  · obtain ⟨s', r, h1, h2, h3, h4, h5, h6, h7⟩ := hrun accel hp true
    refine ⟨s', r, ?_, h2, h3, h4, fun _ => ⟨h5, by rw [decide_eq_true hp]; exact h6, h7⟩, fun h => absurd h (by omega)⟩
    unfold Stepper.moveByAcceleration
    rw [if_pos hp, h1]
  · have hn : accel < 0 := by omega
    obtain ⟨e1, e2, e3, e4, e5, e6, e7, e8⟩ := hset (-accel) (by omega)
    have hm : s.moveByAcceleration accel rev = (if rev = true ∧ (s.setAcceleration (-accel)).1.dirPin ≠ pinUndefined then
        some ((s.setAcceleration (-accel)).1.startRun false) else some ((s.setAcceleration (-accel)).1.applySpeedAcceleration.stopMove, MOVE_OK)) := by
      unfold Stepper.moveByAcceleration
      rw [if_neg (show ¬ accel > 0 by omega), if_pos hn, if_neg hmin]
    by_cases hr : rev = true ∧ s.dirPin ≠ pinUndefined
    · obtain ⟨s', r, h1, h2, h3, h4, h5, h6, h7⟩ := hrun (-accel) (by omega) false
      refine ⟨s', r, ?_, h2, h3, by rw [h4]; omega, fun _ => ⟨h5, by rw [decide_eq_false hp]; exact h6, h7⟩, fun _ h => ?_⟩
      · rw [hm, e8, if_pos hr, h1]
      · exfalso
        rcases h with h | h
        · rw [hr.1] at h; cases h
        · exact hr.2 h
    · refine ⟨_, _, by rw [hm, e8, if_neg hr], ?_, ?_, ?_, fun h => ?_, fun _ _ => ⟨rfl, ?_, ?_, (s.setAcceleration (-accel)).1, .applySpeedAcceleration (by rw [e6]; exact hf), rfl, ?_⟩⟩
      · exact e1
      · rw [← e2]
        unfold getSpeedInTicks Stepper.stopMove Stepper.applySpeedAcceleration RampGen.applySpeedAcceleration RampGen.initiateStop RampParams.applyParameters
        dsimp only
        repeat' split
        all_goals rfl
      · rw [show accel.natAbs = (-accel).natAbs by omega, ← e3]
        unfold getAcceleration Stepper.stopMove Stepper.applySpeedAcceleration RampGen.applySpeedAcceleration RampGen.initiateStop
        dsimp only
        split <;> rfl
      · rcases h with h | h
        · omega
        · exact absurd h hr
      · have : ((s.setAcceleration (-accel)).1.applySpeedAcceleration).rg.rw = s.rg.rw := by
          rw [← e7]
          unfold Stepper.applySpeedAcceleration RampGen.applySpeedAcceleration
          dsimp only
          split <;> rfl
        unfold Stepper.isStopping Stepper.isRampGeneratorActive RampGen.isStopping RampGen.isActive Stepper.stopMove RampGen.initiateStop
        dsimp only
        rw [this, Bool.true_and]
      · exact RampHist.call .stopMove (RampHist.call (.config .applySpeedAcceleration) (RampHist.call (.config (.acceleration (-accel))) hh trivial) trivial) trivial
      · rw [e3]; omega

/-- The hypotheses are met in all three cases. -/
example :
    let s := configuredStepper .esp32
    RampHist .esp32 ApiCall.Typed s ∧ s.rg.ro.forceImmediateStop = false ∧ s.rg.parameters.validSpeed = true ∧ s.dirPin ≠ pinUndefined ∧
    ((s.startRun true).1.moveByAcceleration (-20) false).map (fun r => (r.1.isStopping, r.2)) = some (true, MOVE_OK) :=
  ⟨configured_hist .esp32, by decide +kernel⟩

/-- C66 is false of the code for acceleration 0, which should keep the current speed: called while the motor speeds up, it goes on speeding up (with
acceleration 1), because the former maximum speed is set again before the task takes the present speed over. The speed is set to 1000 ticks per step; the motor
has a period of 799744 ticks at the time of the call and of 797696 ticks two services later. -/
theorem C66_zero_speeds_up_refuted :
    let s := (((configuredStepper .esp32).setSpeedInTicks 1000).1.setAcceleration 100).1
    ∃ (d d' : Drive) (s' : Stepper), Drive.run .esp32 (fun _ => junk0) 30 ⟨(s.startRun true).1.rg, ⟨0, true, false⟩⟩ = some d ∧
      ({ s with rg := d.g } : Stepper).moveByAcceleration 0 true = some (s', MOVE_OK) ∧ Drive.run .esp32 (fun _ => junk0) 2 ⟨s'.rg, d.qe⟩ = some d' ∧
      d.g.rw.currTicks = 799744 ∧ d'.g.rw.currTicks = 797696 := by
  intro s
  have h : ((Drive.run .esp32 (fun _ => junk0) 30 ⟨(s.startRun true).1.rg, ⟨0, true, false⟩⟩).any fun d =>
      (({ s with rg := d.g } : Stepper).moveByAcceleration 0 true).any fun r => decide (r.2 = MOVE_OK) &&
        ((Drive.run .esp32 (fun _ => junk0) 2 ⟨r.1.rg, d.qe⟩).any fun d' => decide (d.g.rw.currTicks = 799744 ∧ d'.g.rw.currTicks = 797696))) = true := by
    decide +kernel
  cases hd : Drive.run .esp32 (fun _ => junk0) 30 ⟨(s.startRun true).1.rg, ⟨0, true, false⟩⟩ with
  | none => rw [hd] at h; cases h
  | some d =>
    rw [hd] at h
    dsimp only [Option.any] at h
    cases hm : ({ s with rg := d.g } : Stepper).moveByAcceleration 0 true with
    | none => rw [hm] at h; cases h
    | some r =>
      obtain ⟨s', r⟩ := r
      rw [hm] at h
      dsimp only [Option.any] at h
      simp only [Bool.and_eq_true, decide_eq_true_eq] at h
      obtain ⟨h1, h2⟩ := h
      cases hd' : Drive.run .esp32 (fun _ => junk0) 2 ⟨s'.rg, d.qe⟩ with
      | none => rw [hd'] at h2; cases h2
      | some d' =>
        rw [hd'] at h2
        exact ⟨d, d', s', rfl, by rw [h1] at hm; exact hm, hd', of_decide_eq_true h2⟩

/-- What `moveByAcceleration(0)` does: the maximum speed stays set, and the ramp goes on towards it with acceleration 1, by `C69_used_after_apply`. -/
theorem C66_zero_partial (a : ArchId) (s : Stepper) (hf : s.rg.ro.forceImmediateStop = false)
    (hv : s.rg.parameters.validSpeed = true) (hlim : s.getMaxSpeedInTicks ≤ s.getSpeedInTicks) (hns : s.getSpeedInTicks ≠ ticksForStoppedMotor) (rev : Bool) :
    ∃ s', s.moveByAcceleration 0 rev = some (s', MOVE_OK) ∧ s'.hw = s.hw ∧ s'.rg.rw = s.rg.rw ∧ s'.rg.ro = s.rg.ro ∧
      s'.getSpeedInTicks = s.getSpeedInTicks ∧ s'.getAcceleration = 1 ∧ ApplyCall a s s' := by
  have hm : ∃ s', s.moveByAcceleration 0 rev = some (s', MOVE_OK) ∧
      s' = ((((s.setSpeedInTicks s.getPeriodInTicksAfterCommandsCompleted).1.setAcceleration 1).1.applySpeedAcceleration).setSpeedInTicks s.getSpeedInTicks).1 :=
    ⟨_, rfl, rfl⟩
  obtain ⟨s', hm, hs⟩ := hm
  refine ⟨s', hm, ?_⟩
  have hap : ApplyCall a s s' := .moveByAcceleration 0 rev s' hf (fun _ => hv) hm
  generalize s.getPeriodInTicksAfterCommandsCompleted = t at hs
  obtain ⟨a1, a2, a3, a4, a5, -, -⟩ := setSpeed_cases s t
  generalize (s.setSpeedInTicks t).1 = s1 at *
  obtain ⟨b1, b2, b3, b3', -, -, -, b8⟩ := setAcc_frame s1 1
  generalize (s1.setAcceleration 1).1 = s2 at *
  obtain ⟨c1, c2, c3, -, -⟩ := apply_frame s2
  have c4 : s2.applySpeedAcceleration.hw = s2.hw := rfl
  have c5 : s2.applySpeedAcceleration.getMaxSpeedInTicks = s2.getMaxSpeedInTicks := rfl
  generalize s2.applySpeedAcceleration = s3 at *
  obtain ⟨d1, d2, d3, d4, d5, -, -⟩ := setSpeed_cases s3 s.getSpeedInTicks
  rw [← hs] at d1 d2 d3 d4 d5
  refine ⟨d1.trans (c4.trans (b3.trans a1)), d3.trans (c2.trans (b2.trans a3)), d2.trans (c1.trans (b1.trans a2)), ?_, ?_, hap⟩
  · rw [hs]
    have hmax : s3.getMaxSpeedInTicks = s.getMaxSpeedInTicks := c5.trans (b3'.trans a4)
    generalize s.getSpeedInTicks = x at hlim hns
    unfold Stepper.setSpeedInTicks getSpeedInTicks
    rw [if_neg (by rw [hmax]; omega), if_neg hns]
    dsimp only
    unfold RampParams.setSpeedInTicks
    split
    · rfl
    · rename_i h
      simp only [Bool.or_eq_true, not_or, decide_eq_true_eq, Decidable.not_not, ne_eq] at h
      exact h.2
  · change s'.rg.acceleration = 1
    rw [d5, c3, (b8 (by decide)).1]; rfl

/-! ## C68 -/

/-- C68: the period reported for the end of the queue is the time between the latest queued step and the next one, and 0 for an idle ramp generator.

Missing: a ramp which has not been served yet (`C29_not_started_refuted`), and
the case excluded by `hguard`, in which the period is not kept (`C36_slow_speed_change_refuted`). -/
theorem C68_period_at_end_partial (a : ArchId) (s : Stepper) :
    (s.isRampGeneratorActive = false → s.getPeriodInTicksAfterCommandsCompleted = 0 ∧ s.getPeriodInUsAfterCommandsCompleted a = 0) ∧
    ∀ (g g1 g2 : RampGen) (qe : QueueEnd) (jc c : NextCommand) (cs1 cs2 : List Cmd) (d : Cmd), InRange g → jc.rw.performedRampUpSteps < 4294967296 →
      g.getNextCommand a qe jc = some (g1, c) → IsStep c.command → Services a (g1.afterCommandEnqueued c) cs1 s.rg →
      Services a s.rg (cs2 ++ [d]) g2 → (∀ x ∈ cs1 ++ cs2, IsPause x) → IsStep d →
      (g1.ro.config.parameters.minTravelTicks ≤ 65535 ∨ g1.stepsToStop ≠ g1.ro.config.maxRampUpSteps) →
      let period := c.command.ticks + ticksSum ((cs1 ++ cs2).map Cmd.ticks)
      s.getPeriodInTicksAfterCommandsCompleted = period ∧
      s.getPeriodInUsAfterCommandsCompleted a = period / (a.ticksPerS / 1000000) := by
  constructor
  · intro hi
    have hi' : s.rg.isActive = false := hi
    unfold getPeriodInTicksAfterCommandsCompleted getPeriodInUsAfterCommandsCompleted
    rw [hi']
    exact ⟨rfl, rfl⟩
  · intro g g1 g2 qe jc c cs1 cs2 d hr hj h hc hs1 hs2 hpz hd hguard period
    obtain ⟨-, -, q3, -⟩ := InRange_serve hr hj h
    have hall := Services.append hs1 hs2
    rw [← List.append_assoc] at hall
    obtain ⟨hsum, -⟩ := C36_period_conserved_partial a g g1 g2 qe jc c (cs1 ++ cs2) d hr hj h hc hall hpz hd hguard
    obtain ⟨e1, e2⟩ := pauses_speed a cs1 _ _ q3 hs1 (fun x hx => hpz x (by simp [hx]))
    have hP : s.rg.rw.currTicks = period := e2.trans hsum.symm
    have hst : s.rg.rw.state = c.rw.state := e1
    rcases service_cases hr h with ⟨-, -, h1, -⟩ | ⟨hgg, -, h1⟩
    · exact absurd h1 hc.1
    rcases h1 with ⟨-, h2⟩ | ⟨-, -, -, -, h2⟩ | ⟨remaining, same, ph, P, ho⟩
    · exact absurd hc.2 (by rw [h2]; exact (by decide : ¬ 1 ≤ 0))
    · exact absurd (by rw [h2]; rfl) hc.1
    have hstate := ho.facts.state
    have hact : s.rg.isActive = true := by
      unfold RampGen.isActive
      rw [hst, hstate]
      cases c.command.countUp <;> simp [RampState.IDLE]
    unfold getPeriodInTicksAfterCommandsCompleted getPeriodInUsAfterCommandsCompleted
    rw [hact, hP]
    refine ⟨rfl, ?_⟩
    rw [if_pos rfl]
    rfl

/-! ## C70 -/

theorem KeepDir.hist {a : ArchId} {up : Bool} {s : Stepper} (h : KeepDir a up s) : RampHist a ApiCall.Typed s := by
  induction h with
  | start s h => exact .start s h
  | call c _ hok ih => exact .call c ih hok
  | task env junk acc _ hj hf ih => exact .task env junk acc ih hj hf
  | other _ hs ih => exact .other ih hs

/-- Invariant for the direction of `keepRunning()`. -/
structure DirInv (up : Bool) (g : RampGen) : Prop where
  set : g.parameters.keepRunningCountUp = up
  used : g.parameters.apply = false → g.ro.config.parameters.keepRunningCountUp = up

theorem DirInv.serve {a : ArchId} {up : Bool} {g g' : RampGen} {qe : QueueEnd} {junk c : NextCommand} (hi : DirInv up g)
    (h : g.getNextCommand a qe junk = some (g', c)) : DirInv up g' := by
  obtain ⟨e1, -, e3⟩ := service_agree h
  have hp := prepared a g qe
  have hk : (g.takeOver a).parameters.keepRunningCountUp = g.parameters.keepRunningCountUp ∧
      (g.takeOver a).ro.config.parameters.keepRunningCountUp =
        (if g.parameters.apply then g.parameters.keepRunningCountUp else g.ro.config.parameters.keepRunningCountUp) := by
    unfold RampGen.takeOver
    by_cases h : g.parameters.apply = true
    · rw [if_pos h, if_pos h]
      have e := RampConfig.update_parameters a { g.ro.config with parameters := g.parameters }
      exact ⟨rfl, by dsimp only; rw [e]⟩
    · rw [if_neg h, if_neg h]; exact ⟨rfl, rfl⟩
  obtain ⟨s1, s2⟩ := RampGen.startSteps_fields a (g.takeOver a)
  have u : ∀ (g : RampGen) b, (g.updateTarget b qe).parameters = g.parameters ∧
      (g.updateTarget b qe).ro.config.parameters.keepRunningCountUp = g.ro.config.parameters.keepRunningCountUp := by
    intro g b
    unfold RampGen.updateTarget
    dsimp only
    repeat' split
    all_goals exact ⟨rfl, rfl⟩
  obtain ⟨u1, u2⟩ := u ((g.takeOver a).startSteps a) g.ro.config.parameters.keepRunning
  have p1 : (g.prepare a qe).parameters = (g.takeOver a).parameters := u1.trans s2
  have p2 : (g.prepare a qe).ro.config.parameters.keepRunningCountUp = (g.takeOver a).ro.config.parameters.keepRunningCountUp := u2.trans (by rw [s1])
  refine ⟨by rw [e1, p1, hk.1]; exact hi.set, fun _ => ?_⟩
  rw [e3, p2, hk.2]
  by_cases ha : g.parameters.apply = true
  · rw [if_pos ha]; exact hi.set
  · rw [if_neg ha]; exact hi.used (by simpa using ha)

theorem DirInv.config {s : Stepper} {up : Bool} (hi : DirInv up s.rg) (k : ConfigCall) : DirInv up (k.run s).rg := by
  cases k with
  | speed t =>
    unfold ConfigCall.run setSpeedInTicks
    dsimp only
    split
    · exact hi
    · split
      · exact hi
      · unfold RampParams.setSpeedInTicks
        split
        · exact ⟨hi.set, hi.used⟩
        · exact hi
  | acceleration x =>
    unfold ConfigCall.run setAcceleration RampGen.setAcceleration
    dsimp only
    split
    · exact hi
    · unfold RampParams.setAcceleration
      dsimp only
      split <;> exact ⟨hi.set, hi.used⟩
  | linear n =>
    unfold ConfigCall.run setLinearAcceleration RampParams.setCubicAccelerationSteps
    dsimp only
    split <;> exact ⟨hi.set, hi.used⟩
  | jump n => exact ⟨hi.set, hi.used⟩
  | applySpeedAcceleration =>
    unfold ConfigCall.run applySpeedAcceleration RampGen.applySpeedAcceleration
    dsimp only
    split
    · unfold RampParams.applyParameters
      split
      · exact ⟨hi.set, (fun h => nomatch h)⟩
      · exact hi
    · exact hi

theorem KeepDir.inv {a : ArchId} {up : Bool} {s : Stepper} (h : KeepDir a up s) : DirInv up s.rg := by
  induction h with
  | start s h => rw [h]; exact ⟨rfl, fun _ => rfl⟩
  | @call s up c _ _ hi =>
    cases c with
    | config k => exact hi.config k
    | moveTo p =>
      unfold keepDirection ApiCall.exec moveTo RampGen.moveTo
      dsimp only
      by_cases h : s.rg.parameters.checkValidConfig = MOVE_OK
      · rw [if_neg (not_not_intro h)]; dsimp only; rw [if_pos rfl]; exact ⟨rfl, (fun h => nomatch h)⟩
      · rw [if_pos h]; dsimp only; rw [if_neg h]; exact hi
    | move m =>
      unfold keepDirection ApiCall.exec move RampGen.move
      dsimp only
      split
      · dsimp only; rw [if_neg (by decide)]; exact hi
      · dsimp only
        by_cases h : s.rg.parameters.checkValidConfig = MOVE_OK
        · rw [if_neg (not_not_intro h)]; dsimp only; rw [if_pos rfl]; exact ⟨rfl, (fun h => nomatch h)⟩
        · rw [if_pos h]; dsimp only; rw [if_neg h]; exact hi
    | run u =>
      unfold keepDirection ApiCall.exec startRun RampGen.startRun
      dsimp only
      by_cases h : s.rg.parameters.checkValidConfig = MOVE_OK
      · rw [if_neg (not_not_intro h)]; dsimp only; rw [if_pos rfl]; exact ⟨rfl, (fun h => nomatch h)⟩
      · rw [if_pos h]; dsimp only; rw [if_neg h]; exact hi
    | keepRunning => exact ⟨hi.set, hi.used⟩
    | stopMove => exact ⟨hi.set, hi.used⟩
    | forceStop => exact ⟨hi.set, hi.used⟩
    | forceStopAndNewPosition p => exact ⟨hi.set, hi.used⟩
    | setCurrentPosition p =>
      unfold keepDirection ApiCall.exec setCurrentPosition
      dsimp only
      split
      · exact ⟨hi.set, hi.used⟩
      · exact hi
    | setPositionAfterCommandsCompleted p =>
      unfold keepDirection ApiCall.exec setPositionAfterCommandsCompleted
      dsimp only
      split <;> exact ⟨hi.set, hi.used⟩
  | task env junk acc hh hj hf hi =>
    have := fillQueue_rg_induct (fun g => DirInv _ g ∧ InRange g) ?_ ⟨hi, FAS.RampHist.inRange (KeepDir.hist hh)⟩ hj hf
    · exact this.1
    · intro g g' qe junk c hi _ _ hj hg
      have hs := hi.1.serve hg
      obtain ⟨r0, r1, r2, r3⟩ := InRange_serve hi.2 hj hg
      exact ⟨r0, ⟨hs, r1⟩, ⟨⟨hs.set, hs.used⟩, r2⟩, ⟨⟨hs.set, hs.used⟩, r3⟩⟩
  | other _ hs ih => rw [hs]; exact ih

/-- Invariant after `keepRunning()`. -/
structure KeepInv (up : Bool) (g : RampGen) : Prop where
  range : InRange g
  noStop : g.ro.forceStop = false
  noForce : g.ro.forceImmediateStop = false
  seen : g.parameters.apply = false
  keep : g.ro.config.parameters.keepRunning = true ∧ g.ro.config.parameters.keepRunningCountUp = up

/-- The parameters of a run command. -/
def runParams (g : RampGen) (up : Bool) : RampParams := { g.parameters with keepRunning := true, keepRunningCountUp := up }

theorem KeepInv.run {up : Bool} {g : RampGen} (hi : KeepInv up g) : RunInv up (g.withP (runParams g up) g.acceleration) :=
  ⟨⟨hi.range.speed, hi.range.jump, hi.range.usedSpeed, hi.range.usedJump, hi.range.brake, hi.range.period⟩, hi.noStop, hi.noForce, ⟨rfl, rfl⟩, Or.inr hi.keep⟩

theorem KeepInv.getNext {a : ArchId} {up : Bool} {g g' : RampGen} {qe : QueueEnd} {junk c : NextCommand} (hi : KeepInv up g)
    (h : g.getNextCommand a qe junk = some (g', c)) :
    (g.withP (runParams g up) g.acceleration).getNextCommand a qe junk = some (g'.withP (runParams g up) g.acceleration, c) := by
  rw [RampGen.getNextCommand_withP a g qe junk (runParams g up) _ hi.seen hi.seen, h]; rfl

theorem KeepInv.serve {a : ArchId} {up : Bool} {g g' : RampGen} {qe : QueueEnd} {junk c : NextCommand} (hi : KeepInv up g)
    (hj : junk.rw.performedRampUpSteps < 4294967296) (h : g.getNextCommand a qe junk = some (g', c)) :
    KeepInv up g' ∧ KeepInv up (g'.afterCommandEnqueued c) ∧ KeepInv up g'.stopRamp := by
  obtain ⟨-, r1, r2, r3⟩ := InRange_serve hi.range hj h
  obtain ⟨i1, -, -, k1, k2, -⟩ := hi.run.serve hj (hi.getNext h)
  have hp : g'.parameters.apply = false := by rw [RampGen.getNextCommand_params a g g' qe junk c hi.seen h]; exact hi.seen
  exact ⟨⟨r1, i1.noStop, i1.noForce, hp, k1, k2⟩, ⟨r2, i1.noStop, i1.noForce, hp, k1, k2⟩, ⟨r3, i1.noStop, i1.noForce, hp, k1, k2⟩⟩

theorem KeepHist.inv {a : ArchId} {up : Bool} {s : Stepper} (h : KeepHist a up s) : KeepInv up s.rg := by
  induction h with
  | start s h hp hs hf =>
    have hr := InRange_call a s .keepRunning (FAS.RampHist.inRange (KeepDir.hist h)) trivial
    exact ⟨hr, hs, hf, hp, rfl, (KeepDir.inv h).used hp⟩
  | @set s c _ hok hne ih =>
    have hr := InRange_call a s (.config c) ih.range hok
    have hro : (c.run s).rg.ro = s.rg.ro ∧ (c.run s).rg.parameters.apply = s.rg.parameters.apply := by
      cases c with
      | speed t => obtain ⟨-, h2, -, -, -, h6, -⟩ := setSpeed_cases s t; exact ⟨h2, h6⟩
      | acceleration x =>
        obtain ⟨-, h2, -⟩ := setCall_withP a s (.acceleration x)
        exact ⟨(setAcc_frame s x).1, h2⟩
      | linear n =>
        obtain ⟨-, h2, -⟩ := setCall_withP a s (.linearAcceleration n)
        exact ⟨rfl, h2⟩
      | jump n => exact ⟨rfl, rfl⟩
      | applySpeedAcceleration => exact absurd rfl hne
    obtain ⟨h1, h2⟩ := hro
    exact ⟨hr, by rw [h1]; exact ih.noStop, by rw [h1]; exact ih.noForce, by rw [h2]; exact ih.seen, by rw [h1]; exact ih.keep⟩
  | task env junk acc _ hj hf ih =>
    refine fillQueue_rg_induct (KeepInv up) ?_ ih hj hf
    intro g g' qe junk c hi _ _ hj hg
    exact ⟨(InRange_serve hi.range hj hg).1, hi.serve hj hg⟩
  | other _ hs ih => rw [hs]; exact ih

/-- C70: after `keepRunning()` the motor runs continuously forward, or backward if the latest move command was `runBackward()`. As in C54, no service makes
the ramp idle, and steps are in that direction, unless the motor still moves in the other direction: then the braking distance shrinks by
each step.

Missing: it should be the current direction of the motor, but it is not after `move()` and `moveTo()` backward (`C70_reverses_refuted`); the call has no
effect before the move command has been seen by the task, and is undone by `applySpeedAcceleration()` (`C70_apply_refuted`). -/
theorem C70_keeps_running_partial (a : ArchId) (up : Bool) (s : Stepper) (hh : KeepHist a up s) (ha : s.rg.isActive = true)
    (qe : QueueEnd) (junk c : NextCommand) (hj : junk.rw.performedRampUpSteps < 4294967296) (g' : RampGen)
    (h : s.rg.getNextCommand a qe junk = some (g', c)) :
    (g'.afterCommandEnqueued c).isActive = true ∧ c.command.ticks ≤ 65535 ∧
    (1 ≤ c.command.steps →
      (qe.countUp = up → c.command.countUp = up) ∧
      (c.command.countUp ≠ up → c.command.countUp = qe.countUp ∧ 1 ≤ g'.stepsToStop ∧
        (g'.stepsToStop < 4294967041 → c.rw.performedRampUpSteps + c.command.steps = g'.stepsToStop))) :=
  RunInv.step (g' := g'.withP (runParams s.rg up) s.rg.acceleration) (KeepHist.inv hh).run ha hj ((KeepHist.inv hh).getNext h)

/-- The hypotheses are met: `keepRunning()` during `move(1000)`. -/
example : ∃ d, Drive.run .esp32 (fun _ => junk0) 3 ⟨((configuredStepper .esp32).move 1000).1.rg, ⟨0, true, false⟩⟩ = some d ∧
    d.g.parameters.apply = false ∧ d.g.ro.forceStop = false ∧ d.g.ro.forceImmediateStop = false ∧ d.g.isActive = true := by
  apply exists_of_any; decide +kernel

/-- C70 is false of the code in general: `keepRunning()` while `move(-1000)` is performed. The motor moves backward; 60 services later it moves forward. -/
theorem C70_reverses_refuted :
    let s := ((configuredStepper .esp32).move (-1000)).1
    ∃ d d' : Drive, Drive.run .esp32 (fun _ => junk0) 40 ⟨s.rg, ⟨0, true, false⟩⟩ = some d ∧
      Drive.run .esp32 (fun _ => junk0) 120 ⟨({ s with rg := d.g } : Stepper).keepRunning.rg, d.qe⟩ = some d' ∧
      d.qe.pos < 0 ∧ d.qe.countUp = false ∧ d.g.isActive = true ∧ 0 < d'.qe.pos ∧ d'.qe.countUp = true := by
  intro s
  have h : ((Drive.run .esp32 (fun _ => junk0) 40 ⟨s.rg, ⟨0, true, false⟩⟩).any fun d =>
      (Drive.run .esp32 (fun _ => junk0) 120 ⟨({ s with rg := d.g } : Stepper).keepRunning.rg, d.qe⟩).any fun d' =>
        decide (d.qe.pos < 0 ∧ d.qe.countUp = false ∧ d.g.isActive = true ∧ 0 < d'.qe.pos ∧ d'.qe.countUp = true)) = true := by
    decide +kernel
  cases hd : Drive.run .esp32 (fun _ => junk0) 40 ⟨s.rg, ⟨0, true, false⟩⟩ with
  | none => rw [hd] at h; cases h
  | some d =>
    rw [hd] at h
    dsimp only [Option.any] at h
    cases hd' : Drive.run .esp32 (fun _ => junk0) 120 ⟨({ s with rg := d.g } : Stepper).keepRunning.rg, d.qe⟩ with
    | none => rw [hd'] at h; cases h
    | some d' =>
      rw [hd'] at h
      exact ⟨d, d', rfl, hd', of_decide_eq_true h⟩

/-- C70 is false of the code in general: a new speed applied with `applySpeedAcceleration()` after `keepRunning()` ends the continuous running; the
motor is idle 200 services later, at the position it had at the time of the call. -/
theorem C70_apply_refuted :
    let s := ((configuredStepper .esp32).move 10).1
    ∃ d d' : Drive, Drive.run .esp32 (fun _ => junk0) 3 ⟨s.rg, ⟨0, true, false⟩⟩ = some d ∧
      Drive.run .esp32 (fun _ => junk0) 200 ⟨((({ s with rg := d.g } : Stepper).keepRunning.setSpeedInTicks 6000).1.applySpeedAcceleration).rg, d.qe⟩ = some d' ∧
      d.g.isActive = true ∧ d'.g.isActive = false ∧ d'.qe.pos = d.qe.pos := by
  intro s
  have h : ((Drive.run .esp32 (fun _ => junk0) 3 ⟨s.rg, ⟨0, true, false⟩⟩).any fun d =>
      (Drive.run .esp32 (fun _ => junk0) 200 ⟨((({ s with rg := d.g } : Stepper).keepRunning.setSpeedInTicks 6000).1.applySpeedAcceleration).rg, d.qe⟩).any fun d' =>
        decide (d.g.isActive = true ∧ d'.g.isActive = false ∧ d'.qe.pos = d.qe.pos)) = true := by
    decide +kernel
  cases hd : Drive.run .esp32 (fun _ => junk0) 3 ⟨s.rg, ⟨0, true, false⟩⟩ with
  | none => rw [hd] at h; cases h
  | some d =>
    rw [hd] at h
    dsimp only [Option.any] at h
    cases hd' : Drive.run .esp32 (fun _ => junk0) 200 ⟨((({ s with rg := d.g } : Stepper).keepRunning.setSpeedInTicks 6000).1.applySpeedAcceleration).rg, d.qe⟩ with
    | none => rw [hd'] at h; cases h
    | some d' =>
      rw [hd'] at h
      exact ⟨d, d', rfl, hd', of_decide_eq_true h⟩

end FAS
