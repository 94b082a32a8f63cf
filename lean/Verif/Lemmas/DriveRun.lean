import Verif.Spec.Drive
import Verif.Lemmas.RealRun
import Verif.Props.Periods
import Verif.Props.Single
import Verif.Props.Motion
import Verif.Lemmas.Steady

/-! Changing commands in real time: what the calls and the task cycles keep. -/

namespace FAS
open Spec Stepper

theorem Spec.ApiCall.Steer.slow {L : Nat} {c : ApiCall} (h : c.Steer L) : c.Slow L := by
  cases c with
  | config k => cases k <;> exact h
  | _ => trivial

theorem Spec.ApiCall.Slow.typed {L : Nat} {c : ApiCall} (h : c.Slow L) : c.Typed := by
  cases c with
  | config k =>
    cases k with
    | speed t => change L ≤ t ∧ t ≤ 65535 at h; change t < 4294967296; omega
    | jump n => change n = 0 at h; change n < 4294967296; omega
    | _ => trivial
  | _ => trivial

theorem RampHist.slow_typed {a : ArchId} {L : Nat} {s : Stepper} (h : RampHist a (ApiCall.Slow L) s) : RampHist a ApiCall.Typed s := by
  induction h with
  | start s h => exact .start s h
  | call c _ hc ih => exact .call c ih hc.typed
  | task env junk acc _ hj hf ih => exact .task env junk acc ih hj hf
  | other _ hr ih => exact .other ih hr

/-- The calls do not touch the queue and the other settings. -/
theorem steer_frame {a : ArchId} {L : Nat} {c : ApiCall} (s : Stepper) (h : c.Steer L) :
    (c.exec a s).hw = s.hw ∧ (c.exec a s).dirChangeDelayTicks = s.dirChangeDelayTicks ∧ (c.exec a s).autoEnable = s.autoEnable ∧ (c.exec a s).onDelayTicks = s.onDelayTicks ∧
      (c.exec a s).forwardPlanning = s.forwardPlanning := by
  cases c with
  | config k =>
    cases k with
    | speed t =>
      simp only [ApiCall.exec, ConfigCall.run, Stepper.setSpeedInTicks]
      split
      · exact ⟨rfl, rfl, rfl, rfl, rfl⟩
      · split <;> exact ⟨rfl, rfl, rfl, rfl, rfl⟩
    | _ => exact ⟨rfl, rfl, rfl, rfl, rfl⟩
  | move m =>
    simp only [ApiCall.exec, Stepper.move]
    split <;> exact ⟨rfl, rfl, rfl, rfl, rfl⟩
  | moveTo p => exact ⟨rfl, rfl, rfl, rfl, rfl⟩
  | run u => exact ⟨rfl, rfl, rfl, rfl, rfl⟩
  | keepRunning => exact ⟨rfl, rfl, rfl, rfl, rfl⟩
  | stopMove => exact ⟨rfl, rfl, rfl, rfl, rfl⟩
  | _ => exact h.elim

theorem params_valid {p : RampParams} (h1 : p.validSpeed = true) (h2 : p.validAcceleration = true) : p.checkValidConfig = MOVE_OK := by
  unfold RampParams.checkValidConfig; rw [h1, h2]; rfl

theorem steer_valid {a : ArchId} {L : Nat} {c : ApiCall} (s : Stepper) (h : c.Steer L) (hv : s.rg.parameters.checkValidConfig = MOVE_OK) :
    (c.exec a s).rg.parameters.checkValidConfig = MOVE_OK := by
  obtain ⟨v1, v2⟩ := valid_of_check hv
  cases c with
  | config k =>
    cases k with
    | speed t =>
      unfold ApiCall.exec ConfigCall.run Stepper.setSpeedInTicks
      dsimp only
      split
      · exact hv
      · split
        · exact hv
        · dsimp only
          unfold RampParams.setSpeedInTicks
          split
          · exact params_valid rfl v2
          · exact hv
    | acceleration t =>
      unfold ApiCall.exec ConfigCall.run Stepper.setAcceleration RampGen.setAcceleration
      dsimp only
      split
      · exact hv
      · dsimp only
        unfold RampParams.setAcceleration
        dsimp only
        split
        · exact params_valid v1 rfl
        · exact hv
    | linear n =>
      change (s.rg.parameters.setCubicAccelerationSteps n).checkValidConfig = MOVE_OK
      unfold RampParams.setCubicAccelerationSteps
      split
      · exact params_valid v1 v2
      · exact hv
    | jump n => exact params_valid v1 v2
    | applySpeedAcceleration =>
      unfold ApiCall.exec ConfigCall.run Stepper.applySpeedAcceleration RampGen.applySpeedAcceleration
      dsimp only
      split
      · dsimp only
        unfold RampParams.applyParameters
        split
        · exact params_valid v1 v2
        · exact hv
      · exact hv
  | move m =>
    unfold ApiCall.exec Stepper.move RampGen.move
    dsimp only
    split
    · exact hv
    · rw [if_neg (by rw [hv]; decide)]
      exact params_valid v1 v2
  | moveTo p =>
    unfold ApiCall.exec Stepper.moveTo RampGen.moveTo
    dsimp only
    rw [if_neg (by rw [hv]; decide)]
    exact params_valid v1 v2
  | run u =>
    unfold ApiCall.exec Stepper.startRun RampGen.startRun
    dsimp only
    rw [if_neg (by rw [hv]; decide)]
    exact params_valid v1 v2
  | keepRunning => exact hv
  | stopMove => exact hv
  | _ => exact h.elim

/-- The period of the set speed is known. -/
theorem SlowInv.known {L : Nat} (hL0 : 0 < L) {g : RampGen} (hi : SlowInv L g) (hv : g.parameters.checkValidConfig = MOVE_OK) (ha : g.isActive = true) :
    speedPeriod g % 65536 ≠ 0 := by
  unfold speedPeriod
  split
  · have := hi.speed (valid_of_check hv).1
    omega
  · rename_i h
    rcases hi.valid ha with h1 | h1
    · exact absurd h1 h
    · have := hi.used h1
      omega

/-- What a task cycle queues. -/
theorem slow_fill_commands {a : ArchId} {L D : Nat} (hmin : a.minCmdTicks ≤ L) (hL : L ≤ 32768) (hDL : D ≤ L)
    {env : Env} {junk : NextCommand} {s s' : Stepper} {acc : List Cmd}
    (hi : SlowInv L s.rg) (hv : s.rg.parameters.checkValidConfig = MOVE_OK) (hen : s.autoEnable = false ∨ s.onDelayTicks = 0) (hpin : pinIsExternal s.dirPin = false)
    (hd : s.dirChangeDelayTicks = 0 ∨ D ≤ s.dirChangeDelayTicks) (hd2 : s.dirChangeDelayTicks < 65536)
    (hj : junk.rw.performedRampUpSteps < 4294967296) (h : s.fillQueue a env junk = some (s', acc)) :
    ∀ c ∈ acc, c.Valid ∧ D ≤ c.duration := by
  rcases fillQueue_cases a env junk s s' acc h with ⟨-, -, h3⟩ | ⟨-, -, f0, f, x, e1, e2, e3, -, -, e4, hl, hacc, -⟩
  · rw [h3]; intro c hc; cases hc
  rw [hacc]
  have h0 : (Stepper.SameConfig s f0.s ∧ SlowInv L f0.s.rg ∧ f0.s.rg.parameters.checkValidConfig = MOVE_OK ∧ f0.cmd.rw.performedRampUpSteps < 4294967296) ∧
      ∀ c ∈ f0.accepted, c.Valid ∧ D ≤ c.duration := by
    refine ⟨?_, by rw [e4]; intro c hc; cases hc⟩
    rw [e1, e2]
    exact ⟨⟨rfl, rfl, rfl, rfl, rfl, rfl, rfl, rfl, rfl, rfl, rfl, rfl⟩, hi, hv, hj⟩
  refine (Stepper.Fill.loop_induct a env (fun f => (Stepper.SameConfig s f.s ∧ SlowInv L f.s.rg ∧ f.s.rg.parameters.checkValidConfig = MOVE_OK ∧
    f.cmd.rw.performedRampUpSteps < 4294967296) ∧ ∀ c ∈ f.accepted, c.Valid ∧ D ≤ c.duration) ?_ _ _ _ _ _ h0 hl).2
  intro i f f' b hc ⟨⟨ih1, ih2, ih3, ih4⟩, ih5⟩ hb
  have hact : f.s.rg.isActive = true := by
    unfold Stepper.Fill.cond at hc
    exact (Bool.and_eq_true_iff.mp hc).2
  obtain ⟨rg, cmd, hg, hcmd, hcase⟩ := Stepper.Fill.body_cases a env i f f' b hb
  obtain ⟨q1, q2, q3, q4⟩ := ih2.serve hmin hL hact ih3 ih4 hg
  have hwf := C34_well_formed a f.s.rg rg f.s.hw.q.qend f.cmd cmd ih2.range hg
  have hv2 : rg.parameters.checkValidConfig = MOVE_OK := by
    rw [service_params hg, Prepared.valid, ih3]
  refine ⟨⟨ih1.trans (Stepper.Fill.body_sameConfig a env i _ _ _ hb), ?_, ?_, by rw [hcmd]; exact (InRange_serve ih2.range ih4 hg).1⟩, ?_⟩
  · rcases hcase with ⟨-, r, hr, -, hcase⟩ | ⟨-, -, hcase, -⟩
    · have hrg : r.1.s.rg = rg := by
        rw [hr]; exact (Stepper.addQueueEntry_frame a _ _ _ _ _ _).rg
      rcases hcase with ⟨-, -, h, -⟩ | ⟨-, -, h, -⟩ | ⟨-, -, h, -⟩
      · rw [h]; change SlowInv L (r.1.s.rg.afterCommandEnqueued cmd); rw [hrg]; exact q3
      · rw [h, hrg]; exact q2
      · rw [h]; change SlowInv L r.1.s.rg.stopRamp; rw [hrg]; exact q4
    · rw [hcase]; exact q3
  · rcases hcase with ⟨-, r, hr, -, hcase⟩ | ⟨-, -, hcase, -⟩
    · have hrg : r.1.s.rg = rg := by
        rw [hr]; exact (Stepper.addQueueEntry_frame a _ _ _ _ _ _).rg
      rcases hcase with ⟨-, -, h, -⟩ | ⟨-, -, h, -⟩ | ⟨-, -, h, -⟩
      · rw [h]; change (r.1.s.rg.afterCommandEnqueued cmd).parameters.checkValidConfig = _; rw [hrg]; exact hv2
      · rw [h, hrg]; exact hv2
      · rw [h]; change r.1.s.rg.stopRamp.parameters.checkValidConfig = _; rw [hrg]; exact hv2
    · rw [hcase]; exact hv2
  · have hdur : ∀ c : Cmd, D ≤ c.ticks → D ≤ c.duration := fun c hc => Nat.le_trans hc (Nat.le_mul_of_pos_right _ (by omega))
    rcases hcase with ⟨ht, r, hr, hacc, -⟩ | ⟨-, -, -, hacc, -⟩
    · intro c hc
      rw [hacc, List.mem_append] at hc
      rcases hc with hc | hc
      · exact ih5 c hc
      · rw [hr] at hc
        rcases addQueueEntry_mem a _ _ _ { f.s with rg := rg } _ _ (show pinIsExternal f.s.dirPin = false by
            unfold Stepper.dirPin at hpin ⊢
            rw [ih1.pin]; exact hpin) (show f.s.autoEnable = false ∨ f.s.onDelayTicks = 0 by rw [ih1.auto, ih1.on]; exact hen) c hc with h6 | ⟨h6, h7⟩
        · rw [h6]
          have h8 := q1 ht
          exact ⟨⟨by omega, by omega⟩, hdur _ (by omega)⟩
        · rw [h6]
          change f.s.dirChangeDelayTicks ≠ 0 at h7
          have h8 : f.s.dirChangeDelayTicks = s.dirChangeDelayTicks := ih1.delay
          refine ⟨⟨?_, by change (0 : Nat) < 256; decide⟩, hdur _ ?_⟩
          · change f.s.dirChangeDelayTicks < 65536; omega
          · change D ≤ f.s.dirChangeDelayTicks; omega
    · rw [hacc]; exact ih5

/-- What calls and task cycles keep. -/
structure DriveInv (a : ArchId) (tm : AvrTiming) (lvl : Bool → Bool) (base : Int) (L D : Nat) (s0 : Stepper) (τ now : Nat) (v : Avr) (h : AvrHist) (cmds : List Cmd) (s : Stepper) : Prop where
  core : RealCore a tm lvl base s0.forwardPlanning τ now v h cmds s
  slow : RampHist a (ApiCall.Slow L) s
  pin : s.dirPin = s0.dirPin
  delay : s.dirChangeDelayTicks = s0.dirChangeDelayTicks
  enable : s.autoEnable = false ∨ s.onDelayTicks = 0
  max : s.hw.q.maxSpeedInTicks = s0.hw.q.maxSpeedInTicks
  long : ∀ c ∈ cmds, c.Valid ∧ D ≤ c.duration
  pos : s.hw.q.qend.pos = stepsOn s0.hw.q.qend.pos (signedSum cmds)

theorem drive_run {a : ArchId} {tm : AvrTiming} {L D : Nat} {ok : ApiCall → Prop} {s0 : Stepper} {v0 : Avr} (hav : a.isAvr = true) (hmin : a.minCmdTicks ≤ L) (hL : L ≤ 32768) (hDL : D ≤ L)
    (hslow : RampHist a (ApiCall.Slow L) s0) (hv : s0.rg.parameters.checkValidConfig = MOVE_OK) (hen : s0.autoEnable = false ∨ s0.onDelayTicks = 0)
    (hd : s0.dirChangeDelayTicks = 0 ∨ D ≤ s0.dirChangeDelayTicks) (hd2 : s0.dirChangeDelayTicks < 65536)
    (hplan : tm.cycle + tm.commit + tm.latency + 65535 < s0.forwardPlanning) (hfull : tm.cycle + tm.commit + tm.latency < (a.queueLen - 2) * D)
    (hq : v0.Quiet) (hpin : v0.q.dirPin < 128) (hpos : i32 v0.q.qend.pos = v0.q.qend.pos) (hhw : s0.hw = ⟨v0.q, 0⟩)
    {τ now : Nat} {v : Avr} {h : AvrHist} {cmds : List Cmd} {s : Stepper} (hok : ∀ c, ok c → c.Steer L) (hm : AvrDrive a tm ok s0 v0 τ now v h cmds s) :
    DriveInv a tm (fun u => if v0.q.dirPin = pinUndefined then v0.q.dirLevel else (u == v0.q.dirHighCountsUp)) v0.q.qend.pos L D s0 τ now v h cmds s := by
  have hext : pinIsExternal s0.dirPin = false := by
    have : s0.dirPin = v0.q.dirPin := by unfold Stepper.dirPin; rw [hhw]
    rw [this]
    unfold pinIsExternal
    exact decide_eq_false (by omega)
  have hpos' : -2147483648 ≤ v0.q.qend.pos ∧ v0.q.qend.pos < 2147483648 := by unfold i32 at hpos; omega
  have hL0 : 0 < L := by
    have : 0 < a.minCmdTicks := by cases a <;> decide
    omega
  induction hm with
  | start now =>
    refine ⟨⟨⟨0, _, Core.quiet a v0 hq (Or.inr hpin) hpos', Tim.quiet a v0 hq, ?_, ?_⟩, hq.pc, hhw, RampHist.slow_typed hslow, hv, rfl, Or.inl ⟨rfl, rfl⟩⟩, hslow, rfl, rfl, hen, rfl,
      fun c hc => (by cases hc), ?_⟩
    · exact { suf := fun hx => (by rw [hq.run] at hx; cases hx), late := fun hx => (by rw [hq.run] at hx; cases hx)
              prep := fun _ _ _ hx => (by rw [hq.pc] at hx; cases hx), com := fun _ hx => (by rw [hq.pc] at hx; cases hx) }
    · exact ⟨fun hx => (by rw [hq.run] at hx; cases hx), Or.inr (Or.inl rfl)⟩
    · have : s0.hw.q = v0.q := by rw [hhw]
      rw [this]
      unfold stepsOn
      simp only [signedSum, Int.add_zero]
      exact hpos.symm
  | @call last now v h cmds s c _ hc hwhen ih =>
    have hc := hok c hc
    obtain ⟨f1, f2, f3, f4, f5⟩ := steer_frame (a := a) s hc
    obtain ⟨⟨c1, c2, c3, c4, c5, c6, c7⟩, i2, i3, i4, i5, im, i6, i7⟩ := ih
    refine ⟨⟨c1, c2, by rw [f1]; exact c3, .call c c4 hc.slow.typed, steer_valid s hc c5, f5.trans c6, ?_⟩, .call c i2 hc.slow, ?_, f2.trans i4, by rw [f3, f4]; exact i5, by rw [f1]; exact im, i6, by rw [f1]; exact i7⟩
    · rcases c7 with c7 | ⟨e1, t0, e2, e3⟩
      · exact Or.inl c7
      · refine Or.inr ⟨e1, t0, e2, fun hact => e3 ?_⟩
        rcases hwhen with hw | hw | hw
        · exact absurd hw e1
        · exact hw
        · change (c.exec a s).rg.isActive = false at hw
          rw [hw] at hact; cases hact
    · unfold Stepper.dirPin at i3 ⊢
      rw [f1]; exact i3
  | @cycle last now v h cmds s τ env junk m evs acc s1 s2 _ h1 h2 h3 h4 h5 h6 h7 h8 h9 h10 h12 ih =>
    have hsl := RampHist.slow hmin hL ih.slow
    have hacc := slow_fill_commands hmin hL hDL hsl ih.core.valid ih.enable (by rw [ih.pin]; exact hext) (by rw [ih.delay]; exact hd) (by rw [ih.delay]; exact hd2) h4 h5
    have hall : ∀ c ∈ cmds ++ acc, c.Valid ∧ D ≤ c.duration := by
      intro c hc
      rcases List.mem_append.mp hc with hc | hc
      · exact ih.long c hc
      · exact hacc c hc
    obtain ⟨hC, hel⟩ := ih.core.step (D := D) (e := 0) hav hplan hfull (by rw [ih.pin]; exact hext) (SlowInv.known hL0 hsl ih.core.valid) h1 h2 h3 h4 h5 h6 h7 h8 h9 h10 h12
      ⟨fun c hc => (hall c hc).1, by
        unfold shorts
        rw [List.countP_eq_zero.mpr]
        intro c hc
        have := (hall c hc).2
        rw [decide_eq_true_iff]; omega⟩
    have hcfg := fillQueue_sameConfig a env junk s s1 acc h5
    have e1 : s2.dirPin = s1.dirPin := hel.dirPin
    have e2 : s1.dirPin = s.dirPin := hcfg.pin
    refine ⟨hC, .other (.task env junk acc ih.slow h4 h5) h10.ramp, by rw [e1, e2]; exact ih.pin, by rw [h10.dirDelay, hcfg.delay]; exact ih.delay,
      by rw [h10.autoEnable, h10.enableDelay, hcfg.auto, hcfg.on]; exact ih.enable, by rw [hel.limit, hcfg.max]; exact ih.max, hall, ?_⟩
    have hp : i32 s.getPositionAfterCommandsCompleted = s.getPositionAfterCommandsCompleted := by
      have := ih.pos
      unfold Stepper.getPositionAfterCommandsCompleted
      rw [this]
      unfold stepsOn i32
      omega
    have hmv := stepsOn_moved (C71_position_counts_commands a s hp).2.2 h5 ih.pos
    rw [← hmv]
    exact congrArg QueueEnd.pos hel.queueEnd

/-- A task cycle does not end a run. -/
theorem run_fill_active {a : ArchId} {L : Nat} (hmin : a.minCmdTicks ≤ L) (hL : L ≤ 32768) {up : Bool}
    {env : Env} {junk : NextCommand} {s s' : Stepper} {acc : List Cmd} (hact : s.rg.isActive = true) (hr : RunInv up s.rg)
    (hi : SlowInv L s.rg) (hv : s.rg.parameters.checkValidConfig = MOVE_OK) (hen : s.autoEnable = false ∨ s.onDelayTicks = 0) (hpin : s.dirPin ≠ pinUndefined)
    (hmax : s.hw.q.maxSpeedInTicks ≤ L) (hd : s.dirChangeDelayTicks = 0 ∨ a.minCmdTicks ≤ s.dirChangeDelayTicks)
    (hj : junk.rw.performedRampUpSteps < 4294967296) (h : s.fillQueue a env junk = some (s', acc)) :
    s'.rg.isActive = true ∧ RunInv up s'.rg := by
  rcases fillQueue_cases a env junk s s' acc h with ⟨h1, -, -⟩ | ⟨-, -, f0, f, x, e1, e2, e3, -, -, e4, hl, hacc, hs'⟩
  · rcases h1 with h1 | h1
    · rw [h1] at hact; cases hact
    · exact absurd hv h1
  have h0 : Stepper.SameConfig s f0.s ∧ SlowInv L f0.s.rg ∧ f0.s.rg.parameters.checkValidConfig = MOVE_OK ∧ f0.cmd.rw.performedRampUpSteps < 4294967296 ∧
      f0.s.rg.isActive = true ∧ RunInv up f0.s.rg := by
    rw [e1, e2]
    exact ⟨⟨rfl, rfl, rfl, rfl, rfl, rfl, rfl, rfl, rfl, rfl, rfl, rfl⟩, hi, hv, hj, hact, hr⟩
  have hend := Stepper.Fill.loop_induct a env (fun f => Stepper.SameConfig s f.s ∧ SlowInv L f.s.rg ∧ f.s.rg.parameters.checkValidConfig = MOVE_OK ∧
    f.cmd.rw.performedRampUpSteps < 4294967296 ∧ f.s.rg.isActive = true ∧ RunInv up f.s.rg) ?_ _ _ _ _ _ h0 hl
  · have hrg : s'.rg = f.s.rg := by
      rw [hs']
      split
      · unfold Stepper.startQueue; rfl
      · rfl
    rw [hrg]
    exact hend.2.2.2.2
  intro i f f' b hc ⟨ih1, ih2, ih3, ih4, ih5, ih6⟩ hb
  obtain ⟨rg, cmd, hg, hcmd, hcase⟩ := Stepper.Fill.body_cases a env i f f' b hb
  obtain ⟨q1, q2, q3, q4⟩ := ih2.serve hmin hL ih5 ih3 ih4 hg
  obtain ⟨r1, r2, r3, -, -, r4⟩ := ih6.serve ih4 hg
  have hwf := C34_well_formed a f.s.rg rg f.s.hw.q.qend f.cmd cmd ih2.range hg
  have hact2 : rg.isActive = true := by
    rcases service_cases ih2.range hg with ⟨hf, -⟩ | ⟨hg2, -⟩
    · have := (prepared a f.s.rg f.s.hw.q.qend).fimm hf
      rw [ih6.noForce] at this; cases this
    · rw [hg2]
      unfold RampGen.isActive
      rw [(prepared a f.s.rg f.s.hw.q.qend).state]
      exact ih5
  have hv2 : rg.parameters.checkValidConfig = MOVE_OK := by
    rw [service_params hg, Prepared.valid, ih3]
  refine ⟨ih1.trans (Stepper.Fill.body_sameConfig a env i _ _ _ hb), ?_⟩
  have hj2 : f'.cmd.rw.performedRampUpSteps < 4294967296 := by rw [hcmd]; exact (InRange_serve ih2.range ih4 hg).1
  rcases hcase with ⟨ht, r, hr, -, hcase⟩ | ⟨-, -, hcase, -⟩
  · have hrg : r.1.s.rg = rg := by
      rw [hr]; exact (Stepper.addQueueEntry_frame a _ _ _ _ _ _).rg
    rcases hcase with ⟨-, -, h, -⟩ | ⟨-, -, h, -⟩ | ⟨hneg, -⟩
    · have : f'.s.rg = rg.afterCommandEnqueued cmd := by rw [h]; change r.1.s.rg.afterCommandEnqueued cmd = _; rw [hrg]
      rw [this]
      exact ⟨q3, hv2, hj2, r4 ih5, r2⟩
    · have : f'.s.rg = rg := by rw [h, hrg]
      rw [this]
      exact ⟨q2, hv2, hj2, hact2, r1⟩
    · exfalso
      rw [hr] at hneg
      have hcode := addQueueEntry_negative a _ _ _ _ _ _ (show ({ f.s with rg := rg } : Stepper).dirPin ≠ _ by
          change f.s.hw.q.dirPin ≠ _; rw [ih1.pin]; exact hpin) (by
          rcases hen with h | h
          · exact Or.inl (ih1.auto.trans h)
          · exact Or.inr (Or.inl (ih1.on.trans h))) hneg
      rcases addQueueEntry_tooLow a _ _ _ _ _ _ (by
        change f.s.dirChangeDelayTicks = 0 ∨ a.minCmdTicks ≤ f.s.dirChangeDelayTicks; rw [ih1.delay]; exact hd) hcode with h5 | h5
      · have h6 : cmd.command.ticks < f.s.hw.q.maxSpeedInTicks := h5
        rw [ih1.max] at h6
        have := q1 ht
        omega
      · have h6 : cmd.command.ticks ≤ 65535 ∧ cmd.command.steps ≤ 255 := by omega
        have hlow := q1 ht
        unfold Queue.commandRateTicks u32 at h5
        split at h5
        · rename_i h7
          have h8 : cmd.command.ticks * 1 ≤ cmd.command.ticks * cmd.command.steps := Nat.mul_le_mul_left _ (by omega)
          have h9 : cmd.command.ticks * cmd.command.steps ≤ 65535 * 255 := Nat.mul_le_mul h6.1 h6.2
          omega
        · omega
  · have : f'.s.rg = rg.afterCommandEnqueued cmd := by rw [hcase]
    rw [this]
    exact ⟨q3, hv2, hj2, r4 ih5, r2⟩

/-- A run goes on for ever, and the first task cycle starts it. -/
theorem drive_active {a : ArchId} {tm : AvrTiming} {L D : Nat} {s0 : Stepper} {v0 : Avr} (hav : a.isAvr = true) (hmin : a.minCmdTicks ≤ L) (hL : L ≤ 32768) (hDL : D ≤ L)
    (hslow : RampHist a (ApiCall.Slow L) s0) (hv : s0.rg.parameters.checkValidConfig = MOVE_OK) (hen : s0.autoEnable = false ∨ s0.onDelayTicks = 0)
    (hd : s0.dirChangeDelayTicks = 0 ∨ D ≤ s0.dirChangeDelayTicks) (hd3 : s0.dirChangeDelayTicks = 0 ∨ a.minCmdTicks ≤ s0.dirChangeDelayTicks) (hd2 : s0.dirChangeDelayTicks < 65536)
    (hplan : tm.cycle + tm.commit + tm.latency + 65535 < s0.forwardPlanning) (hfull : tm.cycle + tm.commit + tm.latency < (a.queueLen - 2) * D)
    (hq : v0.Quiet) (hpin : v0.q.dirPin < 128) (hpos : i32 v0.q.qend.pos = v0.q.qend.pos) (hhw : s0.hw = ⟨v0.q, 0⟩) (hmax : s0.hw.q.maxSpeedInTicks ≤ L)
    {up : Bool} (hrun : RunHist a up s0) (hact : s0.rg.isActive = true)
    {τ now : Nat} {v : Avr} {h : AvrHist} {cmds : List Cmd} {s : Stepper} (hm : AvrDrive a tm (ApiCall.Adjust L) s0 v0 τ now v h cmds s) :
    RunHist a up s ∧ s.rg.isActive = true ∧ (cmds = [] → now = τ ∧ v = v0) := by
  have hok : ∀ c, ApiCall.Adjust L c → c.Steer L := fun _ h => h.1
  have hdp : s0.dirPin = v0.q.dirPin := by unfold Stepper.dirPin; rw [hhw]
  have hL0 : 0 < L := by
    have : 0 < a.minCmdTicks := by cases a <;> decide
    omega
  induction hm with
  | start now => exact ⟨hrun, hact, fun _ => ⟨rfl, rfl⟩⟩
  | @call last now v h cmds s c _ hc _ ih =>
    obtain ⟨hc, k, rfl⟩ := hc
    refine ⟨.config k ih.1 hc.slow.typed, ?_, ih.2.2⟩
    have := (config_frame s k).1
    change (k.run s).rg.isActive = true
    unfold RampGen.isActive at *
    rw [this]; exact ih.2.1
  | @cycle last now v h cmds s τ env junk m evs acc s1 s2 hm h1 h2 h3 h4 h5 h6 h7 h8 h9 h10 h12 ih =>
    have hI := drive_run hav hmin hL hDL hslow hv hen hd hd2 hplan hfull hq hpin hpos hhw hok hm
    have hsl := RampHist.slow hmin hL hI.slow
    have hf := run_fill_active hmin hL ih.2.1 (RunHist.inv ih.1) hsl hI.core.valid hI.enable (by rw [hI.pin, hdp]; unfold pinUndefined; omega) (by rw [hI.max]; exact hmax)
      (by rw [hI.delay]; exact hd3) h4 h5
    refine ⟨.other (.task env junk acc ih.1 h4 h5) h10.ramp, by rw [h10.ramp]; exact hf.1, fun hnil => ?_⟩
    exfalso
    obtain ⟨e1, e2⟩ := List.append_eq_nil_iff.mp hnil
    subst e1 e2
    exact hI.core.first (D := D) (e := 0) hplan hfull (by rw [hI.pin, hdp]; unfold pinIsExternal; exact decide_eq_false (by omega)) (SlowInv.known hL0 hsl hI.core.valid) h4 h5 h6 hf.1

end FAS
