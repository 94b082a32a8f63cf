import Verif.Lemmas.Cycles
import Verif.Lemmas.EnableDelay
import Verif.Spec.Cycles
import Verif.Props.Periods
import Verif.Props.Fill

/-!
# A move served by the task: C35, C57
-/

namespace FAS

open Spec

theorem configuredMove_auto (s : Stepper) (speed : Nat) (accel : Int) (lin jump : Nat) (p : Int) :
    (configuredMove s speed accel lin jump p).autoEnable = s.autoEnable := by
  unfold configuredMove Stepper.setSpeedInTicks
  repeat' split
  all_goals rfl

/-- The errors of `addQueueEntry`. -/
theorem addQueueEntry_negative (a : ArchId) (ext : ExtPin) (gaps : Nat → Gap) (busy : Bool) (s : Stepper) (c : Cmd) (st : Bool)
    (hpin : s.dirPin ≠ pinUndefined) (hen : s.autoEnable = false ∨ s.onDelayTicks = 0 ∨ s.counter ≠ 0 ∨ st = false)
    (h : (s.addQueueEntry a ext gaps busy c st).2 < 0) :
    (s.addQueueEntry a ext gaps busy c st).2 = AQE_ERROR_TICKS_TOO_LOW := by
  have hadd : ∀ (k : Stepper.Call) (d : Cmd), (k.add a gaps d st).2 < 0 → (k.add a gaps d st).2 = AQE_ERROR_TICKS_TOO_LOW := by
    intro k d
    change ((k.s.hw.gap a (gaps k.n)).q.add a d st).code < 0 → ((k.s.hw.gap a (gaps k.n)).q.add a d st).code = _
    unfold Queue.add
    repeat' split
    all_goals first | (intro _; rfl) | (intro h; exact absurd h (by dsimp only; decide))
  revert h
  unfold Stepper.addQueueEntry
  dsimp only
  split
  · intro _; rfl
  split
  · intro h; exact absurd h (by dsimp only; decide)
  split
  · rename_i h1; exact absurd h1.1 hpin
  split
  · rename_i k code heq
    intro h
    exfalso
    unfold Stepper.Call.autoEnable at heq
    dsimp only at heq
    split at heq
    · split at heq
      · cases heq; exact absurd h (by dsimp only; decide)
      · split at heq
        · rename_i h1 _ h2
          rcases hen with hen | hen | hen | hen
          · rw [hen] at h1; exact absurd h1.1 (by decide)
          · rw [hen] at h2; omega
          · exact hen h1.2
          · obtain ⟨-, heq3⟩ := Prod.mk.inj heq
            rw [Option.ite_none_right_eq_some] at heq3
            have h3 := Option.some.inj heq3.2
            rw [hen] at h3
            have h4 := addNull_false a gaps (Stepper.Call.addPauses a gaps c.countUp ⟨s, 0, [], [] ++ (s.enableOutputs ext).2⟩
              (Stepper.onDelayPauses (Stepper.enableDelay s c) (Stepper.enableDelay s c)))
            exact absurd h (Int.not_lt.mpr (h3 ▸ h4))
        · cases heq
    · cases heq
  · rename_i k heq
    split
    · rename_i k2 code heq2
      intro h
      unfold Stepper.Call.dirChange at heq2
      dsimp only at heq2 h ⊢
      split at heq2
      · split at heq2
        · split at heq2
          · cases heq2; exact absurd h (by decide)
          · split at heq2
            · cases heq2; exact hadd _ _ h
            · obtain ⟨-, heq3⟩ := Prod.mk.inj heq2
              split at heq3
              · cases heq3; exact hadd _ _ h
              · cases heq3
        · split at heq2
          · obtain ⟨-, heq3⟩ := Prod.mk.inj heq2
            split at heq3
            · cases heq3; exact hadd _ _ h
            · cases heq3
          · cases heq2
      · cases heq2
    · rename_i k2 heq2
      unfold Stepper.Call.final
      dsimp only
      split
      · exact hadd k2 c
      · exact hadd k2 c

/-- C35 for a whole task cycle: under the conditions of `C35_accepted_partial`, with a direction pin, and with a delay of the enable pin while the motor is enabled, no command of the ramp is
rejected with an error in any task cycle, so the task never aborts a ramp. -/
theorem C35_never_aborted_partial (a : ArchId) (L : Nat) (hmin : a.minCmdTicks ≤ L) (hL : L ≤ 32768) (s : Stepper)
    (h : RampHist a (ApiCall.Slow L) s) (hmax : s.hw.q.maxSpeedInTicks ≤ L)
    (hd : s.dirChangeDelayTicks = 0 ∨ a.minCmdTicks ≤ s.dirChangeDelayTicks)
    (hv : s.rg.parameters.checkValidConfig = MOVE_OK) (hpin : s.dirPin ≠ pinUndefined) (hen : Powered s)
    (env : Stepper.Env) (junk : NextCommand) (hj : junk.rw.performedRampUpSteps < 4294967296) : ¬ AbortedRamp a env junk s := by
  have hnext : ∀ i f, FillState a env (fillStart a junk s) i f → Stepper.SameConfig s f.s → FillPower f → f.cond a = true →
      ∀ rg cmd, f.s.rg.getNextCommand a f.s.hw.q.qend f.cmd = some (rg, cmd) → cmd.command.ticks ≠ 0 →
      0 ≤ (({ f.s with rg := rg } : Stepper).addQueueEntry a (env.ext i) (env.gaps i) (env.busy i) cmd.command (!f.delayedStart)).2 := by
    intro i f hf hcfg hpow hc rg cmd hg ht
    rcases Int.lt_or_le (({ f.s with rg := rg } : Stepper).addQueueEntry a (env.ext i) (env.gaps i) (env.busy i) cmd.command (!f.delayedStart)).2 0 with hneg | hneg
    · refine absurd (addQueueEntry_negative a _ _ _ _ _ _ ?_ (hpow.enable rg) hneg)
        (C35_accepted_partial a L hmin hL s h hmax hd hv env junk hj i f hf hc rg cmd hg ht).2
      change f.s.hw.q.dirPin ≠ _
      rw [hcfg.pin]; exact hpin
    · exact hneg
  have hstate : ∀ i f, FillState a env (fillStart a junk s) i f → Stepper.SameConfig s f.s ∧ FillPower f := by
    intro i f hf
    induction hf with
    | zero => exact ⟨⟨rfl, rfl, rfl, rfl, rfl, rfl, rfl, rfl, rfl, rfl, rfl, rfl⟩, hen.start junk⟩
    | step hf hc hb ih =>
      exact ⟨ih.1.trans (Stepper.Fill.body_sameConfig a env _ _ _ _ hb), ih.2.body hb (hnext _ _ hf ih.1 ih.2 hc)⟩
  rintro ⟨i, f, rg, cmd, hf, hc, hg, ht, hneg⟩
  obtain ⟨h1, h2⟩ := hstate i f hf
  have := hnext i f hf h1 h2 hc rg cmd hg ht
  omega

/-! ## C57 -/

theorem Spec.RampHist.typed {a : ArchId} {L : Nat} {s : Stepper} (h : RampHist a (ApiCall.Slow L) s) : RampHist a ApiCall.Typed s := by
  induction h with
  | start s h => exact .start s h
  | call c _ hok ih =>
    refine .call c ih ?_
    cases c with
    | config k =>
      cases k with
      | speed t =>
        change t < 4294967296
        have : L ≤ t ∧ t ≤ 65535 := hok
        omega
      | jump n =>
        change n < 4294967296
        have : n = 0 := hok
        omega
      | _ => trivial
    | _ => trivial
  | task env junk acc _ hj hf ih => exact .task env junk acc ih hj hf
  | other _ hr ih => exact .other ih hr

theorem fillQueue_idx {a : ArchId} {env : Stepper.Env} {junk : NextCommand} {s s' : Stepper} {acc : List Cmd} (hi : s.hw.q.IdxOK a)
    (h : s.fillQueue a env junk = some (s', acc)) : s'.hw.q.IdxOK a := by
  rcases Stepper.fillQueue_cases a env junk s s' acc h with ⟨-, h1, -⟩ | ⟨-, -, f0, f, x, h0, -, -, -, -, -, hl, -, h1⟩
  · rw [h1]; exact hi
  · have hf : f.s.hw.q.IdxOK a ∧ f.s.hw.q.ignoreCommands = false := by
      refine Stepper.Fill.loop_induct a env (fun f => f.s.hw.q.IdxOK a ∧ f.s.hw.q.ignoreCommands = false) ?_ _ _ _ _ _ ?_ hl
      · intro i f f' b _ hp hb
        obtain ⟨q1, q2, -⟩ := Fill.body_queue a env i f f' b hp.1 hp.2 hb
        exact ⟨q1, q2⟩
      · rw [h0]; exact ⟨hi, rfl⟩
    rw [h1]
    split
    · unfold Stepper.startQueue
      dsimp only
      rw [Queue.addNull_q]
      split <;> exact hf.1
    · exact hf.1

theorem fillQueue_valid {a : ArchId} {env : Stepper.Env} {junk : NextCommand} {s s' : Stepper} {acc : List Cmd} (hr : InRange s.rg)
    (hv : s.rg.parameters.checkValidConfig = MOVE_OK) (hj : junk.rw.performedRampUpSteps < 4294967296)
    (h : s.fillQueue a env junk = some (s', acc)) : s'.rg.parameters.checkValidConfig = MOVE_OK := by
  refine (fillQueue_rg_induct (fun g => InRange g ∧ g.parameters.checkValidConfig = MOVE_OK) ?_ ⟨hr, hv⟩ hj h).2
  intro g g' qe junk c ⟨h1, h2⟩ _ _ hj hg
  obtain ⟨q1, q2, q3, q4⟩ := InRange_serve h1 hj hg
  have hv2 : g'.parameters.checkValidConfig = MOVE_OK := by rw [service_params hg, Prepared.valid, h2]
  exact ⟨q1, ⟨q2, hv2⟩, ⟨q3, hv2⟩, ⟨q4, hv2⟩⟩

theorem stepsOn_moved {a : ArchId} {s s' : Stepper} {env : Stepper.Env} {junk : NextCommand} {acc cmds : List Cmd} {p0 : Int}
    (h : ∀ env junk s' accepted, s.fillQueue a env junk = some (s', accepted) →
      s'.getPositionAfterCommandsCompleted = stepsOn s.getPositionAfterCommandsCompleted (signedSum accepted))
    (hf : s.fillQueue a env junk = some (s', acc)) (hs : s.hw.q.qend.pos = stepsOn p0 (signedSum cmds)) :
    s'.hw.q.qend.pos = stepsOn p0 (signedSum (cmds ++ acc)) := by
  have h1 := h env junk s' acc hf
  change s'.hw.q.qend.pos = stepsOn s.hw.q.qend.pos _ at h1
  rw [h1, hs, signedSum_append]
  unfold stepsOn i32
  omega

/-- The ramp with the set speed of one move, which is not exceeded. -/
structure UniformInv (L : Nat) (g : RampGen) : Prop where
  range : InRange g
  speed : L ≤ g.parameters.minTravelTicks ∧ g.parameters.minTravelTicks < ticksForStoppedMotor
  jump : g.parameters.sJump = 0
  used : g.isActive = true → g.parameters.apply = true ∨
    (g.ro.config.parameters.minTravelTicks = g.parameters.minTravelTicks ∧ g.ro.config.parameters.sJump = 0)
  period : g.isActive = true → g.rw.currTicks = ticksForStoppedMotor ∨ g.parameters.minTravelTicks ≤ g.rw.currTicks
  pause : g.rw.pauseTicksLeft = 0 ∨ 32768 ≤ g.rw.pauseTicksLeft

/-- One service of such a ramp. -/
theorem UniformInv.serve {a : ArchId} {L : Nat} (hmin : a.minCmdTicks ≤ L) (hL : L ≤ 32768) {g g' : RampGen} {qe : QueueEnd}
    {junk c : NextCommand} (hi : UniformInv L g) (ha : g.isActive = true) (hb : (g.prepare a qe).stepsToStop < 2147483648)
    (hj : junk.rw.performedRampUpSteps < 4294967296) (h : g.getNextCommand a qe junk = some (g', c)) :
    (c.command.ticks ≠ 0 → L ≤ c.command.ticks) ∧ UniformInv L g' ∧ UniformInv L (g'.afterCommandEnqueued c) := by
  obtain ⟨-, r1, r2, -⟩ := InRange_serve hi.range hj h
  have hp := prepared a g qe
  have hmt := hi.speed
  have hcfg : (g.prepare a qe).ro.config.parameters.minTravelTicks = g.parameters.minTravelTicks ∧
      (g.prepare a qe).ro.config.parameters.sJump = 0 := by
    rcases hp.cfg with ⟨h1, h2, h3, h4⟩ | ⟨h1, h2, h3, h4⟩
    · rw [h2, h3]; exact ⟨rfl, hi.jump⟩
    · rw [h2, h3]
      rcases hi.used ha with h5 | h5
      · rw [h1] at h5; cases h5
      · exact h5
  have hst : ticksForStoppedMotor = 4294967295 := rfl
  have key : g'.parameters = (g.prepare a qe).parameters ∧ g'.ro.config = (g.prepare a qe).ro.config ∧ g'.rw = (g.prepare a qe).rw ∧
      (c.command.ticks ≠ 0 → L ≤ c.command.ticks) ∧
      (c.rw.pauseTicksLeft = 0 ∨ 32768 ≤ c.rw.pauseTicksLeft) ∧
      (c.rw.currTicks = ticksForStoppedMotor ∨ g.parameters.minTravelTicks ≤ c.rw.currTicks) := by
    rcases service_cases hi.range h with ⟨-, h1, h2, h3⟩ | ⟨h1, -, h2⟩
    · refine ⟨by rw [h1], by rw [h1], by rw [h1], fun h => absurd h2 h, ?_, ?_⟩
      · left; rw [h3]; rfl
      · left; rw [h3]; rfl
    · refine ⟨by rw [h1], by rw [h1], by rw [h1], ?_⟩
      rw [← h1] at hp hcfg hb
      have hpl := hi.pause
      rw [← hp.pause] at hpl
      have hct := hi.period ha
      rw [← hp.ticks] at hct
      rcases h2 with ⟨h2, h3⟩ | ⟨-, -, -, -, h3⟩ | ⟨remaining, same, ph, P, ho⟩
      · rw [h3]
        have h32 : 32768 ≤ g'.rw.pauseTicksLeft := by omega
        refine ⟨fun _ => ?_, ?_, hct⟩
        · change L ≤ u16 (Planner.pauseTicks g'.rw.pauseTicksLeft)
          unfold u16 Planner.pauseTicks
          split <;> omega
        · change g'.rw.pauseTicksLeft - Planner.pauseTicks g'.rw.pauseTicksLeft = 0 ∨ 32768 ≤ g'.rw.pauseTicksLeft - Planner.pauseTicks g'.rw.pauseTicksLeft
          unfold Planner.pauseTicks
          split <;> omega
      · rw [h3]
        exact ⟨fun h => absurd rfl h, Or.inl rfl, Or.inl rfl⟩
      · have f := ho.facts
        have hlt := f.lt
        by_cases hcr : 65535 < g.parameters.minTravelTicks
        · obtain ⟨⟨-, -, k1, -⟩, k2, k3, k4⟩ := Crawls.step (g := g) ⟨by omega, by omega, by rw [← hp.ticks]; omega, hcfg.2⟩ hp ho hb
          rw [hcfg.1] at k1
          refine ⟨fun _ => ?_, ?_, ?_⟩
          · rw [k2]; split <;> omega
          · split at k2 <;> omega
          · omega
        have hP : g.parameters.minTravelTicks ≤ P := by
          rcases f.kind with ⟨-, -, -, -, h5, -⟩ | ⟨-, -, -, h4, h5, -⟩ | ⟨hd, h5, -⟩
          · omega
          · omega
          · by_cases hs : g'.rw.currTicks = ticksForStoppedMotor
            · exfalso
              have hb : g'.rw.performedRampUpSteps = 0 := hp.stand (by rw [← hp.ticks]; exact hs) hcfg.2
              have hrem : g'.rw.performedRampUpSteps < remaining := by
                have := ho.notDone; omega
              have hph := f.start hs (by omega) (by omega) (ho.stand hb) hrem
              rw [hph] at hd
              cases hd
            · have := h5 hs
              omega
        rcases f.period with ⟨h5, h6, h7⟩ | ⟨-, -, -, h5, h6, h7⟩
        · refine ⟨fun _ => ?_, ?_, ?_⟩
          · rw [h5]; split <;> omega
          · split at h5 <;> omega
          · omega
        · refine ⟨fun _ => ?_, ?_, ?_⟩
          · rw [h5, hcfg.1]; unfold u16; omega
          · rw [h6]; split <;> omega
          · rw [h7, hcfg.1]; unfold u32
            have : c.rw.pauseTicksLeft ≤ 4294901760 := by rw [h6]; split <;> omega
            omega
  obtain ⟨k1, k2, k3, k4, k5, k6⟩ := key
  have e1 : g'.parameters.minTravelTicks = g.parameters.minTravelTicks := by rw [k1, hp.pmt]
  have e2 : g'.parameters.sJump = 0 := by rw [k1, hp.pjump]; exact hi.jump
  have e3 : g'.ro.config.parameters.minTravelTicks = g'.parameters.minTravelTicks ∧ g'.ro.config.parameters.sJump = 0 := by
    rw [k2, e1]; exact hcfg
  refine ⟨k4, ⟨r1, by rw [e1]; exact hmt, e2, fun _ => Or.inr e3, fun _ => ?_, ?_⟩,
    ⟨r2, by change L ≤ g'.parameters.minTravelTicks ∧ g'.parameters.minTravelTicks < _; rw [e1]; exact hmt, e2, fun _ => Or.inr e3, fun _ => ?_, k5⟩⟩
  · rw [k3, hp.ticks, e1]; exact hi.period ha
  · rw [k3, hp.pause]; exact hi.pause
  · change c.rw.currTicks = _ ∨ g'.parameters.minTravelTicks ≤ c.rw.currTicks
    rw [e1]; exact k6

/-- The set speed is the same during the move, or all speeds are slow. -/
def UnderwayInv (L : Nat) (g : RampGen) : Prop := UniformInv L g ∨ (SlowInv L g ∧ g.parameters.checkValidConfig = MOVE_OK)

theorem UnderwayInv.range {L : Nat} {g : RampGen} (h : UnderwayInv L g) : InRange g := h.elim (fun h => h.range) (fun h => h.1.range)

theorem UnderwayInv.pause {L : Nat} {g : RampGen} (h : UnderwayInv L g) : g.rw.pauseTicksLeft = 0 ∨ 32768 ≤ g.rw.pauseTicksLeft :=
  h.elim (fun h => h.pause) (fun h => h.1.pause)

theorem UnderwayInv.serve {a : ArchId} {L : Nat} (hmin : a.minCmdTicks ≤ L) (hL : L ≤ 32768) {g g' : RampGen} {qe : QueueEnd}
    {junk c : NextCommand} (hi : UnderwayInv L g) (ha : g.isActive = true) (hb : (g.prepare a qe).stepsToStop < 2147483648)
    (hj : junk.rw.performedRampUpSteps < 4294967296) (h : g.getNextCommand a qe junk = some (g', c)) :
    (c.command.ticks ≠ 0 → L ≤ c.command.ticks) ∧ UnderwayInv L g' ∧ UnderwayInv L (g'.afterCommandEnqueued c) := by
  rcases hi with hi | ⟨hi, hv⟩
  · obtain ⟨h1, h2, h3⟩ := hi.serve hmin hL ha hb hj h
    exact ⟨h1, Or.inl h2, Or.inl h3⟩
  · obtain ⟨h1, h2, h3, -⟩ := hi.serve hmin hL ha hv hj h
    have hv2 : g'.parameters.checkValidConfig = MOVE_OK := by rw [service_params h, Prepared.valid, hv]
    exact ⟨h1, Or.inr ⟨h2, hv2⟩, Or.inr ⟨h3, hv2⟩⟩

/-- What holds during the move. -/
structure MoveInv (a : ArchId) (L R : Nat) (p : Int) (M : Nat) (s : Stepper) : Prop where
  state : MoveState a R p M s
  steady : UnderwayInv L s.rg
  max : s.hw.q.maxSpeedInTicks ≤ L
  delay : s.dirChangeDelayTicks = 0 ∨ a.minCmdTicks ≤ s.dirChangeDelayTicks
  valid : s.rg.parameters.checkValidConfig = MOVE_OK
  pin : s.dirPin ≠ pinUndefined
  enable : EnableDelayed s → a.minCmdTicks ≤ s.onDelayTicks ∧ s.onDelayTicks ≤ a.maxOnDelayTicks ∧ s.dirChangeDelayTicks ≤ 65535
  ready : s.hw.q.ready = true
  idx : s.hw.q.IdxOK a

theorem MoveInv.elapse {a : ArchId} {L R : Nat} {p : Int} {M : Nat} {s s' : Stepper} (h : MoveInv a L R p M s) (he : Elapses a s s') :
    MoveInv a L R p M s' := by
  refine ⟨⟨?_, ?_⟩, by rw [he.ramp]; exact h.steady, ?_, ?_, ?_, ?_, ?_, ?_, he.readIdx, he.writeIdx, he.entries⟩
  · rw [he.ramp, he.queueEnd]; exact h.state.arrives
  · rw [he.queueEnd]; exact h.state.pos
  · rw [he.limit]; exact h.max
  · rw [he.dirDelay]; exact h.delay
  · rw [he.ramp]; exact h.valid
  · unfold Stepper.dirPin; rw [he.dirPin]; exact h.pin
  · unfold EnableDelayed; rw [he.autoEnable, he.enableDelay, he.dirDelay]; exact h.enable
  · rw [he.ready]; exact h.ready

/-- What holds at each iteration of a task cycle. -/
structure IterState (a : ArchId) (L R : Nat) (p : Int) (M : Nat) (s : Stepper) (f : Stepper.Fill) : Prop where
  cycle : CycleState a R p M f
  steady : UnderwayInv L f.s.rg
  same : Stepper.SameConfig s f.s
  power : FillPower f

theorem MoveInv.iter {a : ArchId} {L R : Nat} {p : Int} {M : Nat} {s : Stepper} (h : MoveInv a L R p M s) (junk : NextCommand)
    (hj : junk.rw.performedRampUpSteps < 4294967296) (hpow : Powered s) : IterState a L R p M s (fillStart a junk s) :=
  ⟨⟨h.state.arrives, rfl, h.state.pos, hj⟩, h.steady, ⟨rfl, rfl, rfl, rfl, rfl, rfl, rfl, rfl, rfl, rfl, rfl, rfl⟩, hpow.start junk⟩

/-- The next command is not too short, and the queue does not reject it with an error. -/
theorem IterState.next {a : ArchId} {L R : Nat} {p : Int} {M : Nat} {s : Stepper} (hmin : a.minCmdTicks ≤ L) (hL : L ≤ 32768)
    (h : MoveInv a L R p M s) (env : Stepper.Env) (i : Nat) {f : Stepper.Fill} (hf : IterState a L R p M s f) (hc : f.cond a = true)
    {rg : RampGen} {cmd : NextCommand} (hg : f.s.rg.getNextCommand a f.s.hw.q.qend f.cmd = some (rg, cmd)) :
    ((cmd.command.ticks ≠ 0 → L ≤ cmd.command.ticks) ∧ UnderwayInv L rg ∧ UnderwayInv L (rg.afterCommandEnqueued cmd)) ∧
    (cmd.command.ticks ≠ 0 →
      0 ≤ (({ f.s with rg := rg } : Stepper).addQueueEntry a (env.ext i) (env.gaps i) (env.busy i) cmd.command (!f.delayedStart)).2) := by
  obtain ⟨h1, h2, h3, hpow⟩ := hf
  have hact : f.s.rg.isActive = true := by
    unfold Stepper.Fill.cond at hc
    exact (Bool.and_eq_true_iff.mp hc).2
  have hb : (f.s.rg.prepare a f.s.hw.q.qend).stepsToStop < 2147483648 := by
    rcases h1.arrives with ⟨h4, -⟩ | h4
    · rw [hact] at h4; cases h4
    · exact h4.safe.going.brake
  have hserve := h2.serve hmin hL hact hb h1.junk hg
  refine ⟨hserve, fun ht => ?_⟩
  have hlow := hserve.1 ht
  by_cases hneg : 0 ≤ (({ f.s with rg := rg } : Stepper).addQueueEntry a (env.ext i) (env.gaps i) (env.busy i) cmd.command (!f.delayedStart)).2
  · exact hneg
  exfalso
  have hcode := addQueueEntry_negative a (env.ext i) (env.gaps i) (env.busy i) { f.s with rg := rg } cmd.command (!f.delayedStart) (by
      change f.s.hw.q.dirPin ≠ _
      rw [h3.pin]; exact h.pin) (hpow.enable rg) (by omega)
  rcases addQueueEntry_tooLow a _ _ _ _ _ _ (by
    change f.s.dirChangeDelayTicks = 0 ∨ a.minCmdTicks ≤ f.s.dirChangeDelayTicks; rw [h3.delay]; exact h.delay) hcode with h5 | h5
  · have h6 : cmd.command.ticks < f.s.hw.q.maxSpeedInTicks := h5
    rw [h3.max] at h6
    have := h.max
    omega
  · have hwf := (C34_well_formed a f.s.rg rg f.s.hw.q.qend f.cmd cmd h2.range hg)
    have h6 : cmd.command.ticks ≤ 65535 ∧ cmd.command.steps ≤ 255 := by omega
    unfold Queue.commandRateTicks u32 at h5
    split at h5
    · rename_i h7
      have h8 : cmd.command.ticks * 1 ≤ cmd.command.ticks * cmd.command.steps := Nat.mul_le_mul_left _ (by omega)
      have h9 : cmd.command.ticks * cmd.command.steps ≤ 65535 * 255 := Nat.mul_le_mul h6.1 h6.2
      omega
    · omega

theorem IterState.body {a : ArchId} {L R : Nat} {p : Int} {M : Nat} {s : Stepper} (hmin : a.minCmdTicks ≤ L) (hL : L ≤ 32768)
    (h : MoveInv a L R p M s) (env : Stepper.Env) (i : Nat) {f f' : Stepper.Fill} {b : Bool} (hf : IterState a L R p M s f) (hc : f.cond a = true)
    (hb : f.body a env i = some (f', b)) : IterState a L R p M s f' := by
  have hnext := fun rg cmd (hg : f.s.rg.getNextCommand a f.s.hw.q.qend f.cmd = some (rg, cmd)) => IterState.next hmin hL h env i hf hc hg
  obtain ⟨f2, b2, hb2, hcy, -⟩ := hf.cycle.body env i hc (fun rg cmd hg ht => (hnext rg cmd hg).2 ht)
  rw [hb] at hb2
  cases hb2
  refine ⟨hcy, ?_, hf.same.trans (Stepper.Fill.body_sameConfig a env i _ _ _ hb), hf.power.body hb (fun rg cmd hg ht => (hnext rg cmd hg).2 ht)⟩
  obtain ⟨rg, cmd, hg, hcmd, hcase⟩ := Stepper.Fill.body_cases a env i f f' b hb
  obtain ⟨⟨-, q2, q3⟩, q4⟩ := hnext rg cmd hg
  rcases hcase with ⟨ht, r, hr, -, hcase⟩ | ⟨-, -, hcase, -⟩
  · have hrg : r.1.s.rg = rg := by
      rw [hr]; exact (Stepper.addQueueEntry_frame a _ _ _ _ _ _).rg
    rcases hcase with ⟨-, -, h, -⟩ | ⟨-, -, h, -⟩ | ⟨hneg, -, h, -⟩
    · rw [h]; change UnderwayInv L (r.1.s.rg.afterCommandEnqueued cmd); rw [hrg]; exact q3
    · rw [h, hrg]; exact q2
    · have := q4 ht
      rw [← hr] at this
      omega
  · rw [hcase]; exact q3

theorem MoveInv.fill {a : ArchId} {L R : Nat} {p : Int} {M : Nat} {s : Stepper} (hmin : a.minCmdTicks ≤ L) (hL : L ≤ 32768)
    (h : MoveInv a L R p M s) (hpow : Powered s) (env : Stepper.Env) (junk : NextCommand) (hj : junk.rw.performedRampUpSteps < 4294967296)
    {i : Nat} {f : Stepper.Fill} (hf : FillState a env (fillStart a junk s) i f) : IterState a L R p M s f := by
  induction hf with
  | zero => exact h.iter junk hj hpow
  | step _ hc hb ih => exact IterState.body hmin hL h env _ ih hc hb

theorem MoveInv.never_aborted {a : ArchId} {L R : Nat} {p : Int} {M : Nat} {s : Stepper} (hmin : a.minCmdTicks ≤ L) (hL : L ≤ 32768)
    (h : MoveInv a L R p M s) (hpow : Powered s) (env : Stepper.Env) (junk : NextCommand) (hj : junk.rw.performedRampUpSteps < 4294967296) :
    ¬ AbortedRamp a env junk s := by
  rintro ⟨i, f, rg, cmd, hf, hc, hg, ht, hneg⟩
  have := (IterState.next hmin hL h env i (h.fill hmin hL hpow env junk hj hf) hc hg).2 ht
  omega

theorem MoveInv.steady_after {a : ArchId} {L R : Nat} {p : Int} {M : Nat} {s s' : Stepper} {acc : List Cmd} (hmin : a.minCmdTicks ≤ L) (hL : L ≤ 32768)
    (h : MoveInv a L R p M s) (hpow : Powered s) (env : Stepper.Env) (junk : NextCommand) (hj : junk.rw.performedRampUpSteps < 4294967296)
    (hf : s.fillQueue a env junk = some (s', acc)) : UnderwayInv L s'.rg := by
  rcases Stepper.fillQueue_cases a env junk s s' acc hf with ⟨-, h1, -⟩ | ⟨-, -, f0, f, x, h0, hcmd, hds, -, -, -, hl, -, h1⟩
  · rw [h1]; exact h.steady
  · have hst : IterState a L R p M s f := by
      refine Stepper.Fill.loop_induct a env (IterState a L R p M s) ?_ _ _ _ _ _ ?_ hl
      · intro i f f' b hc hp hb
        exact IterState.body hmin hL h env i hp hc hb
      · have h2 := h.iter junk hj hpow
        refine ⟨⟨?_, ?_, ?_, by rw [hcmd]; exact hj⟩, ?_, ?_, ?_⟩
        · rw [h0]; exact h2.cycle.arrives
        · rw [h0]
        · rw [h0]; exact h2.cycle.pos
        · rw [h0]; exact h2.steady
        · rw [h0]; exact h2.same
        · unfold FillPower; rw [h0, hds]; exact h2.power
    rw [h1]
    split
    · rw [(startQueue_keeps f.s true).1]; exact hst.steady
    · exact hst.steady

theorem MoveInv.task {a : ArchId} {L R : Nat} {p : Int} {M : Nat} {s : Stepper} (hmin : a.minCmdTicks ≤ L) (hL : L ≤ 32768)
    (h : MoveInv a L R p M s) (hpow : Powered s) (env : Stepper.Env) (junk : NextCommand)
    (hj : junk.rw.performedRampUpSteps < 4294967296) :
    ∃ s' acc, s.fillQueue a env junk = some (s', acc) ∧ MoveInv a L R p M s' ∧ (Unhindered env s → MoveInv a L R p (M - 1) s') := by
  have hna := h.never_aborted hmin hL hpow env junk hj
  obtain ⟨s', acc, hf, h1, h2⟩ := h.state.cycle env junk hj hna
  have hcfg := Stepper.fillQueue_sameConfig a env junk s s' acc hf
  have hrest : ∀ M', MoveState a R p M' s' → MoveInv a L R p M' s' := by
    intro M' hm
    refine ⟨hm, h.steady_after hmin hL hpow env junk hj hf, by rw [hcfg.max]; exact h.max, by rw [hcfg.delay]; exact h.delay,
      fillQueue_valid h.steady.range h.valid hj hf, ?_, by unfold EnableDelayed; rw [hcfg.auto, hcfg.on, hcfg.delay]; exact h.enable,
      by rw [hcfg.ready]; exact h.ready, fillQueue_idx h.idx hf⟩
    unfold Stepper.dirPin; rw [hcfg.pin]; exact h.pin
  refine ⟨s', acc, hf, hrest M h1, fun hu => hrest _ ?_⟩
  by_cases hact : s.rg.isActive = true
  · have hc : (fillStart a junk s).cond a = true := by
      rw [Fill.cond_iff]
      have he : (fillStart a junk s).s.hw.q.queueEntries = 0 := hu.empty
      rw [he]
      refine ⟨?_, Or.inr (by decide), hact⟩
      rcases a.queueLen_cases with h | h <;> omega
    refine h2 hu.served h.valid hc (fun rg cmd hg ht => ?_)
    have hlow := (IterState.next hmin hL h env 0 (h.iter junk hj hpow) hc hg).1.1 ht
    rw [hu.dirPin]
    refine addQueueEntry_unhindered (s := s) hpow h.enable hu h.idx h.ready ?_ ?_ h.delay ?_
    · have := h.max
      change s.hw.q.maxSpeedInTicks ≤ _
      omega
    · intro h3; exact absurd h3 h.pin
    · have hwf := (C34_well_formed a s.rg rg s.hw.q.qend junk cmd h.steady.range hg)
      have h6 : cmd.command.ticks ≤ 65535 ∧ cmd.command.steps ≤ 255 := by omega
      unfold Queue.commandRateTicks u32
      split
      · rename_i h7
        have h8 : cmd.command.ticks * 1 ≤ cmd.command.ticks * cmd.command.steps := Nat.mul_le_mul_left _ (by omega)
        have h9 : cmd.command.ticks * cmd.command.steps ≤ 65535 * 255 := Nat.mul_le_mul h6.1 h6.2
        omega
      · omega
  · have hia : s.rg.isActive = false := by simpa using hact
    rw [Stepper.fillQueue_inactive a env junk s hia] at hf
    cases hf
    refine ⟨?_, h.state.pos⟩
    rcases h.state.arrives with h3 | h3
    · exact Or.inl h3
    · have := h3.active; rw [hia] at this; cases this

/-- The invariant holds after the configuration and `moveTo()`. -/
theorem configuredMove_inv (a : ArchId) (L : Nat) (s : Stepper) (hh : RampHist a ApiCall.Typed s) (hst : Standing a L s)
    (speed : Nat) (accel : Int) (lin : Nat) (p : Int) (hs1 : L ≤ speed) (hs2 : speed < 4294967295) (ha1 : 0 < accel) (ha2 : accel < 2147483648)
    (hlin : lin < 4294967294) (hdist : shortestWay p s.getPositionAfterCommandsCompleted ≠ -2147483648) :
    ∃ R M, MoveInv a L R p M (configuredMove s speed accel lin 0 p) ∧ (configuredMove s speed accel lin 0 p).hw.q.qend.pos = s.hw.q.qend.pos := by
  obtain ⟨hmin, hlimit, hL, hidle, hforce, hpin, hdelay, hen, hready, hx1, hx2, hx3, hpos⟩ := hst
  have hi : s.hw.q.IdxOK a := ⟨hx1, hx2, hx3⟩
  have h16 : 16 ≤ L := by
    have : 640 ≤ a.minCmdTicks := by cases a <;> decide
    omega
  have hway : (shortestWay p s.getPositionAfterCommandsCompleted).natAbs < 2147483648 := by
    have h : -2147483648 ≤ shortestWay p s.getPositionAfterCommandsCompleted ∧ shortestWay p s.getPositionAfterCommandsCompleted < 2147483648 := by
      unfold shortestWay i32; omega
    omega
  have hlim2 : s.getMaxSpeedInTicks ≤ speed := by omega
  obtain ⟨c1, c2⟩ := configuredMove_state a s hh hidle hforce speed accel lin 0 p hlim2 (by omega) (Or.inr ⟨rfl, hs2⟩) ha1 ha2 hlin (by omega) 0
    (configuredMove_stand a s hidle hforce speed accel lin p hlim2 hs2 ha1) (by omega) (Or.inr ⟨rfl, by omega⟩)
  obtain ⟨s1, hs⟩ : ∃ s1, ((((s.setSpeedInTicks speed).1.setAcceleration accel).1.setLinearAcceleration lin).setJumpStart 0) = s1 := ⟨_, rfl⟩
  obtain ⟨e1, e2, e3, e4, e5, e6, e7, e8⟩ := configured_facts s speed accel lin 0 hlim2 hs2 ha1 s1 hs
  have hcm : configuredMove s speed accel lin 0 p = (s1.moveTo p).1 := by rw [← hs]; rfl
  have hhw : (configuredMove s speed accel lin 0 p).hw = s.hw := by rw [hcm]; exact e1
  have hcf : (configuredMove s speed accel lin 0 p).dirChangeDelayTicks = s.dirChangeDelayTicks ∧
      (configuredMove s speed accel lin 0 p).autoEnable = s.autoEnable ∧ (configuredMove s speed accel lin 0 p).onDelayTicks = s.onDelayTicks := by
    have hset : (s.setSpeedInTicks speed).1 = { s with rg := { s.rg with parameters := s.rg.parameters.setSpeedInTicks speed } } := by
      unfold Stepper.setSpeedInTicks
      rw [if_neg (Nat.not_lt.mpr hlim2), if_neg (by unfold ticksForStoppedMotor; omega)]
    unfold configuredMove
    rw [hset]
    exact ⟨rfl, rfl, rfl⟩
  have hvalid : (configuredMove s speed accel lin 0 p).rg.parameters.checkValidConfig = MOVE_OK := by
    rw [hcm]
    unfold Stepper.moveTo RampGen.moveTo
    dsimp only
    rw [if_neg (by rw [e8]; decide)]
    exact e8
  have hsteady : UniformInv L (configuredMove s speed accel lin 0 p).rg := by
    have hparam : (configuredMove s speed accel lin 0 p).rg.parameters = s1.rg.parameters.setTargetPosition p := by
      rw [hcm]
      unfold Stepper.moveTo RampGen.moveTo
      dsimp only
      rw [if_neg (by rw [e8]; decide)]
      rfl
    have hr : InRange s1.rg := by
      have hr := RampHist.inRange hh
      exact ⟨by omega, by omega, by rw [e2]; exact hr.usedSpeed, by rw [e2]; exact hr.usedJump, by rw [e3]; exact hr.brake, by rw [e3]; exact hr.period⟩
    have hr2 := InRange_call a s1 (.moveTo p) hr trivial
    change InRange (s1.moveTo p).1.rg at hr2
    rw [← hcm] at hr2
    have hpause : s1.rg.rw.pauseTicksLeft = 0 := by rw [e3]; exact RampHist.idlePause hh hidle
    have hidle1 : s1.rg.isActive = false := by unfold RampGen.isActive; rw [e3]; exact hidle
    have hok : (s1.rg.moveTo p s.hw.q.qend).2 = MOVE_OK := by
      unfold RampGen.moveTo; dsimp only; rw [if_neg (by rw [e8]; decide)]
    have hrg : (configuredMove s speed accel lin 0 p).rg = (s1.rg.moveTo p s.hw.q.qend).1 := by rw [hcm]; unfold Stepper.moveTo; rw [e1]
    have hrw : (configuredMove s speed accel lin 0 p).rg.rw.pauseTicksLeft = 0 ∧
        ((configuredMove s speed accel lin 0 p).rg.isActive = true → (configuredMove s speed accel lin 0 p).rg.rw.currTicks = ticksForStoppedMotor) := by
      by_cases hne : p = s.hw.q.qend.pos
      · have hin := c1 hne
        refine ⟨?_, fun h => by rw [hin] at h; cases h⟩
        rw [hrg]
        unfold RampGen.moveTo; dsimp only; rw [if_neg (by rw [e8]; decide)]
        unfold RampGen.startMove
        dsimp only
        rw [hidle1, hne]
        simp only [Bool.false_and, Bool.false_eq_true, if_false, ne_eq, not_true, decide_false]
        exact hpause
      · obtain ⟨-, -, f3, f4, -⟩ := moveTo_prepared a s1.rg p s.hw.q.qend hidle1 (by rw [e2]; exact hforce) hok hne
        rw [hrg]
        exact ⟨by rw [f4]; exact hpause, fun _ => f3⟩
    refine ⟨hr2, ?_, ?_, fun _ => ?_, fun h => Or.inl (hrw.2 h), Or.inl hrw.1⟩
    · rw [hparam]
      change L ≤ s1.rg.parameters.minTravelTicks ∧ s1.rg.parameters.minTravelTicks < 4294967295
      rw [e4]; exact ⟨hs1, hs2⟩
    · rw [hparam]; exact e7
    · left; rw [hparam]; rfl
  have hq : s.getPositionAfterCommandsCompleted = s.hw.q.qend.pos := rfl
  rw [hq] at hpos
  obtain ⟨R, M, hst⟩ : ∃ R M, MoveState a R p M (configuredMove s speed accel lin 0 p) := by
    by_cases hne : p = s.hw.q.qend.pos
    · refine ⟨0, 0, Or.inl ⟨c1 hne, ?_⟩, by rw [hhw]; exact hpos⟩
      rw [hhw, hne]
      unfold shortestWay i32; omega
    · obtain ⟨h1, h2, h3, h4, h5⟩ := c2 hne
      refine ⟨2 * ((shortestWay p s.hw.q.qend.pos).natAbs + 0) + 1, motionMeasure a ⟨(configuredMove s speed accel lin 0 p).rg, s.hw.q.qend⟩ + 1, Or.inr ?_, by rw [hhw]; exact hpos⟩
      rw [hhw]
      exact ⟨h2, h1, by omega, fun h => absurd h (by rw [h3]; decide), h4, h5⟩
  have hinv0 : MoveInv a L R p M (configuredMove s speed accel lin 0 p) := by
    refine ⟨hst, Or.inl hsteady, by rw [hhw]; exact hlimit, by rw [hcf.1]; exact hdelay, hvalid, ?_, by unfold EnableDelayed; rw [hcf.1, hcf.2.1, hcf.2.2]; exact hen,
      by rw [hhw]; exact hready, by rw [hhw]; exact hi⟩
    unfold Stepper.dirPin; rw [hhw]; exact hpin
  exact ⟨R, M, hinv0, by rw [hhw]⟩

/-- A stepper with on-delay of the enable pin on its way to 1000, started with auto enable off. -/
def lateMove : Stepper := ((((singleStepper.setAutoEnable false).setSpeedInTicks 16000).1.setAcceleration 10000).1.moveTo 1000).1

/-- The hardware goes on, until before the second call of the queue by `addQueueEntry()` it has emptied the queue and stops. -/
def haltEnv : Stepper.Env := ⟨40, fun _ => none, fun _ n => if n = 1 then ⟨300, false⟩ else ⟨0, true⟩, fun _ => false⟩

/-- C35 needs `Powered`: `setAutoEnable(true)` is called while the motor accelerates to 1000, and an on-delay of 1 ms (16000 ticks) is configured. As the counter for auto disable is 0, the next task cycle
takes the motor for disabled and puts the on-delay as a pause between two steps of the ramp (in an acceptable environment), and if the hardware completes the pause before `addQueueEntry()` goes on, the
ramp is aborted at position 5. -/
theorem C35_auto_enable_refuted :
    ((lateMove.fillQueue .esp32 calmEnv junk0).bind fun r =>
      let s : Stepper := { r.1 with hw := Hw.advances .esp32 r.1.hw.q.queueEntries r.1.hw }
      ((s.setAutoEnable true).fillQueue .esp32 ⟨40, fun _ => none, fun _ _ => ⟨0, true⟩, fun _ => false⟩ junk0).bind fun x =>
      ((s.setAutoEnable true).fillQueue .esp32 haltEnv junk0).map fun y =>
        ([r.2.drop 6, x.2.take 2, y.2], [s.isQueueRunning, y.1.isRampGeneratorActive], [y.1.getPositionAfterCommandsCompleted, y.1.rg.ro.targetPos])) =
    some ([[⟨50624, 1, true⟩], [⟨16000, 0, true⟩, ⟨46208, 1, true⟩], [⟨16000, 0, true⟩]], [true, false], [5, 1000]) := by
  decide +kernel

/-- From any state of a move, the task brings the ramp to its target. -/
theorem MoveInv.arrives {a : ArchId} {L R : Nat} {p : Int} {M : Nat} {s0 : Stepper} (hmin : a.minCmdTicks ≤ L) (hL : L ≤ 32768) (hp : i32 p = p) {x : Int}
    (hpos : i32 x = x) (hend : s0.hw.q.qend.pos = x) (hinv0 : MoveInv a L R p M s0) (k : Nat) (cmds : List Cmd) (s' : Stepper) (h : TaskHist a s0 k cmds s') :
    (Powered s' → ∀ env junk, junk.rw.performedRampUpSteps < 4294967296 → ∃ r, s'.fillQueue a env junk = some r) ∧
    (s'.isRampGeneratorActive = false → s'.getPositionAfterCommandsCompleted = p ∧ stepsOn x (signedSum cmds) = p) ∧
    (M ≤ k → s'.isRampGeneratorActive = false) := by
  have hinv : MoveInv a L R p (M - k) s' ∧ s'.hw.q.qend.pos = stepsOn x (signedSum cmds) := by
    induction h with
    | start =>
      refine ⟨hinv0, ?_⟩
      rw [hend]
      change _ = i32 (x + 0)
      rw [Int.add_zero, hpos]
    | elapse _ he ih => exact ⟨ih.1.elapse he, by rw [he.queueEnd]; exact ih.2⟩
    | @task k cmds s2 s3 env junk acc _ hj hpow hf ih =>
      obtain ⟨s2, acc2, hf2, h1, -⟩ := ih.1.task hmin hL hpow env junk hj
      refine ⟨?_, stepsOn_moved (C71_position_counts_commands a _ ih.1.state.pos).2.2 hf ih.2⟩
      rw [hf] at hf2; cases hf2
      exact h1
    | @unhindered k cmds s2 s3 env junk acc _ hj hpow hf hu ih =>
      obtain ⟨s2, acc2, hf2, -, h1⟩ := ih.1.task hmin hL hpow env junk hj
      refine ⟨?_, stepsOn_moved (C71_position_counts_commands a _ ih.1.state.pos).2.2 hf ih.2⟩
      rw [hf] at hf2; cases hf2
      have := h1 hu
      rw [Nat.sub_sub] at this
      exact this
  obtain ⟨hinv, hsum⟩ := hinv
  refine ⟨fun hpow env junk hj => ?_, fun hx => ?_, fun hk => ?_⟩
  · obtain ⟨s2, acc2, hf2, -⟩ := hinv.task hmin hL hpow env junk hj
    exact ⟨_, hf2⟩
  · suffices h : s'.hw.q.qend.pos = p from ⟨h, by rw [← h, hsum]⟩
    rcases hinv.state.arrives with ⟨-, h1⟩ | h1
    · have h2 := hinv.state.pos
      unfold shortestWay i32 at h1
      unfold i32 at h2 hp
      omega
    · have := h1.active
      change s'.rg.isActive = false at hx
      rw [hx] at this; cases this
  · rcases hinv.state.arrives with ⟨h1, -⟩ | h1
    · exact h1
    · have := h1.below; omega

/-- C57 with the task: any stepper (`RampHist`: any history of calls and task cycles) at standstill gets a set speed of at least `L` ticks, an
acceleration, any number of steps of linear acceleration, and `moveTo(p)`. Whatever the hardware and other steppers do, and whenever the task runs: no task cycle has undefined behaviour; once the ramp is idle,
`getPositionAfterCommandsCompleted()` is `p`, and the steps of the commands `cmds`, which the task has queued, lead to `p`; and there is a number `N`, such that the ramp is idle after `N` task cycles which were not hindered (the queue was empty, the
direction pin was not in use by another stepper).

The distance is less than 2^31 steps; the acceleration is any which is accepted. -/
theorem C57_task_arrives_partial (a : ArchId) (L : Nat) (s : Stepper) (hh : RampHist a ApiCall.Typed s) (hst : Standing a L s)
    (speed : Nat) (accel : Int) (lin : Nat) (p : Int) (hs1 : L ≤ speed) (hs2 : speed < 4294967295) (ha1 : 0 < accel) (ha2 : accel < 2147483648)
    (hlin : lin < 4294967294) (hp : i32 p = p) (hdist : shortestWay p s.getPositionAfterCommandsCompleted ≠ -2147483648) :
    ∃ N, ∀ k cmds s', TaskHist a (configuredMove s speed accel lin 0 p) k cmds s' →
      (Powered s' → ∀ env junk, junk.rw.performedRampUpSteps < 4294967296 → ∃ r, s'.fillQueue a env junk = some r) ∧
      (s'.isRampGeneratorActive = false → s'.getPositionAfterCommandsCompleted = p ∧
        stepsOn s.getPositionAfterCommandsCompleted (signedSum cmds) = p) ∧
      (N ≤ k → s'.isRampGeneratorActive = false) := by
  obtain ⟨R, M, hinv0, hend⟩ := configuredMove_inv a L s hh hst speed accel lin p hs1 hs2 ha1 ha2 hlin hdist
  exact ⟨M, fun k cmds s' h => hinv0.arrives hst.limit1 hst.limit3 hp hst.pos hend k cmds s' h⟩

/-- A stepper of the ESP32 with direction pin 7, at standstill at position 0. -/
def standing0 : Stepper := ((Stepper.init .esp32 1).setDirectionPin .esp32 none 7 true 0).1

theorem standing0_standing : Standing .esp32 16000 standing0 := by
  refine ⟨by decide, by decide, by decide, rfl, rfl, by decide, Or.inl rfl, fun h => absurd h.1 (by decide), by decide, by decide, by decide, by decide, by decide⟩

/-- The hypotheses are met: this stepper moves to -300, with a set speed of 20000 ticks. -/
theorem standing0_moves : ∃ N, ∀ k cmds s', TaskHist .esp32 (configuredMove standing0 20000 10000 0 0 (-300)) k cmds s' →
    (Powered s' → ∀ env junk, junk.rw.performedRampUpSteps < 4294967296 → ∃ r, s'.fillQueue .esp32 env junk = some r) ∧
    (s'.isRampGeneratorActive = false → s'.getPositionAfterCommandsCompleted = -300 ∧
      stepsOn standing0.getPositionAfterCommandsCompleted (signedSum cmds) = -300) ∧ (N ≤ k → s'.isRampGeneratorActive = false) :=
  C57_task_arrives_partial .esp32 16000 standing0 (RampHist.start _ rfl) standing0_standing 20000 10000 0 (-300) (by decide) (by decide)
    (by decide) (by decide) (by decide) (by decide) (by decide)

/-- Also with a slow set speed: 196608 ticks (12 ms). -/
example : ∃ N, ∀ k cmds s', TaskHist .esp32 (configuredMove standing0 196608 10000 0 0 (-300)) k cmds s' →
    (Powered s' → ∀ env junk, junk.rw.performedRampUpSteps < 4294967296 → ∃ r, s'.fillQueue .esp32 env junk = some r) ∧
    (s'.isRampGeneratorActive = false → s'.getPositionAfterCommandsCompleted = -300 ∧
      stepsOn standing0.getPositionAfterCommandsCompleted (signedSum cmds) = -300) ∧ (N ≤ k → s'.isRampGeneratorActive = false) :=
  C57_task_arrives_partial .esp32 16000 standing0 (RampHist.start _ rfl) standing0_standing 196608 10000 0 (-300) (by decide) (by decide)
    (by decide) (by decide) (by decide) (by decide) (by decide)

/-- Also with 100 steps of linear acceleration and 1 million steps/s². -/
example : ∃ N, ∀ k cmds s', TaskHist .esp32 (configuredMove standing0 20000 1000000 100 0 (-300)) k cmds s' →
    (Powered s' → ∀ env junk, junk.rw.performedRampUpSteps < 4294967296 → ∃ r, s'.fillQueue .esp32 env junk = some r) ∧
    (s'.isRampGeneratorActive = false → s'.getPositionAfterCommandsCompleted = -300 ∧
      stepsOn standing0.getPositionAfterCommandsCompleted (signedSum cmds) = -300) ∧ (N ≤ k → s'.isRampGeneratorActive = false) :=
  C57_task_arrives_partial .esp32 16000 standing0 (RampHist.start _ rfl) standing0_standing 20000 1000000 100 (-300) (by decide) (by decide)
    (by decide) (by decide) (by decide) (by decide) (by decide)

/-- Also with the largest acceleration which is accepted, over 2 billion steps. -/
example : ∃ N, ∀ k cmds s', TaskHist .esp32 (configuredMove standing0 20000 2147483647 0 0 2000000000) k cmds s' →
    (Powered s' → ∀ env junk, junk.rw.performedRampUpSteps < 4294967296 → ∃ r, s'.fillQueue .esp32 env junk = some r) ∧
    (s'.isRampGeneratorActive = false → s'.getPositionAfterCommandsCompleted = 2000000000 ∧
      stepsOn standing0.getPositionAfterCommandsCompleted (signedSum cmds) = 2000000000) ∧ (N ≤ k → s'.isRampGeneratorActive = false) :=
  C57_task_arrives_partial .esp32 16000 standing0 (RampHist.start _ rfl) standing0_standing 20000 2147483647 0 2000000000 (by decide) (by decide)
    (by decide) (by decide) (by decide) (by decide) (by decide)

/-- Unhindered task cycles are always possible: the queue runs empty, then the task comes. -/
theorem TaskHist_all {a : ArchId} {s0 : Stepper}
    (hdef : ∀ k cmds s', TaskHist a s0 k cmds s' → Powered s' → ∀ env junk, junk.rw.performedRampUpSteps < 4294967296 → ∃ r, s'.fillQueue a env junk = some r)
    (hi : s0.hw.q.IdxOK a) : ∀ k, ∃ cmds s', TaskHist a s0 k cmds s'
  | 0 => ⟨[], s0, .start⟩
  | k + 1 => by
    obtain ⟨cmds, s, h⟩ := TaskHist_all hdef hi k
    have h1 : s.hw.q.nextWriteIdx < 256 := by
      suffices s.hw.q.IdxOK a from this.2.1
      clear hdef
      induction h with
      | start => exact hi
      | elapse _ he _ => exact ⟨he.readIdx, he.writeIdx, he.entries⟩
      | task env junk acc _ _ _ hf ih => exact fillQueue_idx ih hf
      | unhindered env junk acc _ _ _ hf _ ih => exact fillQueue_idx ih hf
    have h2 : TaskHist a s0 k cmds { s with hw := { s.hw with q := { s.hw.q with readIdx := s.hw.q.nextWriteIdx } }, offDelayCount := 1, counter := 1 } :=
      .elapse h ⟨rfl, rfl, rfl, rfl, rfl, rfl, rfl, rfl, h1, h1, by
        change subU8 s.hw.q.nextWriteIdx s.hw.q.nextWriteIdx ≤ _
        unfold subU8; omega⟩
    have hpow : Powered { s with hw := { s.hw with q := { s.hw.q with readIdx := s.hw.q.nextWriteIdx } }, offDelayCount := 1, counter := 1 } :=
      fun _ => ⟨(by decide : (1 : Nat) ≠ 0), fun _ => (by decide : (1 : Nat) ≠ 0)⟩
    obtain ⟨⟨s', acc⟩, hr⟩ := hdef k cmds _ h2 hpow calmEnv junk0 (by decide)
    refine ⟨_, s', .unhindered calmEnv junk0 acc h2 (by decide) hpow hr ⟨by decide, ?_, rfl, fun _ hx => (by cases hx)⟩⟩
    change subU8 s.hw.q.nextWriteIdx s.hw.q.nextWriteIdx = 0
    unfold subU8; omega

/-- The move of this example does arrive: there is a schedule with enough unhindered task cycles. -/
theorem standing0_arrives : ∃ k cmds s', TaskHist .esp32 (configuredMove standing0 20000 10000 0 0 (-300)) k cmds s' ∧
    s'.isRampGeneratorActive = false ∧ s'.getPositionAfterCommandsCompleted = -300 := by
  obtain ⟨N, hN⟩ := standing0_moves
  obtain ⟨cmds, s', h⟩ := TaskHist_all (fun k cmds s' h => (hN k cmds s' h).1) (by unfold Queue.IdxOK; decide) N
  obtain ⟨-, h2, h3⟩ := hN N cmds s' h
  exact ⟨N, cmds, s', h, h3 (Nat.le_refl _), (h2 (h3 (Nat.le_refl _))).1⟩

/-- A task cycle which is not hindered. -/
example : Unhindered calmEnv (configuredMove standing0 20000 10000 0 0 (-300)) ∧
    ∃ s' acc, (configuredMove standing0 20000 10000 0 0 (-300)).fillQueue .esp32 calmEnv junk0 = some (s', acc) ∧ acc ≠ [] := by
  refine ⟨⟨by decide, by decide, rfl, fun h => (by cases h)⟩, ?_⟩
  have h : (((configuredMove standing0 20000 10000 0 0 (-300)).fillQueue .esp32 calmEnv junk0).any (fun r => decide (r.2 ≠ []))) = true := by
    decide +kernel
  rw [Option.any_eq_true] at h
  obtain ⟨⟨s', acc⟩, h1, h2⟩ := h
  exact ⟨s', acc, h1, by simpa using h2⟩

end FAS
