import Verif.Props.Cycles
import Verif.Lemmas.Fast
import Verif.Lemmas.Steady

/-!
# Task cycles of a move whose commands the queue accepts
-/

namespace FAS

open Spec

/-- `Φ` is kept by the services of the ramp, and every command is acceptable for a queue with speed limit `L`. -/
def Plans (a : ArchId) (L : Nat) (Φ : RampGen → QueueEnd → Prop) : Prop :=
  ∀ (g g1 : RampGen) (qe : QueueEnd) (junk c : NextCommand), Φ g qe → g.isActive = true → g.getNextCommand a qe junk = some (g1, c) →
    (c.command.ticks ≠ 0 → L ≤ c.command.ticks ∧ a.minCmdTicks ≤ Queue.commandRateTicks c.command) ∧
    (∀ qe' : QueueEnd, qe'.pos = (if c.command.ticks = 0 then qe.pos else i32 (posAfter qe.pos c.command)) →
      qe'.countUp = (if c.command.ticks = 0 then qe.countUp else c.command.countUp) → Φ (g1.afterCommandEnqueued c) qe') ∧
    (c.command.ticks ≠ 0 → ∀ qe' : QueueEnd, qe'.pos = qe.pos → (qe'.countUp = qe.countUp ∨ qe'.countUp = c.command.countUp) → Φ g1 qe')

/-- The configuration in which acceptable commands are accepted. -/
structure Ordinary (a : ArchId) (L : Nat) (s : Stepper) : Prop where
  max : s.hw.q.maxSpeedInTicks ≤ L
  delay : s.dirChangeDelayTicks = 0 ∨ a.minCmdTicks ≤ s.dirChangeDelayTicks
  pin : s.dirPin ≠ pinUndefined
  enable : EnableDelayed s → a.minCmdTicks ≤ s.onDelayTicks ∧ s.onDelayTicks ≤ a.maxOnDelayTicks ∧ s.dirChangeDelayTicks ≤ 65535

theorem Ordinary.same {a : ArchId} {L : Nat} {s s' : Stepper} (h : Ordinary a L s) (hs : Stepper.SameConfig s s') : Ordinary a L s' := by
  refine ⟨by rw [hs.max]; exact h.max, by rw [hs.delay]; exact h.delay, ?_, by unfold EnableDelayed; rw [hs.auto, hs.on, hs.delay]; exact h.enable⟩
  unfold Stepper.dirPin; rw [hs.pin]; exact h.pin

/-- The state at the begin of an iteration. -/
structure PlanFill (a : ArchId) (L : Nat) (Φ : RampGen → QueueEnd → Prop) (f : Stepper.Fill) : Prop where
  plan : Φ f.s.rg f.s.hw.q.qend
  ign : f.s.hw.q.ignoreCommands = false
  pos : i32 f.s.hw.q.qend.pos = f.s.hw.q.qend.pos
  conf : Ordinary a L f.s
  power : FillPower f

theorem PlanFill.accepted {a : ArchId} {L : Nat} {Φ : RampGen → QueueEnd → Prop} {f : Stepper.Fill} (h : PlanFill a L Φ f) (hpl : Plans a L Φ)
    (hc : f.cond a = true) (env : Stepper.Env) (i : Nat) {rg : RampGen} {cmd : NextCommand}
    (hg : f.s.rg.getNextCommand a f.s.hw.q.qend f.cmd = some (rg, cmd)) (ht : cmd.command.ticks ≠ 0) :
    0 ≤ (({ f.s with rg := rg } : Stepper).addQueueEntry a (env.ext i) (env.gaps i) (env.busy i) cmd.command (!f.delayedStart)).2 := by
  have hact : f.s.rg.isActive = true := by
    unfold Stepper.Fill.cond at hc
    exact (Bool.and_eq_true_iff.mp hc).2
  obtain ⟨h1, h2⟩ := (hpl _ _ _ _ _ h.plan hact hg).1 ht
  rcases Int.lt_or_le (({ f.s with rg := rg } : Stepper).addQueueEntry a (env.ext i) (env.gaps i) (env.busy i) cmd.command (!f.delayedStart)).2 0 with h3 | h3
  · exfalso
    have h4 := addQueueEntry_negative a _ _ _ _ _ _ (show ({ f.s with rg := rg } : Stepper).dirPin ≠ _ from h.conf.pin) (h.power.enable rg) h3
    rcases addQueueEntry_tooLow a _ _ _ _ _ _ (by
      change f.s.dirChangeDelayTicks = 0 ∨ a.minCmdTicks ≤ f.s.dirChangeDelayTicks; exact h.conf.delay) h4 with h5 | h5
    · have h6 : cmd.command.ticks < f.s.hw.q.maxSpeedInTicks := h5
      have := h.conf.max
      omega
    · omega
  · exact h3

theorem PlanFill.body {a : ArchId} {L : Nat} {Φ : RampGen → QueueEnd → Prop} {f f' : Stepper.Fill} {b : Bool} (h : PlanFill a L Φ f) (hpl : Plans a L Φ)
    (hc : f.cond a = true) {env : Stepper.Env} {i : Nat} (hb : f.body a env i = some (f', b)) : PlanFill a L Φ f' := by
  have hact : f.s.rg.isActive = true := by
    unfold Stepper.Fill.cond at hc
    exact (Bool.and_eq_true_iff.mp hc).2
  obtain ⟨rg, cmd, hn, hcmd, hcase⟩ := Stepper.Fill.body_cases a env i f f' b hb
  obtain ⟨-, s2, s3⟩ := hpl _ _ _ _ _ h.plan hact hn
  have hconf := h.conf.same (Stepper.Fill.body_sameConfig a env i _ _ _ hb)
  have hpower := h.power.body hb (fun rg cmd hg ht => h.accepted hpl hc env i hg ht)
  rcases hcase with ⟨ht, r, hr, -, hcase⟩ | ⟨ht, hbf, hs, -⟩
  · have hq := Stepper.addQueueEntry_qend a (env.ext i) (env.gaps i) (env.busy i) { f.s with rg := rg } cmd.command (!f.delayedStart) h.ign h.pos
    have hfr := Stepper.addQueueEntry_frame a (env.ext i) (env.gaps i) (env.busy i) { f.s with rg := rg } cmd.command (!f.delayedStart)
    have hna := h.accepted hpl hc env i hn ht
    dsimp only at hq
    rw [← hr] at hq hfr hna
    rcases hcase with ⟨hok, hbt, hs, -⟩ | ⟨hok, hbt, hs, -⟩ | ⟨hok, -⟩
    · obtain ⟨q1, q2⟩ := hq.1 hok
      refine ⟨?_, ?_, ?_, hconf, hpower⟩
      · rw [hs]
        change Φ (r.1.s.rg.afterCommandEnqueued cmd) r.1.s.hw.q.qend
        rw [hfr.rg]
        exact s2 _ (by rw [if_neg ht]; exact q1) (by rw [if_neg ht]; exact q2)
      · rw [hs]; exact hfr.ign.trans h.ign
      · rw [hs]
        change i32 r.1.s.hw.q.qend.pos = r.1.s.hw.q.qend.pos
        rw [q1, i32_i32]
    · obtain ⟨q1, q2⟩ := hq.2 (fun hx => by rw [hx] at hok; exact absurd hok (by decide))
      refine ⟨?_, ?_, ?_, hconf, hpower⟩
      · rw [hs, hfr.rg]
        exact s3 ht _ q1 q2
      · rw [hs]; exact hfr.ign.trans h.ign
      · rw [hs, q1]; exact h.pos
    · omega
  · refine ⟨?_, ?_, ?_, hconf, hpower⟩
    · rw [hs]
      exact s2 _ (by rw [if_pos ht]) (by rw [if_pos ht])
    · rw [hs]; exact h.ign
    · rw [hs]; exact h.pos

theorem PlanFill.state {a : ArchId} {L : Nat} {Φ : RampGen → QueueEnd → Prop} {f0 : Stepper.Fill} (h : PlanFill a L Φ f0) (hpl : Plans a L Φ)
    {env : Stepper.Env} {i : Nat} {f : Stepper.Fill} (hf : FillState a env f0 i f) : PlanFill a L Φ f := by
  induction hf with
  | zero => exact h
  | step _ hc hb ih => exact ih.body hpl hc hb

/-- What holds during the move. -/
structure PlanInv (a : ArchId) (L : Nat) (Φ : RampGen → QueueEnd → Prop) (R : Nat) (p : Int) (M : Nat) (s : Stepper) : Prop where
  state : MoveState a R p M s
  plan : Φ s.rg s.hw.q.qend
  hist : RampHist a ApiCall.Typed s
  conf : Ordinary a L s
  valid : s.rg.parameters.checkValidConfig = MOVE_OK
  ready : s.hw.q.ready = true
  idx : s.hw.q.IdxOK a

theorem PlanInv.elapse {a : ArchId} {L : Nat} {Φ : RampGen → QueueEnd → Prop} {R : Nat} {p : Int} {M : Nat} {s s' : Stepper} (h : PlanInv a L Φ R p M s)
    (he : Elapses a s s') : PlanInv a L Φ R p M s' := by
  refine ⟨⟨?_, ?_⟩, ?_, .other h.hist he.ramp, ⟨?_, ?_, ?_, ?_⟩, ?_, ?_, he.readIdx, he.writeIdx, he.entries⟩
  · rw [he.ramp, he.queueEnd]; exact h.state.arrives
  · rw [he.queueEnd]; exact h.state.pos
  · rw [he.ramp, he.queueEnd]; exact h.plan
  · rw [he.limit]; exact h.conf.max
  · rw [he.dirDelay]; exact h.conf.delay
  · unfold Stepper.dirPin; rw [he.dirPin]; exact h.conf.pin
  · unfold EnableDelayed; rw [he.autoEnable, he.enableDelay, he.dirDelay]; exact h.conf.enable
  · rw [he.ramp]; exact h.valid
  · rw [he.ready]; exact h.ready

theorem PlanInv.start {a : ArchId} {L : Nat} {Φ : RampGen → QueueEnd → Prop} {R : Nat} {p : Int} {M : Nat} {s : Stepper} (h : PlanInv a L Φ R p M s)
    (hpow : Powered s) (junk : NextCommand) : PlanFill a L Φ (fillStart a junk s) :=
  ⟨h.plan, rfl, h.state.pos, ⟨h.conf.max, h.conf.delay, h.conf.pin, h.conf.enable⟩, hpow.start junk⟩

theorem PlanInv.never_aborted {a : ArchId} {L : Nat} {Φ : RampGen → QueueEnd → Prop} {R : Nat} {p : Int} {M : Nat} {s : Stepper} (h : PlanInv a L Φ R p M s)
    (hpl : Plans a L Φ) (hpow : Powered s) (env : Stepper.Env) (junk : NextCommand) : ¬ AbortedRamp a env junk s := by
  rintro ⟨i, f, rg, cmd, hf, hc, hg, ht, hneg⟩
  have := ((h.start hpow junk).state hpl hf).accepted hpl hc env i hg ht
  omega

theorem PlanInv.kept {a : ArchId} {L : Nat} {Φ : RampGen → QueueEnd → Prop} {R : Nat} {p : Int} {M : Nat} {s s' : Stepper} (h : PlanInv a L Φ R p M s)
    (hpl : Plans a L Φ) (hpow : Powered s) {env : Stepper.Env} {junk : NextCommand} {acc : List Cmd} (hf : s.fillQueue a env junk = some (s', acc)) :
    Φ s'.rg s'.hw.q.qend := by
  rcases Stepper.fillQueue_cases a env junk s s' acc hf with ⟨-, h1, -⟩ | ⟨-, -, f0, f, x, h0, -, hds, -, -, -, hl, -, h1⟩
  · rw [h1]; exact h.plan
  · have h2 : PlanFill a L Φ f := by
      refine Stepper.Fill.loop_induct a env (PlanFill a L Φ) (fun i f f' b hc hp hb => hp.body hpl hc hb) _ _ _ _ _ ?_ hl
      refine ⟨by rw [h0]; exact h.plan, by rw [h0], by rw [h0]; exact h.state.pos, ?_, ?_⟩
      · rw [h0]; exact ⟨h.conf.max, h.conf.delay, h.conf.pin, h.conf.enable⟩
      · unfold FillPower; rw [h0, hds]; exact hpow.start (a := a) junk
    rw [h1]
    split
    · obtain ⟨k1, k2⟩ := startQueue_keeps f.s true
      rw [k1, k2]; exact h2.plan
    · exact h2.plan

theorem PlanInv.task {a : ArchId} {L : Nat} {Φ : RampGen → QueueEnd → Prop} {R : Nat} {p : Int} {M : Nat} {s : Stepper} (h : PlanInv a L Φ R p M s)
    (hpl : Plans a L Φ) (hpow : Powered s) (env : Stepper.Env) (junk : NextCommand) (hj : junk.rw.performedRampUpSteps < 4294967296) :
    ∃ s' acc, s.fillQueue a env junk = some (s', acc) ∧ PlanInv a L Φ R p M s' ∧ (Unhindered env s → PlanInv a L Φ R p (M - 1) s') := by
  have hna := h.never_aborted hpl hpow env junk
  obtain ⟨s', acc, hf, h1, h2⟩ := h.state.cycle env junk hj hna
  have hcfg := Stepper.fillQueue_sameConfig a env junk s s' acc hf
  have hrest : ∀ M', MoveState a R p M' s' → PlanInv a L Φ R p M' s' := by
    intro M' hm
    exact ⟨hm, h.kept hpl hpow hf, .task env junk acc h.hist hj hf, h.conf.same hcfg, fillQueue_valid (RampHist.inRange h.hist) h.valid hj hf,
      by rw [hcfg.ready]; exact h.ready, fillQueue_idx h.idx hf⟩
  refine ⟨s', acc, hf, hrest M h1, fun hu => hrest _ ?_⟩
  by_cases hact : s.rg.isActive = true
  · have hc : (fillStart a junk s).cond a = true := by
      rw [Fill.cond_iff]
      have he : (fillStart a junk s).s.hw.q.queueEntries = 0 := hu.empty
      rw [he]
      refine ⟨?_, Or.inr (by decide), hact⟩
      rcases a.queueLen_cases with h | h <;> omega
    refine h2 hu.served h.valid hc (fun rg cmd hg ht => ?_)
    obtain ⟨hlow, hrate⟩ := (hpl _ _ _ _ _ h.plan hact hg).1 ht
    rw [hu.dirPin]
    refine addQueueEntry_unhindered (s := s) hpow h.conf.enable hu h.idx h.ready ?_ ?_ h.conf.delay hrate
    · have := h.conf.max
      change s.hw.q.maxSpeedInTicks ≤ _
      omega
    · intro h3; exact absurd h3 h.conf.pin
  · have hia : s.rg.isActive = false := by simpa using hact
    rw [Stepper.fillQueue_inactive a env junk s hia] at hf
    cases hf
    refine ⟨?_, h.state.pos⟩
    rcases h.state.arrives with h3 | h3
    · exact Or.inl h3
    · have := h3.active; rw [hia] at this; cases this

/-- During the task cycles. -/
theorem PlanInv.during {a : ArchId} {L : Nat} {Φ : RampGen → QueueEnd → Prop} {R : Nat} {p : Int} {M : Nat} {s0 : Stepper} (h : PlanInv a L Φ R p M s0)
    (hpl : Plans a L Φ) {p0 : Int} (hp0 : s0.hw.q.qend.pos = p0) {k : Nat} {cmds : List Cmd} {s' : Stepper} (ht : TaskHist a s0 k cmds s') :
    PlanInv a L Φ R p (M - k) s' ∧ s'.hw.q.qend.pos = stepsOn p0 (signedSum cmds) := by
  induction ht with
  | start =>
    refine ⟨h, ?_⟩
    rw [← hp0]
    change _ = i32 (s0.hw.q.qend.pos + 0)
    rw [Int.add_zero, h.state.pos]
  | elapse _ he ih => exact ⟨ih.1.elapse he, by rw [he.queueEnd]; exact ih.2⟩
  | @task k cmds s2 s3 env junk acc _ hj hpow hf ih =>
    obtain ⟨s2, acc2, hf2, h1, -⟩ := ih.1.task hpl hpow env junk hj
    refine ⟨?_, stepsOn_moved (C71_position_counts_commands a _ ih.1.state.pos).2.2 hf ih.2⟩
    rw [hf] at hf2; cases hf2
    exact h1
  | @unhindered k cmds s2 s3 env junk acc _ hj hpow hf hu ih =>
    obtain ⟨s2, acc2, hf2, -, h1⟩ := ih.1.task hpl hpow env junk hj
    refine ⟨?_, stepsOn_moved (C71_position_counts_commands a _ ih.1.state.pos).2.2 hf ih.2⟩
    rw [hf] at hf2; cases hf2
    have := h1 hu
    rw [Nat.sub_sub] at this
    exact this

/-- The move arrives. -/
theorem PlanInv.arrives {a : ArchId} {L : Nat} {Φ : RampGen → QueueEnd → Prop} {R : Nat} {p : Int} {M : Nat} {s0 : Stepper} (h : PlanInv a L Φ R p M s0)
    (hpl : Plans a L Φ) (hp : i32 p = p) {p0 : Int} (hp0 : s0.hw.q.qend.pos = p0) {k : Nat} {cmds : List Cmd} {s' : Stepper} (ht : TaskHist a s0 k cmds s') :
    (Powered s' → ∀ env junk, junk.rw.performedRampUpSteps < 4294967296 → (∃ r, s'.fillQueue a env junk = some r) ∧ ¬ AbortedRamp a env junk s') ∧
    (s'.isRampGeneratorActive = false → s'.getPositionAfterCommandsCompleted = p ∧ stepsOn p0 (signedSum cmds) = p) ∧
    (M ≤ k → s'.isRampGeneratorActive = false) := by
  obtain ⟨hinv, hsum⟩ := h.during hpl hp0 ht
  refine ⟨fun hpow env junk hj => ⟨?_, hinv.never_aborted hpl hpow env junk⟩, fun hx => ?_, fun hk => ?_⟩
  · obtain ⟨s2, acc2, hf2, -⟩ := hinv.task hpl hpow env junk hj
    exact ⟨_, hf2⟩
  · suffices h : s'.hw.q.qend.pos = p from ⟨h, by rw [← h, hsum]⟩
    rcases hinv.state.arrives with ⟨-, h1⟩ | h1
    · have h2 := hinv.state.pos
      unfold shortestWay i32 at h1
      unfold i32 at h2 hp
      omega
    · have := h1.active
      change s'.rg.isActive = false at hx
      rw [hx] at this; cases this
  · rcases hinv.state.arrives with ⟨h1, -⟩ | h1
    · exact h1
    · have := h1.below; omega

/-! ## The fast move -/

theorem prepare_nothing (a : ArchId) (g : RampGen) (qe : QueueEnd) (hap : g.parameters.apply = false)
    (hrc : g.ro.config.parameters.recalcRampSteps = false) (hac : g.ro.config.parameters.anyChange = false) (hf : g.ro.forceStop = false)
    (hct : g.rw.currTicks ≠ ticksForStoppedMotor) : g.prepare a qe = g := by
  have h1 : g.takeOver a = g := by unfold RampGen.takeOver; rw [if_neg (by rw [hap]; decide)]
  have h2 : g.startSteps a = g := by
    unfold RampGen.startSteps
    dsimp only
    rw [if_neg hct, if_neg (by rw [hrc]; decide)]
  unfold RampGen.prepare
  rw [h1, h2]
  have h3 : ∀ b, g.updateTarget b qe = g := by
    intro b
    unfold RampGen.updateTarget
    dsimp only
    rw [if_neg (by rw [hf]; decide), if_neg (by rw [hac]; decide)]
  rw [h3]
  unfold RampGen.clearRecalc
  rw [← hrc]

/-- A move to `p` with set speed `T` and acceleration `A`. The ramp to the set speed has `M` steps; period, ramp steps and remaining way are in a
state of `X`. -/
structure FastWay (a : ArchId) (T A M : Nat) (X : Nat → Nat → Nat → Prop) (p : Int) (g : RampGen) (qe : QueueEnd) : Prop where
  fstop : g.ro.forceStop = false
  set : Settings T A (g.prepare a qe).ro.config.parameters
  fimm : (g.prepare a qe).ro.forceImmediateStop = false
  keep : (g.prepare a qe).isRunningContinuously = false
  target : (g.prepare a qe).ro.targetPos = p
  steps : (g.prepare a qe).ro.config.maxRampUpSteps = M
  way : X (g.prepare a qe).rw.currTicks (g.prepare a qe).rw.performedRampUpSteps (shortestWay p qe.pos).natAbs
  small : (shortestWay p qe.pos).natAbs ≤ 2000000
  dir : (g.prepare a qe).rw.performedRampUpSteps ≠ 0 → shortestWay p qe.pos ≠ 0 → qe.countUp = decide (0 < shortestWay p qe.pos)
  pause : g.rw.pauseTicksLeft = 0 ∨ (32768 ≤ g.rw.pauseTicksLeft ∧ g.rw.currTicks ≠ ticksForStoppedMotor)

theorem FastWay.plans {a : ArchId} {T A M : Nat} {X : Nat → Nat → Nat → Prop} {p : Int} (hfast : T < a.minCmdTicks) (hT0 : 0 < T)
    (hX : ∀ (cfg : RampConfig) (rw : RampRw) (up : Bool) (R : Nat) (junk c : NextCommand), Settings T A cfg.parameters → cfg.maxRampUpSteps = M →
      R ≠ 0 → X rw.currTicks rw.performedRampUpSteps R → Planner.plan a cfg rw up true R junk = some c → Planner.MoveOut a T X R up c)
    (hend : ∀ P k, X P k 0 → k ≤ 1) :
    Plans a T (fun g qe => g.isActive = true → FastWay a T A M X p g qe) := by
  intro g g1 qe junk c hφ hact hg
  have h := hφ hact
  have hmc : a.minCmdTicks ≤ 4200 ∧ T < a.minCmdTicks := ⟨by cases a <;> decide, hfast⟩
  have hp := prepared a g qe
  have hset := prepare_settled a g qe
  have hid := fun qe' => prepare_idem a g qe qe' h.fstop
  unfold RampGen.getNextCommand at hg
  dsimp only at hg
  rw [if_neg (by rw [h.fimm]; decide)] at hg
  obtain ⟨f1, f2, f3, f4, f5, f10, f6, f7, f8, f9⟩ := h
  rw [← hp.pause, ← hp.ticks] at f9
  have hfs : (g.prepare a qe).ro.forceStop = false := by rw [hp.fstop]; exact f1
  have hac := hset.2.1 f1
  have hrc := hset.1
  have hap := hp.papply
  clear hset hp hφ hact
  generalize g.prepare a qe = G at *
  cases hpn : Planner.getNextCommand a G.ro G.rw qe junk with
  | none => rw [hpn] at hg; cases hg
  | some c1 =>
    rw [hpn] at hg
    cases hg
    have hafter : ∀ (qe' : QueueEnd), c.rw.currTicks ≠ ticksForStoppedMotor → (g1.afterCommandEnqueued c).prepare a qe' = g1.afterCommandEnqueued c :=
      fun qe' hx => prepare_nothing a _ qe' hap hrc hac hfs hx
    -- the command is refused
    have hrefused : ∀ qe' : QueueEnd, qe'.pos = qe.pos → (qe'.countUp = qe.countUp ∨ qe'.countUp = c.command.countUp) →
        (g1.rw.performedRampUpSteps ≠ 0 → shortestWay p qe.pos ≠ 0 → c.command.countUp = qe.countUp) → g1.isActive = true →
        FastWay a T A M X p g1 qe' := by
      intro qe' e1 e2 e3 _
      refine ⟨hfs, by rw [hid]; exact f2, by rw [hid]; exact f3, by rw [hid]; exact f4, by rw [hid]; exact f5, by rw [hid]; exact f10, ?_, ?_, ?_, f9⟩
      · rw [hid, e1]; exact f6
      · rw [e1]; exact f7
      · rw [hid, e1]
        intro hx hw
        rw [← f8 hx hw]
        rcases e2 with e2 | e2
        · exact e2
        · rw [e2, e3 hx hw]
    rcases Planner.getNextCommand_cases hpn with ⟨hpp, he⟩ | ⟨hnp, need, remaining, ht, ⟨-, -, he⟩ | ⟨hnd, countUp, hcu, hpl⟩⟩
    · -- pause
      have f11 : 32768 ≤ g1.rw.pauseTicksLeft ∧ g1.rw.currTicks ≠ ticksForStoppedMotor := f9.resolve_left (by omega)
      have hpt : 32768 ≤ Planner.pauseTicks g1.rw.pauseTicksLeft ∧ Planner.pauseTicks g1.rw.pauseTicksLeft ≤ 65535 ∧
          (g1.rw.pauseTicksLeft - Planner.pauseTicks g1.rw.pauseTicksLeft = 0 ∨
            32768 ≤ g1.rw.pauseTicksLeft - Planner.pauseTicks g1.rw.pauseTicksLeft) := by
        unfold Planner.pauseTicks
        split <;> omega
      have ct : c.command.ticks = Planner.pauseTicks g1.rw.pauseTicksLeft := by
        rw [he]; change u16 _ = _; unfold u16; omega
      have cs : c.command.steps = 0 := by rw [he]
      have cu : c.command.countUp = qe.countUp := by rw [he]
      have cr : c.rw = { g1.rw with pauseTicksLeft := g1.rw.pauseTicksLeft - Planner.pauseTicks g1.rw.pauseTicksLeft } := by rw [he]
      have ht0 : c.command.ticks ≠ 0 := by omega
      refine ⟨fun _ => ⟨by omega, ?_⟩, fun qe' e1 e2 _ => ?_, fun _ qe' e1 e2 h3 => hrefused qe' e1 e2 (fun _ _ => cu) h3⟩
      · unfold Queue.commandRateTicks
        rw [if_neg (by omega)]; omega
      · rw [if_neg ht0] at e1 e2
        have hw : shortestWay p qe'.pos = shortestWay p qe.pos := by
          rw [e1]
          unfold posAfter
          rw [cs]
          unfold shortestWay
          split
          · simp only [Int.natCast_zero, Int.add_zero]; rw [i32_sub_i32]
          · simp only [Int.natCast_zero, Int.sub_zero]; rw [i32_sub_i32]
        have hpre := hafter qe' (by rw [cr]; exact f11.2)
        refine ⟨hfs, by rw [hpre]; exact f2, by rw [hpre]; exact f3, by rw [hpre]; exact f4, by rw [hpre]; exact f5, by rw [hpre]; exact f10, ?_, by rw [hw]; exact f7, ?_, ?_⟩
        · rw [hpre, hw]
          change X c.rw.currTicks c.rw.performedRampUpSteps _
          rw [cr]; exact f6
        · rw [hpre, hw, e2, cu]
          change c.rw.performedRampUpSteps ≠ 0 → _
          rw [cr]; exact f8
        · change c.rw.pauseTicksLeft = 0 ∨ (32768 ≤ c.rw.pauseTicksLeft ∧ c.rw.currTicks ≠ _)
          rw [cr]
          dsimp only
          have := f11.2
          rcases hpt.2.2 with h | h
          · exact Or.inl h
          · exact Or.inr ⟨h, this⟩
    · -- complete
      have ct : c.command.ticks = 0 := by rw [he]; rfl
      refine ⟨fun hx => absurd ct hx, fun qe' _ _ hx => ?_, fun hx => absurd ct hx⟩
      unfold RampGen.isActive RampGen.afterCommandEnqueued at hx
      rw [he] at hx
      cases hx
    · -- steps
      have hkr : g1.ro.config.parameters.keepRunning = false := f4
      rcases Planner.target_cases ht with ⟨t1, -⟩ | ⟨-, t1, t2, t3⟩
      · rw [hkr] at t1; cases t1
      rw [f5] at t1 t2 t3
      change shortestWay p qe.pos ≠ _ at t1
      change remaining = (shortestWay p qe.pos).natAbs at t2
      change need = if shortestWay p qe.pos = 0 then _ else decide (0 < shortestWay p qe.pos) at t3
      have hw1 : -2147483648 ≤ shortestWay p qe.pos ∧ shortestWay p qe.pos < 2147483648 := by unfold shortestWay i32; omega
      have hR : remaining ≠ 0 := by
        intro h0
        rw [← t2, h0] at f6
        exact hnd ⟨h0, hend _ _ f6⟩
      have hw0 : shortestWay p qe.pos ≠ 0 := by omega
      rw [if_neg hw0] at t3
      have hup : countUp = need := by
        rw [hcu]
        split
        · rfl
        · rename_i hx; rw [t3]; exact f8 hx hw0
      rw [hup, show (need == need) = true by simp] at hpl
      rw [← t2] at f6
      have hout := hX _ _ _ _ _ _ f2 f10 hR f6 hpl
      obtain ⟨o1, o2, o3, o4, o5, o6, o7, o8⟩ := hout
      have ht0 : c.command.ticks ≠ 0 := by omega
      refine ⟨fun _ => ⟨o4, o3⟩, fun qe' e1 e2 _ => ?_, fun _ qe' e1 e2 h3 => hrefused qe' e1 e2 (fun hx _ => ?_) h3⟩
      · rw [if_neg ht0] at e1 e2
        have hpre := hafter qe' (by omega)
        have hw : (shortestWay p qe'.pos).natAbs = remaining - c.command.steps ∧
            (remaining - c.command.steps ≠ 0 → decide (0 < shortestWay p qe'.pos) = need) := by
          rw [e1]
          have hpa : shortestWay p (i32 (posAfter qe.pos c.command)) = i32 (shortestWay p qe.pos - (posAfter qe.pos c.command - qe.pos)) := by
            unfold shortestWay
            rw [i32_sub_i32]
            unfold i32; omega
          rw [hpa, t3]
          unfold posAfter
          rw [o7, t3]
          generalize shortestWay p qe.pos = w at *
          by_cases hw2 : 0 < w
          · rw [decide_eq_true hw2, if_pos rfl]
            have e : i32 (w - (qe.pos + (c.command.steps : Int) - qe.pos)) = w - c.command.steps := by unfold i32; omega
            rw [e]
            exact ⟨by omega, fun _ => decide_eq_true (by omega)⟩
          · rw [decide_eq_false hw2, if_neg (by decide)]
            have e : i32 (w - (qe.pos - (c.command.steps : Int) - qe.pos)) = w + c.command.steps := by unfold i32; omega
            rw [e]
            exact ⟨by omega, fun _ => decide_eq_false (by omega)⟩
        refine ⟨hfs, by rw [hpre]; exact f2, by rw [hpre]; exact f3, by rw [hpre]; exact f4, by rw [hpre]; exact f5, by rw [hpre]; exact f10, ?_, by omega, ?_, ?_⟩
        · rw [hpre, hw.1]; exact o8
        · rw [hpre, e2, o7]
          change c.rw.performedRampUpSteps ≠ 0 → _
          intro _ hx
          rw [hw.2]
          intro h0
          omega
        · change c.rw.pauseTicksLeft = 0 ∨ (32768 ≤ c.rw.pauseTicksLeft ∧ c.rw.currTicks ≠ _)
          rcases o6 with h | h
          · exact Or.inl h
          · exact Or.inr ⟨h, by omega⟩
      · rw [o7, t3]; exact (f8 hx hw0).symm

end FAS
