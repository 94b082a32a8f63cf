import Verif.Spec.Preempt
import Verif.Lemmas.Cycles
import Verif.Props.RampGen

/-!
# Lemmas about move commands interrupted by the task
-/

namespace FAS

open Spec

/-- The parameters the next service works with. -/
def RampGen.nextParams (g : RampGen) : RampParams := if g.parameters.apply then g.parameters else g.ro.config.parameters

theorem takeOver_config (a : ArchId) (g : RampGen) : (g.takeOver a).ro.config.parameters = g.nextParams ∧
    (g.takeOver a).ro.targetPos = g.ro.targetPos ∧ (g.takeOver a).ro.forceStop = g.ro.forceStop ∧
    (g.ro.forceImmediateStop = false → (g.takeOver a).ro.forceImmediateStop = false) := by
  unfold RampGen.takeOver RampGen.nextParams
  by_cases hap : g.parameters.apply = true
  · rw [if_pos hap, if_pos hap]
    have hp : (({ g.ro.config with parameters := g.parameters } : RampConfig).update a).parameters = g.parameters := by
      unfold RampConfig.update RampConfig.updateCubic
      dsimp only
      split <;> rfl
    refine ⟨hp, rfl, rfl, fun h => ?_⟩
    dsimp only
    rw [h]; rfl
  · rw [if_neg hap, if_neg hap]
    exact ⟨rfl, rfl, rfl, fun h => h⟩

/-- What a service does with the target. -/
structure PrepFacts (g g1 : RampGen) (qe : QueueEnd) : Prop where
  apply : g1.parameters.apply = false
  fstop : g1.ro.forceStop = g.ro.forceStop
  fimm : g.ro.forceImmediateStop = false → g1.ro.forceImmediateStop = false
  active : g1.isActive = g.isActive
  value : g1.ro.config.parameters.moveValue = g.nextParams.moveValue
  absolute : g1.ro.config.parameters.moveAbsolute = g.nextParams.moveAbsolute
  up : g1.ro.config.parameters.keepRunningCountUp = g.nextParams.keepRunningCountUp
  keep : g1.ro.config.parameters.keepRunning = (g.nextParams.keepRunning && !g.ro.forceStop)
  change : g1.ro.config.parameters.anyChange = (g.nextParams.anyChange && g.ro.forceStop)
  target : g.ro.forceStop = false → g1.ro.targetPos =
    if g.nextParams.anyChange && !g.nextParams.keepRunning then
      if g.nextParams.moveAbsolute then g.nextParams.moveValue
      else i32 ((if g.ro.config.parameters.keepRunning then qe.pos else g.ro.targetPos) + g.nextParams.moveValue)
    else g.ro.targetPos

theorem prepFacts (a : ArchId) (g : RampGen) (qe : QueueEnd) : PrepFacts g (g.prepare a qe) qe := by
  have hp := prepared a g qe
  obtain ⟨t1, t2, t3, t4⟩ := takeOver_config a g
  have hS := (RampGen.startSteps_fields a (g.takeOver a)).1
  rw [← hS] at t1 t2 t3 t4
  have hkey : ∀ (h : RampGen) (w : Bool), let g1 := (h.updateTarget w qe).clearRecalc
      (h.ro.forceImmediateStop = false → g1.ro.forceImmediateStop = false) ∧
      g1.ro.config.parameters.moveValue = h.ro.config.parameters.moveValue ∧
      g1.ro.config.parameters.moveAbsolute = h.ro.config.parameters.moveAbsolute ∧
      g1.ro.config.parameters.keepRunningCountUp = h.ro.config.parameters.keepRunningCountUp ∧
      g1.ro.config.parameters.keepRunning = (h.ro.config.parameters.keepRunning && !h.ro.forceStop) ∧
      g1.ro.config.parameters.anyChange = (h.ro.config.parameters.anyChange && h.ro.forceStop) ∧
      (h.ro.forceStop = false → g1.ro.targetPos =
        if h.ro.config.parameters.anyChange && !h.ro.config.parameters.keepRunning then
          if h.ro.config.parameters.moveAbsolute then h.ro.config.parameters.moveValue
          else i32 ((if w then qe.pos else h.ro.targetPos) + h.ro.config.parameters.moveValue)
        else h.ro.targetPos) := by
    intro h w
    unfold RampGen.updateTarget RampGen.clearRecalc
    dsimp only
    by_cases h1 : h.ro.forceStop = true
    · rw [if_pos h1, h1]
      refine ⟨fun x => x, rfl, rfl, rfl, by simp, by simp, fun x => by cases x⟩
    · rw [if_neg h1]
      have h1' : h.ro.forceStop = false := by simpa using h1
      by_cases h2 : h.ro.config.parameters.anyChange = true
      · rw [if_pos h2, h1', h2]
        by_cases h3 : h.ro.config.parameters.keepRunning = true
        · rw [if_pos h3]
          exact ⟨fun x => x, rfl, rfl, rfl, by simp, by simp, fun _ => by simp [h3]⟩
        · rw [if_neg h3]
          have h3' : h.ro.config.parameters.keepRunning = false := by simpa using h3
          by_cases h4 : h.ro.config.parameters.moveAbsolute = true
          · rw [if_pos h4]
            exact ⟨fun x => x, rfl, rfl, rfl, by simp, by simp, fun _ => by simp [h3', h4]⟩
          · rw [if_neg h4]
            exact ⟨fun x => x, rfl, rfl, rfl, by simp, by simp, fun _ => by simp [h3', h4]⟩
      · rw [if_neg h2, h1']
        have h2' : h.ro.config.parameters.anyChange = false := by simpa using h2
        exact ⟨fun x => x, rfl, rfl, rfl, by simp, by simp [h2'], fun _ => by simp [h2']⟩
  have hk := hkey ((g.takeOver a).startSteps a) g.ro.config.parameters.keepRunning
  dsimp only at hk
  obtain ⟨k1, k2, k3, k4, k5, k6, k7⟩ := hk
  rw [t1] at k2 k3 k4 k5 k6 k7
  rw [t2] at k7
  rw [t3] at k5 k6 k7
  exact ⟨hp.papply, hp.fstop, fun h => k1 (t4 h), by unfold RampGen.isActive; rw [hp.state], k2, k3, k4, k5, k6, k7⟩

/-- A service without immediate stop. -/
theorem service_plain {a : ArchId} {g g' : RampGen} {qe : QueueEnd} {junk c : NextCommand} (hf : g.ro.forceImmediateStop = false)
    (h : g.getNextCommand a qe junk = some (g', c)) : g' = g.prepare a qe := by
  have hf' := (prepFacts a g qe).fimm hf
  unfold RampGen.getNextCommand at h
  dsimp only at h
  rw [if_neg (by rw [hf']; decide)] at h
  split at h
  · cases h
  · cases h; rfl

/-- A predicate on the ramp and the position at the end of the queue which services of the task preserve. -/
structure Served (a : ArchId) (J : RampGen → Int → Prop) : Prop where
  range : ∀ g pos, J g pos → InRange g
  refused : ∀ g g' qe junk c, J g qe.pos → g.isActive = true → g.getNextCommand a qe junk = some (g', c) → c.command.ticks ≠ 0 → J g' qe.pos
  taken : ∀ g g' qe junk c, J g qe.pos → g.isActive = true → junk.rw.performedRampUpSteps < 4294967296 → g.getNextCommand a qe junk = some (g', c) →
    c.command.ticks ≠ 0 → J (g'.afterCommandEnqueued c) (i32 (posAfter qe.pos c.command))
  finished : ∀ g g' qe junk c, J g qe.pos → g.isActive = true → junk.rw.performedRampUpSteps < 4294967296 → g.getNextCommand a qe junk = some (g', c) →
    c.command.ticks = 0 → J (g'.afterCommandEnqueued c) qe.pos

/-- The state at the begin of an iteration. -/
structure ServedState (J : RampGen → Int → Prop) (f : Stepper.Fill) : Prop where
  inv : J f.s.rg f.s.hw.q.qend.pos
  ign : f.s.hw.q.ignoreCommands = false
  pos : i32 f.s.hw.q.qend.pos = f.s.hw.q.qend.pos
  junk : f.cmd.rw.performedRampUpSteps < 4294967296

theorem ServedState.body {a : ArchId} {J : RampGen → Int → Prop} (hJ : Served a J) {f f' : Stepper.Fill} {b : Bool} (env : Stepper.Env) (i : Nat)
    (h : ServedState J f) (hc : f.cond a = true) (hb : f.body a env i = some (f', b))
    (hna : ∀ rg cmd, f.s.rg.getNextCommand a f.s.hw.q.qend f.cmd = some (rg, cmd) → cmd.command.ticks ≠ 0 →
      0 ≤ (({ f.s with rg := rg } : Stepper).addQueueEntry a (env.ext i) (env.gaps i) (env.busy i) cmd.command (!f.delayedStart)).2) :
    ServedState J f' := by
  have hact : f.s.rg.isActive = true := by
    unfold Stepper.Fill.cond at hc
    exact (Bool.and_eq_true_iff.mp hc).2
  obtain ⟨rg, cmd, hn, hcmd, hcase⟩ := Stepper.Fill.body_cases a env i f f' b hb
  have hj : f'.cmd.rw.performedRampUpSteps < 4294967296 := by
    rw [hcmd]; exact (InRange_serve (hJ.range _ _ h.inv) h.junk hn).1
  rcases hcase with ⟨ht, r, hr, -, hcase⟩ | ⟨ht, hbf, hs, -⟩
  · have hq := Stepper.addQueueEntry_qend a (env.ext i) (env.gaps i) (env.busy i) { f.s with rg := rg } cmd.command (!f.delayedStart) h.ign h.pos
    have hfr := Stepper.addQueueEntry_frame a (env.ext i) (env.gaps i) (env.busy i) { f.s with rg := rg } cmd.command (!f.delayedStart)
    dsimp only at hq
    have hna' := hna rg cmd hn ht
    rw [← hr] at hq hfr hna'
    rcases hcase with ⟨hok, hbt, hs, -⟩ | ⟨hok, hbt, hs, -⟩ | ⟨hok, -⟩
    · obtain ⟨q1, q2⟩ := hq.1 hok
      refine ⟨?_, ?_, ?_, hj⟩
      · rw [hs]
        change J (r.1.s.rg.afterCommandEnqueued cmd) r.1.s.hw.q.qend.pos
        rw [hfr.rg, q1]
        exact hJ.taken _ _ _ _ _ h.inv hact h.junk hn ht
      · rw [hs]; exact hfr.ign.trans h.ign
      · rw [hs]
        change i32 r.1.s.hw.q.qend.pos = r.1.s.hw.q.qend.pos
        rw [q1, i32_i32]
    · obtain ⟨q1, q2⟩ := hq.2 (fun hx => by rw [hx] at hok; exact absurd hok (by decide))
      refine ⟨?_, ?_, ?_, hj⟩
      · rw [hs, hfr.rg, q1]
        exact hJ.refused _ _ _ _ _ h.inv hact hn ht
      · rw [hs]; exact hfr.ign.trans h.ign
      · rw [hs, q1]; exact h.pos
    · omega
  · refine ⟨?_, ?_, ?_, hj⟩
    · rw [hs]
      exact hJ.finished _ _ _ _ _ h.inv hact h.junk hn ht
    · rw [hs]; exact h.ign
    · rw [hs]; exact h.pos

theorem ServedState.loop {a : ArchId} {J : RampGen → Int → Prop} (hJ : Served a J) (env : Stepper.Env) (f0 : Stepper.Fill)
    (hna : ∀ i f rg cmd, FillState a env f0 i f → f.cond a = true → f.s.rg.getNextCommand a f.s.hw.q.qend f.cmd = some (rg, cmd) →
      cmd.command.ticks ≠ 0 →
      0 ≤ (({ f.s with rg := rg } : Stepper).addQueueEntry a (env.ext i) (env.gaps i) (env.busy i) cmd.command (!f.delayedStart)).2) :
    ∀ n i f f' x, FillState a env f0 i f → ServedState J f → Stepper.Fill.loop a env n i f = some (f', x) → ServedState J f' := by
  intro n
  induction n with
  | zero => intro i f f' x _ h hl; unfold Stepper.Fill.loop at hl; cases hl; exact h
  | succ n ih =>
    intro i f f' x hst h hl
    unfold Stepper.Fill.loop at hl
    by_cases hc : f.cond a = true
    · rw [if_pos hc] at hl
      cases hb : f.body a env i with
      | none => rw [hb] at hl; cases hl
      | some fb =>
        obtain ⟨f1, b⟩ := fb
        rw [hb] at hl
        have h1 := h.body hJ env i hc hb (fun rg cmd h1 h2 => hna i f rg cmd hst hc h1 h2)
        cases b
        · cases hl; exact h1
        · exact ih (i + 1) f1 f' x (.step hst hc hb) h1 hl
    · rw [if_neg hc] at hl; cases hl; exact h

/-- Such a predicate is preserved by all which happens meanwhile. -/
theorem Spec.Meanwhile.inv {a : ArchId} {J : RampGen → Int → Prop} (hJ : Served a J) {s s' : Stepper} (h : Meanwhile a s s')
    (h0 : J s.rg s.hw.q.qend.pos) (hp : i32 s.hw.q.qend.pos = s.hw.q.qend.pos) :
    J s'.rg s'.hw.q.qend.pos ∧ i32 s'.hw.q.qend.pos = s'.hw.q.qend.pos := by
  induction h with
  | nothing => exact ⟨h0, hp⟩
  | elapse _ he ih => rw [he.ramp, he.queueEnd]; exact ih
  | @task s1 s2 env junk acc _ hj hfq hna ih =>
    obtain ⟨i1, i2⟩ := ih
    by_cases hact : s1.rg.isActive = true
    · by_cases hv : s1.rg.parameters.checkValidConfig = MOVE_OK
      · unfold Stepper.fillQueue at hfq
        rw [if_neg (by rw [hact]; decide), if_neg (by rw [hv]; simp)] at hfq
        dsimp only at hfq
        change (match Stepper.Fill.loop a env env.iterations 0 (fillStart a junk s1) with
          | none => none
          | some (f, _) => if f.needDelayedStart then some ((f.s.startQueue true).1, f.accepted) else some (f.s, f.accepted)) =
          some (s2, acc) at hfq
        cases hl : Stepper.Fill.loop a env env.iterations 0 (fillStart a junk s1) with
        | none => rw [hl] at hfq; cases hfq
        | some fx =>
          obtain ⟨f, x⟩ := fx
          rw [hl] at hfq
          dsimp only at hfq
          have hf : ServedState J f := by
            refine ServedState.loop hJ env (fillStart a junk s1) ?_ env.iterations 0 _ f x .zero ⟨i1, rfl, i2, hj⟩ hl
            intro i f rg cmd h1 h2 h3 h4
            by_cases h5 : 0 ≤ (({ f.s with rg := rg } : Stepper).addQueueEntry a (env.ext i) (env.gaps i) (env.busy i) cmd.command (!f.delayedStart)).2
            · exact h5
            · exact absurd ⟨i, f, rg, cmd, h1, h2, h3, h4, by omega⟩ hna
          obtain ⟨k1, k2⟩ := startQueue_keeps f.s true
          split at hfq
          · cases hfq; rw [k1, k2]; exact ⟨hf.inv, hf.pos⟩
          · cases hfq; exact ⟨hf.inv, hf.pos⟩
      · unfold Stepper.fillQueue at hfq
        rw [if_neg (by rw [hact]; decide), if_pos hv] at hfq
        cases hfq; exact ⟨i1, i2⟩
    · have hia : s1.rg.isActive = false := by simpa using hact
      rw [Stepper.fillQueue_inactive a env junk s1 hia] at hfq
      cases hfq; exact ⟨i1, i2⟩

/-! ## The phases of a `moveTo()` -/

/-- The service the ramp gets next sees a move to `p`, or the former services did. -/
def Asks (p : Int) (g : RampGen) : Prop :=
  g.nextParams.anyChange = true ∧ g.nextParams.moveAbsolute = true ∧ g.nextParams.moveValue = p ∧ g.nextParams.keepRunning = false

/-- The ramp has taken over the move to `p`. -/
def Aims (p : Int) (g : RampGen) : Prop :=
  g.nextParams.anyChange = false ∧ g.ro.targetPos = p ∧ g.nextParams.keepRunning = false

/-- After the write of the target. `ns`: the ramp is not asked to stop, and it is active or at the target. -/
structure Asked (ns : Bool) (p : Int) (g : RampGen) (pos : Int) : Prop where
  range : InRange g
  fimm : g.ro.forceImmediateStop = false
  ask : Asks p g ∨ (Aims p g ∧ g.ro.forceStop = false ∧ (g.isActive = true ∨ shortestWay p pos = 0))
  going : ns = true → g.ro.forceStop = false ∧ (g.isActive = true ∨ shortestWay p pos = 0)

theorem nextParams_of (g : RampGen) (h : g.parameters.apply = false) : g.nextParams = g.ro.config.parameters := by
  unfold RampGen.nextParams
  rw [if_neg (by rw [h]; decide)]

/-- One service after the write of the target. -/
theorem Asked.prepare {ns : Bool} {p pos : Int} {g : RampGen} (h : Asked ns p g pos) (a : ArchId) (qe : QueueEnd) :
    Asks p (g.prepare a qe) ∧ g.ro.forceStop = true ∨ Aims p (g.prepare a qe) ∧ g.ro.forceStop = false := by
  have hp := prepFacts a g qe
  have hn := nextParams_of _ hp.apply
  cases hfs : g.ro.forceStop
  · right
    refine ⟨?_, rfl⟩
    have hc := hp.change
    have hk := hp.keep
    have ht := hp.target hfs
    rw [hfs] at hc hk
    unfold Aims
    rw [hn, hc, hk]
    rcases h.ask with ⟨a1, a2, a3, a4⟩ | ⟨⟨a1, a2, a3⟩, -⟩
    · rw [a1, a2, a3, a4] at ht
      rw [a1, a4]
      exact ⟨rfl, by simpa using ht, rfl⟩
    · rw [a1, a3] at ht
      rw [a1, a3]
      exact ⟨rfl, by rw [ht, if_neg (by decide)]; exact a2, rfl⟩
  · left
    refine ⟨?_, rfl⟩
    rcases h.ask with ⟨a1, a2, a3, a4⟩ | ⟨-, h2, -⟩
    · unfold Asks
      rw [hn, hp.change, hp.absolute, hp.value, hp.keep, a1, a2, a3, a4, hfs]
      exact ⟨rfl, rfl, rfl, rfl⟩
    · rw [hfs] at h2; cases h2

theorem Asked.served (ns : Bool) (a : ArchId) (p : Int) : Served a (Asked ns p) := by
  have hnext : ∀ (g : RampGen) (rw : RampRw), ({ g with rw := rw } : RampGen).nextParams = g.nextParams := fun _ _ => rfl
  have key : ∀ g g' qe junk c, Asked ns p g qe.pos → g.isActive = true → g.getNextCommand a qe junk = some (g', c) →
      g' = g.prepare a qe ∧ g'.ro.forceImmediateStop = false ∧ g'.ro.forceStop = g.ro.forceStop ∧ g'.isActive = true ∧
      (Asks p g' ∧ g.ro.forceStop = true ∨ Aims p g' ∧ g.ro.forceStop = false) ∧
      ((g'.afterCommandEnqueued c).isActive = true ∨ c.command.ticks = 0 ∧ shortestWay g'.ro.targetPos qe.pos = 0) := by
    intro g g' qe junk c h ha hn
    have hg := service_plain h.fimm hn
    have hp := prepFacts a g qe
    refine ⟨hg, by rw [hg]; exact hp.fimm h.fimm, by rw [hg]; exact hp.fstop, by rw [hg, hp.active]; exact ha, by rw [hg]; exact h.prepare a qe, ?_⟩
    by_cases hi : (g'.afterCommandEnqueued c).isActive = true
    · exact Or.inl hi
    · obtain ⟨c1, c2, -⟩ := C37_service a g g' qe junk c h.range ha hn (by simpa using hi)
      exact Or.inr ⟨c1, c2⟩
  refine ⟨fun g pos h => h.range, ?_, ?_, ?_⟩
  · intro g g' qe junk c h ha hn ht
    obtain ⟨k1, k2, k3, k4, k5, -⟩ := key g g' qe junk c h ha hn
    refine ⟨by rw [k1]; exact h.range.prepare a qe, k2, ?_, fun hns => ⟨by rw [k3]; exact (h.going hns).1, Or.inl k4⟩⟩
    rcases k5 with ⟨k5, -⟩ | ⟨k5, k6⟩
    · exact Or.inl k5
    · exact Or.inr ⟨k5, by rw [k3]; exact k6, Or.inl k4⟩
  · intro g g' qe junk c h ha hj hn ht
    obtain ⟨k1, k2, k3, k4, k5, k6⟩ := key g g' qe junk c h ha hn
    have hact : (g'.afterCommandEnqueued c).isActive = true := by
      rcases k6 with k6 | ⟨k6, -⟩
      · exact k6
      · exact absurd k6 ht
    refine ⟨(InRange_serve h.range hj hn).2.2.1, k2, ?_, fun hns => ⟨by change g'.ro.forceStop = false; rw [k3]; exact (h.going hns).1, Or.inl hact⟩⟩
    rcases k5 with ⟨k5, -⟩ | ⟨k5, k7⟩
    · exact Or.inl k5
    · exact Or.inr ⟨k5, by change g'.ro.forceStop = false; rw [k3]; exact k7, Or.inl hact⟩
  · intro g g' qe junk c h ha hj hn ht
    obtain ⟨k1, k2, k3, k4, k5, k6⟩ := key g g' qe junk c h ha hn
    have hgo : Aims p g' → ((g'.afterCommandEnqueued c).isActive = true ∨ shortestWay p qe.pos = 0) := by
      intro hx
      rcases k6 with k6 | ⟨-, k6⟩
      · exact Or.inl k6
      · rw [hx.2.1] at k6; exact Or.inr k6
    refine ⟨(InRange_serve h.range hj hn).2.2.1, k2, ?_, fun hns => ⟨by change g'.ro.forceStop = false; rw [k3]; exact (h.going hns).1, ?_⟩⟩
    · rcases k5 with ⟨k5, -⟩ | ⟨k5, k7⟩
      · exact Or.inl k5
      · exact Or.inr ⟨k5, by change g'.ro.forceStop = false; rw [k3]; exact k7, hgo k5⟩
    · rcases k5 with ⟨-, k7⟩ | ⟨k5, -⟩
      · rw [(h.going hns).1] at k7; cases k7
      · exact hgo k5

/-- Before the write of the target: no immediate stop. -/
structure Quiet (g : RampGen) : Prop where
  range : InRange g
  fimm : g.ro.forceImmediateStop = false

theorem Quiet.served (a : ArchId) : Served a (fun g _ => Quiet g) := by
  have key : ∀ g g' qe junk c, Quiet g → g.getNextCommand a qe junk = some (g', c) → g' = g.prepare a qe ∧ g'.ro.forceImmediateStop = false := by
    intro g g' qe junk c h hn
    have hg := service_plain h.fimm hn
    exact ⟨hg, by rw [hg]; exact (prepFacts a g qe).fimm h.fimm⟩
  refine ⟨fun g pos h => h.range, ?_, ?_, ?_⟩
  · intro g g' qe junk c h ha hn ht
    obtain ⟨k1, k2⟩ := key g g' qe junk c h hn
    exact ⟨by rw [k1]; exact h.range.prepare a qe, k2⟩
  · intro g g' qe junk c h ha hj hn ht
    exact ⟨(InRange_serve h.range hj hn).2.2.1, (key g g' qe junk c h hn).2⟩
  · intro g g' qe junk c h ha hj hn ht
    exact ⟨(InRange_serve h.range hj hn).2.2.1, (key g g' qe junk c h hn).2⟩

theorem prepare_value (a : ArchId) (g : RampGen) (qe : QueueEnd) :
    (g.prepare a qe).parameters.moveValue = if g.parameters.apply then 0 else g.parameters.moveValue := by
  have h1 : (g.prepare a qe).parameters = (g.takeOver a).parameters := by
    unfold RampGen.prepare RampGen.clearRecalc RampGen.updateTarget RampGen.startSteps
    dsimp only
    repeat' split
    all_goals rfl
  rw [h1]
  unfold RampGen.takeOver
  split <;> rfl

/-- Before the write of the target: the ramp is on the way to `T`, or runs continuously, or has arrived. -/
structure Heading (a : ArchId) (ns : Bool) (T : Int) (K : Bool) (g : RampGen) (pos : Int) : Prop where
  range : InRange g
  fimm : g.ro.forceImmediateStop = false
  fstop : g.ro.forceStop = false
  target : g.ro.targetPos = T
  keep : g.ro.config.parameters.keepRunning = K
  after : ∀ qe, (g.prepare a qe).ro.targetPos = T ∧ (g.prepare a qe).ro.config.parameters.keepRunning = K
  going : ns = true → g.isActive = true ∨ (K = false ∧ shortestWay T pos = 0)
  idleValue : g.parameters.apply = false → g.parameters.moveValue = 0

theorem Heading.served (a : ArchId) (ns : Bool) (T : Int) (K : Bool) : Served a (Heading a ns T K) := by
  have key : ∀ g g' qe junk c, Heading a ns T K g qe.pos → g.isActive = true → g.getNextCommand a qe junk = some (g', c) →
      g' = g.prepare a qe ∧ g'.ro.forceImmediateStop = false ∧ g'.ro.forceStop = false ∧ g'.isActive = true ∧ g'.ro.targetPos = T ∧
      g'.ro.config.parameters.keepRunning = K ∧ (∀ (rw : RampRw) qe', ({ g' with rw := rw }.prepare a qe').ro.targetPos = T ∧
        ({ g' with rw := rw }.prepare a qe').ro.config.parameters.keepRunning = K) ∧
      ((g'.afterCommandEnqueued c).isActive = true ∨ c.command.ticks = 0 ∧ (K = false ∧ shortestWay T qe.pos = 0)) ∧
      (g'.parameters.apply = false → g'.parameters.moveValue = 0) := by
    intro g g' qe junk c h ha hn
    have hg := service_plain h.fimm hn
    have hval : g'.parameters.moveValue = 0 := by
      rw [hg, prepare_value]
      split
      · rfl
      · rename_i hx; exact h.idleValue (by simpa using hx)
    have hp := prepFacts a g qe
    have hs := prepare_settled a g qe
    rw [← hg] at hp hs
    have ht : g'.ro.targetPos = T := by rw [hg]; exact (h.after qe).1
    have hk : g'.ro.config.parameters.keepRunning = K := by rw [hg]; exact (h.after qe).2
    have hfs : g'.ro.forceStop = false := hp.fstop.trans h.fstop
    refine ⟨hg, hp.fimm h.fimm, hfs, hp.active.trans ha, ht, hk, ?_, ?_, fun _ => hval⟩
    · intro rw qe'
      have hp2 := prepFacts a { g' with rw := rw } qe'
      have hn2 : ({ g' with rw := rw } : RampGen).nextParams = g'.ro.config.parameters := nextParams_of g' hp.apply
      have hc := hs.2.1 h.fstop
      have ht2 := hp2.target hfs
      rw [hn2, hc, Bool.false_and, if_neg (by decide)] at ht2
      refine ⟨ht2.trans ht, ?_⟩
      rw [hp2.keep, hn2, hk]
      change (K && !g'.ro.forceStop) = K
      rw [hfs]; simp
    · by_cases hi : (g'.afterCommandEnqueued c).isActive = true
      · exact Or.inl hi
      · obtain ⟨c1, c2, c3⟩ := C37_service a g g' qe junk c h.range ha hn (by simpa using hi)
        rw [ht] at c2
        have := c3 h.fimm
        unfold RampGen.isRunningContinuously at this
        rw [hk] at this
        exact Or.inr ⟨c1, this, c2⟩
  refine ⟨fun g pos h => h.range, ?_, ?_, ?_⟩
  · intro g g' qe junk c h ha hn ht
    obtain ⟨k1, k2, k3, k4, k5, k6, k7, -, k9⟩ := key g g' qe junk c h ha hn
    exact ⟨by rw [k1]; exact h.range.prepare a qe, k2, k3, k5, k6, k7 g'.rw, fun _ => Or.inl k4, k9⟩
  · intro g g' qe junk c h ha hj hn ht
    obtain ⟨k1, k2, k3, k4, k5, k6, k7, k8, k9⟩ := key g g' qe junk c h ha hn
    refine ⟨(InRange_serve h.range hj hn).2.2.1, k2, k3, k5, k6, k7 c.rw, fun _ => ?_, k9⟩
    rcases k8 with k8 | ⟨k8, -⟩
    · exact Or.inl k8
    · exact absurd k8 ht
  · intro g g' qe junk c h ha hj hn ht
    obtain ⟨k1, k2, k3, k4, k5, k6, k7, k8, k9⟩ := key g g' qe junk c h ha hn
    refine ⟨(InRange_serve h.range hj hn).2.2.1, k2, k3, k5, k6, k7 c.rw, fun _ => ?_, k9⟩
    rcases k8 with k8 | ⟨-, k8⟩
    · exact Or.inl k8
    · exact Or.inr k8

/-- After the write of the target, if there was no stop: each service works towards `T`. -/
structure Course (a : ArchId) (ns : Bool) (T : Int) (g : RampGen) (pos : Int) : Prop where
  range : InRange g
  fimm : g.ro.forceImmediateStop = false
  fstop : g.ro.forceStop = false
  after : ∀ qe, (g.prepare a qe).ro.targetPos = T ∧ (g.prepare a qe).ro.config.parameters.keepRunning = false
  going : ns = true → g.isActive = true ∨ shortestWay T pos = 0

theorem Course.served (a : ArchId) (ns : Bool) (T : Int) : Served a (Course a ns T) := by
  have key : ∀ g g' qe junk c, Course a ns T g qe.pos → g.isActive = true → g.getNextCommand a qe junk = some (g', c) →
      g' = g.prepare a qe ∧ g'.ro.forceImmediateStop = false ∧ g'.ro.forceStop = false ∧ g'.isActive = true ∧
      (∀ (rw : RampRw) qe', ({ g' with rw := rw }.prepare a qe').ro.targetPos = T ∧
        ({ g' with rw := rw }.prepare a qe').ro.config.parameters.keepRunning = false) ∧
      ((g'.afterCommandEnqueued c).isActive = true ∨ c.command.ticks = 0 ∧ shortestWay T qe.pos = 0) := by
    intro g g' qe junk c h ha hn
    have hg := service_plain h.fimm hn
    have hp := prepFacts a g qe
    have hs := prepare_settled a g qe
    rw [← hg] at hp hs
    have ht : g'.ro.targetPos = T := by rw [hg]; exact (h.after qe).1
    have hk : g'.ro.config.parameters.keepRunning = false := by rw [hg]; exact (h.after qe).2
    have hfs : g'.ro.forceStop = false := hp.fstop.trans h.fstop
    refine ⟨hg, hp.fimm h.fimm, hfs, hp.active.trans ha, ?_, ?_⟩
    · intro rw qe'
      have hp2 := prepFacts a { g' with rw := rw } qe'
      have hn2 : ({ g' with rw := rw } : RampGen).nextParams = g'.ro.config.parameters := nextParams_of g' hp.apply
      have hc := hs.2.1 h.fstop
      have ht2 := hp2.target hfs
      rw [hn2, hc, Bool.false_and, if_neg (by decide)] at ht2
      refine ⟨ht2.trans ht, ?_⟩
      rw [hp2.keep, hn2, hk]
      rfl
    · by_cases hi : (g'.afterCommandEnqueued c).isActive = true
      · exact Or.inl hi
      · obtain ⟨c1, c2, -⟩ := C37_service a g g' qe junk c h.range ha hn (by simpa using hi)
        rw [ht] at c2
        exact Or.inr ⟨c1, c2⟩
  refine ⟨fun g pos h => h.range, ?_, ?_, ?_⟩
  · intro g g' qe junk c h ha hn ht
    obtain ⟨k1, k2, k3, k4, k5, -⟩ := key g g' qe junk c h ha hn
    exact ⟨by rw [k1]; exact h.range.prepare a qe, k2, k3, k5 g'.rw, fun _ => Or.inl k4⟩
  · intro g g' qe junk c h ha hj hn ht
    obtain ⟨k1, k2, k3, k4, k5, k8⟩ := key g g' qe junk c h ha hn
    refine ⟨(InRange_serve h.range hj hn).2.2.1, k2, k3, k5 c.rw, fun _ => ?_⟩
    rcases k8 with k8 | ⟨k8, -⟩
    · exact Or.inl k8
    · exact absurd k8 ht
  · intro g g' qe junk c h ha hj hn ht
    obtain ⟨k1, k2, k3, k4, k5, k8⟩ := key g g' qe junk c h ha hn
    refine ⟨(InRange_serve h.range hj hn).2.2.1, k2, k3, k5 c.rw, fun _ => ?_⟩
    rcases k8 with k8 | ⟨-, k8⟩
    · exact Or.inl k8
    · exact Or.inr k8

/-- After the write of the direction: each service works on running. -/
structure Running (ns : Bool) (up : Bool) (g : RampGen) : Prop where
  range : InRange g
  fimm : g.ro.forceImmediateStop = false
  fstop : g.ro.forceStop = false
  keep : g.nextParams.keepRunning = true
  dir : g.nextParams.keepRunningCountUp = up
  going : ns = true → g.isActive = true

theorem Running.served (a : ArchId) (ns up : Bool) : Served a (fun g _ => Running ns up g) := by
  have key : ∀ g g' qe junk c, Running ns up g → g.isActive = true → g.getNextCommand a qe junk = some (g', c) →
      g' = g.prepare a qe ∧ g'.ro.forceImmediateStop = false ∧ g'.ro.forceStop = false ∧ g'.isActive = true ∧
      g'.nextParams.keepRunning = true ∧ g'.nextParams.keepRunningCountUp = up ∧ (g'.afterCommandEnqueued c).isActive = true := by
    intro g g' qe junk c h ha hn
    have hg := service_plain h.fimm hn
    have hp := prepFacts a g qe
    rw [← hg] at hp
    have hn' := nextParams_of _ hp.apply
    have hk : g'.ro.config.parameters.keepRunning = true := by rw [hp.keep, h.keep, h.fstop]; rfl
    refine ⟨hg, hp.fimm h.fimm, hp.fstop.trans h.fstop, hp.active.trans ha, by rw [hn']; exact hk, by rw [hn', hp.up]; exact h.dir, ?_⟩
    by_cases hi : (g'.afterCommandEnqueued c).isActive = true
    · exact hi
    · obtain ⟨-, -, c3⟩ := C37_service a g g' qe junk c h.range ha hn (by simpa using hi)
      have := c3 h.fimm
      unfold RampGen.isRunningContinuously at this
      rw [hk] at this
      cases this
  refine ⟨fun g pos h => h.range, ?_, ?_, ?_⟩
  · intro g g' qe junk c h ha hn ht
    obtain ⟨k1, k2, k3, k4, k5, k6, k7⟩ := key g g' qe junk c h ha hn
    exact ⟨by rw [k1]; exact h.range.prepare a qe, k2, k3, k5, k6, fun _ => k4⟩
  · intro g g' qe junk c h ha hj hn ht
    obtain ⟨k1, k2, k3, k4, k5, k6, k7⟩ := key g g' qe junk c h ha hn
    exact ⟨(InRange_serve h.range hj hn).2.2.1, k2, k3, k5, k6, fun _ => k7⟩
  · intro g g' qe junk c h ha hj hn ht
    obtain ⟨k1, k2, k3, k4, k5, k6, k7⟩ := key g g' qe junk c h ha hn
    exact ⟨(InRange_serve h.range hj hn).2.2.1, k2, k3, k5, k6, fun _ => k7⟩

/-- In all histories: if no command waits for the task, then no distance does. -/
theorem Spec.RampHist.idleValue {a : ArchId} {ok : ApiCall → Prop} {s : Stepper} (h : RampHist a ok s) :
    s.rg.parameters.apply = false → s.rg.parameters.moveValue = 0 := by
  induction h with
  | start s h => intro _; rw [h]; rfl
  | @call s c _ _ ih =>
    intro hap
    cases call_effect a s c with
    | keep h1 _ _ => rw [h1] at hap ⊢; exact ih hap
    | config k hc _ _ h3 =>
      obtain ⟨-, -, -, e1, -, e2, -⟩ := ConfigCall.run_fields k s
      rw [h3] at hap ⊢
      rw [e1]
      refine ih ?_
      by_cases hx : s.rg.parameters.apply = true
      · rw [e2 hx] at hap; cases hap
      · simpa using hx
    | move _ h0 => rw [h0] at hap; cases hap
    | continuous h1 _ _ => rw [h1] at hap ⊢; exact ih hap
    | stopped h1 _ _ => rw [h1] at hap ⊢; exact ih hap
  | @task s s' env junk acc _ hj hf ih =>
    have hv : ∀ (g g' : RampGen) (qe : QueueEnd) (junk c : NextCommand), g.getNextCommand a qe junk = some (g', c) → (g.parameters.apply = false → g.parameters.moveValue = 0) →
        g'.parameters.moveValue = 0 := by
      intro g g' qe junk c hn hx
      rw [service_params hn, prepare_value]
      split
      · rfl
      · rename_i hy; exact hx (by simpa using hy)
    rcases Stepper.fillQueue_cases a env junk s s' acc hf with ⟨-, h, -⟩ | ⟨ha, hv', f0, f, x, hf0, hc0, -, -, -, -, hl, -, hs'⟩
    · rw [h]; exact ih
    · have hend := Stepper.Fill.loop_induct a env (fun f => f.s.rg.parameters.apply = false → f.s.rg.parameters.moveValue = 0) ?_ _ _ _ _ _
        (by rw [hf0]; exact ih) hl
      · rw [hs']
        split
        · exact hend
        · exact hend
      · intro i g g2 b hcond hp hb
        obtain ⟨rg, cmd, hg, hcmd, hcase⟩ := Stepper.Fill.body_cases a env i g g2 b hb
        have hz := hv _ _ _ _ _ hg hp
        intro _
        rcases hcase with ⟨-, r, hr, -, hcase⟩ | ⟨-, -, hcase, -⟩
        · have hrg : r.1.s.rg = rg := by
            rw [hr]; exact (Stepper.addQueueEntry_frame a _ _ _ _ _ _).rg
          rcases hcase with ⟨-, -, h, -⟩ | ⟨-, -, h, -⟩ | ⟨-, -, h, -⟩
          · rw [h]; change r.1.s.rg.parameters.moveValue = 0; rw [hrg]; exact hz
          · rw [h, hrg]; exact hz
          · rw [h]; change r.1.s.rg.parameters.moveValue = 0; rw [hrg]; exact hz
        · rw [hcase]; exact hz
  | other _ h ih => rw [h]; exact ih

end FAS
