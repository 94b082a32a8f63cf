import Verif.Lemmas.AddEntry

/-!
# Lemmas about `fill_queue`
-/

namespace FAS
namespace Stepper

/-- The configuration of the stepper, which the cyclic task does not change. -/
structure SameConfig (s s' : Stepper) : Prop where
  auto : s'.autoEnable = s.autoEnable
  delay : s'.dirChangeDelayTicks = s.dirChangeDelayTicks
  on : s'.onDelayTicks = s.onDelayTicks
  off : s'.offDelayCount = s.offDelayCount
  stepPin : s'.stepPin = s.stepPin
  high : s'.enHigh = s.enHigh
  low : s'.enLow = s.enLow
  fwd : s'.forwardPlanning = s.forwardPlanning
  pin : s'.hw.q.dirPin = s.hw.q.dirPin
  up : s'.hw.q.dirHighCountsUp = s.hw.q.dirHighCountsUp
  ready : s'.hw.q.ready = s.hw.q.ready
  max : s'.hw.q.maxSpeedInTicks = s.hw.q.maxSpeedInTicks

theorem SameConfig.refl (s : Stepper) : SameConfig s s :=
  ⟨rfl, rfl, rfl, rfl, rfl, rfl, rfl, rfl, rfl, rfl, rfl, rfl⟩

theorem SameConfig.trans {s t u : Stepper} (h1 : SameConfig s t) (h2 : SameConfig t u) : SameConfig s u :=
  ⟨h2.auto.trans h1.auto, h2.delay.trans h1.delay, h2.on.trans h1.on, h2.off.trans h1.off,
   h2.stepPin.trans h1.stepPin, h2.high.trans h1.high, h2.low.trans h1.low, h2.fwd.trans h1.fwd,
   h2.pin.trans h1.pin, h2.up.trans h1.up, h2.ready.trans h1.ready, h2.max.trans h1.max⟩

theorem _root_.FAS.Frame.sameConfig {s s' : Stepper} (h : Frame s s') : SameConfig s s' :=
  ⟨h.auto, h.delay, h.on, h.off, h.stepPin, h.high, h.low, h.fwd, h.pin, h.up, h.ready, h.max⟩

theorem SameConfig.withRg (s : Stepper) (rg : RampGen) : SameConfig s { s with rg := rg } :=
  ⟨rfl, rfl, rfl, rfl, rfl, rfl, rfl, rfl, rfl, rfl, rfl, rfl⟩

theorem _root_.FAS.Queue.addNull_q (q : Queue) (st : Bool) : (q.addNull st).q = q := by
  unfold Queue.addNull
  repeat' split
  all_goals rfl

theorem startQueue_sameConfig (s : Stepper) (st : Bool) : SameConfig s (s.startQueue st).1 := by
  unfold startQueue
  dsimp only
  rw [Queue.addNull_q]
  split <;> exact ⟨rfl, rfl, rfl, rfl, rfl, rfl, rfl, rfl, rfl, rfl, rfl, rfl⟩

/-- The possible outcomes of one iteration of the loop of `fill_queue`. -/
theorem Fill.body_cases (a : ArchId) (env : Env) (i : Nat) (f f' : Fill) (b : Bool)
    (h : f.body a env i = some (f', b)) :
    ∃ rg cmd, f.s.rg.getNextCommand a f.s.hw.q.qend f.cmd = some (rg, cmd) ∧ f'.cmd = cmd ∧
    ((cmd.command.ticks ≠ 0 ∧
      ∃ r, r = ({ f.s with rg := rg } : Stepper).addQueueEntry a (env.ext i) (env.gaps i) (env.busy i) cmd.command
          (!f.delayedStart) ∧
        f'.accepted = f.accepted ++ r.1.accepted ∧
        ((r.2 = AQE_OK ∧ b = true ∧ f'.s = { r.1.s with rg := r.1.s.rg.afterCommandEnqueued cmd } ∧
            f'.delayedStart = f.delayedStart ∧ f'.needDelayedStart = f.delayedStart ∧
            f'.ticksPrepared = u32 (f.ticksPrepared +
              (if cmd.command.steps ≤ 1 then cmd.command.ticks
                else u32 (cmd.command.ticks * cmd.command.steps)))) ∨
         (0 < r.2 ∧ b = false ∧ f'.s = r.1.s ∧ f'.delayedStart = f.delayedStart ∧
            f'.needDelayedStart = f.needDelayedStart ∧ f'.ticksPrepared = f.ticksPrepared) ∨
         (r.2 < 0 ∧ b = true ∧ f'.s = { r.1.s with rg := r.1.s.rg.stopRamp } ∧ f'.delayedStart = false ∧
            f'.needDelayedStart = f.needDelayedStart ∧ f'.ticksPrepared = f.ticksPrepared))) ∨
     (cmd.command.ticks = 0 ∧ b = false ∧ f'.s = { f.s with rg := rg.afterCommandEnqueued cmd } ∧
        f'.accepted = f.accepted ∧ f'.delayedStart = f.delayedStart ∧
        f'.needDelayedStart = f.delayedStart ∧ f'.ticksPrepared = f.ticksPrepared)) := by
  unfold Fill.body at h
  split at h
  · cases h
  · rename_i rg cmd hg
    refine ⟨rg, cmd, hg, ?_⟩
    dsimp only at h
    by_cases ht : cmd.command.ticks ≠ 0
    · rw [if_pos ht] at h
      revert h
      generalize hr : ({ f.s with rg := rg } : Stepper).addQueueEntry a (env.ext i) (env.gaps i) (env.busy i)
        cmd.command (!f.delayedStart) = r
      intro h
      by_cases h1 : r.2 = AQE_OK
      · rw [if_pos h1] at h
        cases h
        exact ⟨rfl, Or.inl ⟨ht, r, rfl, rfl, Or.inl ⟨h1, rfl, rfl, rfl, rfl, rfl⟩⟩⟩
      · rw [if_neg h1] at h
        by_cases h2 : (0 : Int) < r.2
        · rw [if_pos h2] at h
          cases h
          exact ⟨rfl, Or.inl ⟨ht, r, rfl, rfl, Or.inr (Or.inl ⟨h2, rfl, rfl, rfl, rfl, rfl⟩)⟩⟩
        · rw [if_neg h2] at h
          cases h
          have h3 : r.2 < 0 := by
            have : r.2 ≠ 0 := h1
            omega
          exact ⟨rfl, Or.inl ⟨ht, r, rfl, rfl, Or.inr (Or.inr ⟨h3, rfl, rfl, rfl, rfl, rfl⟩)⟩⟩
    · rw [if_neg ht] at h
      cases h
      exact ⟨rfl, Or.inr ⟨by omega, rfl, rfl, rfl, rfl, rfl, rfl⟩⟩

theorem Fill.body_sameConfig (a : ArchId) (env : Env) (i : Nat) (f f' : Fill) (b : Bool)
    (h : f.body a env i = some (f', b)) : SameConfig f.s f'.s := by
  obtain ⟨rg, cmd, -, -, h⟩ := Fill.body_cases a env i f f' b h
  rcases h with ⟨-, r, hr, -, h⟩ | ⟨-, -, h, -⟩
  · have h0 : SameConfig f.s r.1.s := by
      rw [hr]
      exact (SameConfig.withRg f.s rg).trans (addQueueEntry_frame a _ _ _ _ _ _).sameConfig
    rcases h with ⟨-, -, h, -⟩ | ⟨-, -, h, -⟩ | ⟨-, -, h, -⟩
    · rw [h]; exact h0.trans (SameConfig.withRg _ _)
    · rw [h]; exact h0
    · rw [h]; exact h0.trans (SameConfig.withRg _ _)
  · rw [h]; exact SameConfig.withRg _ _

/-- Induction over the loop of `fill_queue`. -/
theorem Fill.loop_induct (a : ArchId) (env : Env) (P : Fill → Prop)
    (hb : ∀ i f f' b, f.cond a = true → P f → f.body a env i = some (f', b) → P f') :
    ∀ (n i : Nat) (f f' : Fill) (x : Bool), P f → Fill.loop a env n i f = some (f', x) → P f' := by
  intro n
  induction n with
  | zero => intro i f f' x hp h; unfold Fill.loop at h; cases h; exact hp
  | succ n ih =>
    intro i f f' x hp h
    unfold Fill.loop at h
    split at h
    · rename_i hc
      split at h
      · cases h
      · rename_i g hg; exact ih _ _ _ _ (hb i f g true hc hp hg) h
      · rename_i g hg; cases h; exact hb i f _ false hc hp hg
    · cases h; exact hp

theorem fillQueue_cases (a : ArchId) (env : Env) (junk : NextCommand) (s s' : Stepper) (acc : List Cmd)
    (h : s.fillQueue a env junk = some (s', acc)) :
    ((s.rg.isActive = false ∨ s.rg.parameters.checkValidConfig ≠ MOVE_OK) ∧ s' = s ∧ acc = []) ∨
    (s.rg.isActive = true ∧ s.rg.parameters.checkValidConfig = MOVE_OK ∧
      ∃ f0 f x, f0.s = { s with hw := { s.hw with q := { s.hw.q with ignoreCommands := false } } } ∧
        f0.cmd = junk ∧ f0.delayedStart = (!s.hw.q.running) ∧ f0.needDelayedStart = false ∧
        f0.ticksPrepared = f0.s.hw.q.ticksInQueue a ∧ f0.accepted = [] ∧
        Fill.loop a env env.iterations 0 f0 = some (f, x) ∧ acc = f.accepted ∧
        s' = if f.needDelayedStart then (f.s.startQueue true).1 else f.s) := by
  unfold fillQueue at h
  split at h
  · rename_i h1
    cases h
    exact Or.inl ⟨Or.inl (by simpa using h1), rfl, rfl⟩
  · rename_i h1
    split at h
    · rename_i h2; cases h; exact Or.inl ⟨Or.inr h2, rfl, rfl⟩
    · rename_i h2
      right
      refine ⟨by simpa using h1, Decidable.not_not.mp h2, ?_⟩
      dsimp only at h
      revert h
      generalize hf0 : (Fill.mk _ _ _ _ _ _) = f0
      intro h
      cases hl : Fill.loop a env env.iterations 0 f0 with
      | none => rw [hl] at h; cases h
      | some p =>
        obtain ⟨f, x⟩ := p
        rw [hl] at h
        refine ⟨f0, f, x, by rw [← hf0], by rw [← hf0], by rw [← hf0], by rw [← hf0], by rw [← hf0],
          by rw [← hf0], hl, ?_⟩
        dsimp only at h
        by_cases h3 : f.needDelayedStart = true
        · rw [if_pos h3] at h ⊢; cases h; exact ⟨rfl, rfl⟩
        · rw [if_neg h3] at h ⊢; cases h; exact ⟨rfl, rfl⟩

theorem fillQueue_sameConfig (a : ArchId) (env : Env) (junk : NextCommand) (s s' : Stepper) (acc : List Cmd)
    (h : s.fillQueue a env junk = some (s', acc)) : SameConfig s s' := by
  rcases fillQueue_cases a env junk s s' acc h with ⟨-, h, -⟩ | ⟨-, -, f0, f, x, h0, -, -, -, -, -, hl, -, h⟩
  · rw [h]; exact SameConfig.refl s
  · have hf0 : SameConfig s f0.s := by
      rw [h0]; exact ⟨rfl, rfl, rfl, rfl, rfl, rfl, rfl, rfl, rfl, rfl, rfl, rfl⟩
    have hf := Fill.loop_induct a env (fun g => SameConfig s g.s)
      (fun i g g' b _ hp hb => hp.trans (Fill.body_sameConfig a env i g g' b hb)) _ _ _ _ _ hf0 hl
    rw [h]
    split
    · exact hf.trans (startQueue_sameConfig f.s true)
    · exact hf

theorem fillQueue_inactive (a : ArchId) (env : Env) (junk : NextCommand) (s : Stepper)
    (h : s.rg.isActive = false) : s.fillQueue a env junk = some (s, []) := by
  unfold fillQueue
  simp [h]

/-- As long as the direction pin is in use by another stepper, a stopped stepper with empty queue is not
touched by `fill_queue` besides its ramp generator. -/
theorem fillQueue_busy (a : ArchId) (env : Env) (junk : NextCommand) (s s' : Stepper) (acc : List Cmd)
    (hb : ∀ i, env.busy i = true) (hr : s.hw.q.running = false) (hp : s.dirPin ≠ pinUndefined)
    (he : s.hw.q.nextWriteIdx = s.hw.q.readIdx)
    (h : s.fillQueue a env junk = some (s', acc)) : s'.hw.q.running = false ∧ acc = [] ∧ s'.hw.q.nextWriteIdx = s.hw.q.nextWriteIdx := by
  rcases fillQueue_cases a env junk s s' acc h with ⟨-, h, h'⟩ | ⟨-, -, f0, f, x, h0, -, -, -, -, hacc0, hl, hacc, h⟩
  · rw [h]; exact ⟨hr, h', rfl⟩
  · have hf := Fill.loop_induct a env (fun g => g.s.hw = f0.s.hw ∧ g.accepted = []) ?_ _ _ _ _ _ ⟨rfl, hacc0⟩ hl
    · rw [hacc, h]
      refine ⟨?_, hf.2, ?_⟩
      · split
        · unfold startQueue Queue.addNull
          rw [hf.1, h0]
          simp only [hr, he]
          cases s.hw.q.ready <;> simp
        · rw [hf.1, h0]; exact hr
      · split
        · unfold startQueue Queue.addNull
          rw [hf.1, h0]
          simp only [hr, he]
          cases s.hw.q.ready <;> simp
        · rw [hf.1, h0]
    · intro i g g' b _ hg hbody
      obtain ⟨rg, cmd, -, -, hc⟩ := Fill.body_cases a env i g g' b hbody
      rcases hc with ⟨-, r, hr', hac, hc⟩ | ⟨-, -, hc, hac, -⟩
      · have hr2 : r.1.s.hw = f0.s.hw ∧ r.1.accepted = [] := by
          rw [hr']
          unfold addQueueEntry
          dsimp only
          split
          · exact ⟨hg.1, rfl⟩
          · have hcond : ({ g.s with rg := rg } : Stepper).dirPin ≠ pinUndefined ∧
                (!({ g.s with rg := rg } : Stepper).isQueueRunning) = true ∧ env.busy i = true := by
              unfold dirPin isQueueRunning
              simp only [hg.1, h0]
              exact ⟨hp, by simp [hr], hb i⟩
            rw [if_pos hcond]
            exact ⟨hg.1, rfl⟩
        rw [hac, hg.2, hr2.2]
        rcases hc with ⟨-, -, hc, -⟩ | ⟨-, -, hc, -⟩ | ⟨-, -, hc, -⟩ <;> rw [hc] <;> exact ⟨hr2.1, rfl⟩
      · rw [hc, hac]; exact hg

end Stepper
end FAS
