import Verif.Lemmas.Fill
import Verif.Spec.Ramp

/-!
# The task with other parameters which are not applied
-/

namespace FAS
open Spec

/-- The ramp generator with other parameters of the application. -/
def RampGen.withP (g : RampGen) (p : RampParams) (x : Nat) : RampGen := { g with parameters := p, acceleration := x }

/-- The stepper with other parameters of the application. -/
def Stepper.withP (s : Stepper) (p : RampParams) (x : Nat) : Stepper := { s with rg := s.rg.withP p x }

/-- A running `addQueueEntry` with another ramp generator. -/
def Stepper.Call.withRg (k : Stepper.Call) (g : RampGen) : Stepper.Call := { k with s := { k.s with rg := g } }

/-- `fill_queue` with other parameters. -/
def Stepper.Fill.withP (f : Stepper.Fill) (p : RampParams) (x : Nat) : Stepper.Fill := { f with s := f.s.withP p x }

namespace Stepper

theorem Call.addPauses_withRg (a : ArchId) (gaps : Nat → Gap) (up : Bool) (g : RampGen) : ∀ (ts : List Nat) (k : Call),
    (k.withRg g).addPauses a gaps up ts = (k.addPauses a gaps up ts).withRg g
  | [], _ => rfl
  | _ :: ts, k => Call.addPauses_withRg a gaps up g ts (k.add a gaps _ false).1

theorem Call.autoEnable_withRg (a : ArchId) (ext : ExtPin) (gaps : Nat → Gap) (k : Call) (c : Cmd) (st : Bool) (g : RampGen) :
    (k.withRg g).autoEnable a ext gaps c st = ((k.autoEnable a ext gaps c st).1.withRg g, (k.autoEnable a ext gaps c st).2) := by
  unfold Call.autoEnable
  by_cases h1 : k.s.autoEnable ∧ k.s.counter = 0
  · rw [if_pos h1, if_pos (show (k.withRg g).s.autoEnable ∧ (k.withRg g).s.counter = 0 from h1)]
    change (if (!(k.s.enableOutputs ext).1) = true then _ else _) = _
    by_cases h2 : (!(k.s.enableOutputs ext).1) = true
    · dsimp only
      rw [if_pos h2, if_pos h2]; rfl
    · dsimp only
      rw [if_neg h2, if_neg h2]
      change (if k.s.onDelayTicks > 0 then _ else _) = _
      by_cases h3 : k.s.onDelayTicks > 0
      · rw [if_pos h3, if_pos h3]
        have := Call.addPauses_withRg a gaps c.countUp g (onDelayPauses (if k.s.onDelayTicks < k.s.dirChangeDelayTicks ∧ k.s.hw.q.qend.countUp ≠ c.countUp
          then k.s.dirChangeDelayTicks else k.s.onDelayTicks) (if k.s.onDelayTicks < k.s.dirChangeDelayTicks ∧ k.s.hw.q.qend.countUp ≠ c.countUp
          then k.s.dirChangeDelayTicks else k.s.onDelayTicks)) { k with writes := k.writes ++ (k.s.enableOutputs ext).2 }
        exact congrArg (fun k' : Call => ((k'.addNull a gaps st).1, if (k'.addNull a gaps st).2 ≠ AQE_OK then some (k'.addNull a gaps st).2 else none)) this
      · rw [if_neg h3, if_neg h3]; rfl
  · rw [if_neg h1, if_neg (show ¬((k.withRg g).s.autoEnable ∧ (k.withRg g).s.counter = 0) from h1)]

theorem Call.dirChange_withRg (a : ArchId) (gaps : Nat → Gap) (k : Call) (c : Cmd) (st : Bool) (g : RampGen) :
    (k.withRg g).dirChange a gaps c st = ((k.dirChange a gaps c st).1.withRg g, (k.dirChange a gaps c st).2) := by
  unfold Call.dirChange
  by_cases h1 : k.s.hw.q.qend.countUp ≠ c.countUp
  · rw [if_pos h1, if_pos (show (k.withRg g).s.hw.q.qend.countUp ≠ c.countUp from h1)]
    by_cases h2 : pinIsExternal k.s.dirPin = true
    · rw [if_pos h2, if_pos (show pinIsExternal (k.withRg g).s.dirPin = true from h2)]
      by_cases h3 : (k.s.hw.gap a (gaps k.n)).q.queueEntries > a.queueLen - 2
      · rw [if_pos h3, if_pos (show ((k.withRg g).s.hw.gap a (gaps (k.withRg g).n)).q.queueEntries > a.queueLen - 2 from h3)]; rfl
      · rw [if_neg h3, if_neg (show ¬((k.withRg g).s.hw.gap a (gaps (k.withRg g).n)).q.queueEntries > a.queueLen - 2 from h3)]
        dsimp only
        generalize hk : (⟨{ k.s with hw := k.s.hw.gap a (gaps k.n) }, k.n + 1, k.accepted, k.writes⟩ : Call) = k1
        have hk' : (⟨{ (k.withRg g).s with hw := (k.withRg g).s.hw.gap a (gaps (k.withRg g).n) }, (k.withRg g).n + 1, (k.withRg g).accepted,
            (k.withRg g).writes⟩ : Call) = k1.withRg g := by rw [← hk]; rfl
        rw [hk']
        by_cases h4 : (k1.add a gaps ⟨u16 (usToTicks a 500), 0, c.countUp⟩ st).2 ≠ AQE_OK
        · rw [if_pos h4, if_pos (show ((k1.withRg g).add a gaps ⟨u16 (usToTicks a 500), 0, c.countUp⟩ st).2 ≠ AQE_OK from h4)]; rfl
        · rw [if_neg h4, if_neg (show ¬((k1.withRg g).add a gaps ⟨u16 (usToTicks a 500), 0, c.countUp⟩ st).2 ≠ AQE_OK from h4)]; rfl
    · rw [if_neg h2, if_neg (show ¬ pinIsExternal (k.withRg g).s.dirPin = true from h2)]
      by_cases h3 : k.s.dirChangeDelayTicks ≠ 0 ∧ c.steps ≠ 0
      · rw [if_pos h3, if_pos (show (k.withRg g).s.dirChangeDelayTicks ≠ 0 ∧ c.steps ≠ 0 from h3)]; rfl
      · rw [if_neg h3, if_neg (show ¬((k.withRg g).s.dirChangeDelayTicks ≠ 0 ∧ c.steps ≠ 0) from h3)]
  · rw [if_neg h1, if_neg (show ¬(k.withRg g).s.hw.q.qend.countUp ≠ c.countUp from h1)]

theorem Call.final_withRg (a : ArchId) (gaps : Nat → Gap) (k : Call) (c : Cmd) (st : Bool) (g : RampGen) :
    (k.withRg g).final a gaps c st = ((k.final a gaps c st).1.withRg g, (k.final a gaps c st).2) := by
  unfold Call.final
  by_cases h : (k.add a gaps c st).1.s.autoEnable ∧ (k.add a gaps c st).2 = AQE_OK
  · dsimp only
    rw [if_pos h, if_pos (show ((k.withRg g).add a gaps c st).1.s.autoEnable ∧ ((k.withRg g).add a gaps c st).2 = AQE_OK from h)]; rfl
  · dsimp only
    rw [if_neg h, if_neg (show ¬(((k.withRg g).add a gaps c st).1.s.autoEnable ∧ ((k.withRg g).add a gaps c st).2 = AQE_OK) from h)]; rfl

/-- `addQueueEntry()` does not depend on the ramp generator and keeps it. -/
theorem addQueueEntry_withRg (a : ArchId) (ext : ExtPin) (gaps : Nat → Gap) (busy : Bool) (s : Stepper) (c : Cmd) (st : Bool) (g : RampGen) :
    ({ s with rg := g } : Stepper).addQueueEntry a ext gaps busy c st =
      ((s.addQueueEntry a ext gaps busy c st).1.withRg g, (s.addQueueEntry a ext gaps busy c st).2) := by
  unfold addQueueEntry
  dsimp only
  by_cases h1 : c.ticks < s.hw.q.maxSpeedInTicks
  · rw [if_pos h1, if_pos h1]; rfl
  · rw [if_neg h1, if_neg h1]
    by_cases h2 : s.dirPin ≠ pinUndefined ∧ (!s.isQueueRunning) = true ∧ busy = true
    · rw [if_pos h2, if_pos (show ({ s with rg := g } : Stepper).dirPin ≠ pinUndefined ∧ (!({ s with rg := g } : Stepper).isQueueRunning) = true ∧ busy = true from h2)]; rfl
    · rw [if_neg h2, if_neg (show ¬(({ s with rg := g } : Stepper).dirPin ≠ pinUndefined ∧ (!({ s with rg := g } : Stepper).isQueueRunning) = true ∧ busy = true) from h2)]
      by_cases h3 : s.dirPin = pinUndefined ∧ (!c.countUp) = true
      · rw [if_pos h3, if_pos (show ({ s with rg := g } : Stepper).dirPin = pinUndefined ∧ (!c.countUp) = true from h3)]; rfl
      · rw [if_neg h3, if_neg (show ¬(({ s with rg := g } : Stepper).dirPin = pinUndefined ∧ (!c.countUp) = true) from h3)]
        have e := Call.autoEnable_withRg a ext gaps ⟨s, 0, [], []⟩ c st g
        change Call.autoEnable a ext gaps ⟨{ s with rg := g }, 0, [], []⟩ c st = _ at e
        rw [e]
        generalize Call.autoEnable a ext gaps ⟨s, 0, [], []⟩ c st = r
        obtain ⟨k, code⟩ := r
        cases code with
        | some code => rfl
        | none =>
          dsimp only
          rw [Call.dirChange_withRg]
          generalize Call.dirChange a gaps k c st = r
          obtain ⟨k, code⟩ := r
          cases code with
          | some code => rfl
          | none => exact Call.final_withRg a gaps k c st g

end Stepper

/-! ## The ramp generator -/

theorem RampGen.startSteps_withP (a : ArchId) (g : RampGen) (p : RampParams) (x : Nat) :
    (g.withP p x).startSteps a = (g.startSteps a).withP p x := by
  unfold RampGen.startSteps
  by_cases h1 : g.rw.currTicks = ticksForStoppedMotor
  · dsimp only
    rw [if_pos h1, if_pos (show (g.withP p x).rw.currTicks = ticksForStoppedMotor from h1)]; rfl
  · dsimp only
    rw [if_neg h1, if_neg (show ¬(g.withP p x).rw.currTicks = ticksForStoppedMotor from h1)]
    by_cases h2 : g.ro.config.parameters.recalcRampSteps = true
    · rw [if_pos h2, if_pos (show (g.withP p x).ro.config.parameters.recalcRampSteps = true from h2)]; rfl
    · rw [if_neg h2, if_neg (show ¬(g.withP p x).ro.config.parameters.recalcRampSteps = true from h2)]

theorem RampGen.updateTarget_withP (g : RampGen) (k : Bool) (qe : QueueEnd) (p : RampParams) (x : Nat) :
    (g.withP p x).updateTarget k qe = (g.updateTarget k qe).withP p x := by
  unfold RampGen.updateTarget
  by_cases h1 : g.ro.forceStop = true
  · dsimp only
    rw [if_pos h1, if_pos (show (g.withP p x).ro.forceStop = true from h1)]; rfl
  · dsimp only
    rw [if_neg h1, if_neg (show ¬(g.withP p x).ro.forceStop = true from h1)]
    by_cases h2 : g.ro.config.parameters.anyChange = true
    · rw [if_pos h2, if_pos (show (g.withP p x).ro.config.parameters.anyChange = true from h2)]
      by_cases h3 : g.ro.config.parameters.keepRunning = true
      · rw [if_pos h3, if_pos (show (g.withP p x).ro.config.parameters.keepRunning = true from h3)]; rfl
      · rw [if_neg h3, if_neg (show ¬(g.withP p x).ro.config.parameters.keepRunning = true from h3)]
        by_cases h4 : g.ro.config.parameters.moveAbsolute = true
        · rw [if_pos h4, if_pos (show (g.withP p x).ro.config.parameters.moveAbsolute = true from h4)]; rfl
        · rw [if_neg h4, if_neg (show ¬(g.withP p x).ro.config.parameters.moveAbsolute = true from h4)]; rfl
    · rw [if_neg h2, if_neg (show ¬(g.withP p x).ro.config.parameters.anyChange = true from h2)]

theorem RampGen.prepare_withP (a : ArchId) (g : RampGen) (qe : QueueEnd) (p : RampParams) (x : Nat) (hg : g.parameters.apply = false)
    (hp : p.apply = false) : (g.withP p x).prepare a qe = (g.prepare a qe).withP p x := by
  unfold RampGen.prepare
  have h1 : g.takeOver a = g := by unfold RampGen.takeOver; rw [if_neg (by rw [hg]; decide)]
  have h2 : (g.withP p x).takeOver a = g.withP p x := by
    unfold RampGen.takeOver
    rw [if_neg (show ¬ (g.withP p x).parameters.apply = true from (show ¬ p.apply = true by rw [hp]; decide))]
  rw [h1, h2, RampGen.startSteps_withP]
  change ((RampGen.withP (g.startSteps a) p x).updateTarget g.ro.config.parameters.keepRunning qe).clearRecalc = _
  rw [RampGen.updateTarget_withP]; rfl

theorem RampGen.prepare_params (a : ArchId) (g : RampGen) (qe : QueueEnd) (hg : g.parameters.apply = false) :
    (g.prepare a qe).parameters = g.parameters := by
  unfold RampGen.prepare
  have h1 : g.takeOver a = g := by unfold RampGen.takeOver; rw [if_neg (by rw [hg]; decide)]
  rw [h1]
  have h2 : (g.startSteps a).parameters = g.parameters := by
    unfold RampGen.startSteps; dsimp only; repeat' split
    all_goals rfl
  rw [← h2]
  generalize g.startSteps a = g1
  change (g1.updateTarget _ qe).parameters = _
  unfold RampGen.updateTarget; dsimp only; repeat' split
  all_goals rfl

/-- Parameters which are not applied have no influence on the ramp generator. -/
theorem RampGen.getNextCommand_withP (a : ArchId) (g : RampGen) (qe : QueueEnd) (junk : NextCommand) (p : RampParams) (x : Nat)
    (hg : g.parameters.apply = false) (hp : p.apply = false) :
    (g.withP p x).getNextCommand a qe junk = (g.getNextCommand a qe junk).map (fun r => (r.1.withP p x, r.2)) := by
  unfold RampGen.getNextCommand
  rw [RampGen.prepare_withP a g qe p x hg hp]
  generalize g.prepare a qe = g1
  by_cases h : g1.ro.forceImmediateStop = true
  · dsimp only
    rw [if_pos h, if_pos (show (g1.withP p x).ro.forceImmediateStop = true from h)]; rfl
  · dsimp only
    rw [if_neg h, if_neg (show ¬(g1.withP p x).ro.forceImmediateStop = true from h)]
    change (match Planner.getNextCommand a g1.ro g1.rw qe junk with | none => none | some c => some (g1.withP p x, c)) = _
    generalize Planner.getNextCommand a g1.ro g1.rw qe junk = r
    cases r <;> rfl

theorem RampGen.getNextCommand_params (a : ArchId) (g g' : RampGen) (qe : QueueEnd) (junk c : NextCommand) (hg : g.parameters.apply = false)
    (h : g.getNextCommand a qe junk = some (g', c)) : g'.parameters = g.parameters := by
  rw [← RampGen.prepare_params a g qe hg]
  unfold RampGen.getNextCommand at h
  dsimp only at h
  split at h
  · cases h; rfl
  · split at h
    · cases h
    · cases h; rfl

/-! ## The task -/

namespace Stepper

theorem Fill.body_withP (a : ArchId) (env : Env) (i : Nat) (f : Fill) (p : RampParams) (x : Nat)
    (hf : f.s.rg.parameters.apply = false) (hp : p.apply = false) :
    (f.withP p x).body a env i = (f.body a env i).map (fun r => (r.1.withP p x, r.2)) := by
  unfold Fill.body
  have e : (f.withP p x).s.rg.getNextCommand a (f.withP p x).s.hw.q.qend (f.withP p x).cmd =
      (f.s.rg.getNextCommand a f.s.hw.q.qend f.cmd).map (fun r => (r.1.withP p x, r.2)) :=
    RampGen.getNextCommand_withP a f.s.rg f.s.hw.q.qend f.cmd p x hf hp
  rw [e]
  generalize f.s.rg.getNextCommand a f.s.hw.q.qend f.cmd = r
  cases r with
  | none => rfl
  | some r =>
    obtain ⟨rg, cmd⟩ := r
    dsimp only [Option.map_some]
    by_cases h1 : cmd.command.ticks ≠ 0
    · rw [if_pos h1, if_pos h1]
      have e2 := addQueueEntry_withRg a (env.ext i) (env.gaps i) (env.busy i) { f.s with rg := rg } cmd.command (!f.delayedStart) (rg.withP p x)
      change ({ (f.withP p x).s with rg := rg.withP p x } : Stepper).addQueueEntry a (env.ext i) (env.gaps i) (env.busy i) cmd.command
        (!(f.withP p x).delayedStart) = _ at e2
      rw [e2]
      have e3 : (addQueueEntry a (env.ext i) (env.gaps i) (env.busy i) { f.s with rg := rg } cmd.command (!f.delayedStart)).1.s.rg = rg :=
        (addQueueEntry_frame a (env.ext i) (env.gaps i) (env.busy i) { f.s with rg := rg } cmd.command (!f.delayedStart)).rg
      generalize addQueueEntry a (env.ext i) (env.gaps i) (env.busy i) { f.s with rg := rg } cmd.command (!f.delayedStart) = r at e3
      obtain ⟨k, code⟩ := r
      dsimp only at e3 ⊢
      have e4 : ∀ g : RampGen, (k.withRg g).accepted = k.accepted := fun _ => rfl
      by_cases h2 : code = AQE_OK
      · rw [if_pos h2, if_pos h2]
        change some _ = some (Fill.withP ⟨{ k.s with rg := k.s.rg.afterCommandEnqueued cmd }, _, _, _, _, _⟩ p x, true)
        rw [e3]; rfl
      · rw [if_neg h2, if_neg h2]
        by_cases h3 : (0 : Int) < code
        · rw [if_pos h3, if_pos h3]
          obtain ⟨s, n, acc, w⟩ := k
          dsimp only at e3
          subst e3
          rfl
        · rw [if_neg h3, if_neg h3]
          obtain ⟨s, n, acc, w⟩ := k
          dsimp only at e3
          subst e3
          rfl
    · rw [if_neg h1, if_neg h1]; rfl

theorem Fill.body_params (a : ArchId) (env : Env) (i : Nat) (f f' : Fill) (b : Bool) (hf : f.s.rg.parameters.apply = false)
    (h : f.body a env i = some (f', b)) : f'.s.rg.parameters = f.s.rg.parameters := by
  unfold Fill.body at h
  cases hr : f.s.rg.getNextCommand a f.s.hw.q.qend f.cmd with
  | none => rw [hr] at h; cases h
  | some r =>
    obtain ⟨rg, cmd⟩ := r
    rw [hr] at h
    have hp := RampGen.getNextCommand_params a _ _ _ _ _ hf hr
    have e3 : (addQueueEntry a (env.ext i) (env.gaps i) (env.busy i) { f.s with rg := rg } cmd.command (!f.delayedStart)).1.s.rg = rg :=
      (addQueueEntry_frame a (env.ext i) (env.gaps i) (env.busy i) { f.s with rg := rg } cmd.command (!f.delayedStart)).rg
    dsimp only at h
    generalize addQueueEntry a (env.ext i) (env.gaps i) (env.busy i) { f.s with rg := rg } cmd.command (!f.delayedStart) = r at e3 h
    split at h
    · split at h
      · cases h; rw [← hp, ← e3]; rfl
      · split at h
        · cases h; rw [← hp, ← e3]
        · cases h; rw [← hp, ← e3]; rfl
    · cases h; rw [← hp]; rfl

theorem Fill.loop_withP (a : ArchId) (env : Env) (p : RampParams) (x : Nat) (hp : p.apply = false) : ∀ (n i : Nat) (f : Fill),
    f.s.rg.parameters.apply = false →
    Fill.loop a env n i (f.withP p x) = (Fill.loop a env n i f).map (fun r => (r.1.withP p x, r.2))
  | 0, _, _, _ => rfl
  | n + 1, i, f, hf => by
    unfold Fill.loop
    by_cases h : f.cond a = true
    · rw [if_pos h, if_pos (show (f.withP p x).cond a = true from h), Fill.body_withP a env i f p x hf hp]
      cases hb : f.body a env i with
      | none => rfl
      | some r =>
        obtain ⟨f', b⟩ := r
        have h' := Fill.body_params a env i f f' b hf hb
        cases b with
        | false => rfl
        | true => exact Fill.loop_withP a env p x hp n (i + 1) f' (by rw [h']; exact hf)
    · rw [if_neg h, if_neg (show ¬(f.withP p x).cond a = true from h)]; rfl

theorem Fill.loop_params (a : ArchId) (env : Env) : ∀ (n i : Nat) (f f' : Fill) (b : Bool), f.s.rg.parameters.apply = false →
    Fill.loop a env n i f = some (f', b) → f'.s.rg.parameters = f.s.rg.parameters
  | 0, _, _, _, _, _, h => by cases h; rfl
  | n + 1, i, f, f', b, hf, h => by
    unfold Fill.loop at h
    by_cases hc : f.cond a = true
    · rw [if_pos hc] at h
      cases hb : f.body a env i with
      | none => rw [hb] at h; cases h
      | some r =>
        obtain ⟨f1, b1⟩ := r
        have h' := Fill.body_params a env i f f1 b1 hf hb
        rw [hb] at h
        cases b1 with
        | false => cases h; exact h'
        | true => rw [← h']; exact Fill.loop_params a env n (i + 1) f1 f' b (by rw [h']; exact hf) h
    · rw [if_neg hc] at h; cases h; rfl

/-- A service by the task does not depend on parameters which are not applied, and keeps them. -/
theorem fillQueue_withP (a : ArchId) (env : Env) (junk : NextCommand) (s : Stepper) (p : RampParams) (x : Nat)
    (hs : s.rg.parameters.apply = false) (hp : p.apply = false) (hv : s.rg.parameters.checkValidConfig = MOVE_OK)
    (hpv : p.checkValidConfig = MOVE_OK) :
    (s.withP p x).fillQueue a env junk = (s.fillQueue a env junk).map (fun r => (r.1.withP p x, r.2)) := by
  unfold fillQueue
  by_cases h1 : (!s.rg.isActive) = true
  · rw [if_pos h1, if_pos (show (!(s.withP p x).rg.isActive) = true from h1)]; rfl
  · rw [if_neg h1, if_neg (show ¬(!(s.withP p x).rg.isActive) = true from h1), 
      if_neg (show ¬ (s.withP p x).rg.parameters.checkValidConfig ≠ MOVE_OK from (show ¬ p.checkValidConfig ≠ MOVE_OK by rw [hpv]; decide)),
      if_neg (show ¬ s.rg.parameters.checkValidConfig ≠ MOVE_OK by rw [hv]; decide)]
    dsimp only
    generalize hf : (⟨{ s with hw := { s.hw with q := { s.hw.q with ignoreCommands := false } } }, junk, !s.hw.q.running, false,
      ({ s.hw.q with ignoreCommands := false } : Queue).ticksInQueue a, []⟩ : Fill) = f
    have hf' : (⟨{ (s.withP p x) with hw := { (s.withP p x).hw with q := { (s.withP p x).hw.q with ignoreCommands := false } } }, junk,
        !(s.withP p x).hw.q.running, false, ({ (s.withP p x).hw.q with ignoreCommands := false } : Queue).ticksInQueue a, []⟩ : Fill) = f.withP p x := by
      rw [← hf]; rfl
    rw [hf', Fill.loop_withP a env p x hp _ _ f (by rw [← hf]; exact hs)]
    generalize Fill.loop a env env.iterations 0 f = r
    cases r with
    | none => rfl
    | some r =>
      obtain ⟨f, b⟩ := r
      dsimp only [Option.map_some]
      by_cases h2 : f.needDelayedStart = true
      · rw [if_pos h2, if_pos (show (f.withP p x).needDelayedStart = true from h2)]; rfl
      · rw [if_neg h2, if_neg (show ¬(f.withP p x).needDelayedStart = true from h2)]; rfl

theorem fillQueue_params (a : ArchId) (env : Env) (junk : NextCommand) (s s' : Stepper) (acc : List Cmd)
    (hs : s.rg.parameters.apply = false) (h : s.fillQueue a env junk = some (s', acc)) : s'.rg.parameters = s.rg.parameters := by
  unfold fillQueue at h
  split at h
  · cases h; rfl
  · split at h
    · cases h; rfl
    · dsimp only at h
      split at h
      · cases h
      · rename_i f b hl
        have := Fill.loop_params a env _ _ _ f b (show _ from hs) hl
        split at h
        · cases h; exact this
        · cases h; exact this

end Stepper
end FAS
