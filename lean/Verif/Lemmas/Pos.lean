import Verif.Lemmas.Count
import Verif.Lemmas.Fill

/-!
# The position at the end of the queue through the calls of the API

Whatever queue calls a function makes, the position after completion of all commands changes by the signed sum of the
steps of the commands which it added.
-/

namespace FAS
namespace Stepper

/-- The position at the end of the queue has moved by the steps of `new`. -/
def Moved (s s' : Stepper) (new : List Cmd) : Prop :=
  i32 s.hw.q.qend.pos = s.hw.q.qend.pos → s'.hw.q.qend.pos = i32 (s.hw.q.qend.pos + signedSum new)

theorem Moved.of_eq {s s' : Stepper} (h : s'.hw.q.qend.pos = s.hw.q.qend.pos) : Moved s s' [] := by
  intro hr; rw [h]; simp [signedSum, hr]

theorem Moved.trans {s t u : Stepper} {xs ys : List Cmd} (h1 : Moved s t xs) (h2 : Moved t u ys) : Moved s u (xs ++ ys) := by
  intro hr
  have e1 := h1 hr
  have e2 := h2 (by rw [e1]; unfold i32; omega)
  rw [e2, e1, i32_i32_add, signedSum_append]
  congr 1
  omega

theorem Moved.congr {s s' t t' : Stepper} {xs : List Cmd} (h : Moved s t xs) (h1 : s'.hw.q.qend.pos = s.hw.q.qend.pos)
    (h2 : t'.hw.q.qend.pos = t.hw.q.qend.pos) : Moved s' t' xs := by
  intro hr
  rw [h2, h1]
  exact h (by rw [← h1]; exact hr)

/-- `Queue.add` and the position. -/
theorem _root_.FAS.Queue.add_pos (a : ArchId) (q : Queue) (c : Cmd) (st : Bool) :
    (q.add a c st).q.qend.pos =
      (if (q.add a c st).code = AQE_OK ∧ q.ignoreCommands = false then Queue.nextPos q.qend.pos c else q.qend.pos) := by
  obtain ⟨e, pe, pr, pw, prun, pready, pign, ppos, pdp, pdh, pms, pn, -⟩ := prepare_spec a q c
  cases hr : q.ready
  · rw [Queue.add_notReady a q c st hr]; simp [AQE_DEVICE_NOT_READY, AQE_OK]
  · by_cases hf : q.queueEntries = a.queueLen
    · rw [Queue.add_full a q c st hr hf]; simp [AQE_QUEUE_FULL, AQE_OK]
    · by_cases hl : Queue.commandRateTicks c < a.minCmdTicks
      · rw [Queue.add_low a q c st hr hf hl]; simp [AQE_ERROR_TICKS_TOO_LOW, AQE_OK]
      · cases hi : q.ignoreCommands
        · rw [Queue.add_ok a q c st hr hf hl hi]; simp [pn]
        · rw [Queue.add_ignored a q c st hr hf hl hi]; simp [ppos]

/-- Between two points of a call the position moved by the steps of the commands accepted in between. -/
def Call.Moved (k k' : Call) : Prop := ∃ new, k'.accepted = k.accepted ++ new ∧ Stepper.Moved k.s k'.s new

theorem Call.Moved.of_eq {k k' : Call} (h : k'.accepted = k.accepted) (hp : k'.s.hw.q.qend.pos = k.s.hw.q.qend.pos) :
    k.Moved k' := ⟨[], by simp [h], Stepper.Moved.of_eq hp⟩

theorem Call.Moved.trans {k k' k'' : Call} (h : k.Moved k') (h' : k'.Moved k'') : k.Moved k'' := by
  obtain ⟨xs, e1, m1⟩ := h
  obtain ⟨ys, e2, m2⟩ := h'
  exact ⟨xs ++ ys, by rw [e2, e1, List.append_assoc], m1.trans m2⟩

theorem startFlag_pos (b : Bool) (q : Queue) : (if b then { q with running := true } else q).qend.pos = q.qend.pos := by
  cases b <;> rfl

theorem Call.Moved.add (a : ArchId) (gaps : Nat → Gap) (k : Call) (c : Cmd) (st : Bool) :
    k.Moved (k.add a gaps c st).1 := by
  have hg := k.s.hw.gap_fields a (gaps k.n)
  have hp := Queue.add_pos a (k.s.hw.gap a (gaps k.n)).q c st
  have hpos : (k.add a gaps c st).1.s.hw.q.qend.pos = ((k.s.hw.gap a (gaps k.n)).q.add a c st).q.qend.pos :=
    startFlag_pos _ _
  by_cases h : ((k.s.hw.gap a (gaps k.n)).q.add a c st).code = AQE_OK ∧ (k.s.hw.gap a (gaps k.n)).q.ignoreCommands = false
  · refine ⟨[c], ?_, ?_⟩
    · unfold Call.add
      dsimp only
      rw [if_pos ⟨h.1, by simp [h.2]⟩]
    · intro hr
      rw [hpos, hp, if_pos h, hg.1]
      simp [Queue.nextPos, signedSum, Cmd.signed]
  · refine Call.Moved.of_eq ?_ ?_
    · unfold Call.add
      dsimp only
      rw [if_neg (fun hh => h ⟨hh.1, by simpa using hh.2⟩)]
    · rw [hpos, hp, if_neg h, hg.1]

theorem Call.Moved.addNull (a : ArchId) (gaps : Nat → Gap) (k : Call) (st : Bool) :
    k.Moved (k.addNull a gaps st).1 := by
  refine Call.Moved.of_eq rfl ?_
  have hg := k.s.hw.gap_fields a (gaps k.n)
  have : (k.addNull a gaps st).1.s.hw.q.qend.pos = ((k.s.hw.gap a (gaps k.n)).q.addNull st).q.qend.pos :=
    startFlag_pos _ _
  rw [this, Queue.addNull_q, hg.1]

theorem Call.Moved.addPauses (a : ArchId) (gaps : Nat → Gap) (u : Bool) :
    ∀ (ts : List Nat) (k : Call), k.Moved (k.addPauses a gaps u ts)
  | [], _ => Call.Moved.of_eq rfl rfl
  | _ :: ts, k => (Call.Moved.add a gaps k _ false).trans (Call.Moved.addPauses a gaps u ts _)

theorem Call.Moved.autoEnable (a : ArchId) (ext : ExtPin) (gaps : Nat → Gap) (k : Call) (c : Cmd) (st : Bool) :
    k.Moved (k.autoEnable a ext gaps c st).1 := by
  unfold Call.autoEnable
  dsimp only
  have hw : ∀ w, k.Moved { k with writes := w } := fun w => Call.Moved.of_eq rfl rfl
  split
  · split
    · exact hw _
    · split
      · exact (hw _).trans ((Call.Moved.addPauses a gaps _ _ _).trans (Call.Moved.addNull a gaps _ st))
      · exact hw _
  · exact Call.Moved.of_eq rfl rfl

theorem Call.Moved.dirChange (a : ArchId) (gaps : Nat → Gap) (k : Call) (c : Cmd) (st : Bool) :
    k.Moved (k.dirChange a gaps c st).1 := by
  have hg : k.Moved { k with s := { k.s with hw := k.s.hw.gap a (gaps k.n) }, n := k.n + 1 } :=
    Call.Moved.of_eq rfl (congrArg QueueEnd.pos (k.s.hw.gap_fields a (gaps k.n)).1)
  unfold Call.dirChange
  dsimp only
  split
  · split
    · split
      · exact hg
      · split
        · exact hg.trans (Call.Moved.add a gaps _ _ st)
        · exact hg.trans ((Call.Moved.add a gaps _ _ st).trans (Call.Moved.add a gaps _ _ st))
    · split
      · exact Call.Moved.add a gaps _ _ st
      · exact Call.Moved.of_eq rfl rfl
  · exact Call.Moved.of_eq rfl rfl

theorem Call.Moved.final (a : ArchId) (gaps : Nat → Gap) (k : Call) (c : Cmd) (st : Bool) :
    k.Moved (k.final a gaps c st).1 := by
  unfold Call.final
  dsimp only
  have h := Call.Moved.add a gaps k c st
  split
  · exact h.trans (Call.Moved.of_eq rfl rfl)
  · exact h

theorem addQueueEntry_moved (a : ArchId) (ext : ExtPin) (gaps : Nat → Gap) (busy : Bool) (s : Stepper)
    (c : Cmd) (st : Bool) :
    Moved s (s.addQueueEntry a ext gaps busy c st).1.s (s.addQueueEntry a ext gaps busy c st).1.accepted := by
  have key : (⟨s, 0, [], []⟩ : Call).Moved (s.addQueueEntry a ext gaps busy c st).1 := by
    unfold addQueueEntry
    dsimp only
    split
    · exact Call.Moved.of_eq rfl rfl
    split
    · exact Call.Moved.of_eq rfl rfl
    split
    · exact Call.Moved.of_eq rfl rfl
    have h1 := Call.Moved.autoEnable a ext gaps ⟨s, 0, [], []⟩ c st
    split
    · rename_i k code hk; rw [hk] at h1; exact h1
    · rename_i k hk; rw [hk] at h1
      have h2 := Call.Moved.dirChange a gaps k c st
      split
      · rename_i k' code hk'; rw [hk'] at h2; exact h1.trans h2
      · rename_i k' hk'; rw [hk'] at h2
        exact h1.trans (h2.trans (Call.Moved.final a gaps k' c st))
  obtain ⟨new, h1, h2⟩ := key
  simp only [List.nil_append] at h1
  rw [h1]
  exact h2

theorem startQueue_pos (s : Stepper) (st : Bool) : (s.startQueue st).1.hw.q.qend.pos = s.hw.q.qend.pos := by
  have : (s.startQueue st).1.hw.q.qend.pos = (s.hw.q.addNull st).q.qend.pos := startFlag_pos _ _
  rw [this, Queue.addNull_q]

theorem fillQueue_moved (a : ArchId) (env : Env) (junk : NextCommand) (s s' : Stepper) (acc : List Cmd)
    (h : s.fillQueue a env junk = some (s', acc)) : Moved s s' acc := by
  rcases fillQueue_cases a env junk s s' acc h with ⟨-, h1, h2⟩ | ⟨-, -, f0, f, x, h1, -, -, -, -, h2, h3, h4, h5⟩
  · rw [h1, h2]; exact Moved.of_eq rfl
  · have h0 : Moved s f0.s f0.accepted := by rw [h1, h2]; exact Moved.of_eq rfl
    have hl : Moved s f.s f.accepted := by
      refine Fill.loop_induct a env (fun f => Moved s f.s f.accepted) ?_ _ _ _ _ _ h0 h3
      intro i f f' b _ hm hb
      obtain ⟨rg, cmd, -, -, hb⟩ := Fill.body_cases a env i f f' b hb
      rcases hb with ⟨-, r, hr, ha, hb⟩ | ⟨-, -, hs, ha, -⟩
      · have hm' : Moved s r.1.s f'.accepted := by
          rw [ha, hr]
          exact hm.trans ((addQueueEntry_moved a (env.ext i) (env.gaps i) (env.busy i) { f.s with rg := rg } cmd.command
            (!f.delayedStart)).congr rfl rfl)
        rcases hb with ⟨-, -, hs, -⟩ | ⟨-, -, hs, -⟩ | ⟨-, -, hs, -⟩ <;> rw [hs]
        · exact hm'.congr rfl rfl
        · exact hm'
        · exact hm'.congr rfl rfl
      · rw [ha, hs]; exact hm.congr rfl rfl
    rw [h4, h5]
    split
    · exact hl.congr rfl (startQueue_pos _ _)
    · exact hl

/-- One command of `moveTimed`. -/
theorem Timed.add_moved (a : ArchId) (env : Env) (st : Bool) (s : Stepper) (t : Timed) (c : Cmd) (d : Nat)
    (h : Moved s t.s t.accepted) : Moved s (t.add a env st c d).1.s (t.add a env st c d).1.accepted :=
  h.trans (addQueueEntry_moved a (env.ext t.n) (env.gaps t.n) (env.busy t.n) t.s c st)

theorem moved_ite {s : Stepper} {c : Prop} [Decidable c] {x y : Timed × Int} (h1 : Moved s x.1.s x.1.accepted)
    (h2 : Moved s y.1.s y.1.accepted) : Moved s (if c then x else y).1.s (if c then x else y).1.accepted := by
  split
  · exact h1
  · exact h2

theorem Timed.pauses_moved (a : ArchId) (env : Env) (st : Bool) (ok : Int) (s : Stepper) : ∀ (n : Nat) (t : Timed) (d : Nat),
    Moved s t.s t.accepted → Moved s (t.pauses a env st ok n d).1.s (t.pauses a env st ok n d).1.accepted
  | 0, t, d, h => h
  | n + 1, t, d, h => by
    unfold Timed.pauses
    split
    · dsimp only
      exact moved_ite (Timed.add_moved a env st s t _ _ h)
        (Timed.pauses_moved a env st ok s n _ _ (Timed.add_moved a env st s t _ _ h))
    · exact h

theorem Timed.slowStep_moved (a : ArchId) (env : Env) (st up : Bool) (s : Stepper) : ∀ (n : Nat) (t : Timed) (steps d : Nat),
    Moved s t.s t.accepted → Moved s (t.slowStep a env st up n steps d).1.s (t.slowStep a env st up n steps d).1.accepted
  | 0, t, _, d, h => h
  | n + 1, t, _, d, h => by
    unfold Timed.slowStep
    split
    · dsimp only
      exact moved_ite (Timed.add_moved a env st s t _ _ h)
        (Timed.slowStep_moved a env st up s n _ _ _ (Timed.add_moved a env st s t _ _ h))
    · exact h

theorem Timed.slow_moved (a : ArchId) (env : Env) (st up : Bool) (ok : Int) (rate : Nat) (s : Stepper) :
    ∀ (n : Nat) (t : Timed),
    Moved s t.s t.accepted → Moved s (t.slow a env st up ok rate n).1.s (t.slow a env st up ok rate n).1.accepted
  | 0, t, h => h
  | n + 1, t, h => by
    unfold Timed.slow
    dsimp only
    have h1 := Timed.slowStep_moved a env st up s rate t 1 rate h
    split
    · exact h1
    · exact Timed.slow_moved a env st up ok rate s n _ h1

theorem Timed.fast_moved (a : ArchId) (env : Env) (st up : Bool) (ok : Int) (s : Stepper) :
    ∀ (n : Nat) (t : Timed) (steps ticks missing : Nat), Moved s t.s t.accepted →
    Moved s (t.fast a env st up ok n steps ticks missing).1.s (t.fast a env st up ok n steps ticks missing).1.accepted
  | 0, t, _, _, _, h => h
  | n + 1, t, steps, ticks, missing, h => by
    unfold Timed.fast
    split
    · dsimp only
      exact moved_ite (Timed.add_moved a env st s t _ _ h)
        (Timed.fast_moved a env st up ok s n _ _ _ _ (Timed.add_moved a env st s t _ _ h))
    · exact h

theorem moveTimed_moved (a : ArchId) (env : Env) (s : Stepper) (steps : Int) (duration : Nat) (st : Bool) :
    Moved s (s.moveTimed a env steps duration st).1.s (s.moveTimed a env steps duration st).1.accepted := by
  have h0 : Moved s s [] := Moved.of_eq rfl
  unfold moveTimed
  dsimp only
  repeat' split
  all_goals first
    | exact h0
    | exact Moved.of_eq (startQueue_pos _ _)
    | exact Timed.pauses_moved a env st _ s _ _ _ h0
    | exact Timed.slow_moved a env st _ _ _ s _ _ h0
    | exact Timed.fast_moved a env st _ _ s _ _ _ _ _ h0

end Stepper
end FAS
