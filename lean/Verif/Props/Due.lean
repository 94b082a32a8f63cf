import Verif.Lemmas.Due
import Verif.Props.Rmt

/-!
# Properties C52 and C64: the SAM Due backend

`Due.track s0 [] evs` executes an arbitrary schedule `evs` of pulses, ends of periods and phases of `addQueueEntry` calls from a state `s0`
without anything to do, and collects the accepted commands. `pulses` is the log of the pulses, newest first.
-/

namespace FAS

/-- One uninterrupted call of addQueueEntry. -/
def dueAdd (c : Cmd) (start : Bool) : List Due.Ev := [.addBegin c start, .addCommit, .addFinish]

theorem Due.fresh_idle (pin : Nat) (hpin : pin = pinUndefined ∨ pin < 128) (hi : Bool) : (Due.fresh pin hi).Idle := by
  refine { idx := ⟨rfl, (by decide : (0 : Nat) < 256)⟩, run := rfl, hw := ⟨rfl, rfl, rfl⟩, ready := rfl, ign := rfl, pc := rfl, pulses := rfl, pin := ?_ }
  rcases hpin with hpin | hpin
  · exact Or.inl hpin
  · refine Or.inr ?_
    change pinIsExternal pin = false
    unfold pinIsExternal
    have : pin / 128 = 0 := by omega
    rw [this]; rfl

/-- Schedule used as example: three commands in both directions and a pause. -/
def dueExample : List Due.Ev :=
  dueAdd ⟨10000, 3, true⟩ true ++ [.pulse] ++ dueAdd ⟨20000, 2, false⟩ false ++ [.pulse, .addBegin ⟨5000, 0, false⟩ true, .pulse, .addCommit, .pulse] ++
    [.addFinish, .pulse, .period] ++ dueAdd ⟨20000, 1, true⟩ true ++ [.pulse]

/-- C64: whatever the interleaving, the pulses emitted and the steps of the commands in the queue are together exactly the steps of the
accepted commands, in this order: no step is lost, none is emitted twice and none without a command. -/
theorem C64_pulses_partial (s0 : Due) (h0 : s0.Idle) (evs : List Due.Ev) (hp : Due.Along Due.Basic s0 evs) :
    let s := (Due.track s0 [] evs).1
    let acc := (Due.track s0 [] evs).2
    s.pulses.reverse.map DuePulse.up ++ stepDirs (Hw.readOut .sam ⟨s.q, 0⟩) = stepDirs acc := by
  intro s acc
  have h : DInv _ _ False s acc := DInv.run (fun u => DirOK.of_lvl _ _ _ u) evs (DInv.idle h0 False) hp (fun hx => hx.elim)
  rw [readOut_pending]
  exact h.ups

example : (Due.fresh 5 true).Idle ∧ Due.Along Due.Basic (Due.fresh 5 true) dueExample ∧
    (Due.track (Due.fresh 5 true) [] dueExample).1.pulses.length = 6 ∧
    (Due.track (Due.fresh 5 true) [] dueExample).2 = [⟨10000, 3, true⟩, ⟨20000, 2, false⟩, ⟨5000, 0, false⟩, ⟨20000, 1, true⟩] :=
  ⟨Due.fresh_idle 5 (by decide) true, by decide +kernel, by decide +kernel, by decide +kernel⟩

/-- C64: from any point of a motion the peripheral executes everything accepted: after enough periods all steps have been emitted, the queue is
empty and the stepper reports that it is not running. -/
theorem C64_all_executed_partial (s0 : Due) (h0 : s0.Idle) (evs : List Due.Ev) (hp : Due.Along Due.Basic s0 evs)
    (hr : (Due.track s0 [] evs).1.q.running = true) :
    ∃ n, ∀ m ≥ n, let s := (Due.track s0 [] evs).1.run (Due.rounds m)
      s.pulses.reverse.map DuePulse.up = stepDirs (Due.track s0 [] evs).2 ∧ Hw.readOut .sam ⟨s.q, 0⟩ = [] ∧ s.q.running = false := by
  have h : DInv _ _ False (Due.track s0 [] evs).1 (Due.track s0 [] evs).2 :=
    DInv.run (fun u => DirOK.of_lvl _ _ _ u) evs (DInv.idle h0 False) hp (fun hx => hx.elim)
  refine ⟨(Due.track s0 [] evs).1.work, fun m hm => ?_⟩
  obtain ⟨h1, h2⟩ := DInv.finish (fun u => DirOK.of_lvl _ _ _ u) m h (fun hx => by rw [hr] at hx; cases hx) hm
  intro s
  have h3 := h1.ups
  rw [h2] at h3
  refine ⟨by rw [← h3]; simp [stepDirs, s], by rw [readOut_pending, h2]; rfl, ?_⟩
  cases hx : s.q.running with
  | false => rfl
  | true =>
    obtain ⟨e, es, hp, _⟩ := h1.on hx
    rw [h2] at hp
    cases hp

example : let s := (Due.track (Due.fresh 5 true) [] (dueExample.take 12)).1
    s.q.running = true ∧ s.pulses.length = 4 ∧ (s.run (Due.rounds 5)).pulses.length = 5 := by
  decide +kernel

/-- Why C64 is restricted: forceStop during a pause does not delete the note of the pause. A command added afterwards is started, but its
pulses are not counted: the motor turns forever, whatever the number of pulses. -/
theorem C64_force_stop_refuted :
    let evs := dueAdd ⟨5000, 0, true⟩ true ++ [.forceStop 0, .clearIgnore] ++ dueAdd ⟨10000, 5, true⟩ true
    (Due.track (Due.fresh 5 true) [] evs).2 = [⟨5000, 0, true⟩, ⟨10000, 5, true⟩] ∧
      ∀ n, let s := (Due.fresh 5 true).run (evs ++ Due.rounds n)
        s.pulses.length = n ∧ s.q.running = true ∧ Hw.readOut .sam ⟨s.q, 0⟩ = [⟨10000, 5, true⟩] := by
  refine ⟨by decide +kernel, ?_⟩
  have hrun : ∀ (a b : List Due.Ev) (s : Due), s.run (a ++ b) = (s.run a).run b := by
    intro a b s; unfold Due.run; rw [List.foldl_append]
  have key : ∀ (n : Nat) (s : Due), s.attached = true → s.irq = false → s.pause = true →
      (s.run (Due.rounds n)).pulses.length = s.pulses.length + n ∧ (s.run (Due.rounds n)).q = s.q := by
    intro n
    induction n with
    | zero => intro s _ _ _; exact ⟨rfl, rfl⟩
    | succ n ih =>
      intro s h1 h2 h3
      rw [Due.rounds_succ]
      change ((((s.step .pulse).step .period).run (Due.rounds n)).pulses.length = _ ∧ (((s.step .pulse).step .period).run (Due.rounds n)).q = _)
      have hs : (s.step .pulse).step .period = { s with pulses := ⟨s.q.dirLevel, if s.q.readIdx = s.q.nextWriteIdx then none else some (s.q.slot .sam s.q.readIdx).countUp⟩ :: s.pulses } := by
        simp [Due.step, h1, h2, Due.pulse, h3]
      rw [hs]
      obtain ⟨i1, i2⟩ := ih { s with pulses := ⟨s.q.dirLevel, if s.q.readIdx = s.q.nextWriteIdx then none else some (s.q.slot .sam s.q.readIdx).countUp⟩ :: s.pulses } h1 h2 h3
      refine ⟨?_, i2⟩
      rw [i1, List.length_cons]; omega
  intro n s
  have hs : s = _ := hrun _ _ _
  obtain ⟨k1, k2⟩ := key n ((Due.fresh 5 true).run (dueAdd ⟨5000, 0, true⟩ true ++ [.forceStop 0, .clearIgnore] ++ dueAdd ⟨10000, 5, true⟩ true))
    (by decide +kernel) (by decide +kernel) (by decide +kernel)
  rw [hs]
  refine ⟨?_, ?_, ?_⟩
  · rw [k1]
    have : ((Due.fresh 5 true).run (dueAdd ⟨5000, 0, true⟩ true ++ [.forceStop 0, .clearIgnore] ++ dueAdd ⟨10000, 5, true⟩ true)).pulses.length = 0 := by
      decide +kernel
    rw [this]; omega
  · rw [k2]; decide +kernel
  · rw [k2]; decide +kernel

/-- Why C64 is restricted: if all commands are completed between the critical section of addQueueEntry and its test of `isRunning()`, the empty
queue is started. A command added afterwards is accepted, but removed from the queue without any pulse. -/
theorem C64_empty_start_refuted :
    let evs := dueAdd ⟨10000, 1, true⟩ true ++ [.addBegin ⟨10000, 1, true⟩ true, .addCommit, .pulse, .pulse, .addFinish] ++
      dueAdd ⟨10000, 7, true⟩ true ++ [.period]
    let r := Due.track (Due.fresh 5 true) [] evs
    r.2 = [⟨10000, 1, true⟩, ⟨10000, 1, true⟩, ⟨10000, 7, true⟩] ∧ r.1.pulses.length = 2 ∧ r.1.q.running = false ∧
      Hw.readOut .sam ⟨r.1.q, 0⟩ = [] := by
  decide +kernel

/-- C52, for schedules in which each change of direction is requested by a command with steps, which is added while the preceding command with
steps is still in the queue (`Due.SafeTurn`, see the refutations below): each pulse is emitted with the level of the direction pin for the
direction of its command. -/
theorem C52_direction_partial (s0 : Due) (h0 : s0.Idle) (evs : List Due.Ev) (hp : Due.Along Due.Basic s0 evs) (hs : Due.Along Due.SafeTurn s0 evs) :
    ∀ p ∈ (s0.run evs).pulses, ∀ up, p.up = some up → DirOK s0.q.dirPin s0.q.dirHighCountsUp up p.level := by
  have h := DInv.run (turn := True) (fun u => DirOK.of_lvl _ _ _ u) evs (DInv.idle h0 True) hp (fun _ => hs)
  rw [← Due.track_run evs s0 []]
  exact h.dirs trivial

example : (Due.fresh 5 false).Idle ∧ Due.Along Due.Basic (Due.fresh 5 false) dueExample ∧ Due.Along Due.SafeTurn (Due.fresh 5 false) dueExample ∧
    ((Due.fresh 5 false).run dueExample).pulses.reverse.map (fun p => (p.level, p.up)) =
      [(false, some true), (false, some true), (false, some true), (true, some false), (true, some false), (false, some true)] :=
  ⟨Due.fresh_idle 5 (by decide) false, by decide +kernel, by decide +kernel, by decide +kernel⟩

/-- Why C52 is restricted: a change of direction at a pause is never done. All following steps backwards are emitted forwards. -/
theorem C52_pause_turn_refuted :
    let evs := dueAdd ⟨10000, 2, true⟩ true ++ dueAdd ⟨10000, 0, false⟩ true ++ dueAdd ⟨10000, 2, false⟩ true ++ [.pulse, .pulse, .period, .pulse, .pulse]
    Due.Along Due.Basic (Due.fresh 5 true) evs ∧
      ((Due.fresh 5 true).run evs).pulses.reverse = [⟨true, some true⟩, ⟨true, some true⟩, ⟨true, some false⟩, ⟨true, some false⟩] := by
  decide +kernel

/-- After a pause a command which changes the direction is executed in the wrong direction; the pin changes after its last step. -/
theorem C52_after_pause_refuted :
    let evs := dueAdd ⟨10000, 0, true⟩ true ++ dueAdd ⟨10000, 2, false⟩ true ++ dueAdd ⟨10000, 1, false⟩ true ++ [.period, .pulse, .pulse, .pulse]
    Due.Along Due.Basic (Due.fresh 5 true) evs ∧
      ((Due.fresh 5 true).run evs).pulses.reverse = [⟨true, some false⟩, ⟨true, some false⟩, ⟨false, some false⟩] := by
  decide +kernel

/-- A command which is prepared while the queue is running and added after the queue has come to its end is executed in the old direction. -/
theorem C52_late_turn_refuted :
    let evs := dueAdd ⟨10000, 1, true⟩ true ++ [.addBegin ⟨10000, 2, false⟩ true, .pulse, .addCommit, .addFinish, .pulse, .pulse]
    Due.Along Due.Basic (Due.fresh 5 true) evs ∧
      ((Due.fresh 5 true).run evs).pulses.reverse = [⟨true, some true⟩, ⟨true, some false⟩, ⟨true, some false⟩] := by
  decide +kernel

end FAS
