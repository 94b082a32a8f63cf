import Verif.Lemmas.AvrRun

/-!
# Properties C08–C12: the AVR backend

`Avr.track a (Avr.fresh a pin hi) ⟨[], []⟩ evs` executes an arbitrary schedule `evs` of compare events (step
interrupts) and phases of `addQueueEntry` calls on a freshly initialised stepper, and records which commands have
been accepted and when the queue was started (`Spec/Avr.lean`).
-/

namespace FAS

/-- One uninterrupted call of addQueueEntry. -/
def callAdd (c : Cmd) (start : Bool) (now : Nat) : List Avr.Ev := [.addBegin c start, .addCommit, .addFinish now]

/-- C08, under the guard `NoLateStart` (see `C08_late_start_refuted`): whatever the interleaving, also if commands
arrive late, the pulses emitted plus the steps left in the ring (plus one, while a command which arrived late is
being processed) are exactly the steps of all accepted commands; when the queue stands still, every step of every
command handed to the motor has been emitted exactly once. -/
theorem C08_pulse_count_partial (a : ArchId) (hav : a.isAvr = true) (pin : Nat) (hpin : pin = pinUndefined ∨ pin < 128)
    (hi : Bool) (evs : List Avr.Ev) (hplain : ∀ ev ∈ evs, ev.Plain)
    (hstart : Avr.Along a Avr.NoLateStart (Avr.fresh a pin hi) evs) :
    let r := Avr.track a (Avr.fresh a pin hi) ⟨[], []⟩ evs
    r.1.pulses.length + stepSum (Hw.readOut a ⟨r.1.q, 0⟩) + (if r.1.noMore && r.1.one then 1 else 0)
        = stepSum r.2.accepted ∧
    (r.1.q.running = false → r.1.pulses.length + stepSum r.2.waiting = stepSum r.2.accepted) := by
  intro r
  obtain ⟨qs, h, -⟩ := avr_run (ok := False) (lvl := fun _ => false) (base := 0) hav evs
    (Core.quiet a _ (Avr.fresh_quiet a pin hi) hpin (Avr.fresh_pos a pin hi)) (fun hx => hx.elim) hplain hstart
    (fun hx => hx.elim)
  have hro : Hw.readOut a ⟨r.1.q, 0⟩ = qs.remaining := h.sim.readOut
  refine ⟨by rw [hro]; exact h.cnt, fun hrun => ?_⟩
  have hcnt := h.cnt
  have hm := h.mode
  have hw := h.wait
  rw [hrun] at hm hw
  rw [hm.1, QSpec.remaining_zero (h.dn hrun)] at hcnt
  simp only [Bool.false_eq_true, if_false] at hw
  rw [hw]
  simpa using hcnt

/-- The race excluded by `NoLateStart` exists: after 16 executed commands the ring contains stale entries. If a
command, added to a running queue, is completely processed between the critical section of addQueueEntry(cmd,true)
and its test of isRunning(), then the empty queue is started and the stale entry produces a pulse nobody asked
for: 18 pulses for 17 commanded steps. -/
theorem C08_late_start_refuted :
    let c : Cmd := ⟨1000, 1, true⟩
    let evs := callAdd c true 0 ++ (List.replicate 15 (callAdd c true 0 ++ [.compare])).flatten ++
      [.addBegin c true, .addCommit, .compare, .compare, .compare, .addFinish 0, .compare, .compare]
    let r := Avr.track .avr328 (Avr.fresh .avr328 5 true) ⟨[], []⟩ evs
    (∀ ev ∈ evs, ev.Plain) ∧ r.1.q.running = false ∧ stepSum r.2.accepted = 17 ∧ r.2.waiting = [] ∧
      r.1.pulses.length = 18 := by
  decide +kernel

/-- A schedule used as example: three commands with both directions and a pause, the last one added while the
queue is running and interrupted between the phases of addQueueEntry. -/
def exampleSchedule : List Avr.Ev :=
  callAdd ⟨1000, 2, true⟩ true 0 ++ [.compare] ++ callAdd ⟨700, 0, false⟩ false 0 ++
  [.addBegin ⟨800, 3, false⟩ true, .compare, .addCommit, .compare, .addFinish 0] ++ List.replicate 6 .compare

example : (∀ ev ∈ exampleSchedule, ev.Plain) ∧
    Avr.Along .avr2560 Avr.NoLateStart (Avr.fresh .avr2560 5 true) exampleSchedule ∧
    Avr.Along .avr2560 Avr.InTime (Avr.fresh .avr2560 5 true) exampleSchedule ∧
    let r := Avr.track .avr2560 (Avr.fresh .avr2560 5 true) ⟨[], []⟩ exampleSchedule
    r.1.q.running = false ∧ r.1.q.getCurrentPosition .avr2560 0 = -1 ∧
    r.1.pulses.reverse = [⟨10, true⟩, ⟨1010, true⟩, ⟨2710, false⟩, ⟨3510, false⟩, ⟨4310, false⟩] := by
  decide +kernel

/-- C09, for schedules in which commands arrive in time: the sequence of direction pin levels at the pulses is the
one of the accepted commands (each with its own direction, in order), and the current position reported at any
moment is the start position plus the signed pulses emitted. Missing: commands which arrive late, see
`C09_late_command_refuted`, and the guard of C08. -/
theorem C09_direction_and_position_partial (a : ArchId) (hav : a.isAvr = true) (pin : Nat)
    (hpin : pin = pinUndefined ∨ pin < 128) (hi : Bool) (evs : List Avr.Ev) (hplain : ∀ ev ∈ evs, ev.Plain)
    (hstart : Avr.Along a Avr.NoLateStart (Avr.fresh a pin hi) evs)
    (hintime : Avr.Along a Avr.InTime (Avr.fresh a pin hi) evs) :
    let r := Avr.track a (Avr.fresh a pin hi) ⟨[], []⟩ evs
    (r.1.pulses.reverse.map Pulse.dir <+: r.2.accepted.flatMap fun c =>
      List.replicate c.steps (dirLevelFor pin hi c.countUp)) ∧
    (pin ≠ pinUndefined → r.1.q.getCurrentPosition a 0 = i32 (pulseSum hi r.1.pulses)) := by
  intro r
  obtain ⟨h1, h2, -⟩ := avr_quiet hav (Avr.fresh_quiet a pin hi) hpin (Avr.fresh_pos a pin hi) (dirLevelFor pin hi) rfl
    evs hplain hstart hintime
  refine ⟨h1, fun hne => (h2 hne).trans ?_⟩
  have : (Avr.fresh a pin hi).q.qend.pos = 0 := rfl
  rw [this, Int.zero_add]
  rfl

/-- A command in the other direction, which is added while the last period of the previous command still runs,
executes all but its last step with the direction pin at the old level: counted down by 3, moved up by 2. -/
theorem C09_late_command_refuted :
    let evs := callAdd ⟨1000, 1, true⟩ true 0 ++ [.compare] ++ callAdd ⟨1000, 3, false⟩ true 500 ++
      List.replicate 6 .compare
    let r := Avr.track .avr328 (Avr.fresh .avr328 5 true) ⟨[], []⟩ evs
    (∀ ev ∈ evs, ev.Plain) ∧ Avr.Along .avr328 Avr.NoLateStart (Avr.fresh .avr328 5 true) evs ∧
    r.1.q.running = false ∧ r.2.accepted = [⟨1000, 1, true⟩, ⟨1000, 3, false⟩] ∧
    r.1.pulses.reverse.map Pulse.dir = [true, true, true, false] ∧
    r.1.q.getCurrentPosition .avr328 0 = -2 ∧ pulseSum true r.1.pulses = 2 := by
  decide +kernel

/-- C10, for schedules in which commands arrive in time: the emitted pulses are exactly the beginning of the
documented pulse train of every start of the queue (`specPulses`: pulses `ticks` apart, the next command exactly
`ticks` after the last pulse, pauses of `ticks`); the pulses still missing are not due yet, and none is missing
when the queue has stopped. Missing: commands appended within the last period of the previous command, see
`C10_late_command_refuted`. -/
theorem C10_pulse_train_partial (a : ArchId) (hav : a.isAvr = true) (pin : Nat)
    (hpin : pin = pinUndefined ∨ pin < 128) (hi : Bool) (evs : List Avr.Ev) (hplain : ∀ ev ∈ evs, ev.Plain)
    (hstart : Avr.Along a Avr.NoLateStart (Avr.fresh a pin hi) evs)
    (hintime : Avr.Along a Avr.InTime (Avr.fresh a pin hi) evs) :
    let r := Avr.track a (Avr.fresh a pin hi) ⟨[], []⟩ evs
    ∃ rest, r.2.expected (dirLevelFor pin hi) = r.1.pulses.reverse ++ rest ∧ (∀ p ∈ rest, r.1.ocr ≤ p.time) ∧
      (r.1.q.running = false → rest = []) :=
  (avr_quiet hav (Avr.fresh_quiet a pin hi) hpin (Avr.fresh_pos a pin hi) (dirLevelFor pin hi) rfl
    evs hplain hstart hintime).2.2

/-- A command added half way through the last period of the previous command (so before that command has
completed): its first pulse comes one period late and its last two pulses are 10 ticks apart instead of 1000. -/
theorem C10_late_command_refuted :
    let evs := callAdd ⟨1000, 1, true⟩ true 0 ++ [.compare] ++ callAdd ⟨1000, 3, true⟩ true 500 ++
      List.replicate 6 .compare
    let r := Avr.track .avr328 (Avr.fresh .avr328 5 true) ⟨[], []⟩ evs
    (∀ ev ∈ evs, ev.Plain) ∧ Avr.Along .avr328 Avr.NoLateStart (Avr.fresh .avr328 5 true) evs ∧
    (r.2.expected (dirLevelFor 5 true)).map Pulse.time = [10, 1010, 2010, 3010] ∧
    r.1.pulses.reverse.map Pulse.time = [10, 2010, 3010, 3020] := by
  decide +kernel

/-- A pause added within the last period of the previous command is waited for twice. -/
theorem C10_late_pause_refuted :
    let evs := callAdd ⟨1000, 1, true⟩ true 0 ++ [.compare] ++ callAdd ⟨5000, 0, true⟩ true 500 ++
      callAdd ⟨1000, 1, true⟩ true 600 ++ List.replicate 6 .compare
    let r := Avr.track .avr328 (Avr.fresh .avr328 5 true) ⟨[], []⟩ evs
    (r.2.expected (dirLevelFor 5 true)).map Pulse.time = [10, 6010] ∧
    r.1.pulses.reverse.map Pulse.time = [10, 11010] := by
  decide +kernel

/-- C11: for every schedule whatsoever, when addQueueEntry(cmd, start=true) has accepted the command and returns, the
queue is running with its interrupt enabled. -/
theorem C11_start_not_lost (a : ArchId) (pin : Nat) (hi : Bool) (evs : List Avr.Ev) (now : Nat) :
    let s := Avr.run a (Avr.fresh a pin hi) evs
    s.pc = .committed true →
    (s.step a (.addFinish now)).q.running = true ∧ (s.step a (.addFinish now)).irq = true := by
  intro s hpc
  have hirq : s.irq = s.q.running := Avr.run_irq a evs _ rfl
  have h1 : (s.step a (.addFinish now)).q.running = true := by
    cases hr : s.q.running <;> simp [Avr.step, hpc, hr, Avr.startQueue, Avr.toggleFor_eq]
  exact ⟨h1, (Avr.step_irq a s _ hirq).trans h1⟩

example : (Avr.run .avr328 (Avr.fresh .avr328 5 true)
    (callAdd ⟨1000, 2, true⟩ true 0 ++ [.addBegin ⟨1000, 1, false⟩ true, .compare, .addCommit, .compare])).pc =
    .committed true := by decide +kernel

/-- C11, second part: and then finitely many compare events execute everything: the queue stops empty, with
exactly one pulse for each accepted step (under the guard of C08). -/
theorem C11_all_executed_partial (a : ArchId) (hav : a.isAvr = true) (pin : Nat) (hpin : pin = pinUndefined ∨ pin < 128)
    (hi : Bool) (evs : List Avr.Ev) (now : Nat) (hplain : ∀ ev ∈ evs, ev.Plain)
    (hstart : Avr.Along a Avr.NoLateStart (Avr.fresh a pin hi) (evs ++ [.addFinish now]))
    (hpc : (Avr.run a (Avr.fresh a pin hi) evs).pc = .committed true) :
    ∃ n, let s := Avr.run a (Avr.fresh a pin hi) (evs ++ [.addFinish now] ++ List.replicate n .compare)
      s.q.running = false ∧ s.q.readIdx = s.q.nextWriteIdx ∧
      s.pulses.length = stepSum (Avr.track a (Avr.fresh a pin hi) ⟨[], []⟩ (evs ++ [.addFinish now])).2.accepted := by
  obtain ⟨qs, h, -⟩ := avr_run (ok := False) (lvl := fun _ => false) (base := 0) hav (evs ++ [.addFinish now])
    (Core.quiet a _ (Avr.fresh_quiet a pin hi) hpin (Avr.fresh_pos a pin hi)) (fun hx => hx.elim)
    (by intro ev hev
        rcases List.mem_append.mp hev with hx | hx
        · exact hplain ev hx
        · rw [List.mem_singleton.mp hx]; exact trivial)
    hstart (fun hx => hx.elim)
  have hrun : (Avr.run a (Avr.fresh a pin hi) (evs ++ [.addFinish now])).q.running = true := by
    have := (C11_start_not_lost a pin hi evs now hpc).1
    simpa [Avr.run, List.foldl_append] using this
  obtain ⟨n, qs', h', hr', he'⟩ := avr_drain hav _ h (Nat.lt_succ_self _)
  rw [Avr.track_fst] at h' hr' he'
  have hpe := he' hrun
  have hsplit : Avr.run a (Avr.fresh a pin hi) (evs ++ [.addFinish now] ++ List.replicate n .compare) =
      Avr.run a (Avr.run a (Avr.fresh a pin hi) (evs ++ [.addFinish now])) (List.replicate n .compare) := by
    simp [Avr.run, List.foldl_append]
  refine ⟨n, ?_⟩
  rw [hsplit]
  refine ⟨hr', h'.empty_iff.mpr hpe, ?_⟩
  have hcnt := h'.cnt
  have hm := h'.mode
  rw [hr'] at hm
  rw [hm.1] at hcnt
  simpa [QSpec.remaining, hpe, stepSum] using hcnt

/-- Events which cannot start the stopped queue: no command with start flag and no re-enabling by a new move. -/
def Avr.Ev.NoStart : Avr.Ev → Prop
  | .addBegin _ start => start = false
  | .forceStop _ => False
  | .clearIgnore => False
  | _ => True

/-- C12: forceStopAndNewPosition(p), called in any state, stops the interrupt, empties the queue and sets the
position; no later event makes a pulse or changes the position, until the queue is re-enabled by a new move.
Missing: commands added with start flag, see `C12_ignored_command_refuted`. -/
theorem C12_force_stop_partial (a : ArchId) (s : Avr) (hpc : s.pc = .idle) (p : Int)
    (hp : -2147483648 ≤ p ∧ p < 2147483648) (evs : List Avr.Ev) (hev : ∀ ev ∈ evs, ev.NoStart) :
    let s' := Avr.run a (s.step a (.forceStop p)) evs
    s'.irq = false ∧ s'.q.running = false ∧ s'.q.readIdx = s'.q.nextWriteIdx ∧ s'.pulses = s.pulses ∧
    s'.q.getCurrentPosition a 0 = p := by
  have key : ∀ (evs : List Avr.Ev) (x : Avr), (∀ ev ∈ evs, ev.NoStart) →
      (x.irq = false ∧ x.q.running = false ∧ x.q.readIdx = x.q.nextWriteIdx ∧ x.pulses = s.pulses ∧
        x.q.qend.pos = p ∧ x.q.ignoreCommands = true ∧ x.pc ≠ .committed true ∧ ∀ n c, x.pc ≠ .prepared n c true) →
      let x' := Avr.run a x evs
      (x'.irq = false ∧ x'.q.running = false ∧ x'.q.readIdx = x'.q.nextWriteIdx ∧ x'.pulses = s.pulses ∧
        x'.q.qend.pos = p) := by
    intro evs
    induction evs with
    | nil => intro x _ hx; exact ⟨hx.1, hx.2.1, hx.2.2.1, hx.2.2.2.1, hx.2.2.2.2.1⟩
    | cons ev evs ih =>
      intro x hev hx
      refine ih (x.step a ev) (fun e he => hev e (by simp [he])) ?_
      obtain ⟨h1, h2, h3, h4, h5, h6, h7, h8⟩ := hx
      have hns := hev ev (by simp)
      cases ev with
      | compare => simp only [Avr.step, h1]; exact ⟨h1, h2, h3, h4, h5, h6, h7, h8⟩
      | addBegin c st =>
        have hst : st = false := hns
        subst hst
        obtain ⟨e, pe, pr, pw, prun, pready, pign, ppos, -⟩ := prepare_spec a x.q c
        simp only [Avr.step]
        split
        · split
          · exact ⟨h1, h2, h3, h4, h5, h6, h7, h8⟩
          · split
            · exact ⟨h1, h2, h3, h4, h5, h6, h7, h8⟩
            · split
              · exact ⟨h1, h2, h3, h4, h5, h6, h7, h8⟩
              · refine ⟨h1, prun.trans h2, ?_, h4, ppos.trans h5, pign.trans h6, by simp, by simp⟩
                simp only [pr, pw]; exact h3
        · exact ⟨h1, h2, h3, h4, h5, h6, h7, h8⟩
      | addCommit =>
        simp only [Avr.step]
        cases hq : x.pc with
        | prepared n c st =>
          have : st = false := by
            cases st with
            | false => rfl
            | true => exact absurd hq (h8 n c)
          subst this
          simp only [Queue.commit, h6, if_true]
          exact ⟨h1, h2, h3, h4, h5, trivial, by simp, by simp⟩
        | idle => simp only; exact ⟨h1, h2, h3, h4, h5, h6, h7, h8⟩
        | committed st => simp only; exact ⟨h1, h2, h3, h4, h5, h6, h7, h8⟩
      | addFinish now =>
        simp only [Avr.step]
        cases hq : x.pc with
        | committed st =>
          have : st = false := by
            cases st with
            | false => rfl
            | true => exact absurd hq h7
          subst this
          simp only [Bool.and_false, Bool.false_eq_true, if_false]
          exact ⟨h1, h2, h3, h4, h5, h6, by simp, by simp⟩
        | idle => simp only; exact ⟨h1, h2, h3, h4, h5, h6, h7, h8⟩
        | prepared n c st => simp only; exact ⟨h1, h2, h3, h4, h5, h6, h7, h8⟩
      | startNull now =>
        have : (x.q.addNull true).start = false := by
          simp only [Queue.addNull, h2, h3]
          split <;> simp
        simp only [Avr.step, this]
        split <;> exact ⟨h1, h2, h3, h4, h5, h6, h7, h8⟩
      | forceStop p => exact hns.elim
      | clearIgnore => exact hns.elim
      | extPoll b =>
        simp only [Avr.step]
        split
        · exact ⟨h1, h2, h3, h4, h5, h6, h7, h8⟩
        · exact ⟨h1, h2, h3, h4, h5, h6, h7, h8⟩
  intro s'
  have h0 := key evs (s.step a (.forceStop p)) hev (by
    simp only [Avr.step, hpc, Avr.forceStopAndNewPosition, Avr.forceStop]
    simp)
  obtain ⟨h1, h2, h3, h4, h5⟩ := h0
  refine ⟨h1, h2, h3, h4, ?_⟩
  simp only [Queue.getCurrentPosition, show s'.q.readIdx = s'.q.nextWriteIdx from h3, if_true,
    show s'.q.qend.pos = p from h5, toU32, i32]
  omega

/-- a force stop in the middle of a movement -/
example : let s := Avr.run .avr328 (Avr.fresh .avr328 5 true) (callAdd ⟨1000, 200, true⟩ true 0 ++ List.replicate 50 .compare)
    s.pc = .idle ∧ s.q.running = true ∧ s.pulses.length = 50 ∧
    (Avr.run .avr328 (s.step .avr328 (.forceStop 7)) (List.replicate 5 .compare)).pulses.length = 50 := by
  decide +kernel

/-- After forceStopAndNewPosition a raw command with start flag is "accepted", does not enter the queue, but
produces one step pulse which the position does not know about. -/
theorem C12_ignored_command_refuted :
    let s := (Avr.fresh .avr328 5 true).step .avr328 (.forceStop 0)
    let s' := Avr.run .avr328 s (callAdd ⟨1000, 3, true⟩ true 0 ++ List.replicate 5 .compare)
    s'.q.running = false ∧ s'.pulses.length = 1 ∧ s'.q.getCurrentPosition .avr328 0 = 0 := by
  decide +kernel

/-- C12, later commands: after forceStopAndNewPosition(p) and the next move (which re-enables the queue), the
pulses of later commands are exactly the documented ones and the position counts from p — provided that the force
stop did not happen within the last period of the last queued command (`noMore`). -/
theorem C12_later_commands_partial (a : ArchId) (hav : a.isAvr = true) (s : Avr) (hpc : s.pc = .idle)
    (hnm : s.noMore = false) (hready : s.q.ready = true) (hidx : s.q.nextWriteIdx < 256)
    (hpin : s.q.dirPin = pinUndefined ∨ s.q.dirPin < 128)
    (p : Int) (hp : -2147483648 ≤ p ∧ p < 2147483648) (evs : List Avr.Ev) (hplain : ∀ ev ∈ evs, ev.Plain) :
    let s0 := { (s.step a (.forceStop p)).step a .clearIgnore with pulses := [] }
    Avr.Along a Avr.NoLateStart s0 evs → Avr.Along a Avr.InTime s0 evs →
    let lvl := fun u => if s.q.dirPin = pinUndefined then s.q.dirLevel else (u == s.q.dirHighCountsUp)
    let r := Avr.track a s0 ⟨[], []⟩ evs
    (s.q.dirPin ≠ pinUndefined → r.1.q.getCurrentPosition a 0 = i32 (p + pulseSum s.q.dirHighCountsUp r.1.pulses)) ∧
    ∃ rest, r.2.expected lvl = r.1.pulses.reverse ++ rest ∧ (∀ x ∈ rest, r.1.ocr ≤ x.time) ∧
      (r.1.q.running = false → rest = []) := by
  intro s0 h1 h2 lvl r
  have e0 : s0 = { s with
      irq := false
      one := false
      pulses := []
      q := { s.q with
        running := false
        readIdx := s.q.nextWriteIdx
        ignoreCommands := false
        qend := { s.q.qend with pos := p } } } := by
    simp only [s0, Avr.step, hpc, Avr.forceStopAndNewPosition, Avr.forceStop]
  have hq : s0.Quiet := by
    rw [e0]
    exact { run := rfl, irq := rfl, noMore := hnm, one := rfl, pc := hpc, emp := rfl, idx := hidx, ready := hready,
            ign := rfl, pulses := rfl }
  have hqp : s0.q.qend.pos = p := by rw [e0]
  have hqd : s0.q.dirPin = s.q.dirPin := by rw [e0]
  have hqh : s0.q.dirHighCountsUp = s.q.dirHighCountsUp := by rw [e0]
  have hql : s0.q.dirLevel = s.q.dirLevel := by rw [e0]
  have := avr_quiet hav hq (by rw [hqd]; exact hpin) (by rw [hqp]; exact hp) lvl (by rw [hqd, hqh, hql]) evs hplain h1 h2
  refine ⟨fun hne => ?_, this.2.2⟩
  have := this.2.1 (by rw [hqd]; exact hne)
  rw [hqp, hqh] at this
  exact this

/-- the hypotheses are met in the middle of a movement -/
example : let s := Avr.run .avr328 (Avr.fresh .avr328 5 true) (callAdd ⟨1000, 200, true⟩ true 0 ++ List.replicate 50 .compare)
    let s0 := { (s.step .avr328 (.forceStop 7)).step .avr328 .clearIgnore with pulses := [] }
    s.pc = .idle ∧ s.noMore = false ∧ s.q.ready = true ∧ s.q.nextWriteIdx < 256 ∧ s.q.dirPin < 128 ∧
    Avr.Along .avr328 Avr.NoLateStart s0 exampleSchedule ∧ Avr.Along .avr328 Avr.InTime s0 exampleSchedule := by
  decide +kernel

/-- A force stop within the last period of the last command leaves a flag set: the first step commanded afterwards
produces two pulses. -/
theorem C12_extra_pulse_refuted :
    let s := Avr.run .avr328 (Avr.fresh .avr328 5 true) (callAdd ⟨1000, 1, true⟩ true 0 ++ [.compare])
    let s' := Avr.run .avr328 s ([.forceStop 0, .clearIgnore] ++ callAdd ⟨1000, 1, true⟩ true 5000 ++ List.replicate 5 .compare)
    s.pulses.length = 1 ∧ s'.q.running = false ∧ s'.pulses.length = 3 ∧ s'.q.getCurrentPosition .avr328 0 = 1 := by
  decide +kernel

end FAS
