import Verif.Lemmas.McpwmPos
import Verif.Props.Rmt

/-!
# Properties C72–C75: the MCPWM/PCNT backend of the ESP32

`Mcpwm.track shadowPcnt s0 [] evs` executes an arbitrary schedule `evs` of events of the timer, interrupt services and phases of `addQueueEntry`
calls from a state `s0` without anything to do, and collects the accepted commands. `log` are the periods of the timer, newest first.
-/

namespace FAS

/-- One uninterrupted call of addQueueEntry. -/
def mcAdd (c : Cmd) (start : Bool) : List Mcpwm.Ev := [.addBegin c start, .addCommit, .addFinish]

/-- A fresh channel has nothing to do. -/
theorem Mcpwm.fresh_idle {σ : Type} (hw : PcntHw σ) (p : σ) (pin : Nat) (hpin : pin = pinUndefined ∨ pin < 128) (hi : Bool) :
    (Mcpwm.fresh hw p pin hi).Idle := by
  refine { idx := ⟨rfl, (by decide : (0 : Nat) < 256)⟩, run := rfl, timer := ⟨(fun hx => nomatch hx), rfl⟩, irqs := ⟨rfl, rfl⟩, ready := rfl, ign := rfl, pc := rfl
           log := rfl, pin := ?_ }
  rcases hpin with hpin | hpin
  · exact Or.inl hpin
  · refine Or.inr ?_
    change pinIsExternal pin = false
    unfold pinIsExternal
    have : pin / 128 = 0 := by omega
    rw [this]; rfl

/-- The pulse counter before the initialisation in the examples. -/
def mcCnt : ShadowPcnt := ⟨7, 9, 9⟩

/-- Schedule used as example: three commands in both directions and a pause, partly added while the timer is running. -/
def mcExample : List Mcpwm.Ev :=
  mcAdd ⟨1600, 2, true⟩ true ++ [.compare] ++ mcAdd ⟨5000, 0, false⟩ false ++ [.zero, .addBegin ⟨1200, 3, false⟩ true, .compare, .addCommit, .pcntIsr, .otherRead, .addFinish, .zero,
    .compare, .otherWrite, .teaIsr, .zero, .compare]

/-- C72: whatever the interleaving, the periods output are the first ones of the accepted commands, in order: every period has the duration of
its command, and begins with a pulse exactly if the command has steps. If no interrupt is pending, then all other periods are still to come from the queue: the
commands in the queue, the first one without the steps counted, are exactly what is missing.
Restricted to schedules with interrupts served within the period, see `Mcpwm.Basic` and the refutations below. -/
theorem C72_periods_partial (s0 : Mcpwm ShadowPcnt) (h0 : s0.Idle) (evs : List Mcpwm.Ev) (hp : Mcpwm.Along shadowPcnt Mcpwm.Basic s0 evs) :
    let s := (Mcpwm.track shadowPcnt s0 [] evs).1
    let acc := (Mcpwm.track shadowPcnt s0 [] evs).2
    s.log.reverse.map Cycle.shape <+: cycles acc ∧
      (s.Served → s.log.reverse.map Cycle.shape ++ cycles (Hw.readOut .esp32 ⟨s.q, if s.q.running then s.pcnt.val else 0⟩) = cycles acc) := by
  intro s acc
  have h : MInv _ _ s acc := MInv.run (fun u => DirOK.of_lvl _ _ _ u) evs (MInv.idle h0) hp
  refine ⟨⟨_, h.log⟩, fun hs => ?_⟩
  rw [← mcpwm_todo_served hs]
  exact h.log

example : (Mcpwm.fresh shadowPcnt mcCnt 5 false).Idle ∧ Mcpwm.Along shadowPcnt Mcpwm.Basic (Mcpwm.fresh shadowPcnt mcCnt 5 false) mcExample ∧
    (Mcpwm.track shadowPcnt (Mcpwm.fresh shadowPcnt mcCnt 5 false) [] mcExample).2 = [⟨1600, 2, true⟩, ⟨5000, 0, false⟩, ⟨1200, 3, false⟩] ∧
    (Mcpwm.track shadowPcnt (Mcpwm.fresh shadowPcnt mcCnt 5 false) [] mcExample).1.log.reverse.map Cycle.shape =
      [(1600, true, some true), (1600, true, some true), (5000, false, some false), (1200, true, some false)] :=
  ⟨Mcpwm.fresh_idle _ _ 5 (by decide) false, by decide +kernel, by decide +kernel, by decide +kernel⟩

/-- C72, completeness: from every state reached, in which the queue is running or empty, the timer runs through all missing periods, if its interrupts are served in time; then the
queue is empty, not running, the timer is stopped, and the periods output are exactly those of the accepted commands. -/
theorem C72_all_executed_partial (s0 : Mcpwm ShadowPcnt) (h0 : s0.Idle) (evs : List Mcpwm.Ev) (hp : Mcpwm.Along shadowPcnt Mcpwm.Basic s0 evs)
    (hb : let s := (Mcpwm.track shadowPcnt s0 [] evs).1; s.q.running = true ∨ s.q.readIdx = s.q.nextWriteIdx)
    (n : Nat) (hn : (cycles (Mcpwm.track shadowPcnt s0 [] evs).2).length + 3 ≤ n) :
    let s := (Mcpwm.track shadowPcnt s0 [] evs).1.exec shadowPcnt (Mcpwm.rounds n)
    s.q.running = false ∧ Hw.readOut .esp32 ⟨s.q, 0⟩ = [] ∧ s.timer = .stopped ∧
      s.log.reverse.map Cycle.shape = cycles (Mcpwm.track shadowPcnt s0 [] evs).2 := by
  dsimp only at hb ⊢
  have hD := fun u => DirOK.of_lvl s0.q.dirPin s0.q.dirHighCountsUp s0.q.dirLevel u
  have h := MInv.run (D := DirOK s0.q.dirPin s0.q.dirHighCountsUp) hD evs (MInv.idle h0) hp
  generalize Mcpwm.track shadowPcnt s0 [] evs = sa at h hb hn ⊢
  obtain ⟨s, acc⟩ := sa
  dsimp only at h hb hn ⊢
  obtain ⟨m, rfl⟩ : ∃ m, n = m + 1 := ⟨n - 1, by omega⟩
  obtain ⟨t, ht, k1, k2, k3, k4⟩ := MInv.rounds hD m h hb
  have hsplit : s.exec shadowPcnt (Mcpwm.rounds (m + 1)) = t.exec shadowPcnt Mcpwm.round := by
    rw [ht, ← Mcpwm.exec_append]
    unfold Mcpwm.rounds
    rw [List.replicate_succ', List.flatten_append]
    simp
  rw [hsplit]
  have hlen : t.log.length ≤ (cycles acc).length := by
    rw [← k1.log]; simp
  have hstop : t.q.running = false := by
    cases hr : t.q.running with
    | false => rfl
    | true =>
      exfalso
      by_cases hrs : s.q.running = true
      · have := (k4 hrs).2 hr
        split at this <;> omega
      · have hrs : s.q.running = false := by simpa using hrs
        have : t.q.running = false := by
          rw [ht]; exact (MInv.rounds_off hD m h hrs).1
        rw [hr] at this; cases this
  have hemp : t.q.readIdx = t.q.nextWriteIdx := by
    rcases k2 with k2 | k2
    · rw [hstop] at k2; cases k2
    · exact k2
  have hr1 : Mcpwm.rounds 1 = Mcpwm.round := rfl
  have h2 := MInv.rounds_off hD 1 k1 hstop
  rw [hr1] at h2
  obtain ⟨r1, r2, r3, r4⟩ := h2
  have r5 := r2.mq.idx
  have hpn : (t.exec shadowPcnt Mcpwm.round).q.pending .esp32 = [] := by
    rw [r3]
    exact (Queue.pending_nil_iff _ _).mpr ((Queue.empty_iff .esp32 _ k1.mq.idx).mp hemp)
  refine ⟨r1, ?_, r4 (by decide), ?_⟩
  · rw [readOut_pending, hpn]; rfl
  · have := r2.log
    rw [Mcpwm.todo_stop r1, hpn] at this
    simpa [cycles] using this


example : (Mcpwm.track shadowPcnt (Mcpwm.fresh shadowPcnt mcCnt 5 false) [] mcExample).1.q.running = true ∧
    (cycles (Mcpwm.track shadowPcnt (Mcpwm.fresh shadowPcnt mcCnt 5 false) [] mcExample).2).length = 6 := by
  decide +kernel

/-- What C72 promises for a complete run: with interrupts served in time, the periods are those of the accepted commands. -/
def McRight {σ : Type} (hw : PcntHw σ) (s0 : Mcpwm σ) (evs : List Mcpwm.Ev) : Prop :=
  ((Mcpwm.track hw s0 [] evs).1.exec hw (Mcpwm.rounds ((cycles (Mcpwm.track hw s0 [] evs).2).length + 3))).log.reverse.map Cycle.shape =
    cycles (Mcpwm.track hw s0 [] evs).2

instance {σ : Type} (hw : PcntHw σ) (s0 : Mcpwm σ) (evs : List Mcpwm.Ev) : Decidable (McRight hw s0 evs) := inferInstanceAs (Decidable (_ = _))

/-- Why C72 is restricted: an interrupt served after the end of the period. The only command has one step, but two pulses are output. -/
theorem C72_late_refuted :
    let s := Mcpwm.track shadowPcnt (Mcpwm.fresh shadowPcnt mcCnt 5 true) [] (mcAdd ⟨3200, 1, true⟩ true ++ [.compare, .zero, .pcntIsr, .compare, .zero])
    s.2 = [⟨3200, 1, true⟩] ∧ (s.1.log.filter Cycle.pulse).length = 2 ∧ s.1.timer = .stopped := by
  decide +kernel

/-- Why C72 is restricted: the device processes all commands including the just added one and stops, after the critical section of addQueueEntry and before its test of `isRunning()`. Then an
outdated entry is executed: the commands have 33 steps, but 34 pulses are output. -/
theorem C72_empty_start_refuted :
    let evs := (List.replicate 31 (mcAdd ⟨3200, 1, true⟩ true ++ Mcpwm.rounds 2)).flatten ++ mcAdd ⟨3200, 1, true⟩ true ++ [.addBegin ⟨3200, 1, true⟩ true, .addCommit] ++ Mcpwm.rounds 4 ++
      [.addFinish] ++ Mcpwm.rounds 4
    let s := Mcpwm.track shadowPcnt (Mcpwm.fresh shadowPcnt mcCnt 5 true) [] evs
    s.2 = List.replicate 33 ⟨3200, 1, true⟩ ∧ (s.1.log.filter Cycle.pulse).length = 34 := by
  decide +kernel

/-- Why C72 is restricted: another channel of the same MCPWM unit modifies the common interrupt enable register by read-modify-write, while a pause starts. The pause never
ends: however many periods pass, the command after the pause is not executed. -/
theorem C72_other_channel_refuted (n : Nat) :
    let evs := mcAdd ⟨1600, 2, true⟩ true ++ mcAdd ⟨5000, 0, true⟩ true ++ mcAdd ⟨1600, 2, true⟩ true ++
      [.compare, .zero, .compare, .otherRead, .pcntIsr, .otherWrite, .zero]
    let s := (Mcpwm.track shadowPcnt (Mcpwm.fresh shadowPcnt mcCnt 5 true) [] evs).1.exec shadowPcnt (Mcpwm.rounds n)
    s.q.running = true ∧ Hw.readOut .esp32 ⟨s.q, 0⟩ = [⟨5000, 0, true⟩, ⟨1600, 2, true⟩] ∧ (s.log.filter Cycle.pulse).length = 2 := by
  intro evs s
  have key : ∀ (n : Nat) (t : Mcpwm ShadowPcnt), (t.timer = .low ∧ t.run = true ∧ t.irq = false ∧ t.ena = false ∧ t.out = false ∧ t.q.running = true) →
      (t.exec shadowPcnt (Mcpwm.rounds n)).q.entry = t.q.entry ∧ (t.exec shadowPcnt (Mcpwm.rounds n)).q.readIdx = t.q.readIdx ∧
        (t.exec shadowPcnt (Mcpwm.rounds n)).q.nextWriteIdx = t.q.nextWriteIdx ∧ (t.exec shadowPcnt (Mcpwm.rounds n)).q.running = true ∧
        (t.exec shadowPcnt (Mcpwm.rounds n)).log.filter Cycle.pulse = t.log.filter Cycle.pulse := by
    intro n
    induction n with
    | zero => intro t h; exact ⟨rfl, rfl, rfl, h.2.2.2.2.2, rfl⟩
    | succ n ih =>
      intro t h
      have e1 : t.exec shadowPcnt (Mcpwm.rounds (n + 1)) = (t.exec shadowPcnt Mcpwm.round).exec shadowPcnt (Mcpwm.rounds n) := by
        rw [← Mcpwm.exec_append]; simp only [Mcpwm.rounds, List.replicate_succ, List.flatten_cons]
      obtain ⟨h1, h2, h3, h4, h5, h6⟩ := h
      obtain ⟨u, hu, k⟩ : ∃ u, u = t.exec shadowPcnt Mcpwm.round ∧ u.timer = .low ∧ u.run = true ∧ u.irq = false ∧ u.ena = false ∧ u.out = false ∧ u.q.running = true ∧
          u.q.entry = t.q.entry ∧ u.q.readIdx = t.q.readIdx ∧ u.q.nextWriteIdx = t.q.nextWriteIdx ∧ u.log.filter Cycle.pulse = t.log.filter Cycle.pulse := by
        refine ⟨_, rfl, ?_⟩
        simp [Mcpwm.round, Mcpwm.exec, Mcpwm.step, Mcpwm.compare, Mcpwm.zero, Mcpwm.sync, h1, h2, h3, h4, h5, h6]
      rw [e1, ← hu]
      obtain ⟨a1, a2, a3, a4, a5, a6, a7, a8, a9, a10⟩ := k
      obtain ⟨b1, b2, b3, b4, b5⟩ := ih u ⟨a1, a2, a3, a4, a5, a6⟩
      exact ⟨b1.trans a7, b2.trans a8, b3.trans a9, b4, b5.trans a10⟩
  obtain ⟨b1, b2, b3, b4, b5⟩ := key n (Mcpwm.track shadowPcnt (Mcpwm.fresh shadowPcnt mcCnt 5 true) [] evs).1 (by decide +kernel)
  refine ⟨b4, ?_, ?_⟩
  · rw [readOut_pending, (Queue.pending_congr .esp32 (Mcpwm.track shadowPcnt (Mcpwm.fresh shadowPcnt mcCnt 5 true) [] evs).1.q s.q b1 b2 b3).1, ← readOut_pending]
    decide +kernel
  · change (List.filter _ s.log).length = 2
    rw [b5]
    decide +kernel

/-- Why C72 is proved for `shadowPcnt` only: with a pulse counter which uses the limit late, but reads back the limit written, the step after a pause is not counted correctly; with a pulse counter which uses the limit immediately, two
commands with different numbers of steps are not executed correctly. With `shadowPcnt` both are right. -/
theorem C72_limit_readback_refuted :
    let evsA := mcAdd ⟨1600, 2, true⟩ false ++ mcAdd ⟨1600, 2, true⟩ false ++ mcAdd ⟨3200, 1, true⟩ true
    let evsB := mcAdd ⟨1600, 2, true⟩ false ++ mcAdd ⟨5000, 0, true⟩ false ++ mcAdd ⟨3200, 1, true⟩ true
    ¬ McRight latchPcnt (Mcpwm.fresh latchPcnt mcCnt 5 true) evsB ∧ ¬ McRight directPcnt (Mcpwm.fresh directPcnt (7, 9) 5 true) evsA ∧
      McRight shadowPcnt (Mcpwm.fresh shadowPcnt mcCnt 5 true) evsA ∧ McRight shadowPcnt (Mcpwm.fresh shadowPcnt mcCnt 5 true) evsB := by
  decide +kernel

/-- C73: with a direction pin, at every pulse the pin has the level for the direction of the command the pulse belongs to. -/
theorem C73_direction_partial (s0 : Mcpwm ShadowPcnt) (h0 : s0.Idle) (evs : List Mcpwm.Ev) (hp : Mcpwm.Along shadowPcnt Mcpwm.Basic s0 evs) :
    let s := (Mcpwm.track shadowPcnt s0 [] evs).1
    ∀ c ∈ s.log, c.pulse = true → ∃ u, c.up = some u ∧ DirOK s0.q.dirPin s0.q.dirHighCountsUp u c.level := by
  intro s c hc hpu
  have h := MInv.run (D := DirOK s0.q.dirPin s0.q.dirHighCountsUp) (fun u => DirOK.of_lvl s0.q.dirPin s0.q.dirHighCountsUp s0.q.dirLevel u) evs (MInv.idle h0) hp
  have hsome : ∀ (l : List Cmd) (x : Nat × Bool × Option Bool), x ∈ cycles l → ∃ u, x.2.2 = some u := by
    intro l
    induction l with
    | nil => intro x hx; cases hx
    | cons d ds ih =>
      intro x hx
      simp only [cycles, List.mem_append] at hx
      rcases hx with hx | hx
      · exact ⟨d.countUp, by rw [List.eq_of_mem_replicate hx]⟩
      · exact ih x hx
  obtain ⟨u, hu⟩ := hsome (Mcpwm.track shadowPcnt s0 [] evs).2 c.shape (by
    rw [← h.log]
    refine List.mem_append_left _ ?_
    exact List.mem_map_of_mem (List.mem_reverse.mpr hc))
  exact ⟨u, hu, h.dirs c hc hpu u hu⟩

example : (Mcpwm.track shadowPcnt (Mcpwm.fresh shadowPcnt mcCnt 5 false) [] mcExample).1.log.reverse.map (fun c => (c.pulse, c.level)) =
    [(true, false), (true, false), (false, true), (true, true)] := by
  decide +kernel

/-! ## C74: the correction of the limit -/

/-- C74: a pulse which arrives anywhere during the correction of the limit is counted exactly once: afterwards the steps missing until the interrupt are those of the command without the pulses counted before
and without the one arrived. `p.val` pulses of the command (at least two are missing) have already been counted, and the limit still in use is not reached by the pulse. -/
theorem C74_no_pulse_lost_partial (steps : Nat) (p : ShadowPcnt) (tea irq : Bool) (arr : Option (Fin 6)) (hs : steps < 256) (hv : p.val + 2 ≤ steps) (ha : p.val + 1 ≠ p.act) :
    let r := (Mcpwm.adjust shadowPcnt steps (arr.map Fin.val) ⟨p, tea, irq⟩).1
    r.irq = irq ∧ r.p.act - r.p.val + (if arr = none then 0 else 1) + p.val = steps ∧ r.p.val < r.p.act := by
  have h1 : subU16 steps p.val = steps - p.val := by unfold subU16; omega
  have h2 : subU16 steps (p.val + 1) = steps - (p.val + 1) := by unfold subU16; omega
  have h3 : subU16 (steps - p.val) 1 = steps - p.val - 1 := by unfold subU16; omega
  have h4 : subU16 (steps - (p.val + 1)) 1 = steps - (p.val + 1) - 1 := by unfold subU16; omega
  have hne : steps - p.val ≠ steps - (p.val + 1) := by omega
  have h5 : ¬ (1 = steps - p.val) := by omega
  obtain ⟨v, rg, ac⟩ := p
  dsimp only at *
  cases arr with
  | none => simp [Mcpwm.adjust, Mcpwm.arrive, shadowPcnt, h1]; omega
  | some k =>
    have hk : k.val = 0 ∨ k.val = 1 ∨ k.val = 2 ∨ k.val = 3 ∨ k.val = 4 ∨ k.val = 5 := by omega
    simp only [Option.map_some, reduceCtorEq, if_false]
    rcases hk with hk | hk | hk | hk | hk | hk <;> rw [hk]
    · simp [Mcpwm.adjust, Mcpwm.arrive, shadowPcnt, ha, h2]; omega
    · simp [Mcpwm.adjust, Mcpwm.arrive, shadowPcnt, ha, h1, h2, hne]; omega
    · simp [Mcpwm.adjust, Mcpwm.arrive, shadowPcnt, ha, h1, h2, hne]; omega
    · simp [Mcpwm.adjust, Mcpwm.arrive, shadowPcnt, ha, h1, h3]; omega
    · simp [Mcpwm.adjust, Mcpwm.arrive, shadowPcnt, ha, h1, h3]; omega
    · simp [Mcpwm.adjust, Mcpwm.arrive, shadowPcnt, h1, h5]; omega

example : (3 : Nat) < 256 ∧ (⟨1, 3, 9⟩ : ShadowPcnt).val + 2 ≤ 3 ∧ (⟨1, 3, 9⟩ : ShadowPcnt).val + 1 ≠ (⟨1, 3, 9⟩ : ShadowPcnt).act := by decide

/-- Why C74 is restricted: if only one pulse is missing and it arrives after the second reading of the counter, then the limit becomes 0 and the interrupt of the timer is disabled, too. However many pulses
follow, no interrupt is caused any more. (The comment in the code describes this case and demands to leave the interrupt of the timer enabled for `val2 == 1`, but the condition used is `val2 > 0`.) -/
theorem C74_last_pulse_refuted (k : Nat) (hk : k = 3 ∨ k = 4) (n : Nat) :
    let r := Mcpwm.adjust shadowPcnt 1 (some k) ⟨⟨0, 5, 5⟩, false, false⟩
    r.2 = true ∧ r.1.irq = false ∧ (shadowPcnt.count (shadowPcnt.pulses n r.1.p)).2 = false := by
  have key : ∀ (n : Nat) (p : ShadowPcnt), p.act = 0 → (shadowPcnt.pulses n p).act = 0 := by
    intro n
    induction n with
    | zero => intro p hp; exact hp
    | succ n ih =>
      intro p hp
      unfold PcntHw.pulses
      apply ih
      simp [shadowPcnt, hp]
  have h0 : ∀ p : ShadowPcnt, p.act = 0 → (shadowPcnt.count p).2 = false := by
    intro p hp; simp [shadowPcnt, hp]
  have h1 : (Mcpwm.adjust shadowPcnt 1 (some k) ⟨⟨0, 5, 5⟩, false, false⟩).1.p.act = 0 := by
    rcases hk with rfl | rfl <;> decide
  refine ⟨?_, ?_, h0 _ (key n _ h1)⟩
  · rcases hk with rfl | rfl <;> decide
  · rcases hk with rfl | rfl <;> decide

/-! ## C75: force stop -/

/-- Events after a force stop: commands without start flag, no second force stop, and no move which re-enables the queue. -/
def Mcpwm.Ev.Passive : Mcpwm.Ev → Prop
  | .addBegin _ start => start = false
  | .forceStop _ => False
  | .clearIgnore => False
  | _ => True

/-- C75: forceStopAndNewPosition(p), called in any state, empties the queue, sets the position and stops: whatever happens afterwards, at most one more period follows, and none, if the timer is stopped or has
already output the pulse of its period. For any pulse counter. Missing: commands added with start flag, see C12. -/
theorem C75_force_stop_partial {σ : Type} (hw : PcntHw σ) (s : Mcpwm σ) (hpc : s.pc = .idle) (p : Int) (evs : List Mcpwm.Ev) (hev : ∀ ev ∈ evs, ev.Passive) :
    let s' := (s.step hw (.forceStop p)).exec hw evs
    s'.q.running = false ∧ s'.q.readIdx = s'.q.nextWriteIdx ∧ s'.q.qend.pos = p ∧ s'.log.length ≤ s.log.length + 1 ∧
      (s.timer ≠ .low → s'.log = s.log) := by
  have key : ∀ (evs : List Mcpwm.Ev) (t : Mcpwm σ) (m : Nat), (∀ ev ∈ evs, ev.Passive) →
      (t.q.running = false ∧ t.q.readIdx = t.q.nextWriteIdx ∧ t.q.qend.pos = p ∧ t.q.ignoreCommands = true ∧ t.run = false ∧
        (t.log.length + (if t.timer = .low then 1 else 0) ≤ m) ∧ (s.timer ≠ .low → t.log = s.log ∧ t.timer ≠ .low) ∧
        (∀ st, t.pc = .committed st → st = false) ∧ ∀ n c st, t.pc = .prepared n c st → st = false) →
      (t.exec hw evs).q.running = false ∧ (t.exec hw evs).q.readIdx = (t.exec hw evs).q.nextWriteIdx ∧ (t.exec hw evs).q.qend.pos = p ∧
        (t.exec hw evs).log.length ≤ m ∧ (s.timer ≠ .low → (t.exec hw evs).log = s.log) := by
    intro evs
    induction evs with
    | nil =>
      intro t m _ ⟨h1, h2, h3, h4, h5, h6, h7, h8, h9⟩
      exact ⟨h1, h2, h3, by change t.log.length ≤ m; omega, fun hx => (h7 hx).1⟩
    | cons ev evs ih =>
      intro t m hev ⟨h1, h2, h3, h4, h5, h6, h7, h8, h9⟩
      have hp : ev.Passive := hev ev (by simp)
      refine ih (t.step hw ev) m (fun e he => hev e (by simp [he])) ?_
      have hstop : ∀ u : Mcpwm σ, u.q.readIdx = u.q.nextWriteIdx → u.whatIsNext hw = Mcpwm.initStop { u with prepared := false } := by
        intro u hu
        unfold Mcpwm.whatIsNext
        dsimp only
        rw [if_pos hu]
      unfold Mcpwm.step
      cases ev with
      | zero =>
        dsimp only
        by_cases ht : t.timer = .high
        · rw [if_pos ht]
          unfold Mcpwm.zero
          rw [h5, if_neg (by decide)]
          refine ⟨h1, h2, h3, h4, rfl, ?_, fun hx => ⟨(h7 hx).1, (fun hx => nomatch hx)⟩, h8, h9⟩
          change t.log.length + 0 ≤ m
          omega
        · rw [if_neg ht]; exact ⟨h1, h2, h3, h4, h5, h6, h7, h8, h9⟩
      | compare =>
        dsimp only
        by_cases ht : t.timer = .low
        · rw [if_pos ht]
          rw [if_pos ht] at h6
          have hf : (t.compare hw).q = t.q ∧ (t.compare hw).run = t.run ∧ (t.compare hw).timer = .high ∧ (t.compare hw).pc = t.pc ∧
              (t.compare hw).log.length = t.log.length + 1 := by
            unfold Mcpwm.compare
            dsimp only
            split <;> exact ⟨rfl, rfl, rfl, rfl, rfl⟩
          obtain ⟨f1, f2, f3, f4, f5⟩ := hf
          refine ⟨(congrArg Queue.running f1).trans h1, ?_, (congrArg (fun q => q.qend.pos) f1).trans h3, (congrArg Queue.ignoreCommands f1).trans h4, f2.trans h5, ?_, ?_, ?_, ?_⟩
          · change (t.compare hw).q.readIdx = (t.compare hw).q.nextWriteIdx
            rw [f1]; exact h2
          · change (t.compare hw).log.length + (if (t.compare hw).timer = .low then 1 else 0) ≤ m
            rw [f3, f5, if_neg (by decide)]
            omega
          · intro hx; exact absurd ht (h7 hx).2
          · intro st hx; exact h8 st (f4.symm.trans hx)
          · intro n c st hx; exact h9 n c st (f4.symm.trans hx)
        · rw [if_neg ht]; exact ⟨h1, h2, h3, h4, h5, h6, h7, h8, h9⟩
      | pcntIsr =>
        dsimp only
        by_cases hi : t.irq = true
        · rw [if_pos hi, hstop { t with irq := false } h2]
          exact ⟨rfl, h2, h3, h4, rfl, h6, h7, h8, h9⟩
        · rw [if_neg hi]; exact ⟨h1, h2, h3, h4, h5, h6, h7, h8, h9⟩
      | teaIsr =>
        dsimp only
        by_cases hi : (t.tea && t.ena) = true
        · rw [if_pos hi, hstop t h2]
          exact ⟨rfl, h2, h3, h4, rfl, h6, h7, h8, h9⟩
        · rw [if_neg hi]; exact ⟨h1, h2, h3, h4, h5, h6, h7, h8, h9⟩
      | otherRead => exact ⟨h1, h2, h3, h4, h5, h6, h7, h8, h9⟩
      | otherWrite => exact ⟨h1, h2, h3, h4, h5, h6, h7, h8, h9⟩
      | addBegin c start =>
        have hst : start = false := hp
        dsimp only
        split
        · rename_i hidle
          split
          · exact ⟨h1, h2, h3, h4, h5, h6, h7, h8, h9⟩
          split
          · exact ⟨h1, h2, h3, h4, h5, h6, h7, h8, h9⟩
          split
          · exact ⟨h1, h2, h3, h4, h5, h6, h7, h8, h9⟩
          · have hpos : (t.q.prepare .esp32 c).1.qend.pos = p := by
              unfold Queue.prepare
              dsimp only
              split <;> exact h3
            refine ⟨h1, h2, hpos, h4, h5, h6, h7, (fun st hx => nomatch hx), ?_⟩
            intro n d st hx
            injection hx with _ _ hx
            rw [← hx]; exact hst
        · exact ⟨h1, h2, h3, h4, h5, h6, h7, h8, h9⟩
      | addCommit =>
        dsimp only
        split
        · rename_i next c start hpc
          unfold Queue.commit
          rw [h4]
          refine ⟨h1, h2, h3, h4, h5, h6, h7, ?_, (fun _ _ _ hx => nomatch hx)⟩
          intro st hx
          injection hx with hx
          rw [← hx]; exact h9 _ _ _ hpc
        · exact ⟨h1, h2, h3, h4, h5, h6, h7, h8, h9⟩
      | addFinish =>
        dsimp only
        split
        · rename_i start hpc
          have hn : ¬ (!t.q.running && start) = true := by rw [h8 start hpc]; simp
          split
          · rename_i hx; exact absurd hx hn
          · exact ⟨h1, h2, h3, h4, h5, h6, h7, (fun _ hx => nomatch hx), (fun _ _ _ hx => nomatch hx)⟩
        · exact ⟨h1, h2, h3, h4, h5, h6, h7, h8, h9⟩
      | startNull =>
        dsimp only
        split
        · rename_i hidle
          have : (t.q.addNull true).start = false := by
            unfold Queue.addNull
            split
            · rfl
            · rw [h1, if_pos (by decide), if_pos h2.symm]
          rw [this, if_neg (by decide)]
          exact ⟨h1, h2, h3, h4, h5, h6, h7, h8, h9⟩
        · exact ⟨h1, h2, h3, h4, h5, h6, h7, h8, h9⟩
      | forceStop p => exact hp.elim
      | clearIgnore => exact hp.elim
  have h0 : s.step hw (.forceStop p) = (Mcpwm.forceStopAndNewPosition p s).sync := by
    unfold Mcpwm.step
    rw [hpc]
  rw [h0]
  refine key evs _ (s.log.length + 1) hev ⟨rfl, rfl, rfl, rfl, rfl, ?_, fun hx => ⟨rfl, hx⟩, ?_, ?_⟩
  · change s.log.length + (if s.timer = .low then 1 else 0) ≤ _
    split <;> omega
  · intro st hx
    have : s.pc = .committed st := hx
    rw [hpc] at this; cases this
  · intro n c st hx
    have : s.pc = .prepared n c st := hx
    rw [hpc] at this; cases this

example : let s := Mcpwm.track shadowPcnt (Mcpwm.fresh shadowPcnt mcCnt 5 true) [] (mcAdd ⟨1600, 200, true⟩ true ++ mcAdd ⟨1600, 200, true⟩ true ++ Mcpwm.rounds 20)
    s.1.pc = .idle ∧ s.1.log.length = 20 ∧ s.1.timer = .low ∧
    ((s.1.step shadowPcnt (.forceStop 7)).exec shadowPcnt (Mcpwm.rounds 30)).log.length = 21 := by
  decide +kernel

/-- C75, later commands: if no interrupt of the pulse counter is pending and the timer is not at the beginning of a period, then after forceStopAndNewPosition(p) and the next move (which
re-enables the queue) the channel is as good as new: all of C72 and C73 apply. -/
theorem C75_later_commands_partial {σ : Type} (hw : PcntHw σ) (s : Mcpwm σ) (hpc : s.pc = .idle) (p : Int) (hidx : s.q.nextWriteIdx < 256) (hirq : s.irq = false) (ht : s.timer ≠ .low)
    (hpin : s.q.dirPin = pinUndefined ∨ pinIsExternal s.q.dirPin = false) :
    ({ (s.step hw (.forceStop p)).step hw .clearIgnore with log := [] } : Mcpwm σ).Idle := by
  have h0 : s.step hw (.forceStop p) = (Mcpwm.forceStopAndNewPosition p s).sync := by
    unfold Mcpwm.step
    rw [hpc]
  rw [h0]
  exact { idx := ⟨rfl, hidx⟩, run := rfl, timer := ⟨ht, rfl⟩, irqs := ⟨hirq, rfl⟩, ready := Bool.false_or _, ign := rfl, pc := hpc, log := rfl, pin := hpin }

example : let s := Mcpwm.track shadowPcnt (Mcpwm.fresh shadowPcnt mcCnt 5 true) [] (mcAdd ⟨1600, 200, true⟩ true ++ mcAdd ⟨1600, 200, true⟩ true ++ Mcpwm.rounds 20 ++ [.compare])
    s.1.pc = .idle ∧ s.1.q.nextWriteIdx < 256 ∧ s.1.irq = false ∧ s.1.timer ≠ .low := by
  decide +kernel

/-- Why the later commands need the interrupt to be served: an interrupt pending from before the force stop ends the first new command prematurely. The new command has 10 steps, but the
motor stops after the first one. -/
theorem C75_pending_interrupt_refuted :
    let s := Mcpwm.track shadowPcnt (Mcpwm.fresh shadowPcnt mcCnt 5 true) [] (mcAdd ⟨3200, 1, true⟩ true ++ [.compare])
    let t := { (s.1.step shadowPcnt (.forceStop 0)).step shadowPcnt .clearIgnore with log := [] }
    let u := Mcpwm.track shadowPcnt t [] ([.zero] ++ mcAdd ⟨3200, 10, true⟩ true)
    u.2 = [⟨3200, 10, true⟩] ∧ (u.1.exec shadowPcnt (Mcpwm.rounds 20)).log.length = 1 ∧ (u.1.exec shadowPcnt (Mcpwm.rounds 20)).timer = .stopped := by
  decide +kernel


/-! ## C76: the position reported -/

/-- C76: getCurrentPosition(), called at any time of any interleaving, is the start position `p0` plus the signed number of pulses output (modulo 2^32), counted in its first critical section, or in its second one, if the first one finds no
counted pulse. Between both critical sections (`mid`) anything may happen but the queuing of a command (see below), and interrupts pending are served. -/
theorem C76_position_partial (p0 : Int) (s0 : Mcpwm ShadowPcnt) (h0 : s0.Idle) (hv : s0.pcnt.val = 0) (hpos : s0.q.qend.pos = i32 p0)
    (evs : List Mcpwm.Ev) (hp : Mcpwm.Along shadowPcnt Mcpwm.Basic s0 evs) (mid : List Mcpwm.Ev)
    (hm : Mcpwm.Along shadowPcnt Mcpwm.Basic (Mcpwm.track shadowPcnt s0 [] evs).1 mid) (hadd : (Mcpwm.track shadowPcnt (Mcpwm.track shadowPcnt s0 [] evs).1 [] mid).2 = [])
    (hs : (Mcpwm.track shadowPcnt (Mcpwm.track shadowPcnt s0 [] evs).1 [] mid).1.Served) :
    let s := (Mcpwm.track shadowPcnt s0 [] evs).1
    let t := (Mcpwm.track shadowPcnt s [] mid).1
    Mcpwm.position shadowPcnt s t = i32 (p0 + travel ((if s.pcnt.val = 0 then t.log else s.log).reverse.map Cycle.shape)) := by
  intro s t
  have hD := fun u => DirOK.of_lvl s0.q.dirPin s0.q.dirHighCountsUp s0.q.dirLevel u
  have h := MInv.run (D := DirOK s0.q.dirPin s0.q.dirHighCountsUp) hD evs (MInv.idle h0) hp
  have hi := PI.run hD evs (PI.idle h0 hv p0 hpos) (MInv.idle h0) hp
  have ht := MInv.run hD mid h hm
  have hti := PI.run hD mid hi h hm
  rw [Mcpwm.track_acc, hadd, List.append_nil] at ht hti
  unfold Mcpwm.position
  by_cases h1 : s.pcnt.val = 0
  · rw [if_pos (show shadowPcnt.cnt s.pcnt = 0 from h1), if_pos h1]
    have he : s.q.qend.pos = t.q.qend.pos := hi.qp.pos.trans hti.qp.pos.symm
    rw [he]
    exact hti.position ht hs
  · rw [if_neg (show ¬ shadowPcnt.cnt s.pcnt = 0 from h1), if_neg h1]
    exact hi.position h (hi.counting h h1)

/-- The second critical section is needed and used: the limit has just been reached, and the interrupt comes in between. -/
example : let s0 := Mcpwm.fresh shadowPcnt mcCnt 5 true
    let s := (Mcpwm.track shadowPcnt s0 [] (mcAdd ⟨1600, 2, true⟩ true ++ mcAdd ⟨1200, 3, true⟩ true ++ Mcpwm.rounds 1 ++ [.compare])).1
    let t := (Mcpwm.track shadowPcnt s [] [.pcntIsr]).1
    s0.pcnt.val = 0 ∧ s0.q.qend.pos = 0 ∧ ¬ s.Served ∧ t.Served ∧ Mcpwm.position shadowPcnt s t = 2 ∧ Mcpwm.position shadowPcnt s s = 0 := by
  decide +kernel

/-- A position in the middle of a command in backward direction. -/
example : let s0 := Mcpwm.fresh shadowPcnt mcCnt 5 true
    let s := (Mcpwm.track shadowPcnt s0 [] (mcAdd ⟨1600, 2, true⟩ true ++ mcAdd ⟨1200, 7, false⟩ true ++ Mcpwm.rounds 7)).1
    Mcpwm.position shadowPcnt s s = -3 ∧ travel (s.log.reverse.map Cycle.shape) = -3 := by
  decide +kernel

/-- Why C76 is restricted: the end position is read in the first critical section only. A command queued and completed before the second one is missing in the position reported. -/
theorem C76_outdated_end_refuted :
    let s0 := Mcpwm.fresh shadowPcnt mcCnt 5 true
    let t := (Mcpwm.track shadowPcnt s0 [] (mcAdd ⟨1600, 2, true⟩ true ++ Mcpwm.rounds 4)).1
    travel (t.log.reverse.map Cycle.shape) = 2 ∧ t.q.running = false ∧ Mcpwm.position shadowPcnt s0 t = 0 := by
  decide +kernel

/-- Why C76 is restricted: the pulse counter is not cleared by a force stop, but only by the next start. If the next command is queued without start, the position reported still contains the pulses counted
before the force stop: 106 instead of the 100 just set. -/
theorem C76_stale_counter_refuted :
    let s := Mcpwm.track shadowPcnt (Mcpwm.fresh shadowPcnt mcCnt 5 true) [] (mcAdd ⟨1600, 20, true⟩ true ++ Mcpwm.rounds 5 ++ [.compare, .forceStop 100, .zero, .clearIgnore] ++ mcAdd ⟨1600, 20, true⟩ false)
    s.1.q.running = false ∧ s.1.timer = .stopped ∧ Mcpwm.position shadowPcnt s.1 s.1 = 106 := by
  decide +kernel

end FAS
