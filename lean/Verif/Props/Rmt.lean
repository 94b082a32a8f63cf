import Verif.Lemmas.RmtRun
import Verif.Lemmas.RmtPos

/-!
# Properties C50, C51, C63 and C77: the RMT backends of the ESP32

`Rmt.track v s0 [] evs` executes an arbitrary schedule `evs` of requests of the peripheral for the next part, ends of the transmission and
phases of `addQueueEntry` calls from a state `s0` without anything to do, and collects the accepted commands. `out` is the log of the parts
handed over to the peripheral, newest first.
-/

namespace FAS

/-- One uninterrupted call of addQueueEntry. -/
def rmtAdd (c : Cmd) (start : Bool) : List Rmt.Ev := [.addBegin c start, .addCommit, .addFinish]

theorem readOut_pending (a : ArchId) (q : Queue) : Hw.readOut a ⟨q, 0⟩ = (q.pending a).map Entry.asCmd := by
  unfold Hw.readOut Queue.pending
  rw [List.map_map]
  apply List.map_congr_left
  intro k _
  by_cases hk : k = 0
  · subst hk; rfl
  · simp only [hk, if_false]; rfl

/-- A fresh channel has nothing to do. -/
theorem Rmt.fresh_idle (pin : Nat) (hpin : pin = pinUndefined ∨ pin < 128) (hi : Bool) : (Rmt.fresh pin hi).Idle := by
  refine { idx := ⟨rfl, (by decide : (0 : Nat) < 256)⟩, run := rfl, tx := rfl, ready := rfl, ign := rfl, pc := rfl, out := rfl, pin := ?_ }
  rcases hpin with hpin | hpin
  · exact Or.inl hpin
  · refine Or.inr ?_
    change pinIsExternal pin = false
    unfold pinIsExternal
    have : pin / 128 = 0 := by omega
    rw [this]; rfl

/-- Schedule used as example: three commands in both directions and a pause, the second one longer than a part, while the peripheral
asks for parts. -/
def rmtExample : List Rmt.Ev :=
  rmtAdd ⟨1000, 5, true⟩ true ++ [.fill] ++ rmtAdd ⟨2000, 40, false⟩ false ++ [.addBegin ⟨5000, 0, true⟩ true, .fill, .addCommit, .fill, .addFinish, .fill]

/-- C50, for commands which can be encoded (`RmtVer.Encodable`, see the refutations below): whatever the interleaving, the parts sent are
exactly those of the first accepted commands, one after the other, and of the first steps of the next command. Each command is a
train of its steps, with its period (on C3/S3 up to 4 ticks less) and with its direction, a pause is exactly as long as commanded,
no level has the duration 0, and between the commands there are only additional pauses.
All other accepted commands and the other steps of the command in process are still in the queue. -/
theorem C50_output_partial (v : RmtVer) (s0 : Rmt) (h0 : s0.Idle) (evs : List Rmt.Ev) (hp : ∀ ev ∈ evs, ev.Plain v) :
    let s := (Rmt.track v s0 [] evs).1
    let acc := (Rmt.track v s0 [] evs).2
    ∃ n w r, s.out.reverse = w ++ r ∧ Plays v.slack (DirOK s0.q.dirPin s0.q.dirHighCountsUp) (acc.take n) w ∧
      (r = [] ∧ Hw.readOut .esp32 ⟨s.q, 0⟩ = acc.drop n ∨
        ∃ c cs k, acc.drop n = c :: cs ∧ 0 < k ∧ k < c.steps ∧ Train (c.ticks - v.slack) c.ticks k (segsOf r) ∧ NoEnd (segsOf r) ∧
          (∀ ch ∈ r, DirOK s0.q.dirPin s0.q.dirHighCountsUp c.countUp ch.level) ∧
          Hw.readOut .esp32 ⟨s.q, 0⟩ = { c with steps := c.steps - k } :: cs) := by
  intro s acc
  have hb : ∀ ev ∈ evs, ev.Basic := by
    intro ev hev
    have := hp ev hev
    cases ev with
    | addBegin c st => exact this.1
    | forceStop p => exact this
    | _ => trivial
  have h : RInv v _ _ True s acc := RInv.run (enc := True) (fun u => DirOK.of_lvl _ _ _ u) evs (RInv.idle h0)
    (by rw [h0.ready, h0.run]; rfl) hb (fun _ => hp)
  obtain ⟨dn, pend, k, w, r, h1, h2, h3, h4, h5⟩ := h.play trivial
  have ht : acc.take dn.length = dn := by rw [h1, List.take_left]
  have hd : acc.drop dn.length = pend := by rw [h1, List.drop_left]
  refine ⟨dn.length, w, r, h2, by rw [ht]; exact h3, ?_⟩
  rw [readOut_pending, h4, hd]
  rcases h5 with ⟨hk, hr⟩ | ⟨c, cs, hc, hk, hk2, htr, hne, hdir, _⟩
  · exact Or.inl ⟨hr, by rw [hk, cutHead_zero]⟩
  · exact Or.inr ⟨c, cs, k, hc, hk, hk2, htr, hne, hdir, by rw [hc]; rfl⟩

example : (Rmt.fresh 5 false).Idle ∧ (∀ ev ∈ rmtExample, ev.Plain .idf5) ∧ (∀ ev ∈ rmtExample, ev.Plain .idf4s) ∧
    (Rmt.track .idf5 (Rmt.fresh 5 false) [] rmtExample).2 = [⟨1000, 5, true⟩, ⟨2000, 40, false⟩, ⟨5000, 0, true⟩] ∧
    (Rmt.track .idf5 (Rmt.fresh 5 false) [] rmtExample).1.out.reverse.map (fun k => (pulseCount k.segs, segTime k.segs, k.level)) =
      [(5, 5000, false), (0, 3150, false), (20, 40000, true), (20, 40000, true)] :=
  ⟨Rmt.fresh_idle 5 (by decide) false, by simp [rmtExample, rmtAdd, Rmt.Ev.Plain]; decide, by simp [rmtExample, rmtAdd, Rmt.Ev.Plain]; decide,
    by decide +kernel, by decide +kernel⟩

/-- Why C50 is restricted: on IDF 5 with 64 words an accepted command with 33 steps and a period of 100 ticks is sent with 35 pulses. -/
theorem C50_short_period_refuted :
    let s := Rmt.run .idf5 (Rmt.fresh 5 true) (rmtAdd ⟨100, 33, true⟩ true ++ [.fill, .fill, .fill])
    (Rmt.track .idf5 (Rmt.fresh 5 true) [] (rmtAdd ⟨100, 33, true⟩ true)).2 = [⟨100, 33, true⟩] ∧
      pulseCount (segsOf s.out.reverse) = 35 := by
  decide +kernel

/-- The limits `fastLimit` are sharp: one tick less, and a part with a level of duration 0 is sent. -/
theorem C50_fast_limit_sharp :
    (∃ c : Cmd, c.ticks + 1 = RmtVer.fastLimit .idf5 ∧ (segsOf (Rmt.run .idf5 (Rmt.fresh 5 true) (rmtAdd c true ++ [.fill, .fill])).out).any (fun s => decide (s.dur = 0)) = true) ∧
    (∃ c : Cmd, c.ticks + 1 = RmtVer.fastLimit .idf5s ∧ (segsOf (Rmt.run .idf5s (Rmt.fresh 5 true) (rmtAdd c true ++ [.fill, .fill])).out).any (fun s => decide (s.dur = 0)) = true) ∧
    (∃ c : Cmd, c.ticks + 1 = RmtVer.fastLimit .idf4 ∧ (segsOf (Rmt.run .idf4 (Rmt.fresh 5 true) (rmtAdd c true)).out).any (fun s => decide (s.dur = 0)) = true) ∧
    (∃ c : Cmd, c.ticks + 1 = RmtVer.fastLimit .idf4s ∧ (segsOf (Rmt.run .idf4s (Rmt.fresh 5 true) (rmtAdd c true)).out).any (fun s => decide (s.dur = 0)) = true) :=
  ⟨⟨⟨129, 33, true⟩, by decide +kernel⟩, ⟨⟨97, 49, true⟩, by decide +kernel⟩, ⟨⟨121, 32, true⟩, by decide +kernel⟩, ⟨⟨105, 47, true⟩, by decide +kernel⟩⟩

/-- On IDF 4 (ESP32) a command of 20 steps with the longest period is sent with 21 pulses: one word of the part is not written. -/
theorem C50_longest_period_refuted :
    let s := Rmt.run .idf4 (Rmt.fresh 5 true) (rmtAdd ⟨65535, 20, true⟩ true)
    (Rmt.track .idf4 (Rmt.fresh 5 true) [] (rmtAdd ⟨65535, 20, true⟩ true)).2 = [⟨65535, 20, true⟩] ∧
      pulseCount (segsOf s.out) = 21 := by
  decide +kernel

/-- On IDF 4 on C3/S3 ten steps with period 1000 last only 9996 ticks. -/
theorem C50_duration_refuted :
    let s := Rmt.run .idf4s (Rmt.fresh 5 true) (rmtAdd ⟨1000, 10, true⟩ true)
    s.out.reverse.map (fun k => (pulseCount k.segs, segTime k.segs)) = [(10, 9996), (0, 2392)] := by
  decide +kernel

/-- On IDF 5 the pauses inserted before a change of direction contain a level with duration 0 (the last word is stored in an uint16_t variable):
the peripheral takes this as the end of the transmission, although the commands following have not been sent. -/
theorem C50_inserted_pause_refuted :
    let s := Rmt.run .idf5 (Rmt.fresh 5 true) (rmtAdd ⟨1000, 10, true⟩ true ++ rmtAdd ⟨1000, 10, false⟩ true ++ [.fill, .fill])
    (∃ k ∈ s.out, k.up = none ∧ (⟨false, 0⟩ : Seg) ∈ k.segs) ∧ Hw.readOut .esp32 ⟨s.q, 0⟩ = [⟨1000, 10, false⟩] := by
  decide +kernel

/-- C51: for every schedule and all commands, also those which cannot be encoded, the direction pin is not changed in a call while a part
with pulses is in transmission, and each part of a command is sent with the direction of the command. -/
theorem C51_direction (v : RmtVer) (s0 : Rmt) (h0 : s0.Idle) (evs : List Rmt.Ev) (hp : ∀ ev ∈ evs, ev.Basic) :
    let s := (Rmt.track v s0 [] evs).1
    Steady s.out ∧ ∀ k ∈ s.out, ∀ up, k.up = some up → DirOK s0.q.dirPin s0.q.dirHighCountsUp up k.level := by
  intro s
  have h := RInv.run (v := v) (enc := False) (fun u => DirOK.of_lvl s0.q.dirPin s0.q.dirHighCountsUp s0.q.dirLevel u) evs (RInv.idle h0)
    (by rw [h0.ready, h0.run]; rfl) hp (fun hx => hx.elim)
  exact ⟨h.steady, h.dirs⟩

example : (∀ ev ∈ rmtExample, ev.Basic) ∧
    (Rmt.track .idf4 (Rmt.fresh 5 false) [] rmtExample).1.out.reverse.map (fun k => (k.up, k.level, pulseCount k.segs, k.first)) =
      [(some true, false, 5, true), (none, false, 0, false), (none, false, 0, false), (some false, true, 20, false), (some false, true, 20, false),
        (none, true, 0, false)] :=
  ⟨by simp [rmtExample, rmtAdd, Rmt.Ev.Basic]; decide, by decide +kernel⟩

/-- C63, for commands which can be encoded: at any time during a transmission, if the peripheral asks for enough parts and then the transmission
ends, all commands accepted so far have been sent completely, nothing else, and the motor is not running any more. -/
theorem C63_all_sent_partial (v : RmtVer) (s0 : Rmt) (h0 : s0.Idle) (evs : List Rmt.Ev) (hp : ∀ ev ∈ evs, ev.Plain v)
    (htx : (Rmt.track v s0 [] evs).1.tx = true) :
    ∃ n, let s := Rmt.run v (Rmt.track v s0 [] evs).1 (List.replicate n .fill ++ [.txDone])
      s.q.running = false ∧ Hw.readOut .esp32 ⟨s.q, 0⟩ = [] ∧
      Plays v.slack (DirOK s0.q.dirPin s0.q.dirHighCountsUp) (Rmt.track v s0 [] evs).2 s.out.reverse := by
  have hb : ∀ ev ∈ evs, ev.Basic := by
    intro ev hev
    have := hp ev hev
    cases ev with
    | addBegin c st => exact this.1
    | forceStop p => exact this
    | _ => trivial
  have hD := fun u => DirOK.of_lvl s0.q.dirPin s0.q.dirHighCountsUp s0.q.dirLevel u
  have h := RInv.run (v := v) (enc := True) hD evs (RInv.idle h0) (by rw [h0.ready, h0.run]; rfl) hb (fun _ => hp)
  generalize (Rmt.track v s0 [] evs).1 = s1 at *
  generalize (Rmt.track v s0 [] evs).2 = acc at *
  obtain ⟨n1, h1, t1, p1⟩ := RInv.drain trivial hD (rmtMeasure s1 + 1) h htx (by omega)
  obtain ⟨n2, h2, t2, p2, st2⟩ := h1.finish hD t1 p1
  have hrun : Rmt.run v s1 (List.replicate (n1 + n2) .fill) = Rmt.run v (Rmt.run v s1 (List.replicate n1 .fill)) (List.replicate n2 .fill) := by
    unfold Rmt.run
    rw [← List.replicate_append_replicate, List.foldl_append]
  rw [← hrun] at h2 t2 p2 st2
  have hall : Rmt.run v s1 (List.replicate (n1 + n2) .fill ++ [.txDone]) = (Rmt.run v s1 (List.replicate (n1 + n2) .fill)).step v .txDone := by
    unfold Rmt.run
    rw [List.foldl_append]
    rfl
  refine ⟨n1 + n2, ?_⟩
  rw [hall]
  generalize Rmt.run v s1 (List.replicate (n1 + n2) .fill) = s2 at *
  have hstep : s2.step v .txDone = Rmt.sync { s2 with tx := false, q := { s2.q with running := false } } := by
    unfold Rmt.step
    simp only [t2, st2]
    rfl
  rw [hstep]
  refine ⟨rfl, ?_, ?_⟩
  · rw [readOut_pending]
    change (s2.q.pending .esp32).map Entry.asCmd = []
    rw [p2]; rfl
  · obtain ⟨dn, pend, k, w, r, g1, g2, g3, g4, g5⟩ := h2.play trivial
    rw [p2] at g4
    have hpe : pend = [] := by
      cases pend with
      | nil => rfl
      | cons c cs => cases g4
    subst hpe
    rw [List.append_nil] at g1
    rcases g5 with ⟨_, hr⟩ | ⟨c, cs, hc, _⟩
    · subst hr
      change Plays _ _ acc s2.out.reverse
      rw [g2, List.append_nil, g1]
      exact g3
    · cases hc

example : (Rmt.track .idf4 (Rmt.fresh 5 false) [] rmtExample).1.tx = true ∧
    (Rmt.run .idf4 (Rmt.track .idf4 (Rmt.fresh 5 false) [] rmtExample).1 (List.replicate 5 .fill ++ [.txDone])).q.running = false := by
  decide +kernel

/-- The motor can be stuck on IDF 4: if addQueueEntry(cmd, true) is interrupted before it tests isRunning(), and in between all commands
are sent and the transmission ends, it starts the empty queue. From then on the motor is reported as running forever, and nothing is ever sent
again, whatever is done. -/
theorem C63_late_start_refuted (v : RmtVer) (hv : v.isIdf5 = false) :
    let evs : List Rmt.Ev := rmtAdd ⟨1000, 5, true⟩ false ++ rmtAdd ⟨1000, 5, true⟩ true ++ [.addBegin ⟨1000, 5, true⟩ true, .addCommit] ++ List.replicate 4 .fill ++ [.txDone, .addFinish]
    (∀ ev ∈ evs, ev.Plain v) ∧ Hw.readOut .esp32 ⟨(Rmt.run v (Rmt.fresh 5 true) evs).q, 0⟩ = [] ∧
      ∀ more, (Rmt.run v (Rmt.fresh 5 true) (evs ++ more)).q.running = true ∧
        (Rmt.run v (Rmt.fresh 5 true) (evs ++ more)).out = (Rmt.run v (Rmt.fresh 5 true) evs).out := by
  intro evs
  have h1 : (Rmt.run v (Rmt.fresh 5 true) evs).tx = false ∧ (Rmt.run v (Rmt.fresh 5 true) evs).q.running = true ∧
      Hw.readOut .esp32 ⟨(Rmt.run v (Rmt.fresh 5 true) evs).q, 0⟩ = [] := by
    cases v with
    | idf5 => cases hv
    | idf5s => cases hv
    | idf4 => decide +kernel
    | idf4s => decide +kernel
  refine ⟨?_, h1.2.2, ?_⟩
  · cases v with
    | idf5 => cases hv
    | idf5s => cases hv
    | idf4 => simp [evs, rmtAdd, Rmt.Ev.Plain]; decide
    | idf4s => simp [evs, rmtAdd, Rmt.Ev.Plain]; decide
  · intro more
    have : Rmt.run v (Rmt.fresh 5 true) (evs ++ more) = Rmt.run v (Rmt.run v (Rmt.fresh 5 true) evs) more := by
      unfold Rmt.run; rw [List.foldl_append]
    rw [this]
    exact Rmt.stuck_run v hv more _ h1.1 h1.2.1

/-- The motor is stuck on IDF 4 without any race, too: after forceStopAndNewPosition() of a motor at standstill a command is
ignored by addQueueEntry(cmd, true), but the (empty) queue is started. -/
theorem C63_ignored_start_refuted (v : RmtVer) (hv : v.isIdf5 = false) :
    let evs : List Rmt.Ev := [.forceStop 0] ++ rmtAdd ⟨1000, 5, true⟩ true
    ∀ more, (Rmt.run v (Rmt.fresh 5 true) (evs ++ more)).q.running = true ∧ (Rmt.run v (Rmt.fresh 5 true) (evs ++ more)).out = [] := by
  intro evs
  have h1 : (Rmt.run v (Rmt.fresh 5 true) evs).tx = false ∧ (Rmt.run v (Rmt.fresh 5 true) evs).q.running = true ∧
      (Rmt.run v (Rmt.fresh 5 true) evs).out = [] := by
    cases v with
    | idf5 => cases hv
    | idf5s => cases hv
    | idf4 => decide +kernel
    | idf4s => decide +kernel
  intro more
  have : Rmt.run v (Rmt.fresh 5 true) (evs ++ more) = Rmt.run v (Rmt.run v (Rmt.fresh 5 true) evs) more := by
    unfold Rmt.run; rw [List.foldl_append]
  rw [this]
  obtain ⟨a, b⟩ := Rmt.stuck_run v hv more _ h1.1 h1.2.1
  exact ⟨a, b.trans h1.2.2⟩


/-! ## C77: the position reported -/

theorem Rmt.track_acc (v : RmtVer) : ∀ (evs : List Rmt.Ev) (s : Rmt) (acc : List Cmd), Rmt.track v s acc evs = ((Rmt.track v s [] evs).1, acc ++ (Rmt.track v s [] evs).2)
  | [], _, _ => by simp [Rmt.track]
  | ev :: evs, s, acc => by
    rw [Rmt.track, Rmt.track_acc v evs, Rmt.track, Rmt.track_acc v evs (s.step v ev) ([] ++ s.accepts ev)]
    simp

/-- C77, for commands which can be encoded: whatever the interleaving, also between the two critical sections of getCurrentPosition() (`mid`, in which no command is queued), the position reported is the start position
plus the signed number of steps of the first `n` commands (modulo 2^32): these commands have been handed over to the peripheral completely (`w`). The steps of the command in process, which have been handed over (`r`), are not yet counted. -/
theorem C77_position_partial (v : RmtVer) (p0 : Int) (s0 : Rmt) (h0 : s0.Idle) (hpos : s0.q.qend.pos = i32 p0) (evs mid : List Rmt.Ev)
    (hp : ∀ ev ∈ evs ++ mid, ev.Plain v) (hadd : (Rmt.track v (Rmt.track v s0 [] evs).1 [] mid).2 = []) :
    let s := (Rmt.track v s0 [] evs).1
    let acc := (Rmt.track v s0 [] evs).2
    let t := (Rmt.track v s [] mid).1
    ∃ n w r, t.out.reverse = w ++ r ∧ Plays v.slack (DirOK s0.q.dirPin s0.q.dirHighCountsUp) (acc.take n) w ∧
      (r = [] ∨ ∃ c cs k, acc.drop n = c :: cs ∧ k < c.steps ∧ Train (c.ticks - v.slack) c.ticks k (segsOf r)) ∧
      Rmt.position s t = i32 (p0 + signedSum (acc.take n)) := by
  intro s acc t
  have hb : ∀ ev ∈ evs ++ mid, ev.Basic := by
    intro ev hev
    have := hp ev hev
    cases ev with
    | addBegin c st => exact this.1
    | forceStop p => exact this
    | _ => trivial
  have hst : Rmt.track v s0 [] (evs ++ mid) = (t, acc) := by
    rw [Rmt.track_append, Rmt.track_acc v mid, hadd, List.append_nil]
  have h := RInv.run (v := v) (enc := True) (fun u => DirOK.of_lvl s0.q.dirPin s0.q.dirHighCountsUp s0.q.dirLevel u) (evs ++ mid) (RInv.idle h0)
    (by rw [h0.ready, h0.run]; rfl) hb (fun _ => hp)
  rw [hst] at h
  have hi : RPI p0 t acc := by
    have := RPI.run (v := v) (evs ++ mid) (RPI.idle h0 p0 hpos) hb
    rw [hst] at this
    exact this
  have his : RPI p0 s acc := RPI.run (v := v) evs (RPI.idle h0 p0 hpos) (fun ev hev => hb ev (List.mem_append_left _ hev))
  obtain ⟨dn, pend, k, w, r, h1, h2, h3, h4, h5⟩ := h.play trivial
  change acc = dn ++ pend at h1
  have ht : acc.take dn.length = dn := by rw [h1, List.take_left]
  have hd : acc.drop dn.length = pend := by rw [h1, List.drop_left]
  refine ⟨dn.length, w, r, h2, by rw [ht]; exact h3, ?_, ?_⟩
  · rw [hd]
    rcases h5 with ⟨hk, hr⟩ | ⟨c, cs, hc, hk, hk2, htr, hne, hdir, _⟩
    · exact Or.inl hr
    · exact Or.inr ⟨c, cs, k, hc, hk2, htr⟩
  · have hq : ({ t.q with qend := { t.q.qend with pos := s.q.qend.pos } } : Queue) = t.q := by
      have : s.q.qend.pos = t.q.qend.pos := his.pos.trans hi.pos.symm
      rw [this]
    unfold Rmt.position
    rw [hq, ht]
    refine hi.position h1 ?_
    have hc := congrArg List.length h4
    rw [List.length_map] at hc
    rw [hc]
    cases pend <;> rfl

/-- C77 at standstill: without commands in the queue the position reported is exact, and all commands have been sent. -/
theorem C77_standstill_partial (v : RmtVer) (p0 : Int) (s0 : Rmt) (h0 : s0.Idle) (hpos : s0.q.qend.pos = i32 p0) (evs : List Rmt.Ev)
    (hp : ∀ ev ∈ evs, ev.Plain v) (he : Hw.readOut .esp32 ⟨(Rmt.track v s0 [] evs).1.q, 0⟩ = []) :
    let s := (Rmt.track v s0 [] evs).1
    let acc := (Rmt.track v s0 [] evs).2
    Plays v.slack (DirOK s0.q.dirPin s0.q.dirHighCountsUp) acc s.out.reverse ∧ Rmt.position s s = i32 (p0 + signedSum acc) := by
  intro s acc
  have hb : ∀ ev ∈ evs, ev.Basic := by
    intro ev hev
    have := hp ev hev
    cases ev with
    | addBegin c st => exact this.1
    | forceStop p => exact this
    | _ => trivial
  have h : RInv v _ _ True s acc := RInv.run (v := v) (enc := True) (fun u => DirOK.of_lvl s0.q.dirPin s0.q.dirHighCountsUp s0.q.dirLevel u) evs (RInv.idle h0)
    (by rw [h0.ready, h0.run]; rfl) hb (fun _ => hp)
  have hi : RPI p0 s acc := RPI.run (v := v) evs (RPI.idle h0 p0 hpos) hb
  have hpn : s.q.pending .esp32 = [] := by
    rw [readOut_pending] at he
    exact List.map_eq_nil_iff.mp he
  obtain ⟨dn, pend, k, w, r, h1, h2, h3, h4, h5⟩ := h.play trivial
  have hpe : pend = [] := by
    rw [hpn] at h4
    cases pend with
    | nil => rfl
    | cons c cs => cases h4
  subst hpe
  rw [List.append_nil] at h1
  have hr : r = [] := by
    rcases h5 with h5 | ⟨c, cs, h5, _⟩
    · exact h5.2
    · cases h5
  refine ⟨by rw [h2, hr, List.append_nil, h1]; exact h3, ?_⟩
  have := hi.position (dn := acc) (pend := []) (by simp) (by rw [hpn]; rfl)
  exact this

/-- Positions during the example: between the parts of the second command 5 is reported, and −35 when it has been handed over completely. -/
example : (Rmt.fresh 5 false).q.qend.pos = i32 0 ∧
    (let s := (Rmt.track .idf5 (Rmt.fresh 5 false) [] rmtExample).1
     Rmt.position s s = -35) ∧
    (let s := (Rmt.track .idf5 (Rmt.fresh 5 false) [] (rmtExample.take 8)).1
     let t := (Rmt.track .idf5 s [] (rmtExample.drop 8 |>.take 1)).1
     (Rmt.track .idf5 s [] (rmtExample.drop 8 |>.take 1)).2 = [] ∧ t.out.length = 2 ∧ Rmt.position s s = 5 ∧ Rmt.position s t = 5) ∧
    (let s := (Rmt.track .idf5 (Rmt.fresh 5 false) [] (rmtExample ++ [.fill, .fill])).1
     Hw.readOut .esp32 ⟨s.q, 0⟩ = [] ∧ Rmt.position s s = -35) := by
  decide +kernel

/-- Why C77 is restricted (lag): the pulses of the first part of a command with 250 steps are sent with the position 0 reported all the time. -/
theorem C77_lag_refuted :
    let s := Rmt.run .idf5 (Rmt.fresh 5 true) (rmtAdd ⟨1000, 250, true⟩ true ++ [.fill])
    pulseCount (segsOf s.out) = 32 ∧ Rmt.position s s = 0 := by
  decide +kernel

/-- Why C77 is restricted (ahead): on IDF 4 a command with 5 steps is counted, as soon as the queue is started: no time has passed, no pulse has been sent. -/
theorem C77_ahead_refuted :
    let s := Rmt.run .idf4 (Rmt.fresh 5 true) (rmtAdd ⟨1000, 5, true⟩ true)
    s.tx = true ∧ Rmt.position s s = 5 := by
  decide +kernel

/-- Why commands queued between the critical sections are excluded: the end position is read only once. -/
theorem C77_outdated_end_refuted :
    let s := Rmt.fresh 5 true
    let t := Rmt.run .idf5 s (rmtAdd ⟨1000, 5, true⟩ true ++ [.fill, .fill, .txDone])
    pulseCount (segsOf t.out) = 5 ∧ t.q.running = false ∧ Rmt.position s t = 0 ∧ Rmt.position t t = 5 := by
  decide +kernel

/-- The memory of the peripheral holds the two newest parts of the log. -/
def MemInv (v : RmtVer) (s : Rmt) : Prop :=
  s.tx = true → s.q.running = true ∧ ∃ k1 k2 ks, s.out = k1 :: k2 :: ks ∧ HoldsPart s.filledHalf k1 ∧ HoldsPart s.playedHalf k2 ∧
    s.filledHalf.length ≤ v.part ∧ s.playedHalf.length ≤ v.part

/-- One part is handed over: it is in the half filled last, and the other half is not touched. -/
theorem Rmt.send_mem (v : RmtVer) (hv : v.isIdf5 = false) (s : Rmt) (words : List Nat) (idle : Bool) (up : Option Bool) :
    ∃ k, (s.send v words idle up).out = k :: s.out ∧ HoldsPart (s.send v words idle up).filledHalf k ∧
      (s.send v words idle up).filledHalf.length ≤ v.part ∧ (s.send v words idle up).playedHalf = s.filledHalf := by
  refine ⟨_, rfl, ?_, ?_, ?_⟩
  · cases idle <;> cases hp : s.partOne <;> simp [HoldsPart, Rmt.filledHalf, Rmt.send, hv, hp]
  · cases hp : s.partOne <;> simp [Rmt.filledHalf, Rmt.send, hv, hp] <;> omega
  · cases hp : s.partOne <;> simp [Rmt.filledHalf, Rmt.playedHalf, Rmt.send, hp]

theorem Rmt.fill_mem (v : RmtVer) (hv : v.isIdf5 = false) (s : Rmt) (hs : ¬ (s.stopped && decide (v ≠ .idf4s)) = true) :
    ∃ k, (s.fill v).out = k :: s.out ∧ HoldsPart (s.fill v).filledHalf k ∧ (s.fill v).filledHalf.length ≤ v.part ∧
      (s.fill v).playedHalf = s.filledHalf := by
  unfold Rmt.fill
  rw [if_neg hs]
  split
  · exact Rmt.send_mem v hv s _ _ _
  · dsimp only
    split
    · exact Rmt.send_mem v hv s _ _ _
    · exact Rmt.send_mem v hv { s with q := Rmt.toggleHead s.q } _ _ _


theorem Rmt.fill_running (v : RmtVer) (s : Rmt) : (s.fill v).q.running = s.q.running := by
  have h1 : ∀ q rest, (Rmt.finishHead q rest).running = q.running := by
    intro q rest
    unfold Rmt.finishHead
    dsimp only
    split
    · split <;> rfl
    · rfl
  have h2 : ∀ q, (Rmt.toggleHead q).running = q.running := by
    intro q
    unfold Rmt.toggleHead
    dsimp only
    split <;> rfl
  unfold Rmt.fill
  split
  · rfl
  split
  · rfl
  dsimp only
  split
  · rfl
  · exact (h1 _ _).trans (h2 _)

theorem MemInv.start {v : RmtVer} (hv : v.isIdf5 = false) {s : Rmt} (h : MemInv v s) (hr : s.q.running = false) : MemInv v (s.startQueue v) := by
  have htx : s.tx = false := by
    cases hx : s.tx with
    | false => rfl
    | true => rw [(h hx).1] at hr; cases hr
  unfold Rmt.startQueue
  by_cases hemp : s.q.readIdx = s.q.nextWriteIdx
  · rw [if_pos hemp, if_neg (by simp [hv])]
    intro hx
    exact absurd (htx.symm.trans hx) (by decide)
  · rw [if_neg hemp]
    dsimp only
    rw [if_neg (by simp [hv])]
    generalize hs1 : ({ s with
      q := { Rmt.toggleHead s.q with running := true }, stopped := false, tx := true, starting := true, partOne := true
      mem1 := Rmt.pattern v 0 s.mem1, mem2 := Rmt.pattern v v.part s.mem2, lastSteps := true, prevSteps := true } : Rmt) = s1
    have hst : s1.stopped = false := by rw [← hs1]
    have hst2 : (s1.fill v).stopped = false := by
      have hp : s1.partOne = true := by rw [← hs1]
      unfold Rmt.fill
      rw [if_neg (by simp [hst])]
      split
      · dsimp only; rw [if_neg (by simp [hv]), hp, hst]; rfl
      · dsimp only
        split
        · exact hst
        · exact hst
    obtain ⟨k1, ho1, hk1, hl1, _⟩ := Rmt.fill_mem v hv s1 (by simp [hst])
    obtain ⟨k2, ho2, hk2, hl2, hp2⟩ := Rmt.fill_mem v hv (s1.fill v) (by simp [hst2])
    intro _
    refine ⟨?_, k2, k1, s1.out, ?_, hk2, ?_, hl2, ?_⟩
    · show ((s1.fill v).fill v).q.running = true
      rw [Rmt.fill_running, Rmt.fill_running, ← hs1]
    · show ((s1.fill v).fill v).out = _
      rw [ho2, ho1]
    · show HoldsPart ((s1.fill v).fill v).playedHalf k1
      rw [hp2]; exact hk1
    · show ((s1.fill v).fill v).playedHalf.length ≤ _
      rw [hp2]; exact hl1

theorem MemInv.step {v : RmtVer} (hv : v.isIdf5 = false) {s : Rmt} (h : MemInv v s) (ev : Rmt.Ev) : MemInv v (s.step v ev) := by
  have hsync : ∀ t : Rmt, MemInv v t → MemInv v t.sync := fun _ ht => ht
  unfold Rmt.step
  apply hsync
  cases ev with
  | fill =>
    dsimp only
    by_cases htx : s.tx = true
    · rw [if_pos htx]
      by_cases hst : (s.stopped && decide (v ≠ .idf4s)) = true
      · have : s.fill v = s := by unfold Rmt.fill; rw [if_pos hst]
        rw [this]; exact h
      · obtain ⟨hr, k1, k2, ks, ho, hk1, hk2, hl1, hl2⟩ := h htx
        obtain ⟨k, hok, hk, hl, hp⟩ := Rmt.fill_mem v hv s hst
        intro _
        refine ⟨(Rmt.fill_running v s).trans hr, k, k1, k2 :: ks, by rw [hok, ho], hk, ?_, hl, ?_⟩
        · rw [hp]; exact hk1
        · rw [hp]; exact hl1
    · rw [if_neg htx]; exact h
  | txDone =>
    dsimp only
    split
    · intro hx; cases hx
    · exact h
  | addBegin c start =>
    dsimp only
    split
    · split
      · exact h
      split
      · exact h
      split
      · exact h
      · intro hx
        have := h hx
        refine ⟨?_, this.2⟩
        rw [← this.1]
        unfold Queue.prepare
        dsimp only
    · exact h
  | addCommit =>
    dsimp only
    split
    · intro hx
      have := h hx
      refine ⟨?_, this.2⟩
      rw [← this.1]
      dsimp only
      unfold Queue.commit
      split
      · rfl
      · split <;> rfl
    · exact h
  | addFinish =>
    dsimp only
    split
    · split
      · rename_i hc
        refine MemInv.start hv (s := { s with pc := .idle }) h ?_
        simp only [Bool.and_eq_true, Bool.not_eq_true'] at hc
        exact hc.1
      · exact h
    · exact h
  | startNull =>
    dsimp only
    split
    · split
      · rename_i hc
        refine MemInv.start hv h ?_
        unfold Queue.addNull at hc
        cases hr : s.q.running with
        | false => rfl
        | true => simp [hr] at hc; split at hc <;> cases hc
      · exact h
    · exact h
  | forceStop p =>
    dsimp only
    split
    · intro hx
      have htx : s.tx = true := by
        simpa [Rmt.forceStopAndNewPosition, Rmt.forceStop, hv] using hx
      have := h htx
      refine ⟨?_, this.2⟩
      simpa [Rmt.forceStopAndNewPosition, Rmt.forceStop, hv] using this.1
    · exact h
  | clearIgnore => exact h

/-- **C50 (memory of the peripheral).** With IDF 4 the peripheral sends the two halves of its memory alternately. At every time of a
transmission – whatever commands, force stops and interrupts came before – the half filled last holds the newest part of the log,
the half being sent holds the part before: the part on the wire is never changed, and neither half overflows into the other. -/
theorem C50_memory (v : RmtVer) (hv : v.isIdf5 = false) (s0 : Rmt) (h0 : s0.Idle) (evs : List Rmt.Ev) (htx : (Rmt.run v s0 evs).tx = true) :
    ∃ k1 k2 ks, (Rmt.run v s0 evs).out = k1 :: k2 :: ks ∧ HoldsPart (Rmt.run v s0 evs).filledHalf k1 ∧
      HoldsPart (Rmt.run v s0 evs).playedHalf k2 ∧
      (Rmt.run v s0 evs).filledHalf.length ≤ v.part ∧ (Rmt.run v s0 evs).playedHalf.length ≤ v.part := by
  have key : ∀ (evs : List Rmt.Ev) (s : Rmt), MemInv v s → MemInv v (Rmt.run v s evs) := by
    intro evs
    induction evs with
    | nil => exact fun _ h => h
    | cons ev evs ih => exact fun s h => ih _ (h.step hv ev)
  exact (key evs s0 (fun hx => absurd (h0.tx.symm.trans hx) (by decide)) htx).2

/-- The hypotheses are met: a transmission of ten steps is in progress. -/
example : let s := Rmt.run .idf4 (Rmt.fresh 5 true) [.addBegin ⟨4000, 10, true⟩ true, .addCommit, .addFinish, .fill]
    s.tx = true ∧ s.out.length = 3 := by
  decide +kernel

end FAS
