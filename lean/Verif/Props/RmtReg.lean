import Verif.Props.Rmt
import Verif.Lemmas.RmtReg

/-!
# C92: the levels sent by an RMT channel of the ESP32 with IDF 4
-/

namespace FAS
namespace RmtReg

theorem fresh_idle (pin : Nat) (hi : Bool) (m1 m2 : List Nat) (hpin : pin = pinUndefined ∨ pinIsExternal pin = false) : ((freshMem pin hi m1 m2).abs true false []).Idle where
  idx := ⟨rfl, show 0 < 256 by decide⟩
  run := rfl
  tx := rfl
  ready := rfl
  ign := rfl
  pc := rfl
  out := rfl
  pin := hpin

/-- One event after the other, as a task, the hardware and the interrupt do it: `n` times a word followed by the interrupt. -/
def served (n : Nat) : List Ev := (List.replicate n [Ev.word, Ev.isr]).flatten

def add (c : Cmd) (start : Bool) : List Ev := [.addBegin c start, .addCommit, .addFinish]

/-- The interrupt of the second part is late, but in time; a command is added while it is pending. -/
def exampleRun : List Ev :=
  add ⟨1000, 5, true⟩ false ++ add ⟨2000, 40, false⟩ true ++ List.replicate 40 .word ++ [.isr] ++ List.replicate 23 .word ++ add ⟨5000, 0, true⟩ true ++ [.word, .isr] ++ served 100

theorem plain_basic {evs : List Ev} (h : ∀ ev ∈ evs, ev.Plain .idf4) : ∀ ev ∈ evs, ev.Basic := by
  intro ev hev
  have := h ev hev
  cases ev with
  | addBegin c st => exact this.1
  | _ => trivial

/-- C92, for commands which can be encoded and interrupts served in time (`Timely`, see the refutations below), whatever the content of the memory is in the beginning: whatever the interleaving of API calls, words sent and interrupts, the
levels on the step pin are those of the parts, each exactly once and in order, and at each pulse the direction pin has the level noted for the part. The parts are the
documented output of the accepted commands with their directions, one after the other, and additional pauses (as in C50). At most two parts have not been sent completely, and none if nothing is
sent. No level has the duration 0. All other accepted commands and the other steps of the command in process are still in the queue. -/
theorem _root_.FAS.C92_wire_partial (pin : Nat) (hi : Bool) (hpin : pin = pinUndefined ∨ pinIsExternal pin = false) (m1 m2 : List Nat) (evs : List Ev) (ht : Along .idf4 (Timely .idf4) (freshMem pin hi m1 m2) evs)
    (hp : ∀ ev ∈ evs, ev.Plain .idf4) :
    let s := (track .idf4 (freshMem pin hi m1 m2) [] evs).1
    let acc := (track .idf4 (freshMem pin hi m1 m2) [] evs).2
    ∃ parts sent n w r, SameOut s.wire.reverse sent ∧ sent <+: labs parts ∧ labs (parts.take (parts.length - 2)) <+: sent ∧ (s.sending = false → sent = labs parts) ∧
      (∀ x ∈ s.wire, 0 < x.1.dur) ∧ parts = w ++ r ∧ Plays 0 (DirOK pin hi) (acc.take n) w ∧
      (r = [] ∧ Hw.readOut .esp32 ⟨s.q, 0⟩ = acc.drop n ∨
        ∃ c cs k, acc.drop n = c :: cs ∧ 0 < k ∧ k < c.steps ∧ Train c.ticks c.ticks k (segsOf r) ∧
          (∀ ch ∈ r, DirOK pin hi c.countUp ch.level) ∧
          Hw.readOut .esp32 ⟨s.q, 0⟩ = { c with steps := c.steps - k } :: cs) := by
  intro s acc
  obtain ⟨h1, h2, h3⟩ := track_Rel (enc := True) (fun u => DirOK.of_lvl (Rmt.fresh pin hi).q.dirPin (Rmt.fresh pin hi).q.dirHighCountsUp (Rmt.fresh pin hi).q.dirLevel u) evs
    (fresh_Rel pin hi m1 m2) (RInv.idle (fresh_idle pin hi m1 m2 hpin)) ht (plain_basic hp) (fun _ => hp)
  change Rel s _ at h1
  change RInv _ _ _ _ _ acc at h2
  have hpa := run_pauses (requests .idf4 (freshMem pin hi m1 m2) evs) (t := (freshMem pin hi m1 m2).abs true false []) (fun k hk => by cases hk)
  rw [← Rmt.track_fst .idf4 _ _ []] at hpa
  generalize (Rmt.track .idf4 ((freshMem pin hi m1 m2).abs true false []) [] (requests .idf4 (freshMem pin hi m1 m2) evs)).1 = t at *
  obtain ⟨_, hq, _, _⟩ := h1.tpc
  obtain ⟨_, one, _, hph⟩ := h1
  obtain ⟨a, a1, a2, a3, a4⟩ := hph.out
  obtain ⟨dn, pend, k, w, r, g1, g2, g3, g4, g5⟩ := h2.play trivial
  have hpar : t.out.reverse.take (t.out.reverse.length - 2) = (t.out.drop 2).reverse := by
    rw [List.reverse_drop, List.length_reverse]
  have hne : ∀ ch ∈ t.out, NoEnd ch.segs := by
    intro ch hch
    have hch : ch ∈ w ++ r := by rw [← g2]; exact List.mem_reverse.mpr hch
    rcases List.mem_append.mp hch with hch | hch
    · refine plays_NoEnd g3 (fun x hx => hpa x ?_) ch hch
      rw [← List.mem_reverse, g2]
      exact List.mem_append_left _ hx
    · rcases g5 with ⟨_, g5⟩ | ⟨c, cs, _, _, _, _, g5, _⟩
      · rw [g5] at hch; cases hch
      · intro g hg
        exact g5 g (List.mem_flatMap.mpr ⟨ch, hch, hg⟩)
  refine ⟨t.out.reverse, a, dn.length, w, r, a1, a2, by rw [hpar]; exact a3, a4, ?_, g2, ?_, ?_⟩
  · intro x hx
    have hx : x.1 ∈ s.wire.reverse.map Prod.fst := List.mem_map.mpr ⟨x, List.mem_reverse.mpr hx, rfl⟩
    rw [a1.1] at hx
    obtain ⟨y, hy, hxy⟩ := List.mem_map.mp hx
    obtain ⟨ch, hch, hy⟩ := List.mem_flatMap.mp (a2.subset hy)
    obtain ⟨g, hg, hgy⟩ := List.mem_map.mp hy
    rw [← hxy, ← hgy]
    exact hne ch (List.mem_reverse.mp hch) g hg
  · rw [g1, List.take_left]
    exact g3
  · rw [readOut_pending, ← hq, g4, g1, List.drop_left]
    rcases g5 with ⟨g5, g6⟩ | ⟨c, cs, g5, g6, g7, g8, g9, g10, _⟩
    · left
      rw [g5, cutHead_zero]
      exact ⟨g6, rfl⟩
    · right
      exact ⟨c, cs, k, g5, g6, g7, g8, g10, by rw [g5]; rfl⟩

example : Along .idf4 (Timely .idf4) (fresh 5 true) exampleRun ∧ (∀ ev ∈ exampleRun, ev.Plain .idf4) ∧
    (track .idf4 (fresh 5 true) [] exampleRun).2 = [⟨1000, 5, true⟩, ⟨2000, 40, false⟩, ⟨5000, 0, true⟩] ∧
    (run .idf4 (fresh 5 true) exampleRun).sending = true ∧
    ((run .idf4 (fresh 5 true) exampleRun).wire.reverse.filter (fun x => x.1.high)).map (fun x => (x.1.dur, x.2)) = List.replicate 5 (500, true) ++ List.replicate 40 (1000, false) := by
  decide +kernel

theorem track_append (v : RmtVer) : ∀ (xs ys : List Ev) (s : RmtReg) (acc : List Cmd), track v s acc (xs ++ ys) = track v (track v s acc xs).1 (track v s acc xs).2 ys
  | [], _, _, _ => rfl
  | _ :: xs, ys, _, _ => track_append v xs ys _ _

theorem track_run (v : RmtVer) : ∀ (evs : List Ev) (s : RmtReg) (acc : List Cmd), (track v s acc evs).1 = run v s evs
  | [], _, _ => rfl
  | _ :: evs, _, _ => track_run v evs _ _

/-- C92: a transmission ends, if no commands are added and the interrupts are served in time: there is a number of words after which all accepted commands have been sent, with their direction, and nothing
else than additional pauses; nothing more is sent, and with the next interrupt the motor is not running any more. -/
theorem _root_.FAS.C92_all_sent_partial (pin : Nat) (hi : Bool) (hpin : pin = pinUndefined ∨ pinIsExternal pin = false) (m1 m2 : List Nat) (evs : List Ev) (ht : Along .idf4 (Timely .idf4) (freshMem pin hi m1 m2) evs)
    (hp : ∀ ev ∈ evs, ev.Plain .idf4) (hs : (run .idf4 (freshMem pin hi m1 m2) evs).sending = true) :
    ∃ N, ∀ more : List Ev, (∀ ev ∈ more, ev = .word ∨ ev = .isr) → Along .idf4 (Timely .idf4) (run .idf4 (freshMem pin hi m1 m2) evs) more → N ≤ words more →
      let s := run .idf4 (freshMem pin hi m1 m2) (evs ++ more)
      s.sending = false ∧ Hw.readOut .esp32 ⟨s.q, 0⟩ = [] ∧ (s.step .idf4 .isr).q.running = false ∧
        ∃ parts, SameOut s.wire.reverse (labs parts) ∧ Plays 0 (DirOK pin hi) (track .idf4 (freshMem pin hi m1 m2) [] evs).2 parts := by
  have hD := fun u => DirOK.of_lvl (Rmt.fresh pin hi).q.dirPin (Rmt.fresh pin hi).q.dirHighCountsUp (Rmt.fresh pin hi).q.dirLevel u
  obtain ⟨h1, h2, h3⟩ := track_Rel (enc := True) hD evs (fresh_Rel pin hi m1 m2) (RInv.idle (fresh_idle pin hi m1 m2 hpin)) ht (plain_basic hp) (fun _ => hp)
  have hrun : ∀ more, run .idf4 (freshMem pin hi m1 m2) (evs ++ more) = (track .idf4 (track .idf4 (freshMem pin hi m1 m2) [] evs).1 (track .idf4 (freshMem pin hi m1 m2) [] evs).2 more).1 := by
    intro more
    rw [← track_append, track_run]
  simp only [hrun]
  rw [← track_run .idf4 evs _ []] at hs ⊢
  generalize (track .idf4 (freshMem pin hi m1 m2) [] evs).1 = s1 at *
  generalize (track .idf4 (freshMem pin hi m1 m2) [] evs).2 = acc at *
  generalize (Rmt.track .idf4 ((freshMem pin hi m1 m2).abs true false []) [] (requests .idf4 (freshMem pin hi m1 m2) evs)).1 = t1 at *
  obtain ⟨_, hq, htx, hst⟩ := h1.tpc
  have hena : s1.ena = true := by
    obtain ⟨_, one, _, hph⟩ := id h1
    cases hph
    case idle ena sending thr fin wire => rw [hs] at sending; cases sending
    all_goals assumption
  obtain ⟨n1, r1, x1, p1⟩ := RInv.drain trivial hD (rmtMeasure t1 + 1) h2 (htx.trans hena) (by omega)
  obtain ⟨n2, r2, x2, p2, st2⟩ := r1.finish hD x1 p1
  rw [← run_append, List.replicate_append_replicate] at st2
  have hleft : Left (63 * (n1 + n2) + 94 + 63) s1 t1 := by
    cases hstop : s1.stopped
    · refine .more (n1 + n2) hstop hena st2 ?_
      split
      · omega
      · split <;> omega
    · exact .ending hstop hena (by omega)
  refine ⟨63 * (n1 + n2) + 94 + 63, fun more hw ham hN => ?_⟩
  have hb : ∀ ev ∈ more, ev.Basic := fun e he => by rcases hw e he with h | h <;> subst h <;> trivial
  have hpl : ∀ ev ∈ more, ev.Plain .idf4 := fun e he => by rcases hw e he with h | h <;> subst h <;> trivial
  have hleft := Left.run hD more hleft h1 h2 ham hw
  obtain ⟨k1, k2, k3⟩ := track_Rel (enc := True) hD more h1 h2 ham hb (fun _ => hpl)
  have hacc : (track .idf4 s1 acc more).2 = acc := by
    have : ∀ (l : List Ev) (s : RmtReg) (acc : List Cmd), (∀ e ∈ l, e = .word ∨ e = .isr) → (track .idf4 s acc l).2 = acc := by
      intro l
      induction l with
      | nil => intro _ _ _; rfl
      | cons e l ih =>
        intro s acc hl
        change (track .idf4 _ (acc ++ s.accepts e) l).2 = acc
        rw [ih _ _ fun e he => hl e (List.mem_cons_of_mem _ he)]
        rcases hl e (by simp) with rfl | rfl <;> exact List.append_nil _
    exact this more s1 acc hw
  rw [hacc] at k2
  rw [show 63 * (n1 + n2) + 94 + 63 - words more = 0 by omega] at hleft
  generalize (track .idf4 s1 acc more).1 = s at *
  generalize (Rmt.track .idf4 t1 acc (requests .idf4 s1 more)).1 = t at *
  obtain ⟨hz, he⟩ := hleft.zero k1
  obtain ⟨_, hq', htx', hst'⟩ := k1.tpc
  have hend : s.q.pending .esp32 = [] ∧ (s.step .idf4 .isr).q.running = false := by
    obtain ⟨hsync, one, hta, hph⟩ := id k1
    cases hph
    case idle ena sending thr fin wire =>
      have hisr : s.step .idf4 .isr = s := by
        change (RmtReg.isr .idf4 s).sync = s
        rw [isr_none _ _ (by rw [fin]; rfl) (by rw [thr]; rfl), hsync]
      rcases he with he | he
      · rw [he] at ena; cases ena
      · exact ⟨he.1, by rw [hisr]; exact he.2⟩
    case ended ena run st sending fin wire =>
      refine ⟨?_, ?_⟩
      · rw [← hq']
        exact k2.stop (htx'.trans ena) (hst'.trans st)
      · change (RmtReg.isr .idf4 s).sync.q.running = false
        rw [isr_end s fin ena st]
        rfl
    case ending k1 k2 ks ena run l1 l2 pos eq st sending conti fin e1 e2 nf wire => rw [hz] at sending; cases sending
    case inTwo k1 k2 ks ena run l1 l2 pos eq o st sending conti fin thr e1 e2 nf wire cnt lim => rw [hz] at sending; cases sending
    case afterTwo k1 k2 ks ena run l1 l2 pos eq o st sending conti fin thr e1 e2 nf wire cnt lim => rw [hz] at sending; cases sending
    case partOne k1 k2 ks ena run l1 l2 pos eq o st sending conti fin thr e1 e2 nf wire lo hi lim => rw [hz] at sending; cases sending
  obtain ⟨hpend, hstop⟩ := hend
  refine ⟨hz, by rw [readOut_pending, hpend]; rfl, hstop, t.out.reverse, ?_, ?_⟩
  · obtain ⟨_, one, _, hph⟩ := id k1
    obtain ⟨a, a1, a2, a3, a4⟩ := hph.out
    rw [← a4 hz]
    exact a1
  · obtain ⟨dn, pend, k, w, r, g1, g2, g3, g4, g5⟩ := k2.play trivial
    rw [hq', hpend] at g4
    have hpe : pend = [] := by
      cases pend with
      | nil => rfl
      | cons c cs => cases g4
    subst hpe
    rw [List.append_nil] at g1
    rcases g5 with ⟨_, hr⟩ | ⟨c, cs, hc, _⟩
    · subst hr
      rw [g2, List.append_nil, g1]
      exact g3
    · cases hc

example : (run .idf4 (fresh 5 true) exampleRun).sending = true ∧ Along .idf4 (Timely .idf4) (run .idf4 (fresh 5 true) exampleRun) (served 200) ∧ words (served 200) = 200 ∧
    (run .idf4 (fresh 5 true) (exampleRun ++ served 200)).sending = false ∧ (run .idf4 (fresh 5 true) (exampleRun ++ served 200)).pulses.length = 45 := by
  decide +kernel

theorem run_two (v : RmtVer) (s : RmtReg) (xs ys : List Ev) : run v s (xs ++ ys) = run v (run v s xs) ys := List.foldl_append

/-- C92, force stop, in any state of the channel (also with late interrupts): no further pulse is sent, whatever is called, as long as the motor is running, including the event with which it stops. -/
theorem _root_.FAS.C92_force_stop (s : RmtReg) (p : Int) (hpc : s.pc = .idle) (more : List Ev)
    (hr : ∀ pre, pre <+: more → pre.length < more.length → (run .idf4 s (.forceStop p :: pre)).q.running = true) :
    (run .idf4 s (.forceStop p :: more)).pulses = s.pulses := by
  have h := Halted.force hpc p
  have h0 : (s.step .idf4 (.forceStop p)).pulses = s.pulses := by
    unfold step
    dsimp only
    rw [hpc]
    rfl
  rw [← h0]
  change (run .idf4 (s.step .idf4 (.forceStop p)) more).pulses = _
  replace hr : ∀ pre, pre <+: more → pre.length < more.length → (run .idf4 (s.step .idf4 (.forceStop p)) pre).q.running = true := hr
  generalize s.step .idf4 (.forceStop p) = t at *
  clear h0
  induction more generalizing t with
  | nil => rfl
  | cons ev more ih =>
    obtain ⟨g1, g2⟩ := h.step (hr [] (List.nil_prefix) (by simp)) ev
    rw [← g2]
    refine ih _ g1 fun pre hpre hlen => ?_
    exact hr (ev :: pre) ((List.prefix_cons_inj ev).mpr hpre) (by simpa using hlen)

/-- C92, force stop during a transmission, for every schedule before, if at this moment no end interrupt is pending (see the refutation below): with 63 words and an interrupt the motor is not running any more, no further
pulse has been sent, the queue is empty, and the channel is idle, with no interrupt pending. -/
theorem _root_.FAS.C92_force_stop_ends_partial (pin : Nat) (hi : Bool) (m1 m2 : List Nat) (evs : List Ev) (p : Int) (more : List Ev) (hpc : (run .idf4 (freshMem pin hi m1 m2) evs).pc = .idle)
    (hs : (run .idf4 (freshMem pin hi m1 m2) evs).sending = true) (he : (run .idf4 (freshMem pin hi m1 m2) evs).ena = true) (hf : (run .idf4 (freshMem pin hi m1 m2) evs).fin = false)
    (hw : ∀ ev ∈ more, ev = .word ∨ ev = .isr) (hN : 63 ≤ words more) :
    let s := run .idf4 (freshMem pin hi m1 m2) (evs ++ [.forceStop p] ++ more ++ [.isr])
    s.q.running = false ∧ s.sending = false ∧ s.ena = false ∧ s.thr = false ∧ s.fin = false ∧ s.q.readIdx = s.q.nextWriteIdx ∧ s.pulses = (run .idf4 (freshMem pin hi m1 m2) evs).pulses := by
  have hpos : (run .idf4 (freshMem pin hi m1 m2) evs).pos ≤ 62 := run_pos evs (Nat.zero_le _)
  simp only [run_two]
  generalize run .idf4 (freshMem pin hi m1 m2) evs = s0 at *
  have hh := Halted.force hpc p
  have hstep : s0.step .idf4 (.forceStop p) = (forceStopAndNewPosition .idf4 p s0).sync := by
    unfold step
    dsimp only
    rw [hpc]
  have h1 : Stopping 63 (s0.step .idf4 (.forceStop p)) := by
    rw [hstep]
    exact .sending hs he hf hpos (Nat.le_add_right _ _)
  have hp1 : (s0.step .idf4 (.forceStop p)).pulses = s0.pulses := by rw [hstep]; rfl
  have hq1 : (s0.step .idf4 (.forceStop p)).q.readIdx = (s0.step .idf4 (.forceStop p)).q.nextWriteIdx := by rw [hstep]; rfl
  rw [show run .idf4 s0 [.forceStop p] = s0.step .idf4 (.forceStop p) from rfl]
  generalize s0.step .idf4 (.forceStop p) = s1 at *
  obtain ⟨k1, k2, k3⟩ := h1.run more hh hw hN
  have hq2 : ∀ (l : List Ev) (x : RmtReg), (∀ ev ∈ l, ev = .word ∨ ev = .isr) → Halted x → x.q.readIdx = x.q.nextWriteIdx →
      (run .idf4 x l).q.readIdx = (run .idf4 x l).q.nextWriteIdx := by
    intro l
    induction l with
    | nil => intro _ _ _ h; exact h
    | cons ev l ih =>
      intro x hl hx hq
      rcases hl ev (by simp) with rfl | rfl
      · refine ih _ (fun e he => hl e (List.mem_cons_of_mem _ he)) hx.word.1 ?_
        change (RmtReg.sync (if x.sending then _ else _)).q.readIdx = (RmtReg.sync (if x.sending then _ else _)).q.nextWriteIdx
        split
        · change (word .idf4 x).q.readIdx = (word .idf4 x).q.nextWriteIdx
          rw [(word_frame .idf4 x).1]
          exact hq
        · exact hq
      · refine ih _ (fun e he => hl e (List.mem_cons_of_mem _ he)) hx.isr.1 ?_
        obtain ⟨m1, m2, hst, hc, hpc, _⟩ := hx
        obtain ⟨q, stopped, has0, has1, mem1, mem2, pc, conti, lim, thr, fin, ena, sending, pos, cnt, wire⟩ := x
        dsimp only at m1 m2 hst hc hpc
        subst m1 m2 hst hc hpc
        cases fin <;> cases thr <;> cases ena <;> exact hq
  have hq3 := hq2 [.isr] _ (by simp) k2 (hq2 more s1 hw hh hq1)
  rw [hp1] at k3
  generalize run .idf4 s1 more = s2 at *
  have hz : s2.sending = false := by
    cases k1 with
    | sending hs he hf hp hN => omega
    | ended hs he hf => exact hs
    | over hs he hf ht hr => exact hs
  obtain ⟨j1, j2⟩ := k1.isr k2
  have j3 := k2.isr.2
  rw [show run .idf4 s2 [.isr] = s2.step .idf4 .isr from rfl] at hq3 ⊢
  replace j2 := j2 hz
  cases j1 with
  | sending hs he hf hp hN => rw [j2] at he; cases he
  | ended hs he hf => rw [j2] at he; cases he
  | over hs he hf ht hr => exact ⟨hr, hs, he, ht, hf, hq3, j3.trans k3⟩

example : let s := run .idf4 (fresh 5 true) exampleRun
    s.pc = .idle ∧ s.sending = true ∧ s.ena = true ∧ s.fin = false ∧ 63 ≤ words (served 63) ∧
      (∀ n < 63, (run .idf4 (fresh 5 true) (exampleRun ++ .forceStop 0 :: List.replicate n .word)).q.running = true) ∧
      (run .idf4 (fresh 5 true) (add ⟨1000, 5, true⟩ false ++ add ⟨2000, 40, false⟩ true ++ List.replicate 3 .word ++ [.forceStop 0] ++ served 100)).pulses.length = 3 := by
  decide +kernel

/-- The channel has sent 30 pulses and starts with the next ones; its end interrupt is pending. -/
def beforeStop : List Ev :=
  add ⟨1000, 5, true⟩ false ++ add ⟨1000, 25, true⟩ true ++ List.replicate 33 .word ++ [.isr] ++ List.replicate 30 .word

/-- All is done after the force stop. -/
def afterStop : List Ev := [.isr, .clearIgnore] ++ served 100

/-- Two commands, with each interrupt served at once. -/
def newMove : List Ev := add ⟨1000, 5, true⟩ false ++ add ⟨2000, 5, true⟩ true ++ served 300

/-- C92, violation: with the end interrupt pending at the moment of the force stop the interrupt routine takes it for the end of the transmission, and disables the interrupts. The flag of the
real end stays set and is not cleared by the next start. There it lets the interrupt overwrite the second part of the memory before it has been sent: the steps of the second command are lost, although all
interrupts are served in time. -/
theorem _root_.FAS.C92_force_stop_refuted :
    Along .idf4 (Timely .idf4) (fresh 5 true) beforeStop ∧ (∀ ev ∈ beforeStop ++ newMove, ev.Plain .idf4) ∧
    let s1 := run .idf4 (fresh 5 true) (beforeStop ++ .forceStop 0 :: afterStop)
    let s2 := run .idf4 s1 newMove
    s1.q.running = false ∧ s1.sending = false ∧ Along .idf4 (Timely .idf4) s1 newMove ∧ (track .idf4 s1 [] newMove).2 = [⟨1000, 5, true⟩, ⟨2000, 5, true⟩] ∧
    s2.q.running = false ∧ s2.sending = false ∧ Hw.readOut .esp32 ⟨s2.q, 0⟩ = [] ∧ s2.pulses = s1.pulses ++ List.replicate 5 (⟨true, 500⟩, true) := by
  decide +kernel

/-- C92, violation: if an interrupt is served late, the memory is sent a second time: 10 pulses for 5 steps. -/
theorem _root_.FAS.C92_late_refuted : ∃ evs : List Ev, (∀ ev ∈ evs, ev.Plain .idf4) ∧ (∀ ev ∈ evs, ev ≠ .detach ∧ ∀ p, ev ≠ .forceStop p) ∧
    (track .idf4 (fresh 5 true) [] evs).2 = [⟨1000, 5, true⟩] ∧ (run .idf4 (fresh 5 true) evs).pulses.length = 10 := by
  refine ⟨add ⟨1000, 5, true⟩ true ++ List.replicate 100 .word, by decide +kernel, ?_, by decide +kernel, by decide +kernel⟩
  intro ev hev
  rw [List.mem_append, List.mem_replicate] at hev
  rcases hev with hev | ⟨_, rfl⟩
  · simp only [add, List.mem_cons, List.not_mem_nil, or_false] at hev
    rcases hev with rfl | rfl | rfl <;> exact ⟨by simp, by simp⟩
  · exact ⟨by simp, by simp⟩

theorem looped_rounds (m1 m2 : List Nat) (d : Bool) (p : Nat) (hp : p ≤ 62) (k : Nat) (h : k ≤ (looped m1 m2 d p 63).length) : ∀ n, k * (n / 63) ≤ (looped m1 m2 d p n).length := by
  intro n
  induction n using Nat.strongRecOn with
  | _ n ih =>
    by_cases hn : n < 63
    · rw [Nat.div_eq_of_lt hn]
      exact Nat.zero_le _
    · have h1 := ih (n - 63) (by omega)
      rw [show n = 63 + (n - 63) by omega, looped_add m1 m2 d 63 (n - 63) p hp, List.length_append, show (p + 63) % 63 = p by omega, show (63 + (n - 63)) / 63 = (n - 63) / 63 + 1 by omega, Nat.mul_add]
      omega

/-- C92, violation: detachFromPin() during a transmission disables the interrupts, but not the transmission: the motor is reported as running for ever, and the pulses of the memory are sent again and again, with 5 steps commanded.
Without IDF 4.4 or after reAttachToPin() they reach the motor. -/
theorem _root_.FAS.C92_detach_refuted : ∃ evs : List Ev, Along .idf4 (Timely .idf4) (fresh 5 true) evs ∧ (∀ ev ∈ evs, ev.Plain .idf4) ∧ (track .idf4 (fresh 5 true) [] evs).2 = [⟨1000, 5, true⟩] ∧
    ∀ more : List Ev, (∀ ev ∈ more, ev = .word ∨ ev = .isr) →
      let s := run .idf4 (fresh 5 true) (evs ++ .detach :: more)
      s.q.running = true ∧ s.sending = true ∧ 5 * (words more / 63) ≤ s.pulses.length := by
  refine ⟨add ⟨1000, 5, true⟩ true ++ [.word], by decide +kernel, by decide +kernel, by decide +kernel, fun more hw => ?_⟩
  simp only
  rw [show add ⟨1000, 5, true⟩ true ++ [.word] ++ .detach :: more = (add ⟨1000, 5, true⟩ true ++ [.word, .detach]) ++ more by simp, run_two]
  have hb : Blind (run .idf4 (fresh 5 true) (add ⟨1000, 5, true⟩ true ++ [.word, .detach])) _ _ _ := ⟨rfl, rfl, rfl, by decide +kernel, by decide +kernel, by decide +kernel, by decide +kernel, rfl⟩
  have hrun : (run .idf4 (fresh 5 true) (add ⟨1000, 5, true⟩ true ++ [.word, .detach])).q.running = true := by decide +kernel
  have hround : let s := run .idf4 (fresh 5 true) (add ⟨1000, 5, true⟩ true ++ [.word, .detach])
      5 ≤ (looped s.mem1 s.mem2 s.q.dirLevel s.pos 63).length := by decide +kernel
  have hpos := hb.pos
  generalize run .idf4 (fresh 5 true) (add ⟨1000, 5, true⟩ true ++ [.word, .detach]) = s at *
  obtain ⟨h1, h2⟩ := hb.run more hw
  refine ⟨by rw [h1.q]; exact hrun, h1.sending, ?_⟩
  rw [h2, List.length_append]
  have := looped_rounds s.mem1 s.mem2 s.q.dirLevel s.pos hpos 5 hround (words more)
  omega

end RmtReg
end FAS
