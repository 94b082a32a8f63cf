import Verif.Props.RmtReg
import Verif.Lemmas.RmtRegS

/-!
# C92: the levels sent by an RMT channel of the ESP32C3 and ESP32S3 with IDF 4
-/

namespace FAS
namespace RmtReg

theorem plain_basicS {evs : List Ev} (h : ∀ ev ∈ evs, ev.Plain .idf4s) : ∀ ev ∈ evs, ev.Basic := by
  intro ev hev
  have := h ev hev
  cases ev with
  | addBegin c st => exact this.1
  | _ => trivial

theorem freshS_J (pin : Nat) (hi : Bool) (hpin : pin = pinUndefined ∨ pinIsExternal pin = false) (m1 m2 : List Nat) (l1 : m1.length = 23) (l2 : m2.length = 23) :
    JS (fun u => if (Rmt.fresh pin hi).q.dirPin = pinUndefined then (Rmt.fresh pin hi).q.dirLevel else (u == (Rmt.fresh pin hi).q.dirHighCountsUp)) (DirOK pin hi) True
      (freshMem pin hi m1 m2) ((freshMem pin hi m1 m2).abs true false []) [] where
  rel := { sync := rfl, l1 := l1, l2 := l2, q := rfl, pc := rfl, tx := rfl, st := rfl, starting := rfl, ph := .idle rfl rfl ⟨rfl, rfl⟩ }
  inv := by
    have hid : ((freshMem pin hi m1 m2).abs true false []).Idle := ⟨⟨rfl, show 0 < 256 by decide⟩, rfl, rfl, rfl, rfl, rfl, rfl, hpin⟩
    exact RInv.idle hid
  pau := fun k hk => by cases hk

/-- A command is added while an interrupt is pending, others are served late, but in time. -/
def exampleRunS : List Ev :=
  add ⟨1000, 5, true⟩ false ++ add ⟨2000, 40, false⟩ true ++ List.replicate 40 .word ++ [.isr] ++ List.replicate 16 .word ++ add ⟨5000, 0, true⟩ true ++ [.word, .isr] ++ served 100

/-- C92 on C3/S3 with IDF 4, whatever the content of the memory is in the beginning: as C92_wire_partial, with periods at most 4 ticks too short (see C50). -/
theorem _root_.FAS.C92_c3_wire_partial (pin : Nat) (hi : Bool) (hpin : pin = pinUndefined ∨ pinIsExternal pin = false) (m1 m2 : List Nat) (l1 : m1.length = 23) (l2 : m2.length = 23)
    (evs : List Ev) (ht : Along .idf4s (Timely .idf4s) (freshMem pin hi m1 m2) evs) (hp : ∀ ev ∈ evs, ev.Plain .idf4s) :
    let s := (track .idf4s (freshMem pin hi m1 m2) [] evs).1
    let acc := (track .idf4s (freshMem pin hi m1 m2) [] evs).2
    ∃ parts sent n w r, SameOut s.wire.reverse sent ∧ sent <+: labs parts ∧ labs (parts.take (parts.length - 2)) <+: sent ∧ (s.sending = false → sent = labs parts) ∧
      (∀ x ∈ s.wire, 0 < x.1.dur) ∧ parts = w ++ r ∧ Plays 4 (DirOK pin hi) (acc.take n) w ∧
      (r = [] ∧ Hw.readOut .esp32 ⟨s.q, 0⟩ = acc.drop n ∨
        ∃ c cs k, acc.drop n = c :: cs ∧ 0 < k ∧ k < c.steps ∧ Train (c.ticks - 4) c.ticks k (segsOf r) ∧
          (∀ ch ∈ r, DirOK pin hi c.countUp ch.level) ∧
          Hw.readOut .esp32 ⟨s.q, 0⟩ = { c with steps := c.steps - k } :: cs) := by
  intro s acc
  obtain ⟨t, hj⟩ := trackS_J (fun u => DirOK.of_lvl (Rmt.fresh pin hi).q.dirPin (Rmt.fresh pin hi).q.dirHighCountsUp (Rmt.fresh pin hi).q.dirLevel u) evs
    (freshS_J pin hi hpin m1 m2 l1 l2) ht (plain_basicS hp) (fun _ => hp)
  change JS _ _ _ s t acc at hj
  obtain ⟨hrel, h2, hpa⟩ := hj
  obtain ⟨a, a1, a2, a3, a4⟩ := hrel.ph.out hrel.l1
  obtain ⟨dn, pend, k, w, r, g1, g2, g3, g4, g5⟩ := h2.play trivial
  have hpar : t.out.reverse.take (t.out.reverse.length - 2) = (t.out.drop 2).reverse := by
    rw [List.reverse_drop, List.length_reverse]
  have hne : ∀ ch ∈ t.out, NoEnd ch.segs := by
    intro ch hch
    have hch : ch ∈ w ++ r := by rw [← g2]; exact List.mem_reverse.mpr hch
    rcases List.mem_append.mp hch with hch | hch
    · refine plays_NoEnd g3 (fun x hx => hpa x ?_) ch hch
      rw [← List.mem_reverse, g2]
      exact List.mem_append_left _ hx
    · rcases g5 with ⟨_, g5⟩ | ⟨c, cs, _, _, _, _, g5, _⟩
      · rw [g5] at hch; cases hch
      · intro g hg
        exact g5 g (List.mem_flatMap.mpr ⟨ch, hch, hg⟩)
  refine ⟨t.out.reverse, a, dn.length, w, r, a1, a2, by rw [hpar]; exact a3, a4, ?_, g2, ?_, ?_⟩
  · intro x hx
    have hx : x.1 ∈ s.wire.reverse.map Prod.fst := List.mem_map.mpr ⟨x, List.mem_reverse.mpr hx, rfl⟩
    rw [a1.1] at hx
    obtain ⟨y, hy, hxy⟩ := List.mem_map.mp hx
    obtain ⟨ch, hch, hy⟩ := List.mem_flatMap.mp (a2.subset hy)
    obtain ⟨g, hg, hgy⟩ := List.mem_map.mp hy
    rw [← hxy, ← hgy]
    exact hne ch (List.mem_reverse.mp hch) g hg
  · rw [g1, List.take_left]
    exact g3
  · rw [readOut_pending, ← hrel.q, g4, g1, List.drop_left]
    rcases g5 with ⟨g5, g6⟩ | ⟨c, cs, g5, g6, g7, g8, g9, g10, _⟩
    · left
      rw [g5, cutHead_zero]
      exact ⟨g6, rfl⟩
    · right
      exact ⟨c, cs, k, g5, g6, g7, g8, g10, by rw [g5]; rfl⟩

example : let s := freshMem 5 true (List.replicate 23 0) (List.replicate 23 0x80018001)
    Along .idf4s (Timely .idf4s) s exampleRunS ∧ (∀ ev ∈ exampleRunS, ev.Plain .idf4s) ∧
    (track .idf4s s [] exampleRunS).2 = [⟨1000, 5, true⟩, ⟨2000, 40, false⟩, ⟨5000, 0, true⟩] ∧
    (run .idf4s s exampleRunS).sending = true ∧
    ((run .idf4s s exampleRunS).wire.reverse.filter (fun x => x.1.high)).map (fun x => x.2) = List.replicate 5 true ++ List.replicate 40 false := by
  decide +kernel

/-- C92 on C3/S3 with IDF 4: a transmission ends, as in C92_all_sent_partial. -/
theorem _root_.FAS.C92_c3_all_sent_partial (pin : Nat) (hi : Bool) (hpin : pin = pinUndefined ∨ pinIsExternal pin = false) (m1 m2 : List Nat) (l1 : m1.length = 23) (l2 : m2.length = 23)
    (evs : List Ev) (ht : Along .idf4s (Timely .idf4s) (freshMem pin hi m1 m2) evs) (hp : ∀ ev ∈ evs, ev.Plain .idf4s) (hs : (run .idf4s (freshMem pin hi m1 m2) evs).sending = true) :
    ∃ N, ∀ more : List Ev, (∀ ev ∈ more, ev = .word ∨ ev = .isr) → Along .idf4s (Timely .idf4s) (run .idf4s (freshMem pin hi m1 m2) evs) more → N ≤ words more →
      let s := run .idf4s (freshMem pin hi m1 m2) (evs ++ more)
      s.sending = false ∧ Hw.readOut .esp32 ⟨s.q, 0⟩ = [] ∧ (s.step .idf4s .isr).q.running = false ∧
        ∃ parts, SameOut s.wire.reverse (labs parts) ∧ Plays 4 (DirOK pin hi) (track .idf4s (freshMem pin hi m1 m2) [] evs).2 parts := by
  have hD := fun u => DirOK.of_lvl (Rmt.fresh pin hi).q.dirPin (Rmt.fresh pin hi).q.dirHighCountsUp (Rmt.fresh pin hi).q.dirLevel u
  obtain ⟨t1, h1⟩ := trackS_J hD evs (freshS_J pin hi hpin m1 m2 l1 l2) ht (plain_basicS hp) (fun _ => hp)
  simp only [run_two]
  rw [← track_run .idf4s evs _ []] at hs ⊢
  generalize (track .idf4s (freshMem pin hi m1 m2) [] evs).1 = s1 at *
  generalize (track .idf4s (freshMem pin hi m1 m2) [] evs).2 = acc at *
  have hena : s1.ena = true := by
    have hph := h1.rel.ph
    cases hph
    case idle ena sending wire => rw [hs] at sending; cases sending
    all_goals assumption
  obtain ⟨n1, r1, x1, p1⟩ := RInv.drain trivial hD (rmtMeasure t1 + 1) h1.inv (h1.rel.tx.trans hena) (by omega)
  obtain ⟨n2, r2, x2, p2, st2⟩ := r1.finish hD x1 p1
  rw [← run_append, List.replicate_append_replicate] at st2
  have hleft : LeftS (47 * (n1 + n2 + 2) + 117) s1 t1 := by
    by_cases hc : s1.conti = true
    · by_cases hstop : s1.stopped = true
      · refine .more 2 hc hena (fun _ => by split <;> omega) (fun hx => by rw [hstop] at hx; cases hx) ?_
        split
        · omega
        · split <;> omega
      · refine .more (n1 + n2) hc hena (fun hx => absurd hx hstop) (fun _ => st2) ?_
        split
        · omega
        · split <;> omega
    · have hst : s1.stopped = true := by
        have hph := h1.rel.ph
        cases hph
        case idle ena sending wire => rw [hs] at sending; cases sending
        all_goals first | assumption | (exact absurd (by assumption) hc)
      exact .ending hst (Bool.not_eq_true _ ▸ hc) hena (by omega)
  refine ⟨47 * (n1 + n2 + 2) + 117, fun more hw ham hN => ?_⟩
  obtain ⟨t, hj, hleft⟩ := LeftS.run hD more hleft h1 ham hw
  rw [show 47 * (n1 + n2 + 2) + 117 - words more = 0 by omega] at hleft
  generalize run .idf4s s1 more = s at *
  obtain ⟨hz, he⟩ := hleft.zero hj.rel
  have hend : s.q.pending .esp32 = [] ∧ (s.step .idf4s .isr).q.running = false := by
    have hph := hj.rel.ph
    cases hph
    case idle ena sending wire =>
      have hisr : s.step .idf4s .isr = s := by
        change (RmtReg.isr .idf4s s).sync = s
        rw [isr_none _ _ (by rw [ena]; simp) (by rw [ena]; simp), sync_eq hj.rel.sync]
      rcases he with he | he
      · rw [he] at ena; cases ena
      · exact ⟨he.1, by rw [hisr]; exact he.2⟩
    case ended ena run st sending fin thr wire =>
      refine ⟨?_, ?_⟩
      · rw [← hj.rel.q]
        exact hj.inv.stop (hj.rel.tx.trans ena) (hj.rel.st.trans st)
      · change (RmtReg.isr .idf4s s).sync.q.running = false
        rw [isrS_end s fin thr ena]
        rfl
    all_goals
      exfalso
      have hsd : s.sending = true := by assumption
      rw [hz] at hsd
      cases hsd
  obtain ⟨hpend, hstop⟩ := hend
  refine ⟨hz, by rw [readOut_pending, hpend]; rfl, hstop, t.out.reverse, ?_, ?_⟩
  · obtain ⟨a, a1, a2, a3, a4⟩ := hj.rel.ph.out hj.rel.l1
    rw [← a4 hz]
    exact a1
  · obtain ⟨dn, pend, k, w, r, g1, g2, g3, g4, g5⟩ := hj.inv.play trivial
    rw [hj.rel.q, hpend] at g4
    have hpe : pend = [] := by
      cases pend with
      | nil => rfl
      | cons c cs => cases g4
    subst hpe
    rw [List.append_nil] at g1
    rcases g5 with ⟨_, hr⟩ | ⟨c, cs, hc, _⟩
    · subst hr
      rw [g2, List.append_nil, g1]
      exact g3
    · cases hc

example : let s := run .idf4s (freshMem 5 true (List.replicate 23 0) (List.replicate 23 0x80018001)) exampleRunS
    s.sending = true ∧ Along .idf4s (Timely .idf4s) s (served 200) ∧ words (served 200) = 200 ∧
    (run .idf4s s (served 200)).sending = false ∧ (run .idf4s s (served 200)).pulses.length = 45 := by
  decide +kernel

/-- C92 on C3/S3 with IDF 4, force stop, in any state of the channel (also with late interrupts): no further pulse is sent, whatever is called, as long as the motor is running, including the event with which it stops. -/
theorem _root_.FAS.C92_c3_force_stop (s : RmtReg) (p : Int) (hpc : s.pc = .idle) (more : List Ev)
    (hr : ∀ pre, pre <+: more → pre.length < more.length → (run .idf4s s (.forceStop p :: pre)).q.running = true) :
    (run .idf4s s (.forceStop p :: more)).pulses = s.pulses := by
  have h := HaltedS.force hpc p
  have h0 : (s.step .idf4s (.forceStop p)).pulses = s.pulses := by
    unfold step
    dsimp only
    rw [hpc]
    rfl
  rw [← h0]
  change (run .idf4s (s.step .idf4s (.forceStop p)) more).pulses = _
  replace hr : ∀ pre, pre <+: more → pre.length < more.length → (run .idf4s (s.step .idf4s (.forceStop p)) pre).q.running = true := hr
  generalize s.step .idf4s (.forceStop p) = t at *
  clear h0
  induction more generalizing t with
  | nil => rfl
  | cons ev more ih =>
    obtain ⟨g1, g2⟩ := h.step (hr [] (List.nil_prefix) (by simp)) ev
    rw [← g2]
    refine ih _ g1 fun pre hpre hlen => ?_
    exact hr (ev :: pre) ((List.prefix_cons_inj ev).mpr hpre) (by simpa using hlen)

/-- C92 on C3/S3 with IDF 4, force stop during a transmission, for every schedule before, also with late interrupts: with 47 words and an interrupt the motor is not running any more, no further
pulse has been sent, the queue is empty, and the channel is idle, with no interrupt pending. The violation C92_force_stop_refuted does not exist here. -/
theorem _root_.FAS.C92_c3_force_stop_ends (pin : Nat) (hi : Bool) (m1 m2 : List Nat) (evs : List Ev) (p : Int) (more : List Ev) (hpc : (run .idf4s (freshMem pin hi m1 m2) evs).pc = .idle)
    (hs : (run .idf4s (freshMem pin hi m1 m2) evs).sending = true) (he : (run .idf4s (freshMem pin hi m1 m2) evs).ena = true)
    (hw : ∀ ev ∈ more, ev = .word ∨ ev = .isr) (hN : 47 ≤ words more) :
    let s := run .idf4s (freshMem pin hi m1 m2) (evs ++ [.forceStop p] ++ more ++ [.isr])
    s.q.running = false ∧ s.sending = false ∧ s.ena = false ∧ s.thr = false ∧ s.fin = false ∧ s.q.readIdx = s.q.nextWriteIdx ∧ s.pulses = (run .idf4s (freshMem pin hi m1 m2) evs).pulses := by
  obtain ⟨hpos, hf⟩ := SendOK.run evs (s := freshMem pin hi m1 m2) ⟨Nat.zero_le _, fun hx => by cases hx⟩
  replace hf := hf hs
  simp only [run_two]
  generalize run .idf4s (freshMem pin hi m1 m2) evs = s0 at *
  have hh := HaltedS.force hpc p
  have hstep : s0.step .idf4s (.forceStop p) = (forceStopAndNewPosition .idf4s p s0).sync := by
    unfold step
    dsimp only
    rw [hpc]
  have h1 : StoppingS 47 (s0.step .idf4s (.forceStop p)) := by
    rw [hstep]
    exact .sending hs he hf hpos (Nat.le_add_right _ _)
  have hp1 : (s0.step .idf4s (.forceStop p)).pulses = s0.pulses := by rw [hstep]; rfl
  rw [show run .idf4s s0 [.forceStop p] = s0.step .idf4s (.forceStop p) from rfl]
  generalize s0.step .idf4s (.forceStop p) = s1 at *
  obtain ⟨k1, k2, k3⟩ := h1.run more hh hw hN
  rw [hp1] at k3
  generalize run .idf4s s1 more = s2 at *
  have hz : s2.sending = false := by
    cases k1 with
    | sending hs he hf hp hN => omega
    | ended hs he hf => exact hs
    | over hs he hf ht hr => exact hs
  obtain ⟨j1, j2⟩ := k1.isr k2
  obtain ⟨j3, j4⟩ := k2.isr
  rw [show run .idf4s s2 [.isr] = s2.step .idf4s .isr from rfl]
  replace j2 := j2 hz
  cases j1 with
  | sending hs he hf hp hN => rw [j2] at he; cases he
  | ended hs he hf => rw [j2] at he; cases he
  | over hs he hf ht hr => exact ⟨hr, hs, he, ht, hf, j3.q, j4.trans k3⟩

example : let s := run .idf4s (freshMem 5 true (List.replicate 23 0) (List.replicate 23 0x80018001)) exampleRunS
    s.pc = .idle ∧ s.sending = true ∧ s.ena = true ∧ 47 ≤ words (served 47) ∧
      (∀ n < 40, (run .idf4s s (.forceStop 0 :: List.replicate n .word)).q.running = true) ∧
      (run .idf4s (fresh 5 true) (add ⟨1000, 5, true⟩ false ++ add ⟨2000, 40, false⟩ true ++ List.replicate 3 .word ++ [.forceStop 0] ++ served 100)).pulses.length = 3 := by
  decide +kernel

/-- C92 on C3/S3 with IDF 4, violation: if an interrupt is served late, the memory is sent a second time: 10 pulses for 5 steps. -/
theorem _root_.FAS.C92_c3_late_refuted : ∃ evs : List Ev, (∀ ev ∈ evs, ev.Plain .idf4s) ∧ (∀ ev ∈ evs, ev ≠ .detach ∧ ∀ p, ev ≠ .forceStop p) ∧
    (track .idf4s (fresh 5 true) [] evs).2 = [⟨1000, 5, true⟩] ∧ (run .idf4s (fresh 5 true) evs).pulses.length = 10 := by
  refine ⟨add ⟨1000, 5, true⟩ true ++ List.replicate 90 .word, by decide +kernel, ?_, by decide +kernel, by decide +kernel⟩
  intro ev hev
  rw [List.mem_append, List.mem_replicate] at hev
  rcases hev with hev | ⟨_, rfl⟩
  · simp only [add, List.mem_cons, List.not_mem_nil, or_false] at hev
    rcases hev with rfl | rfl | rfl <;> exact ⟨by simp, by simp⟩
  · exact ⟨by simp, by simp⟩

theorem blindS : ∀ (more : List Ev) {s : RmtReg}, (∀ ev ∈ more, ev = .word ∨ ev = .isr) → s.ena = false → s.conti = true → s.sending = true → s.q.running = true →
    (run .idf4s s more).q.running = true ∧ (run .idf4s s more).sending = true
  | [], _, _, _, _, h3, h4 => ⟨h4, h3⟩
  | ev :: more, s, hw, h1, h2, h3, h4 => by
    have hw' : ∀ ev ∈ more, ev = .word ∨ ev = .isr := fun e he => hw e (List.mem_cons_of_mem _ he)
    rcases hw ev (by simp) with rfl | rfl
    · have : s.step .idf4s .word = (s.word .idf4s).sync := by
        change RmtReg.sync (if s.sending then _ else _) = _
        rw [if_pos h3]
      have hk : (s.step .idf4s .word).ena = s.ena ∧ (s.step .idf4s .word).conti = s.conti ∧ (s.step .idf4s .word).sending = s.sending ∧ (s.step .idf4s .word).q.running = s.q.running := by
        rw [this]
        change (s.word .idf4s).ena = _ ∧ (s.word .idf4s).conti = _ ∧ (s.word .idf4s).sending = _ ∧ (s.word .idf4s).q.running = _
        unfold word
        dsimp only
        rw [if_pos h2]
        repeat' split
        all_goals exact ⟨rfl, rfl, rfl, rfl⟩
      exact blindS more hw' (hk.1.trans h1) (hk.2.1.trans h2) (hk.2.2.1.trans h3) (hk.2.2.2.trans h4)
    · have : s.step .idf4s .isr = s.sync := by
        change (isr .idf4s s).sync = _
        rw [isr_none _ _ (by rw [h1]; simp) (by rw [h1]; simp)]
      change (run .idf4s (s.step .idf4s .isr) more).q.running = true ∧ (run .idf4s (s.step .idf4s .isr) more).sending = true
      rw [this]
      exact blindS more hw' h1 h2 h3 h4

/-- C92 on C3/S3 with IDF 4, violation: after detachFromPin() during a transmission the motor is reported as running for ever and the transmission never ends. After ten rounds through the memory 50 pulses have been sent, with
5 steps commanded; the pin stays connected to the channel. -/
theorem _root_.FAS.C92_c3_detach_refuted : ∃ evs : List Ev, Along .idf4s (Timely .idf4s) (fresh 5 true) evs ∧ (∀ ev ∈ evs, ev.Plain .idf4s) ∧ (track .idf4s (fresh 5 true) [] evs).2 = [⟨1000, 5, true⟩] ∧
    (∀ more : List Ev, (∀ ev ∈ more, ev = .word ∨ ev = .isr) →
      let s := run .idf4s (fresh 5 true) (evs ++ .detach :: more)
      s.q.running = true ∧ s.sending = true) ∧
    (run .idf4s (fresh 5 true) (evs ++ .detach :: served 469)).pulses.length = 50 := by
  refine ⟨add ⟨1000, 5, true⟩ true ++ [.word], by decide +kernel, by decide +kernel, by decide +kernel, fun more hw => ?_, by decide +kernel⟩
  simp only
  rw [show add ⟨1000, 5, true⟩ true ++ [.word] ++ .detach :: more = (add ⟨1000, 5, true⟩ true ++ [.word, .detach]) ++ more by simp, run_two]
  exact blindS more hw (by decide +kernel) (by decide +kernel) (by decide +kernel) (by decide +kernel)

end RmtReg
end FAS
