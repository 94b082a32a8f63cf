import Verif.Lemmas.AvrTim

/-! The invariant of the AVR backend: application side events and whole schedules. -/

namespace FAS

theorem prepare_undef (a : ArchId) (q : Queue) (c : Cmd) (h : q.dirPin = pinUndefined) :
    (q.prepare a c).1.dirLevel = q.dirLevel ∧ (q.prepare a c).1.qend = q.qend ∧
    ((q.prepare a c).1.slot a q.nextWriteIdx).toggleDir = false ∧
    ((q.prepare a c).1.slot a q.nextWriteIdx).repeatEntry = false := by
  simp [Queue.prepare, h, Queue.slot]

theorem prepare_int (a : ArchId) (q : Queue) (c : Cmd) (h : q.dirPin ≠ pinUndefined) (h2 : pinIsExternal q.dirPin = false) :
    (q.prepare a c).1.dirLevel = (if q.isQueueEmpty && !q.running then (c.countUp == q.dirHighCountsUp) else q.dirLevel) ∧
    (q.prepare a c).1.qend.dir = (if q.isQueueEmpty && !q.running then (c.countUp == q.dirHighCountsUp) else q.qend.dir) ∧
    ((q.prepare a c).1.slot a q.nextWriteIdx).toggleDir =
      (!(q.isQueueEmpty && !q.running) && ((c.countUp == q.dirHighCountsUp) != q.qend.dir)) ∧
    ((q.prepare a c).1.slot a q.nextWriteIdx).repeatEntry = false ∧
    (q.prepare a c).2.dir = (c.countUp == q.dirHighCountsUp) := by
  have hb : (q.dirPin != pinUndefined) = true := by simpa using h
  unfold Queue.prepare
  simp only [hb, h2, Queue.slot, Bool.true_and, Bool.not_false, Bool.and_true, Bool.and_false, if_true, true_and, and_true]
  cases q.isQueueEmpty <;> cases q.running <;> simp

/-- first phase of addQueueEntry -/
theorem Core.prepare {a s t qs c st} (h : Core a s t qs) (_hpc : s.pc = .idle) (hnf : s.q.queueEntries < a.queueLen)
    (hc : c.Valid) :
    Core a { s with q := (s.q.prepare a c).1, pc := .prepared (s.q.prepare a c).2 c st } t qs := by
  obtain ⟨e, pe, pr, pw, prun, pready, pign, ppos, pdp, pdh, pms, pnpos, pncu, es, ecu, em, eh, et, ep⟩ :=
    prepare_spec a s.q c
  have hp := Queue.pending_write_unused a s.q e h.sim.idx hnf (s.q.prepare a c).1 pe pr pw
  have hsl : (s.q.prepare a c).1.slot a s.q.nextWriteIdx = e := by simp [Queue.slot, pe]
  have hrep : e.repeatEntry = false := by
    rw [← hsl]
    rcases h.pin with hx | hx
    · exact (prepare_undef a s.q c hx).2.2.2
    · by_cases hu : s.q.dirPin = pinUndefined
      · exact (prepare_undef a s.q c hu).2.2.2
      · exact (prepare_int a s.q c hu hx).2.2.2.1
  have hpe : (s.q.prepare a c).1.queueEntries = s.q.queueEntries := by
    simp only [Queue.queueEntries, pr, pw]
  refine { sim := ?_, ready := pready.trans h.ready, ign := pign.trans h.ign, irq := h.irq.trans prun.symm,
           pin := ?_, norep := ?_, mode := ?_, prep := ?_, ph := ?_, wait := ?_, dn := ?_, cnt := h.cnt }
  · refine { idx := hp.2, run := prun.trans h.sim.run, ready := pready.trans h.sim.ready, ign := pign.trans h.sim.ign,
             doneP := h.sim.doneP, rel := ?_, pos := ppos.trans h.sim.pos }
    simp only [hp.1]; exact h.sim.rel
  · simp only [pdp]; exact h.pin
  · simp only [hp.1]; exact h.norep
  · simp only [hp.1, prun]; exact h.mode
  · intro next c' st' heq
    injection heq with h1 h2 h3
    subst h1 h2 h3
    simp only [pw, hsl, hpe, ppos]
    refine ⟨hc, hnf, ?_, pnpos, hrep⟩
    refine { valid := hc, ticks := et, countUp := ecu, more := em, has := eh, steps := (by simp [es]), pos16 := ?_,
             dn := Or.inl rfl }
    have hps : s.q.qend.pos = i32 (qs.pos + qs.todo) := h.sim.pos
    rw [ep, hps]
    split
    · unfold i32; omega
    · unfold Queue.nextPos Cmd.signed i32; split <;> omega
  · simp only [prun]; exact h.ph
  · simp only [prun]; exact h.wait
  · simp only [prun]; exact h.dn

theorem Tim.prepare {a lvl base s t qs c st} (h : Core a s t qs) (hT : Tim a lvl base s t qs)
    (hnf : s.q.queueEntries < a.queueLen) :
    Tim a lvl base { s with q := (s.q.prepare a c).1, pc := .prepared (s.q.prepare a c).2 c st } t qs := by
  obtain ⟨e, pe, pr, pw, prun, pready, pign, ppos, pdp, pdh, pms, pnpos, pncu, es, ecu, em, eh, et, ep⟩ :=
    prepare_spec a s.q c
  have hp := Queue.pending_write_unused a s.q e h.sim.idx hnf (s.q.prepare a c).1 pe pr pw
  have hemp : s.q.isQueueEmpty = true ↔ s.q.pending a = [] := by
    rw [Queue.pending_nil_iff]; simp [Queue.isQueueEmpty]
  -- everything about the direction
  have hdir : (∀ u, lvl u = if s.q.dirPin = pinUndefined then (s.q.prepare a c).1.dirLevel else (u == s.q.dirHighCountsUp)) ∧
      (s.q.running = true ∨ s.q.pending a ≠ [] → (s.q.prepare a c).1.dirLevel = s.q.dirLevel ∧
        (s.q.prepare a c).1.lastLvl = s.q.lastLvl) ∧
      (s.q.running = false → s.q.pending a = [] → (s.q.prepare a c).1.dirLevel = (s.q.prepare a c).1.lastLvl) ∧
      ((s.q.prepare a c).1.slot a s.q.nextWriteIdx).toggleDir = (lvl c.countUp != (s.q.prepare a c).1.lastLvl) ∧
      (s.q.dirPin ≠ pinUndefined → (s.q.prepare a c).2.dir = lvl c.countUp) := by
    have hlv := hT.lv
    by_cases hu : s.q.dirPin = pinUndefined
    · obtain ⟨d1, d2, d3, d4⟩ := prepare_undef a s.q c hu
      refine ⟨?_, ?_, ?_, ?_, fun hx => absurd hu hx⟩
      · intro u; rw [hlv u, if_pos hu, if_pos hu, d1]
      · intro _; refine ⟨d1, ?_⟩
        simp only [Queue.lastLvl, pdp, hu, if_true, d1]
      · intro _ _; simp only [Queue.lastLvl, pdp, hu, if_true]
      · rw [d3]
        simp only [Queue.lastLvl, pdp, hu, if_true, d1]
        rw [hlv, if_pos hu]; cases s.q.dirLevel <;> rfl
    · have hi : pinIsExternal s.q.dirPin = false := by
        rcases h.pin with hx | hx
        · exact absurd hx hu
        · exact hx
      obtain ⟨d1, d2, d3, d4, d5⟩ := prepare_int a s.q c hu hi
      have hl : (s.q.prepare a c).1.lastLvl = (s.q.prepare a c).1.qend.dir := by
        simp only [Queue.lastLvl, pdp]; rw [if_neg hu]
      have hl' : s.q.lastLvl = s.q.qend.dir := by simp only [Queue.lastLvl]; rw [if_neg hu]
      have hlc : lvl c.countUp = (c.countUp == s.q.dirHighCountsUp) := by rw [hlv, if_neg hu]
      refine ⟨?_, ?_, ?_, ?_, fun _ => by rw [d5, hlc]⟩
      · intro u; rw [hlv u, if_neg hu, if_neg hu]
      · intro hx
        have : (s.q.isQueueEmpty && !s.q.running) = false := by
          rcases hx with hx | hx
          · rw [hx]; simp
          · have : s.q.isQueueEmpty ≠ true := fun hy => hx (hemp.mp hy)
            simp [this]
        rw [this] at d1 d2
        exact ⟨by simpa using d1, by rw [hl, hl']; simpa using d2⟩
      · intro h1 h2
        rw [hl, d1, d2, hemp.mpr h2, h1]; rfl
      · rw [hl, d3, d2, hlc]
        cases (s.q.isQueueEmpty && !s.q.running) <;> simp
  obtain ⟨k1, k2, k3, k4, k5⟩ := hdir
  refine { lv := ?_, empt := ?_, dir1 := ?_, dir2 := ?_, prepDir := ?_,
           exp := ?_, dur := ?_, pos := ?_ }
  · intro u; simp only [pdp, pdh]; exact k1 u
  · simp only [hp.1, prun]; exact hT.empt
  · simp only [hp.1, prun]
    intro hr hn
    rw [(k2 (Or.inl hr)).1, (k2 (Or.inl hr)).2]
    exact hT.dir1 hr hn
  · simp only [hp.1, prun]
    intro hx
    right
    by_cases hpn : s.q.pending a = []
    · cases hr : s.q.running with
      | false => rw [hpn]; exact k3 hr hpn
      | true =>
        rw [(k2 (Or.inl hr)).1, (k2 (Or.inl hr)).2]
        rcases hT.dir2 hx with hy | hy
        · rw [hr] at hy; cases hy.1
        · exact hy
    · rw [(k2 (Or.inr hpn)).1, (k2 (Or.inr hpn)).2]
      rcases hT.dir2 hx with hy | hy
      · exact absurd hy.2.1 hpn
      · exact hy
  · intro next c' st' heq
    injection heq with h1 h2 h3
    subst h1 h2 h3
    simp only [pw, pdp]
    exact ⟨k4, k5⟩
  · simp only [prun]; exact hT.exp
  · simp only [prun]; exact hT.dur
  · simp only [pdp, pdh]; exact hT.pos

theorem expected_cons (lvl : Bool → Bool) (t0 : Nat) (cs : List Cmd) (ps : List (Nat × List Cmd)) (w : List Cmd) :
    AvrHist.expected lvl ⟨(t0, cs) :: ps, w⟩ = AvrHist.expected lvl ⟨ps, w⟩ ++ specPulses lvl t0 cs := by
  simp [AvrHist.expected]

theorem accepted_accept (t : AvrHist) (r : Bool) (c : Cmd) (h : r = true → ∃ p ps, t.phases = p :: ps) (hw : r = true → t.waiting = []) :
    (t.accept r c).accepted = t.accepted ++ [c] := by
  unfold AvrHist.accept
  cases r with
  | false => simp [AvrHist.accepted]
  | true =>
    obtain ⟨p, ps, hp⟩ := h rfl
    simp [hp, AvrHist.accepted, hw rfl]

/-- the queue after the critical section -/
theorem commit_ok (q : Queue) (next : QueueEnd) (h1 : q.ready = true) (h2 : q.ignoreCommands = false) :
    q.commit next = ({ q with nextWriteIdx := u8 (q.nextWriteIdx + 1), qend := next }, true) := by
  simp [Queue.commit, h1, h2]

theorem pending_commit {a : ArchId} {q : Queue} (next : QueueEnd) (h : q.IdxOK a) (hnf : q.queueEntries < a.queueLen) :
    ({ q with nextWriteIdx := u8 (q.nextWriteIdx + 1), qend := next } : Queue).pending a =
      q.pending a ++ [q.slot a q.nextWriteIdx] ∧
    ({ q with nextWriteIdx := u8 (q.nextWriteIdx + 1), qend := next } : Queue).IdxOK a := by
  refine Queue.pending_push a q (q.slot a q.nextWriteIdx) h hnf _ ?_ rfl rfl
  funext i
  by_cases hi : i = q.nextWriteIdx % a.queueLen
  · simp [hi, Queue.slot]
  · simp [hi]

/-- second phase of addQueueEntry -/
theorem Core.commit {a s t qs next c st} (h : Core a s t qs) (hpc : s.pc = .prepared next c st) :
    Core a { s with q := { s.q with nextWriteIdx := u8 (s.q.nextWriteIdx + 1), qend := next }, pc := .committed st }
      (t.accept s.q.running c) { qs with pend := qs.pend ++ [c] } := by
  obtain ⟨p1, p2, p3, p4, p5⟩ := h.prep next c st hpc
  obtain ⟨hp, hidx⟩ := pending_commit (a := a) next h.sim.idx p2
  have ht : ({ qs with pend := qs.pend ++ [c] } : QSpec).todo = qs.todo + c.signed := Sim.todo_add c h.sim.done_nil
  have hrem : ({ qs with pend := qs.pend ++ [c] } : QSpec).remaining = qs.remaining ++ [c] :=
    QSpec.remaining_append h.sim.done_nil rfl rfl
  have hmode := h.mode
  refine { sim := ?_, ready := h.ready, ign := h.ign, irq := h.irq, pin := h.pin, norep := ?_, mode := ?_, prep := ?_,
           ph := ?_, wait := ?_, dn := h.dn, cnt := ?_ }
  · refine { idx := hidx, run := h.sim.run, ready := h.sim.ready, ign := h.sim.ign, doneP := h.sim.doneP,
             rel := ?_, pos := ?_ }
    · rw [ht]
      simp only [hp, signedSum_append, signedSum, Int.add_zero]
      have : qs.pos + (qs.todo + c.signed) - (signedSum qs.pend + c.signed) = qs.pos + qs.todo - signedSum qs.pend := by omega
      rw [this]
      refine h.sim.rel.append ?_
      have : qs.pos + qs.todo - signedSum qs.pend + signedSum qs.pend = qs.pos + qs.todo := by omega
      rw [this]
      exact p3
    · rw [ht]
      have hps : s.q.qend.pos = i32 (qs.pos + qs.todo) := h.sim.pos
      simp only [p4, hps, Queue.nextPos]
      rw [i32_i32_add, Int.add_assoc]
      rfl
  · simp only [hp]
    intro e he
    rcases List.mem_append.mp he with he | he
    · exact h.norep e he
    · rw [List.mem_singleton.mp he]; exact p5
  · simp only [hp]
    cases hr : s.q.running with
    | false => rw [hr] at hmode; exact hmode
    | true =>
      rw [hr] at hmode
      cases hn : s.noMore with
      | false =>
        rw [hn] at hmode
        obtain ⟨e, es, he, ho⟩ := hmode
        exact ⟨e, es ++ [s.q.slot a s.q.nextWriteIdx], by rw [he]; rfl, ho⟩
      | true =>
        rw [hn] at hmode
        intro ho
        obtain ⟨e, es, he, ho⟩ := hmode ho
        exact ⟨e, es ++ [s.q.slot a s.q.nextWriteIdx], by rw [he]; rfl, ho⟩
  · intro n' c' st' hx; cases hx
  · intro hr
    have hr : s.q.running = true := hr
    obtain ⟨p, ps, hph⟩ := h.ph hr
    refine ⟨(p.1, p.2 ++ [c]), ps, ?_⟩
    simp [AvrHist.accept, hr, hph]
  · have hw := h.wait
    cases hr : s.q.running with
    | false =>
      rw [hr] at hw
      simp only [Bool.false_eq_true, if_false] at hw
      simp [AvrHist.accept, hw]
    | true =>
      rw [hr] at hw
      obtain ⟨p, ps, hph⟩ := h.ph hr
      simpa [AvrHist.accept, hph] using hw
  · rw [accepted_accept t _ c h.ph, stepSum_append, hrem, stepSum_append, ← h.cnt]
    · simp only; omega
    · intro hr; have hw := h.wait; rw [hr] at hw; simpa using hw

theorem Tim.commit {a lvl base s t qs next c st} (h : Core a s t qs) (hT : Tim a lvl base s t qs)
    (hpc : s.pc = .prepared next c st) (hin : s.noMore = false) :
    Tim a lvl base { s with q := { s.q with nextWriteIdx := u8 (s.q.nextWriteIdx + 1), qend := next }, pc := .committed st }
      (t.accept s.q.running c) { qs with pend := qs.pend ++ [c] } := by
  obtain ⟨p1, p2, p3, p4, p5⟩ := h.prep next c st hpc
  obtain ⟨d1, d2⟩ := hT.prepDir next c st hpc
  obtain ⟨hp, hidx⟩ := pending_commit (a := a) next h.sim.idx p2
  have hrem : ({ qs with pend := qs.pend ++ [c] } : QSpec).remaining = qs.remaining ++ [c] :=
    QSpec.remaining_append h.sim.done_nil rfl rfl
  have hcu := p3.countUp
  have hlast : Queue.lastLvl { s.q with nextWriteIdx := u8 (s.q.nextWriteIdx + 1), qend := next } =
      lvl (s.q.slot a s.q.nextWriteIdx).countUp := by
    rw [hcu]
    change (if s.q.dirPin = pinUndefined then s.q.dirLevel else next.dir) = _
    by_cases hu : s.q.dirPin = pinUndefined
    · rw [if_pos hu, hT.lv, if_pos hu]
    · rw [if_neg hu]; exact d2 hu
  have d1' : (s.q.slot a s.q.nextWriteIdx).toggleDir = (lvl (s.q.slot a s.q.nextWriteIdx).countUp != s.q.lastLvl) := by
    rw [hcu]; exact d1
  refine { lv := hT.lv, empt := ?_, dir1 := ?_, dir2 := ?_, prepDir := ?_, exp := ?_, dur := ?_, pos := hT.pos }
  · intro _ hx; simp only [hin] at hx; cases hx
  · intro hr hn
    obtain ⟨e, es, he, hd, htog⟩ := hT.dir1 hr hn
    refine ⟨e, es ++ [s.q.slot a s.q.nextWriteIdx], ?_, hd, ?_⟩
    · simp only [hp, he]; rfl
    · rw [hlast]; exact htog.append d1'
  · intro hx
    rcases hT.dir2 hx with hy | hy
    · exact absurd hpc (hy.2.2 next c st)
    · right
      simp only [hp]
      rw [hlast]
      exact hy.append d1'
  · intro n' c' st' hx; cases hx
  · have hexp := hT.exp
    cases hr : s.q.running with
    | false =>
      rw [hr] at hexp
      simpa [AvrHist.accept, AvrHist.expected] using hexp
    | true =>
      obtain ⟨t0, cs, ps, hph, hdur⟩ := hT.dur hr
      have e0 : t = ⟨(t0, cs) :: ps, t.waiting⟩ := by rw [← hph]
      have e1 : t.accept true c = ⟨(t0, cs ++ [c]) :: ps, t.waiting⟩ := by simp [AvrHist.accept, hph]
      rw [hr, e0, expected_cons] at hexp
      simp only [if_true] at hexp
      rw [e1, expected_cons, specPulses_append, ← List.append_assoc, hexp]
      simp only [if_true, hrem]
      rw [specPulses_append, hdur, List.append_assoc]
  · intro hr
    have hr : s.q.running = true := hr
    obtain ⟨t0, cs, ps, hph, hdur⟩ := hT.dur hr
    refine ⟨t0, cs ++ [c], ps, by simp [AvrHist.accept, hr, hph], ?_⟩
    rw [hrem, durationSum_append, durationSum_append]
    simp only; omega

/-- start of the queue -/
theorem Core.start {a s t qs pc} (h : Core a s t qs) (hav : a.isAvr = true) (hrun : s.q.running = false)
    (hne : s.q.readIdx ≠ s.q.nextWriteIdx) (hpc : ∀ n c st, pc ≠ AddPc.prepared n c st) (now : Nat) :
    Core a (Avr.startQueue a now { s with pc := pc }) (t.start (now + 10)) { qs with running := true } := by
  obtain ⟨c, cs, hp, hcons, htk, hst, hcu, hd, hn⟩ := h.heads hav hne
  have hmode := h.mode
  rw [hrun] at hmode
  unfold Avr.startQueue
  simp only [Avr.toggleFor_eq]
  refine { sim := (h.sim.setRunning true).dirLevel _, ready := h.ready, ign := h.ign, irq := rfl, pin := h.pin,
           norep := h.norep, mode := ?_, prep := ?_, ph := fun _ => ⟨_, _, rfl⟩, wait := rfl, dn := ?_, cnt := ?_ }
  · simp only [hmode.1]
    exact ⟨_, _, hcons, rfl⟩
  · intro n' c' st' hx; exact absurd hx (hpc n' c' st')
  · intro hx; cases hx
  · have hcnt := h.cnt
    have hw := h.wait
    rw [hrun] at hw
    have hacc : (t.start (now + 10)).accepted = t.accepted := by simp [AvrHist.start, AvrHist.accepted]
    rw [hacc, ← hcnt, hmode.1]
    simp only [Bool.false_and]
    rw [QSpec.remaining_congr (s := qs) (s' := { qs with running := true }) rfl rfl]

theorem Tim.start {a lvl base s t qs pc} (h : Core a s t qs) (hT : Tim a lvl base s t qs) (hav : a.isAvr = true)
    (hrun : s.q.running = false) (hne : s.q.readIdx ≠ s.q.nextWriteIdx)
    (hpc : ∀ n c st, pc ≠ AddPc.prepared n c st) (now : Nat) :
    Tim a lvl base (Avr.startQueue a now { s with pc := pc }) (t.start (now + 10)) { qs with running := true } := by
  obtain ⟨c, cs, hp, hcons, htk, hst, hcu, hd, hn⟩ := h.heads hav hne
  have hmode := h.mode
  rw [hrun] at hmode
  have hw := h.wait
  rw [hrun] at hw
  simp only [Bool.false_eq_true, if_false] at hw
  have htog : Tog lvl s.q.dirLevel (s.q.pending a) s.q.lastLvl := by
    rcases hT.dir2 (Or.inl hrun) with hy | hy
    · rw [hcons] at hy; cases hy.2.1
    · exact hy
  rw [hcons] at htog
  obtain ⟨htg, htog'⟩ := htog
  have hxor : xor (s.q.slot a s.q.readIdx).toggleDir s.q.dirLevel = lvl (s.q.slot a s.q.readIdx).countUp := xor_toggle htg
  have hund : s.q.dirPin = pinUndefined → xor (s.q.slot a s.q.readIdx).toggleDir s.q.dirLevel = s.q.dirLevel := by
    intro hx; rw [hxor, hT.lv, if_pos hx]
  unfold Avr.startQueue
  simp only [Avr.toggleFor_eq]
  refine { lv := ?_, empt := ?_, dir1 := ?_, dir2 := ?_, prepDir := ?_, exp := ?_, dur := ?_, pos := hT.pos }
  · intro u
    change lvl u = if s.q.dirPin = pinUndefined then
            xor (s.q.slot a s.q.readIdx).toggleDir s.q.dirLevel else (u == s.q.dirHighCountsUp)
    rw [hT.lv u]
    by_cases hx : s.q.dirPin = pinUndefined
    · rw [if_pos hx, if_pos hx]; exact (hund hx).symm
    · rw [if_neg hx, if_neg hx]
  · intro _ hx; simp only [hmode.1] at hx; cases hx
  · intro _ _
    refine ⟨_, _, hcons, hxor, ?_⟩
    change Tog lvl (xor (s.q.slot a s.q.readIdx).toggleDir s.q.dirLevel) _
      (if s.q.dirPin = pinUndefined then xor (s.q.slot a s.q.readIdx).toggleDir s.q.dirLevel else s.q.qend.dir)
    have hl : (if s.q.dirPin = pinUndefined then xor (s.q.slot a s.q.readIdx).toggleDir s.q.dirLevel else s.q.qend.dir)
        = s.q.lastLvl := by
      unfold Queue.lastLvl
      by_cases hx : s.q.dirPin = pinUndefined
      · rw [if_pos hx, if_pos hx]; exact hund hx
      · rw [if_neg hx, if_neg hx]
    rw [hl, hxor]
    exact htog'
  · intro hx
    rcases hx with hx | hx
    · cases hx
    · simp only [hmode.1] at hx; cases hx
  · intro n' c' st' hx; exact absurd hx (hpc n' c' st')
  · have hexp := hT.exp
    rw [hrun] at hexp
    simp only [Bool.false_eq_true, if_false, List.append_nil] at hexp
    rw [AvrHist.start, expected_cons]
    have : AvrHist.expected lvl ⟨t.phases, []⟩ = t.expected lvl := rfl
    rw [this, hexp, hw]
    simp only [if_true]
    rw [QSpec.remaining_congr (s := qs) (s' := { qs with running := true }) rfl rfl, QSpec.remaining_zero (h.dn hrun)]
  · intro _
    refine ⟨now + 10, t.waiting, t.phases, rfl, ?_⟩
    rw [QSpec.remaining_congr (s := qs) (s' := { qs with running := true }) rfl rfl, QSpec.remaining_zero (h.dn hrun), hw]

/-- leaving addQueueEntry -/
theorem Core.leave {a s t qs} (h : Core a s t qs) (_hpc : ∀ n c st, s.pc ≠ .prepared n c st) :
    Core a { s with pc := .idle } t qs :=
  { h with prep := fun n c st hx => by cases hx }

theorem Tim.leave {a lvl base s t qs} (h : Tim a lvl base s t qs) (_hpc : ∀ n c st, s.pc ≠ .prepared n c st) :
    Tim a lvl base { s with pc := .idle } t qs :=
  { h with
    prepDir := fun n c st hx => by cases hx
    dir2 := fun hx => by
      rcases h.dir2 hx with hy | hy
      · exact Or.inl ⟨hy.1, hy.2.1, fun n c st hz => by cases hz⟩
      · exact Or.inr hy }

/-- every event preserves the invariant -/
theorem avr_step {a lvl base s t qs} {ok : Prop} (h : Core a s t qs) (hT : ok → Tim a lvl base s t qs) (hav : a.isAvr = true)
    (ev : Avr.Ev) (hpl : ev.Plain) (hls : s.NoLateStart ev) :
    ∃ qs', Core a (s.step a ev) (t.observe s (s.step a ev) ev) qs' ∧
      (ok ∧ s.InTime ev → Tim a lvl base (s.step a ev) (t.observe s (s.step a ev) ev) qs') := by
  have hsame : ∀ ev', (∀ n c st, s.pc = .prepared n c st → ev' ≠ .addCommit) → t.observe s s ev' = t := by
    intro ev' hne
    unfold AvrHist.observe
    have : ¬ (s.q.running = false ∧ s.q.running = true) := by rintro ⟨h1, h2⟩; rw [h1] at h2; cases h2
    rw [if_neg this]
    cases ev' with
    | addCommit =>
      cases hpc : s.pc with
      | prepared n c st => exact absurd rfl (hne n c st hpc)
      | _ => rfl
    | _ => rfl
  have hid : ∀ ev', s.step a ev' = s → (∀ n c st, s.pc = .prepared n c st → ev' ≠ .addCommit) →
      ∃ qs', Core a (s.step a ev') (t.observe s (s.step a ev') ev') qs' ∧
      (ok ∧ s.InTime ev' → Tim a lvl base (s.step a ev') (t.observe s (s.step a ev') ev') qs') := by
    intro ev' he hne
    rw [he, hsame ev' hne]
    exact ⟨qs, h, fun hx => hT hx.1⟩
  cases ev with
  | compare =>
    cases hirq : s.irq with
    | false => exact hid .compare (by simp [Avr.step, hirq]) (fun _ _ _ _ hx => by cases hx)
    | true =>
      have hrun : s.q.running = true := h.irq.symm.trans hirq
      have hst : s.step a .compare = s.compare a := by simp [Avr.step, hirq]
      have hob : t.observe s (s.compare a) .compare = t := by simp [AvrHist.observe, hrun]
      rw [hst, hob]
      obtain ⟨qs', hc, hA, hB, -⟩ := h.compare hav hrun
      exact ⟨qs', hc, fun hx => (hT hx.1).compare h hav hrun hA hB⟩
  | addBegin c st =>
    have hc : c.Valid := hpl
    by_cases hx : s.pc = .idle ∧ s.q.queueEntries ≠ a.queueLen ∧ ¬ Queue.commandRateTicks c < a.minCmdTicks
    · obtain ⟨hpc, hnf, hrate⟩ := hx
      have hst : s.step a (.addBegin c st) =
          { s with q := (s.q.prepare a c).1, pc := .prepared (s.q.prepare a c).2 c st } := by
        simp [Avr.step, hpc, h.ready, Queue.isQueueFull, hnf, hrate]
      have hle : s.q.queueEntries ≤ a.queueLen := h.sim.idx.2.2
      have hrn : (s.q.prepare a c).1.running = s.q.running := by
        obtain ⟨e, pe, pr, pw, prun, -⟩ := prepare_spec a s.q c
        exact prun
      have hob : t.observe s { s with q := (s.q.prepare a c).1, pc := .prepared (s.q.prepare a c).2 c st }
          (.addBegin c st) = t := by
        simp only [AvrHist.observe, hrn]
        rw [if_neg]
        rintro ⟨h1, h2⟩; rw [h1] at h2; cases h2
      rw [hst, hob]
      exact ⟨qs, h.prepare hpc (by omega) hc, fun hx => (hT hx.1).prepare h (by omega)⟩
    · refine hid _ ?_ (fun _ _ _ _ hx => by cases hx)
      cases hpc : s.pc with
      | idle =>
        by_cases h1 : s.q.queueEntries = a.queueLen
        · simp [Avr.step, hpc, h.ready, Queue.isQueueFull, h1]
        · have h2 : Queue.commandRateTicks c < a.minCmdTicks := by
            by_cases h2 : Queue.commandRateTicks c < a.minCmdTicks
            · exact h2
            · exact absurd ⟨hpc, h1, h2⟩ hx
          simp [Avr.step, hpc, h.ready, Queue.isQueueFull, h1, h2]
      | _ => simp [Avr.step, hpc]
  | addCommit =>
    cases hpc : s.pc with
    | prepared next c st =>
      have hst : s.step a .addCommit =
          { s with q := { s.q with nextWriteIdx := u8 (s.q.nextWriteIdx + 1), qend := next }, pc := .committed st } := by
        simp [Avr.step, hpc, commit_ok s.q next h.ready h.ign]
      have hob : t.observe s
          { s with q := { s.q with nextWriteIdx := u8 (s.q.nextWriteIdx + 1), qend := next }, pc := .committed st }
          .addCommit = t.accept s.q.running c := by
        simp only [AvrHist.observe, hpc, h.ign]
        rw [if_neg]
        · rfl
        · rintro ⟨h1, h2⟩; rw [h1] at h2; cases h2
      rw [hst, hob]
      exact ⟨_, h.commit hpc, fun hx => (hT hx.1).commit h hpc hx.2⟩
    | idle => exact hid _ (by simp [Avr.step, hpc]) (fun n c st hx => by rw [hpc] at hx; cases hx)
    | committed st => exact hid _ (by simp [Avr.step, hpc]) (fun n c st hx => by rw [hpc] at hx; cases hx)
  | addFinish now =>
    cases hpc : s.pc with
    | committed st =>
      have hnp : ∀ n c st', s.pc ≠ .prepared n c st' := by intro n c st' hx; rw [hpc] at hx; cases hx
      by_cases hx : s.q.running = false ∧ st = true
      · have hne : s.q.readIdx ≠ s.q.nextWriteIdx := by
          rcases hls with hy | hy
          · rw [hx.1] at hy; cases hy
          · exact hy
        have hst : s.step a (.addFinish now) = Avr.startQueue a now { s with pc := .idle } := by
          simp [Avr.step, hpc, hx.1, hx.2]
        have hrn : (Avr.startQueue a now { s with pc := .idle }).q.running = true := by
          simp [Avr.startQueue, Avr.toggleFor_eq]
        have hob : t.observe s (Avr.startQueue a now { s with pc := .idle }) (.addFinish now) = t.start (now + 10) := by
          simp only [AvrHist.observe, hrn, hx.1, and_self, if_true]
          rfl
        rw [hst, hob]
        have hnp' : ∀ n c st', AddPc.idle ≠ .prepared n c st' := by intro n c st' hx; cases hx
        exact ⟨_, h.start hav hx.1 hne hnp' now, fun hy => (hT hy.1).start h hav hx.1 hne hnp' now⟩
      · have hst : s.step a (.addFinish now) = { s with pc := .idle } := by
          have : (!s.q.running && st) = false := by
            cases hr : s.q.running <;> cases hs : st <;> simp_all
          simp [Avr.step, hpc, this]
        have hob : t.observe s { s with pc := .idle } (.addFinish now) = t := by
          simp only [AvrHist.observe]
          rw [if_neg]
          rintro ⟨h1, h2⟩; rw [h1] at h2; cases h2
        rw [hst, hob]
        exact ⟨qs, h.leave hnp, fun hy => (hT hy.1).leave hnp⟩
    | idle => exact hid _ (by simp [Avr.step, hpc]) (fun n c st hx => by rw [hpc] at hx; cases hx)
    | prepared n c st => exact hid _ (by simp [Avr.step, hpc]) (fun n c st _ hy => by cases hy)
  | startNull now =>
    cases hpc : s.pc with
    | idle =>
      by_cases hx : s.q.running = false ∧ s.q.readIdx ≠ s.q.nextWriteIdx
      · have hst : s.step a (.startNull now) = Avr.startQueue a now { s with pc := .idle } := by
          have : { s with pc := AddPc.idle } = s := by cases s; simp_all
          rw [this]
          simp [Avr.step, hpc, Queue.addNull, h.ready, hx.1, Ne.symm hx.2]
        have hrn : (Avr.startQueue a now { s with pc := .idle }).q.running = true := by
          simp [Avr.startQueue, Avr.toggleFor_eq]
        have hob : t.observe s (Avr.startQueue a now { s with pc := .idle }) (.startNull now) = t.start (now + 10) := by
          simp only [AvrHist.observe, hrn, hx.1, and_self, if_true]
          rfl
        rw [hst, hob]
        have hnp' : ∀ n c st', AddPc.idle ≠ .prepared n c st' := by intro n c st' hx; cases hx
        exact ⟨_, h.start hav hx.1 hx.2 hnp' now, fun hy => (hT hy.1).start h hav hx.1 hx.2 hnp' now⟩
      · refine hid _ ?_ (fun _ _ _ _ hx => by cases hx)
        have : (s.q.addNull true).start = false := by
          unfold Queue.addNull
          rw [h.ready]
          cases hr : s.q.running with
          | true => simp
          | false =>
            have : s.q.nextWriteIdx = s.q.readIdx := by
              by_cases hy : s.q.readIdx = s.q.nextWriteIdx
              · exact hy.symm
              · exact absurd ⟨hr, hy⟩ hx
            simp [this]
        simp [Avr.step, hpc, this]
    | _ => exact hid _ (by simp [Avr.step, hpc]) (fun _ _ _ _ hx => by cases hx)
  | forceStop p => exact hpl.elim
  | clearIgnore => exact hpl.elim
  | extPoll b => exact hpl.elim

/-- whole schedules -/
theorem avr_run {a lvl base} {ok : Prop} (hav : a.isAvr = true) : ∀ (evs : List Avr.Ev) {s t qs},
    Core a s t qs → (ok → Tim a lvl base s t qs) → (∀ ev ∈ evs, ev.Plain) → Avr.Along a Avr.NoLateStart s evs →
    (ok → Avr.Along a Avr.InTime s evs) →
    ∃ qs', Core a (Avr.track a s t evs).1 (Avr.track a s t evs).2 qs' ∧
      (ok → Tim a lvl base (Avr.track a s t evs).1 (Avr.track a s t evs).2 qs')
  | [], _, _, qs, h, hT, _, _, _ => ⟨qs, h, hT⟩
  | ev :: evs, s, t, qs, h, hT, hp, hl, hi => by
    obtain ⟨qs1, h1, hT1⟩ := avr_step h hT hav ev (hp ev (by simp)) hl.1
    exact avr_run hav evs h1 (fun hok => hT1 ⟨hok, (hi hok).1⟩) (fun e he => hp e (by simp [he])) hl.2
      (fun hok => (hi hok).2)

/-- A state without any command or activity, with the log of pulses restarted. -/
structure Avr.Quiet (s : Avr) : Prop where
  run : s.q.running = false
  irq : s.irq = false
  noMore : s.noMore = false
  one : s.one = false
  pc : s.pc = .idle
  emp : s.q.readIdx = s.q.nextWriteIdx
  idx : s.q.nextWriteIdx < 256
  ready : s.q.ready = true
  ign : s.q.ignoreCommands = false
  pulses : s.pulses = []

theorem Avr.Quiet.pending {s : Avr} (h : s.Quiet) (a : ArchId) : s.q.pending a = [] := by
  simp only [Queue.pending_nil_iff, Queue.queueEntries, subU8, h.emp]; omega

theorem Core.quiet (a : ArchId) (s : Avr) (h : s.Quiet) (hpin : s.q.dirPin = pinUndefined ∨ s.q.dirPin < 128)
    (hpos : -2147483648 ≤ s.q.qend.pos ∧ s.q.qend.pos < 2147483648) :
    Core a s ⟨[], []⟩ { QSpec.init with pos := s.q.qend.pos } := by
  have hpn := h.pending a
  refine { sim := ?_, ready := h.ready, ign := h.ign, irq := h.irq.trans h.run.symm, pin := ?_, norep := ?_, mode := ?_,
           prep := ?_, ph := ?_, wait := ?_, dn := fun _ => rfl, cnt := ?_ }
  · refine { idx := ?_, run := h.run, ready := h.ready, ign := h.ign, doneP := by simp [QSpec.init], rel := ?_, pos := ?_ }
    · have hq := a.queueLen_cases
      refine ⟨?_, h.idx, ?_⟩
      · have := h.emp; have := h.idx; simp only; omega
      · have := h.emp
        simp only [Queue.queueEntries, subU8]
        omega
    · simp only [hpn]; exact rfl
    · simp only [QSpec.todo, QSpec.init, Int.add_zero]
      exact (i32_of_range _ hpos).symm
  · rcases hpin with h | h
    · exact Or.inl h
    · right
      simp only [pinIsExternal]
      have : s.q.dirPin / 128 = 0 := by omega
      rw [this]; rfl
  · intro e he; rw [hpn] at he; cases he
  · rw [h.run]; exact ⟨h.noMore, h.one⟩
  · intro _ _ _ hx; rw [h.pc] at hx; cases hx
  · intro hx; rw [h.run] at hx; cases hx
  · rw [h.run]; rfl
  · rw [h.pulses, h.noMore]; rfl

theorem Tim.quiet (a : ArchId) (s : Avr) (h : s.Quiet) :
    Tim a (fun u => if s.q.dirPin = pinUndefined then s.q.dirLevel else (u == s.q.dirHighCountsUp)) s.q.qend.pos
      s ⟨[], []⟩ { QSpec.init with pos := s.q.qend.pos } := by
  have hpn := h.pending a
  refine { lv := fun u => rfl, empt := ?_, dir1 := ?_, dir2 := ?_, prepDir := ?_, exp := ?_, dur := ?_, pos := fun _ => ?_ }
  · intro hx; rw [h.run] at hx; cases hx
  · intro hx; rw [h.run] at hx; cases hx
  · intro _; exact Or.inl ⟨h.run, hpn, fun _ _ _ hx => by rw [h.pc] at hx; cases hx⟩
  · intro _ _ _ hx; rw [h.pc] at hx; cases hx
  · rw [h.run, h.pulses]; rfl
  · intro hx; rw [h.run] at hx; cases hx
  · rw [h.pulses]; simp [pulseSum]

/-- the queue stops after finitely many compare events -/
theorem avr_drain {a : ArchId} (hav : a.isAvr = true) : ∀ (k : Nat) {s t qs}, Core a s t qs → avrMeasure qs s.noMore < k →
    ∃ n qs', Core a (Avr.run a s (List.replicate n .compare)) t qs' ∧
      (Avr.run a s (List.replicate n .compare)).q.running = false ∧
      (s.q.running = true → qs'.pend = [])
  | 0, _, _, _, _, hk => absurd hk (by omega)
  | k + 1, s, t, qs, h, hk => by
    cases hrun : s.q.running with
    | false => exact ⟨0, qs, h, hrun, fun hx => by cases hx⟩
    | true =>
      have hst : s.step a .compare = s.compare a := by simp [Avr.step, h.irq, hrun]
      obtain ⟨qs1, h1, hA, -, hm⟩ := h.compare hav hrun
      cases hr1 : (s.compare a).q.running with
      | false =>
        refine ⟨1, qs1, ?_, ?_, fun _ => ?_⟩
        · simp only [Avr.run, List.replicate, List.foldl, hst]; exact h1
        · simp only [Avr.run, List.replicate, List.foldl, hst]; exact hr1
        · by_cases hpn : s.q.pending a = []
          · rw [(hA hpn).2.1]; exact h.pending_nil.mp hpn
          · -- only the empty queue stops
            exfalso
            have hne : s.q.readIdx ≠ s.q.nextWriteIdx := fun hx => hpn (h.pending_nil.mpr (h.empty_iff.mp hx))
            have : (s.compare a).q.running = s.q.running := by
              rw [Avr.compare_eq]
              unfold Avr.isrBody
              simp only [Avr.pulsed_q, Avr.toggleFor_eq]
              rw [if_neg hne]
              repeat' split
              all_goals rfl
            rw [this, hrun] at hr1; cases hr1
      | true =>
        have hlt := hm hr1
        obtain ⟨n, qs', h2, hr2, he2⟩ := avr_drain hav k h1 (by omega)
        refine ⟨n + 1, qs', ?_, ?_, fun _ => he2 hr1⟩
        · simp only [Avr.run, List.replicate_succ, List.foldl, hst]; exact h2
        · simp only [Avr.run, List.replicate_succ, List.foldl, hst]; exact hr2

theorem Avr.track_fst (a : ArchId) : ∀ (evs : List Avr.Ev) (s : Avr) (t : AvrHist), (Avr.track a s t evs).1 = Avr.run a s evs
  | [], _, _ => rfl
  | ev :: evs, s, t => by
    simp only [Avr.track, Avr.run, List.foldl]
    exact Avr.track_fst a evs _ _

/-- the configuration of the direction pin does not change -/
theorem Avr.step_cfg (a : ArchId) (s : Avr) (ev : Avr.Ev) :
    (s.step a ev).q.dirPin = s.q.dirPin ∧ (s.step a ev).q.dirHighCountsUp = s.q.dirHighCountsUp := by
  have hP : ∀ q : Queue, ∀ c, (q.prepare a c).1.dirPin = q.dirPin ∧
      (q.prepare a c).1.dirHighCountsUp = q.dirHighCountsUp := by
    intro q c
    obtain ⟨e, pe, pr, pw, prun, pready, pign, ppos, pdp, pdh, -⟩ := prepare_spec a q c
    exact ⟨pdp, pdh⟩
  unfold Avr.step
  cases ev with
  | compare =>
    simp only
    split
    · rw [Avr.compare_eq]
      unfold Avr.isrBody
      simp only [Avr.toggleFor_eq, Avr.pulsed_q]
      repeat' split
      all_goals exact ⟨rfl, rfl⟩
    · exact ⟨rfl, rfl⟩
  | addBegin c st =>
    simp only
    repeat' split
    all_goals first | exact ⟨rfl, rfl⟩ | exact hP s.q c
  | addCommit =>
    simp only [Queue.commit]
    repeat' split
    all_goals exact ⟨rfl, rfl⟩
  | addFinish now =>
    simp only [Avr.startQueue, Avr.toggleFor_eq]
    repeat' split
    all_goals exact ⟨rfl, rfl⟩
  | startNull now =>
    simp only [Avr.startQueue, Avr.toggleFor_eq]
    repeat' split
    all_goals exact ⟨rfl, rfl⟩
  | forceStop p =>
    simp only
    repeat' split
    all_goals exact ⟨rfl, rfl⟩
  | clearIgnore => exact ⟨rfl, rfl⟩
  | extPoll b =>
    simp only
    repeat' split
    all_goals exact ⟨rfl, rfl⟩

theorem Avr.track_cfg (a : ArchId) : ∀ (evs : List Avr.Ev) (s : Avr) (t : AvrHist),
    (Avr.track a s t evs).1.q.dirPin = s.q.dirPin ∧ (Avr.track a s t evs).1.q.dirHighCountsUp = s.q.dirHighCountsUp
  | [], _, _ => ⟨rfl, rfl⟩
  | ev :: evs, s, t => by
    have h1 := Avr.step_cfg a s ev
    have h2 := Avr.track_cfg a evs (s.step a ev) (t.observe s (s.step a ev) ev)
    exact ⟨h2.1.trans h1.1, h2.2.trans h1.2⟩

theorem Avr.fresh_pos (a : ArchId) (pin : Nat) (hi : Bool) :
    -2147483648 ≤ (Avr.fresh a pin hi).q.qend.pos ∧ (Avr.fresh a pin hi).q.qend.pos < 2147483648 := by
  change (-2147483648 : Int) ≤ 0 ∧ (0 : Int) < 2147483648
  decide

theorem specPulses_time (lvl : Bool → Bool) : ∀ (cs : List Cmd) (t : Nat), ∀ p ∈ specPulses lvl t cs, t ≤ p.time
  | [], _, p, hp => by cases hp
  | c :: cs, t, p, hp => by
    simp only [specPulses, List.mem_append, List.mem_map] at hp
    rcases hp with ⟨i, -, rfl⟩ | hp
    · simp
    · have := specPulses_time lvl cs _ p hp
      omega

theorem specPulses_dir (lvl : Bool → Bool) : ∀ (cs : List Cmd) (t : Nat),
    (specPulses lvl t cs).map Pulse.dir = cs.flatMap fun c => List.replicate c.steps (lvl c.countUp)
  | [], _ => rfl
  | c :: cs, t => by
    simp only [specPulses, List.map_append, specPulses_dir lvl cs, List.flatMap_cons, List.map_map]
    congr 1
    have : (Pulse.dir ∘ fun i => (⟨t + i * c.ticks, lvl c.countUp⟩ : Pulse)) = fun _ => lvl c.countUp := rfl
    rw [this]
    simp [List.map_const']

/-- Everything about a schedule starting in a quiet state. -/
theorem avr_quiet {a : ArchId} (hav : a.isAvr = true) {s0 : Avr} (hq : s0.Quiet)
    (hpin : s0.q.dirPin = pinUndefined ∨ s0.q.dirPin < 128)
    (hpos : -2147483648 ≤ s0.q.qend.pos ∧ s0.q.qend.pos < 2147483648) (lvl : Bool → Bool)
    (hlvl : lvl = fun u => if s0.q.dirPin = pinUndefined then s0.q.dirLevel else (u == s0.q.dirHighCountsUp))
    (evs : List Avr.Ev) (hplain : ∀ ev ∈ evs, ev.Plain) (hstart : Avr.Along a Avr.NoLateStart s0 evs)
    (hintime : Avr.Along a Avr.InTime s0 evs) :
    let r := Avr.track a s0 ⟨[], []⟩ evs
    (r.1.pulses.reverse.map Pulse.dir <+: r.2.accepted.flatMap fun c => List.replicate c.steps (lvl c.countUp)) ∧
    (s0.q.dirPin ≠ pinUndefined →
      r.1.q.getCurrentPosition a 0 = i32 (s0.q.qend.pos + pulseSum s0.q.dirHighCountsUp r.1.pulses)) ∧
    ∃ rest, r.2.expected lvl = r.1.pulses.reverse ++ rest ∧ (∀ p ∈ rest, r.1.ocr ≤ p.time) ∧
      (r.1.q.running = false → rest = []) := by
  intro r
  obtain ⟨qs, h, hT⟩ := avr_run (ok := True) hav evs (Core.quiet a _ hq hpin hpos) (fun _ => Tim.quiet a _ hq)
    hplain hstart (fun _ => hintime)
  have hT := hT trivial
  rw [← hlvl] at hT
  have hp1 : r.1.q.dirPin = s0.q.dirPin := (Avr.track_cfg a evs _ _).1
  have hp2 : r.1.q.dirHighCountsUp = s0.q.dirHighCountsUp := (Avr.track_cfg a evs _ _).2
  have hexp : r.2.expected lvl = r.1.pulses.reverse ++
    (if r.1.q.running then specPulses lvl r.1.ocr qs.remaining else []) := hT.exp
  refine ⟨?_, fun hne => ?_, _, hexp, ?_, ?_⟩
  · have h1 : (r.2.expected lvl).map Pulse.dir ++
        (r.2.waiting.flatMap fun c => List.replicate c.steps (lvl c.countUp)) =
        r.2.accepted.flatMap fun c => List.replicate c.steps (lvl c.countUp) := by
      simp only [AvrHist.expected, AvrHist.accepted, List.flatMap_append, List.map_flatMap, specPulses_dir,
        List.flatMap_assoc]
    rw [← h1, hexp, List.map_append, List.append_assoc]
    exact List.prefix_append _ _
  · have hps : qs.pos = s0.q.qend.pos + pulseSum r.1.q.dirHighCountsUp r.1.pulses := hT.pos (by rw [hp1]; exact hne)
    have hcp : r.1.q.getCurrentPosition a 0 = i32 qs.pos := h.sim.currentPosition
    rw [hcp, hps, hp2]
  · intro p hp
    split at hp
    · exact specPulses_time _ _ _ p hp
    · cases hp
  · intro hrun
    rw [hrun]; rfl

/-- the interrupt is enabled exactly while the queue is running, for every schedule -/
theorem Avr.step_irq (a : ArchId) (s : Avr) (ev : Avr.Ev) (h : s.irq = s.q.running) :
    (s.step a ev).irq = (s.step a ev).q.running := by
  have hP : ∀ q : Queue, ∀ c, (q.prepare a c).1.running = q.running := by
    intro q c
    obtain ⟨e, pe, pr, pw, prun, -⟩ := prepare_spec a q c
    exact prun
  unfold Avr.step
  cases ev with
  | compare =>
    simp only
    split
    · rw [Avr.compare_eq]
      unfold Avr.isrBody
      simp only [Avr.toggleFor_eq, Avr.pulsed_q]
      repeat' split
      all_goals first | rfl | exact (Avr.pulsed_irq s).trans h
    · exact h
  | addBegin c st =>
    simp only
    repeat' split
    all_goals first | exact h | exact h.trans (hP s.q c).symm
  | addCommit =>
    simp only [Queue.commit]
    repeat' split
    all_goals exact h
  | addFinish now =>
    simp only [Avr.startQueue, Avr.toggleFor_eq]
    repeat' split
    all_goals first | exact h | rfl
  | startNull now =>
    simp only [Avr.startQueue, Avr.toggleFor_eq]
    repeat' split
    all_goals first | exact h | rfl
  | forceStop p =>
    simp only
    repeat' split
    all_goals first | exact h | rfl
  | clearIgnore => exact h
  | extPoll b =>
    simp only
    repeat' split
    all_goals exact h

theorem Avr.run_irq (a : ArchId) : ∀ (evs : List Avr.Ev) (s : Avr), s.irq = s.q.running →
    (Avr.run a s evs).irq = (Avr.run a s evs).q.running
  | [], _, h => h
  | ev :: evs, s, h => Avr.run_irq a evs _ (Avr.step_irq a s ev h)

theorem Avr.track_append (a : ArchId) : ∀ (xs ys : List Avr.Ev) (s : Avr) (t : AvrHist),
    Avr.track a s t (xs ++ ys) = Avr.track a (Avr.track a s t xs).1 (Avr.track a s t xs).2 ys
  | [], _, _, _ => rfl
  | x :: xs, ys, s, t => Avr.track_append a xs ys _ _

theorem Avr.fresh_quiet (a : ArchId) (pin : Nat) (hi : Bool) : (Avr.fresh a pin hi).Quiet := by
  constructor <;> first | rfl | exact (by decide : (0 : Nat) < 256)

end FAS
