import Verif.Lemmas.Avr

/-! The invariant of the AVR backend and its preservation by every event. -/

namespace FAS

/-- output mode and run state fit to the pending entries -/
def AvrMode (running noMore one : Bool) (es : List Entry) : Prop :=
  match running, noMore with
  | false, nm => nm = false ∧ one = false
  | true, false => ∃ e es', es = e :: es' ∧ one = decide (e.steps ≠ 0)
  | true, true => one = true → ∃ e es', es = e :: es' ∧ e.steps ≠ 0

/-- the entries toggle the direction pin exactly as needed, starting from level `prev` and ending with `last` -/
def Tog (lvl : Bool → Bool) : Bool → List Entry → Bool → Prop
  | prev, [], last => prev = last
  | prev, e :: es, last => e.toggleDir = (lvl e.countUp != prev) ∧ Tog lvl (lvl e.countUp) es last

/-- direction level after all queued commands -/
def Queue.lastLvl (q : Queue) : Bool := if q.dirPin = pinUndefined then q.dirLevel else q.qend.dir

structure Core (a : ArchId) (s : Avr) (t : AvrHist) (qs : QSpec) : Prop where
  sim : Sim a ⟨s.q, 0⟩ qs
  ready : s.q.ready = true
  ign : s.q.ignoreCommands = false
  irq : s.irq = s.q.running
  pin : s.q.dirPin = pinUndefined ∨ pinIsExternal s.q.dirPin = false
  norep : ∀ e ∈ s.q.pending a, e.repeatEntry = false
  mode : AvrMode s.q.running s.noMore s.one (s.q.pending a)
  prep : ∀ next c st, s.pc = .prepared next c st → c.Valid ∧ s.q.queueEntries < a.queueLen ∧
    EntryOK a (qs.pos + qs.todo) 0 (s.q.slot a s.q.nextWriteIdx) c ∧ next.pos = Queue.nextPos s.q.qend.pos c ∧
    (s.q.slot a s.q.nextWriteIdx).repeatEntry = false
  ph : s.q.running = true → ∃ p ps, t.phases = p :: ps
  wait : t.waiting = if s.q.running then [] else qs.pend
  dn : s.q.running = false → qs.done = 0
  cnt : s.pulses.length + stepSum qs.remaining + (if s.noMore && s.one then 1 else 0) = stepSum t.accepted

structure Tim (a : ArchId) (lvl : Bool → Bool) (base : Int) (s : Avr) (t : AvrHist) (qs : QSpec) : Prop where
  lv : ∀ u, lvl u = if s.q.dirPin = pinUndefined then s.q.dirLevel else (u == s.q.dirHighCountsUp)
  empt : s.q.running = true → s.noMore = true → s.one = false ∧ s.q.pending a = []
  dir1 : s.q.running = true → s.noMore = false → ∃ e es, s.q.pending a = e :: es ∧
    s.q.dirLevel = lvl e.countUp ∧ Tog lvl s.q.dirLevel es s.q.lastLvl
  dir2 : s.q.running = false ∨ s.noMore = true →
    (s.q.running = false ∧ s.q.pending a = [] ∧ ∀ n c st, s.pc ≠ .prepared n c st) ∨
    Tog lvl s.q.dirLevel (s.q.pending a) s.q.lastLvl
  prepDir : ∀ next c st, s.pc = .prepared next c st →
    (s.q.slot a s.q.nextWriteIdx).toggleDir = (lvl c.countUp != s.q.lastLvl) ∧
    (s.q.dirPin ≠ pinUndefined → next.dir = lvl c.countUp)
  exp : t.expected lvl = s.pulses.reverse ++ (if s.q.running then specPulses lvl s.ocr qs.remaining else [])
  dur : s.q.running = true → ∃ t0 cs ps, t.phases = (t0, cs) :: ps ∧
    s.ocr + durationSum qs.remaining = t0 + durationSum cs
  pos : s.q.dirPin ≠ pinUndefined → qs.pos = base + pulseSum s.q.dirHighCountsUp s.pulses

theorem Tog.append {lvl : Bool → Bool} {e : Entry} {last : Bool} : ∀ {es : List Entry} {prev : Bool},
    Tog lvl prev es last → e.toggleDir = (lvl e.countUp != last) → Tog lvl prev (es ++ [e]) (lvl e.countUp)
  | [], prev, h, he => by
    have h : prev = last := h
    subst h
    exact ⟨he, rfl⟩
  | _ :: _, _, h, he => ⟨h.1, Tog.append h.2 he⟩

theorem ArchId.avr_start {a : ArchId} (h : a.isAvr = true) : a.startPosField = false := by
  cases a <;> simp_all [ArchId.isAvr, ArchId.startPosField]

theorem slot_write_ne {a : ArchId} {q : Queue} (h : q.IdxOK a) (h1 : q.queueEntries ≠ 0)
    (h2 : q.queueEntries < a.queueLen) : q.nextWriteIdx % a.queueLen ≠ q.readIdx % a.queueLen := by
  obtain ⟨i1, i2, i3⟩ := h
  have hql := a.queueLen_cases
  simp only [Queue.queueEntries, subU8] at *
  rcases hql with hq | hq <;> rw [hq] at h2 ⊢ <;> omega

theorem advance_total {s : QSpec} (hd : ∀ c cs, s.pend = c :: cs → s.done = 0 ∨ s.done < c.steps) :
    s.advance.pos + s.advance.todo = s.pos + s.todo := by
  cases hp : s.pend with
  | nil => simp [QSpec.advance, hp]
  | cons c cs =>
    have hd := hd c cs hp
    by_cases h : c.steps - s.done > 1
    · rw [QSpec.advance_dec hp h]
      simp only [QSpec.todo, hp]
      split <;> omega
    · rw [QSpec.advance_fin hp h hd]
      simp only [QSpec.todo, hp]
      cases cs with
      | nil => simp only [signedSum]; split <;> split <;> omega
      | cons x xs => simp only [signedSum, Cmd.signed]; split <;> split <;> split <;> omega

/-- the head of the ring and of the specification -/
theorem Core.heads {a s t qs} (h : Core a s t qs) (hav : a.isAvr = true) (hne : s.q.readIdx ≠ s.q.nextWriteIdx) :
    ∃ c cs, qs.pend = c :: cs ∧ s.q.pending a = s.q.slot a s.q.readIdx :: s.q.complete.pending a ∧
      (s.q.slot a s.q.readIdx).ticks = c.ticks ∧ (s.q.slot a s.q.readIdx).steps = c.steps - qs.done ∧
      (s.q.slot a s.q.readIdx).countUp = c.countUp ∧
      (qs.done = 0 ∨ qs.done < c.steps) ∧ s.q.queueEntries ≠ 0 := by
  have hn : s.q.queueEntries ≠ 0 := fun h0 => hne ((Queue.empty_iff a s.q h.sim.idx).mpr h0)
  obtain ⟨hcons, hidx, hn'⟩ := Queue.pending_cons a s.q h.sim.idx hn
  have hrel := h.sim.rel
  cases hp : qs.pend with
  | nil =>
    have := h.sim.length
    rw [hp] at this
    exact absurd this hn
  | cons c cs =>
    rw [hp] at hrel
    simp only [hcons] at hrel
    have hs := hrel.1.steps
    simp only [ArchId.avr_start hav] at hs
    exact ⟨c, cs, rfl, hcons, hrel.1.ticks, by simpa using hs, hrel.1.countUp, hrel.1.dn, hn⟩

theorem Core.empty_iff {a s t qs} (h : Core a s t qs) : s.q.readIdx = s.q.nextWriteIdx ↔ qs.pend = [] := by
  have h1 : s.q.readIdx = s.q.nextWriteIdx ↔ s.q.queueEntries = 0 := Queue.empty_iff a s.q h.sim.idx
  have h2 : s.q.queueEntries = qs.pend.length := h.sim.length
  rw [h1, h2, List.length_eq_zero_iff]

theorem Core.pending_nil {a s t qs} (h : Core a s t qs) : s.q.pending a = [] ↔ qs.pend = [] := by
  have h2 : s.q.queueEntries = qs.pend.length := h.sim.length
  rw [Queue.pending_nil_iff, h2, List.length_eq_zero_iff]

/-- The decrement of the interrupt is one unit of progress. -/
theorem advance_decSteps {a : ArchId} (hav : a.isAvr = true) (q : Queue) (hn : q.queueEntries ≠ 0)
    (h : (q.slot a q.readIdx).steps > 1) : Hw.advance a ⟨q, 0⟩ = ⟨Avr.decSteps a q, 0⟩ := by
  have h' : (q.entry (q.readIdx % a.queueLen)).steps > 1 := h
  unfold Hw.advance
  simp only [Queue.isQueueEmpty, beq_iff_eq, hn, if_false, ArchId.avr_start hav]
  rw [if_neg (by omega)]
  simp only [Bool.false_eq_true, if_false]
  rw [if_pos h']
  rfl

theorem advance_complete {a : ArchId} (hav : a.isAvr = true) (q : Queue) (hn : q.queueEntries ≠ 0)
    (h : ¬ (q.slot a q.readIdx).steps > 1) : Hw.advance a ⟨q, 0⟩ = ⟨q.complete, 0⟩ := by
  have h' : ¬ (q.entry (q.readIdx % a.queueLen)).steps > 1 := h
  unfold Hw.advance
  simp only [Queue.isQueueEmpty, beq_iff_eq, hn, if_false, ArchId.avr_start hav]
  by_cases h0 : (q.entry (q.readIdx % a.queueLen)).steps = 0
  · rw [if_pos h0]
  · rw [if_neg h0]
    simp only [Bool.false_eq_true, if_false]
    rw [if_neg h']

theorem pending_decSteps {a : ArchId} {q : Queue} (h : q.IdxOK a) (hn : q.queueEntries ≠ 0) :
    (Avr.decSteps a q).pending a =
      { q.slot a q.readIdx with steps := (q.slot a q.readIdx).steps - 1 } :: q.complete.pending a :=
  (Queue.pending_modify_head a q (fun e => { e with steps := e.steps - 1 }) h hn (Avr.decSteps a q) rfl rfl rfl).1

theorem Sim.dirLevel {a q d s} (h : Sim a ⟨q, d⟩ s) (x : Bool) : Sim a ⟨{ q with dirLevel := x }, d⟩ s :=
  { idx := h.idx, run := h.run, ready := h.ready, ign := h.ign, doneP := h.doneP, rel := h.rel, pos := h.pos }

theorem Sim.setRunning {a q d s} (h : Sim a ⟨q, d⟩ s) (x : Bool) :
    Sim a ⟨{ q with running := x }, d⟩ { s with running := x } :=
  { idx := h.idx, run := rfl, ready := h.ready, ign := h.ign, doneP := h.doneP, rel := h.rel, pos := h.pos }

theorem Sim.dnAll {a q d s} (h : Sim a ⟨q, d⟩ s) : ∀ c cs, s.pend = c :: cs → s.done = 0 ∨ s.done < c.steps := by
  intro c cs hp
  have hrel := h.rel
  rw [hp] at hrel
  cases hq : q.pending a with
  | nil => simp only [hq] at hrel; exact hrel.elim
  | cons e es => simp only [hq] at hrel; exact hrel.1.dn

theorem QSpec.remaining_congr {s s' : QSpec} (h1 : s'.pend = s.pend) (h2 : s'.done = s.done) :
    s'.remaining = s.remaining := by
  unfold QSpec.remaining; rw [h1, h2]

theorem stepSum_dec {qs : QSpec} {c : Cmd} {cs : List Cmd} (hp : qs.pend = c :: cs) (h : c.steps - qs.done > 1) :
    stepSum qs.advance.remaining + 1 = stepSum qs.remaining := by
  rw [QSpec.advance_dec hp h, QSpec.remaining_cons hp, QSpec.remaining_cons rfl]
  simp only [stepSum]
  omega

theorem stepSum_fin {qs : QSpec} {c : Cmd} {cs : List Cmd} (hp : qs.pend = c :: cs) (h : ¬ c.steps - qs.done > 1)
    (hd : qs.done = 0 ∨ qs.done < c.steps) :
    stepSum qs.advance.remaining + (c.steps - qs.done) = stepSum qs.remaining := by
  rw [QSpec.advance_fin hp h hd, QSpec.remaining_cons hp, QSpec.remaining_zero rfl]
  simp only [stepSum]
  omega

/-- measure for the number of compare events until the queue stops -/
def avrMeasure (qs : QSpec) (noMore : Bool) : Nat :=
  2 * (stepSum qs.remaining + qs.pend.length) + if noMore then 1 else 0

theorem QSpec.advance_length_dec {qs : QSpec} {c : Cmd} {cs : List Cmd} (hp : qs.pend = c :: cs)
    (h : c.steps - qs.done > 1) : qs.advance.pend.length = qs.pend.length := by
  rw [QSpec.advance_dec hp h, hp]

theorem QSpec.advance_length_fin {qs : QSpec} {c : Cmd} {cs : List Cmd} (hp : qs.pend = c :: cs)
    (h : ¬ c.steps - qs.done > 1) (hd : qs.done = 0 ∨ qs.done < c.steps) :
    qs.advance.pend.length + 1 = qs.pend.length := by
  rw [QSpec.advance_fin hp h hd, hp]; rfl

/-! ## compare event -/

/-- a compare event preserves the core invariant -/
theorem Core.compare {a s t qs} (h : Core a s t qs) (hav : a.isAvr = true) (hrun : s.q.running = true) :
    ∃ qs', Core a (s.compare a) t qs' ∧
      (s.q.pending a = [] → s.compare a = { s with irq := false, one := false, q := { s.q with running := false }, noMore := false } ∧
        qs' = { qs with running := false } ∧ s.noMore = true ∧ s.one = false) ∧
      (s.noMore = false → qs' = qs.advance) ∧
      ((s.compare a).q.running = true → avrMeasure qs' (s.compare a).noMore < avrMeasure qs s.noMore) := by
  have hmode := h.mode
  by_cases hne : s.q.readIdx = s.q.nextWriteIdx
  · -- no entry left
    have hpe : qs.pend = [] := h.empty_iff.mp hne
    have hpn : s.q.pending a = [] := h.pending_nil.mpr hpe
    rw [hrun, hpn] at hmode
    have hnm : s.noMore = true := by
      cases hx : s.noMore with
      | true => rfl
      | false => rw [hx] at hmode; obtain ⟨_, _, hh, _⟩ := hmode; cases hh
    have hone : s.one = false := by
      cases hx : s.one with
      | false => rfl
      | true => rw [hnm, hx] at hmode; obtain ⟨_, _, hh, _⟩ := hmode rfl; cases hh
    have hpu : s.pulsed = s := by simp [Avr.pulsed, hone]
    have heq : s.compare a = { s with irq := false, one := false, q := { s.q with running := false }, noMore := false } := by
      rw [Avr.compare_eq, hpu, Avr.isr_stop a s hne]
    refine ⟨{ qs with running := false }, ?_, fun _ => ⟨heq, rfl, hnm, hone⟩, fun hx => (by rw [hnm] at hx; cases hx),
      fun hx => (by rw [heq] at hx; cases hx)⟩
    rw [heq]
    refine { sim := h.sim.setRunning false, ready := h.ready, ign := h.ign, irq := rfl, pin := h.pin, norep := h.norep,
             mode := ⟨rfl, rfl⟩, prep := h.prep, ph := ?_, wait := ?_, dn := ?_, cnt := ?_ }
    · intro hh; cases hh
    · have := h.wait; rw [hrun] at this; simp only [if_true] at this; simp [this, hpe]
    · intro _; exact h.sim.done_nil hpe
    · have := h.cnt
      rw [hone] at this
      have hr : ({ qs with running := false } : QSpec).remaining = qs.remaining := QSpec.remaining_congr rfl rfl
      rw [hr]
      simpa using this
  obtain ⟨c, cs, hp, hcons, htk, hst, hcu, hd, hn⟩ := h.heads hav hne
  have hpne : s.q.pending a ≠ [] := by rw [hcons]; exact List.cons_ne_nil _ _
  have hadv := h.sim.advance
  have htot := advance_total (s := qs) h.sim.dnAll
  have hcnt := h.cnt
  have hpl : s.pulsed.pulses.length = s.pulses.length + if s.one then 1 else 0 := by
    rw [Avr.pulsed_pulses]; split <;> simp
  by_cases hdec : (s.q.slot a s.q.readIdx).steps > 1
  · -- more than one step
    have heq := Avr.isr_dec a s.pulsed (by simpa using hne) (by simpa using hdec)
    rw [← Avr.compare_eq] at heq
    simp only [Avr.pulsed_q] at heq
    rw [advance_decSteps hav s.q hn hdec] at hadv
    have hpd := pending_decSteps (a := a) h.sim.idx hn
    have hss := stepSum_dec hp (by omega)
    refine ⟨qs.advance, ?_, fun hx => absurd hx hpne, fun _ => rfl, ?_⟩
    rotate_left
    · intro _
      rw [heq]
      simp only [avrMeasure, Avr.pulsed_noMore, QSpec.advance_length_dec hp (by omega)]
      omega
    rw [heq]
    have hr' : (Avr.decSteps a s.q).running = true := hrun
    refine { sim := hadv, ready := h.ready, ign := h.ign, irq := ?_, pin := h.pin, norep := ?_,
             mode := ?_, prep := ?_, ph := h.ph, wait := ?_, dn := ?_, cnt := ?_ }
    · exact (Avr.pulsed_irq s).trans h.irq
    · simp only
      rw [hpd]
      intro e he
      have hnr := h.norep
      rw [hcons] at hnr
      rcases List.mem_cons.mp he with he | he
      · rw [he]; exact hnr (s.q.slot a s.q.readIdx) (by simp)
      · exact hnr _ (by simp [he])
    · simp only [hr', Avr.pulsed_noMore, hpd]
      cases s.noMore with
      | false => exact ⟨_, _, rfl, by simp; omega⟩
      | true => intro _; exact ⟨_, _, rfl, by simp; omega⟩
    · intro next c' st hpc
      obtain ⟨p1, p2, p3, p4, p5⟩ := h.prep next c' st ((Avr.pulsed_pc s).symm.trans hpc)
      have hsl : (Avr.decSteps a s.q).slot a (Avr.decSteps a s.q).nextWriteIdx = s.q.slot a s.q.nextWriteIdx := by
        have := slot_write_ne (a := a) h.sim.idx hn p2
        simp only [Avr.decSteps, Queue.slot, this, if_false]
      refine ⟨p1, p2, ?_, p4, ?_⟩
      · rw [htot, hsl]; exact p3
      · simp only [hsl]; exact p5
    · have := h.wait
      rw [hrun] at this
      simp only [hr']
      exact this
    · intro hx
      have hx : s.q.running = false := hx
      rw [hrun] at hx; cases hx
    · simp only [Avr.pulsed_noMore, Bool.and_true]
      rw [hpl]
      rw [hrun, hcons] at hmode
      rw [← hcnt, ← hss]
      cases hnm : s.noMore with
      | false =>
        rw [hnm] at hmode
        obtain ⟨e, es', he, ho⟩ := hmode
        cases he
        rw [ho]
        have : decide ((s.q.slot a s.q.readIdx).steps ≠ 0) = true := by simp; omega
        rw [this]
        simp; omega
      | true =>
        cases s.one <;> simp <;> omega
  -- last step or pause
  have hss := stepSum_fin hp (by omega) hd
  have hfin : ¬ c.steps - qs.done > 1 := by omega
  cases hnm : s.noMore with
  | true =>
    -- woken up after the queue had run out of commands
    have heq := Avr.isr_wake a s.pulsed (by simpa using hne) (by simpa using hdec) (by simpa using hnm)
    rw [← Avr.compare_eq] at heq
    simp only [Avr.pulsed_q, Avr.toggleFor_eq] at heq
    refine ⟨qs, ?_, fun hx => absurd hx hpne, fun hx => (by cases hx), ?_⟩
    rotate_left
    · intro _
      rw [heq]
      simp [avrMeasure]
    rw [heq]
    refine { sim := h.sim.dirLevel _, ready := h.ready, ign := h.ign, irq := ?_, pin := h.pin, norep := h.norep,
             mode := ?_, prep := ?_, ph := h.ph, wait := h.wait, dn := h.dn, cnt := ?_ }
    · exact (Avr.pulsed_irq s).trans h.irq
    · simp only [hrun]
      exact ⟨_, _, hcons, rfl⟩
    · intro next c' st hpc
      exact h.prep next c' st ((Avr.pulsed_pc s).symm.trans hpc)
    · simp only [Bool.false_and, Bool.false_eq_true, if_false, Nat.add_zero]
      rw [hpl, ← hcnt, hnm]
      simp
      omega
  | false =>
    have hrep : (s.q.slot a s.q.readIdx).repeatEntry = false := h.norep _ (by rw [hcons]; simp)
    rw [advance_complete hav s.q hn hdec] at hadv
    have hone : s.one = decide ((s.q.slot a s.q.readIdx).steps ≠ 0) := by
      rw [hrun, hnm, hcons] at hmode
      obtain ⟨e, es', he, ho⟩ := hmode
      cases he
      exact ho
    have hcl : s.pulsed.pulses.length = s.pulses.length + (c.steps - qs.done) := by
      rw [hpl, hone, hst]
      congr 1
      by_cases h0 : c.steps - qs.done = 0
      · simp [h0]
      · simp [h0]; omega
    have hnr' : ∀ e ∈ s.q.complete.pending a, e.repeatEntry = false := by
      intro e he
      exact h.norep e (by rw [hcons]; simp [he])
    have hprep' : ∀ next c' st, s.pulsed.pc = .prepared next c' st → c'.Valid ∧
        s.q.complete.queueEntries < a.queueLen ∧
        EntryOK a (qs.advance.pos + qs.advance.todo) 0 (s.q.slot a s.q.nextWriteIdx) c' ∧
        next.pos = Queue.nextPos s.q.qend.pos c' ∧ (s.q.slot a s.q.nextWriteIdx).repeatEntry = false := by
      intro next c' st hpc
      obtain ⟨p1, p2, p3, p4, p5⟩ := h.prep next c' st ((Avr.pulsed_pc s).symm.trans hpc)
      have := (Queue.pending_cons a s.q h.sim.idx hn).2.2
      refine ⟨p1, by omega, ?_, p4, p5⟩
      rw [htot]; exact p3
    have hwait := h.wait
    rw [hrun] at hwait
    have hcr : s.q.complete.running = true := hrun
    have hlen := QSpec.advance_length_fin hp (by omega) hd
    refine ⟨qs.advance, ?_, fun hx => absurd hx hpne, fun _ => rfl, ?_⟩
    rotate_left
    · intro _
      simp only [avrMeasure]
      have : (if (s.compare a).noMore = true then 1 else 0) ≤ 1 := by split <;> omega
      omega
    by_cases hlast : s.q.complete.readIdx = s.q.complete.nextWriteIdx
    · have heq := Avr.isr_last a s.pulsed (by simpa using hne) (by simpa using hdec) (by simpa using hnm)
        (by simpa using hrep) (by simpa using hlast)
      rw [← Avr.compare_eq] at heq
      simp only [Avr.pulsed_q] at heq
      rw [heq]
      refine { sim := hadv, ready := h.ready, ign := h.ign, irq := ?_, pin := h.pin, norep := hnr',
               mode := ?_, prep := hprep', ph := h.ph, wait := ?_, dn := ?_, cnt := ?_ }
      · exact (Avr.pulsed_irq s).trans h.irq
      · simp only [hcr]; intro hx; cases hx
      · simp only [hcr]; exact hwait
      · intro hx
        have hx : s.q.running = false := hx
        rw [hrun] at hx; cases hx
      · simp only [hcl, Bool.and_false, Bool.false_eq_true, if_false]
        rw [← hcnt, ← hss, hnm]
        simp
        omega
    · have heq := Avr.isr_next a s.pulsed (by simpa using hne) (by simpa using hdec) (by simpa using hnm)
        (by simpa using hrep) (by simpa using hlast)
      rw [← Avr.compare_eq] at heq
      simp only [Avr.pulsed_q, Avr.toggleFor_eq] at heq
      rw [heq]
      have hidx' := (Queue.pending_cons a s.q h.sim.idx hn).2.1
      have hn' : s.q.complete.queueEntries ≠ 0 := fun h0 => hlast ((Queue.empty_iff a s.q.complete hidx').mpr h0)
      have hcons' := (Queue.pending_cons a s.q.complete hidx' hn').1
      refine { sim := hadv.dirLevel _, ready := h.ready, ign := h.ign, irq := ?_, pin := h.pin, norep := hnr',
               mode := ?_, prep := hprep', ph := h.ph, wait := ?_, dn := ?_, cnt := ?_ }
      · exact (Avr.pulsed_irq s).trans h.irq
      · simp only [hcr, Avr.pulsed_noMore, hnm]
        exact ⟨_, _, hcons', rfl⟩
      · simp only [hcr]; exact hwait
      · intro hx
        have hx : s.q.running = false := hx
        rw [hrun] at hx; cases hx
      · simp only [hcl, Avr.pulsed_noMore, hnm, Bool.false_and, Bool.false_eq_true, if_false]
        rw [← hcnt, ← hss, hnm]
        simp
        omega

end FAS
