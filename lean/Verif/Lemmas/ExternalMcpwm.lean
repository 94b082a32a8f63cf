import Verif.Lemmas.ExternalEsp

/-! The MCPWM/PCNT backend with an external direction pin. -/

namespace FAS

/-- invariant of a channel with external direction pin -/
structure MX {σ : Type} (s : Mcpwm σ) (conf : Option Bool) : Prop where
  eq : EQ s.q s.pc conf
  calm : s.timer ≠ .high → s.irq = false ∧ (s.tea && s.ena) = false
  low : s.timer = .low → s.q.running = true
  run : s.run = s.q.running
  hd : s.q.running = true → s.q.queueEntries ≠ 0 ∧ (s.out = true → (s.q.slot .esp32 s.q.readIdx).steps ≠ 0)

section
variable {σ : Type} {hw : PcntHw σ}

theorem adjust_calm (n : Nat) (p : σ) (tea irq : Bool) :
    (Mcpwm.adjust hw n none ⟨p, tea, irq⟩).1.irq = irq ∧ (Mcpwm.adjust hw n none ⟨p, tea, irq⟩).1.tea = false := by
  unfold Mcpwm.adjust Mcpwm.arrive
  simp

/-- what `apply_command()` changes -/
theorem apply_facts (s : Mcpwm σ) (e : Entry) : (s.apply hw e).q = (if e.toggleDir then { s.q with dirLevel := !s.q.dirLevel } else s.q) ∧
    (s.apply hw e).timer = s.timer ∧ (s.apply hw e).run = s.run ∧ (s.apply hw e).pc = s.pc ∧ (s.apply hw e).out = decide (e.steps ≠ 0) ∧
    (s.apply hw e).irq = s.irq ∧ ((s.tea && s.ena) = false → ((s.apply hw e).tea && (s.apply hw e).ena) = false) := by
  unfold Mcpwm.apply
  dsimp only
  by_cases h0 : e.steps = 0
  · rw [if_pos h0]
    exact ⟨rfl, rfl, rfl, rfl, by simp [h0], rfl, fun _ => rfl⟩
  rw [if_neg h0]
  split
  · obtain ⟨a1, a2⟩ := adjust_calm (hw := hw) e.steps s.pcnt s.tea s.irq
    exact ⟨rfl, rfl, rfl, rfl, by simp [h0], a1, fun _ => by rw [a2]; rfl⟩
  · exact ⟨rfl, rfl, rfl, rfl, by simp [h0], rfl, fun _ => by simp⟩

theorem EQ.level {q pc conf} (h : EQ q pc conf) (b x : Bool) : EQ (if b then { q with dirLevel := x } else q) pc conf := by
  split
  · exact h.congr rfl rfl rfl rfl rfl rfl rfl
  · exact h

theorem HK.level {q q' : Queue} (h : HK q q') (b x : Bool) : HK q (if b then { q' with dirLevel := x } else q') := by
  split
  · exact h.congr rfl rfl rfl
  · exact h

/-- `apply_command()` for the head entry -/
theorem MX.apply {s : Mcpwm σ} {conf} (he : EQ s.q s.pc conf) (hc : s.timer ≠ .high → s.irq = false ∧ (s.tea && s.ena) = false)
    (hrun : s.run = s.q.running) (hr : s.q.running = true) (hn : s.q.queueEntries ≠ 0) : MX (s.apply hw (s.q.slot .esp32 s.q.readIdx)) conf := by
  obtain ⟨a1, a2, a3, a4, a5, a6, a7⟩ := apply_facts (hw := hw) s (s.q.slot .esp32 s.q.readIdx)
  refine { eq := ?_, calm := ?_, low := ?_, run := ?_, hd := ?_ }
  · rw [a1, a4]; exact he.level _ _
  · rw [a2, a6]
    intro hx
    exact ⟨(hc hx).1, a7 (hc hx).2⟩
  · intro _; rw [a1]; split <;> exact hr
  · rw [a3, a1, hrun]; split <;> rfl
  · intro _
    rw [a5, a1]
    have : (if (s.q.slot .esp32 s.q.readIdx).toggleDir = true then { s.q with dirLevel := !s.q.dirLevel } else s.q).queueEntries = s.q.queueEntries := by split <;> rfl
    rw [this]
    refine ⟨hn, ?_⟩
    intro hx
    have : ∀ q' : Queue, q' = s.q ∨ q' = { s.q with dirLevel := !s.q.dirLevel } → (q'.slot .esp32 q'.readIdx).steps ≠ 0 := by
      intro q' hq
      rcases hq with hq | hq <;> subst hq <;> exact of_decide_eq_true hx
    apply this
    split
    · exact Or.inr rfl
    · exact Or.inl rfl

theorem MX.next {s : Mcpwm σ} {conf} (h : MX s conf) (hh : s.timer = .high) : MX (s.whatIsNext hw) conf := by
  have hnl : ∀ {P : Prop}, s.timer ≠ .high → P := fun hx => absurd hh hx
  unfold Mcpwm.whatIsNext
  dsimp only
  by_cases hemp : s.q.readIdx = s.q.nextWriteIdx
  · rw [if_pos hemp]
    exact { eq := h.eq.congr rfl rfl rfl rfl rfl rfl rfl, calm := fun hx => hnl hx, low := fun hx => by rw [show s.timer = .low from hx] at hh; cases hh
            run := rfl, hd := (fun hx => nomatch hx) }
  rw [if_neg hemp]
  have hn : s.q.queueEntries ≠ 0 := fun h0 => hemp ((Queue.empty_iff .esp32 s.q h.eq.xq.idx).mpr h0)
  by_cases hrep : (s.q.slot .esp32 s.q.readIdx).repeatEntry = true
  · -- the pause is repeated
    rw [if_pos hrep, if_pos hrep, if_neg hemp]
    by_cases hrun : s.q.running = true
    · split
      · exact MX.apply (s := { s with prepared := false }) h.eq h.calm h.run hrun hn
      · exact MX.apply (s := { s with prepared := false, pcnt := _ }) h.eq h.calm h.run hrun hn
    · -- not running: nothing to show but the queue
      have key : ∀ t : Mcpwm σ, t.q = s.q → t.pc = s.pc → t.timer = s.timer → t.run = s.run → MX (t.apply hw (s.q.slot .esp32 s.q.readIdx)) conf := by
        intro t t1 t2 t3 t4
        obtain ⟨a1, a2, a3, a4, a5, a6, a7⟩ := apply_facts (hw := hw) t (s.q.slot .esp32 s.q.readIdx)
        have hq : (t.apply hw (s.q.slot .esp32 s.q.readIdx)).q.running = s.q.running := by rw [a1, t1]; split <;> rfl
        refine { eq := by rw [a1, a4, t1, t2]; exact h.eq.level _ _, calm := ?_, low := ?_, run := ?_, hd := ?_ }
        · rw [a2, t3]; exact fun hx => hnl hx
        · rw [a2, t3, hh]; intro hx; cases hx
        · rw [a3, t4, hq]; exact h.run
        · rw [hq]; intro hx; exact absurd hx hrun
      split
      · exact key _ rfl rfl rfl rfl
      · exact key _ rfl rfl rfl rfl
  · have hrep' : (s.q.slot .esp32 s.q.readIdx).repeatEntry = false := Bool.eq_false_iff.mpr hrep
    rw [if_neg hrep, if_neg hrep]
    have hcm := h.eq.complete hn hrep'
    dsimp only
    by_cases hemp2 : s.q.complete.readIdx = s.q.complete.nextWriteIdx
    · rw [if_pos hemp2]
      exact { eq := hcm.congr rfl rfl rfl rfl rfl rfl rfl, calm := fun hx => hnl hx, low := fun hx => by rw [show s.timer = .low from hx] at hh; cases hh
              run := rfl, hd := (fun hx => nomatch hx) }
    rw [if_neg hemp2]
    have hn2 : s.q.complete.queueEntries ≠ 0 := fun h0 => hemp2 ((Queue.empty_iff .esp32 s.q.complete hcm.xq.idx).mpr h0)
    have key : ∀ t : Mcpwm σ, t.q = s.q.complete → t.pc = s.pc → t.timer = s.timer → t.run = s.run →
        MX (t.apply hw (s.q.complete.slot .esp32 s.q.complete.readIdx)) conf := by
      intro t t1 t2 t3 t4
      by_cases hrun : s.q.running = true
      · have : s.q.complete.slot .esp32 s.q.complete.readIdx = t.q.slot .esp32 t.q.readIdx := by rw [t1]
        rw [this]
        refine MX.apply (by rw [t1, t2]; exact hcm) (by rw [t3]; exact fun hx => hnl hx) (by rw [t4, t1]; exact h.run) (by rw [t1]; exact hrun) (by rw [t1]; exact hn2)
      · obtain ⟨a1, a2, a3, a4, a5, a6, a7⟩ := apply_facts (hw := hw) t (s.q.complete.slot .esp32 s.q.complete.readIdx)
        have hq : (t.apply hw (s.q.complete.slot .esp32 s.q.complete.readIdx)).q.running = s.q.running := by rw [a1, t1]; split <;> rfl
        refine { eq := by rw [a1, a4, t1, t2]; exact hcm.level _ _, calm := ?_, low := ?_, run := ?_, hd := ?_ }
        · rw [a2, t3]; exact fun hx => hnl hx
        · rw [a2, t3, hh]; intro hx; cases hx
        · rw [a3, t4, hq]; exact h.run
        · rw [hq]; intro hx; exact absurd hx hrun
    have keep : ∀ (t : Mcpwm σ) (b : Bool) (p : σ), MX t conf → MX { t with prepared := b, pcnt := p } conf :=
      fun t b p ht => { eq := ht.eq, calm := ht.calm, low := ht.low, run := ht.run, hd := ht.hd }
    repeat' split
    all_goals first
      | exact key _ rfl rfl rfl rfl
      | exact keep _ true _ (key _ rfl rfl rfl rfl)

theorem MX.launch {s1 : Mcpwm σ} {conf} (e1 : EQ s1.q s1.pc conf) (e2 : s1.timer ≠ .high → s1.irq = false ∧ (s1.tea && s1.ena) = false)
    (e3 : s1.q.running = true) (e4 : s1.q.queueEntries ≠ 0) :
    MX { s1.apply hw (s1.q.slot .esp32 s1.q.readIdx) with
      run := true
      timer := if (s1.apply hw (s1.q.slot .esp32 s1.q.readIdx)).timer = .stopped then .low else (s1.apply hw (s1.q.slot .esp32 s1.q.readIdx)).timer } conf := by
  obtain ⟨a1, a2, a3, a4, a5, a6, a7⟩ := apply_facts (hw := hw) s1 (s1.q.slot .esp32 s1.q.readIdx)
  generalize ht : s1.apply hw (s1.q.slot .esp32 s1.q.readIdx) = t at *
  have hq : ∀ x, (t.q = if (s1.q.slot .esp32 s1.q.readIdx).toggleDir = true then { s1.q with dirLevel := x } else s1.q) → t.q.running = true ∧ t.q.queueEntries ≠ 0 ∧
      t.q.slot .esp32 t.q.readIdx = s1.q.slot .esp32 s1.q.readIdx := by
    intro x hx
    rw [hx]
    split
    · exact ⟨e3, e4, rfl⟩
    · exact ⟨e3, e4, rfl⟩
  obtain ⟨q1, q2, q3⟩ := hq _ a1
  refine { eq := ?_, calm := ?_, low := fun _ => q1, run := q1.symm, hd := ?_ }
  · have := e1.level (s1.q.slot .esp32 s1.q.readIdx).toggleDir (!s1.q.dirLevel)
    rw [← a1, ← a4] at this
    exact this
  · intro hx
    have hx' : s1.timer ≠ .high := by
      intro hy
      apply hx
      change (if t.timer = McTimer.stopped then McTimer.low else t.timer) = _
      rw [a2, hy]; rfl
    exact ⟨a6.trans (e2 hx').1, a7 (e2 hx').2⟩
  · intro _
    refine ⟨q2, ?_⟩
    intro hx
    change (t.q.slot .esp32 t.q.readIdx).steps ≠ 0
    rw [q3]
    rw [show t.out = _ from a5] at hx
    exact of_decide_eq_true hx

theorem MX.start {s : Mcpwm σ} {conf} (h : MX s conf) (hn : s.q.queueEntries ≠ 0) : MX (s.startQueue hw) conf :=
  MX.launch (s1 := { s with pcnt := hw.clear s.pcnt, prepared := false, q := { s.q with running := true } })
    (h.eq.congr rfl rfl rfl rfl rfl rfl rfl) h.calm rfl hn

/-- the queue changes, but not its head -/
theorem MX.queue {s t : Mcpwm σ} {conf conf'} (h : MX s conf) (he : EQ t.q t.pc conf') (h1 : t.timer = s.timer) (h2 : t.irq = s.irq) (h3 : t.tea = s.tea) (h4 : t.ena = s.ena)
    (h5 : t.run = s.run) (h6 : t.q.running = s.q.running) (h7 : t.out = s.out)
    (h8 : s.q.queueEntries ≠ 0 → t.q.queueEntries ≠ 0 ∧ (t.q.slot .esp32 t.q.readIdx).steps = (s.q.slot .esp32 s.q.readIdx).steps) : MX t conf' := by
  refine { eq := he, calm := by rw [h1, h2, h3, h4]; exact h.calm, low := by rw [h1, h6]; exact h.low, run := by rw [h5, h6]; exact h.run, hd := ?_ }
  rw [h6, h7]
  intro hr
  obtain ⟨x1, x2⟩ := h.hd hr
  obtain ⟨y1, y2⟩ := h8 x1
  exact ⟨y1, by rw [y2]; exact x2⟩

theorem queue_prepare (q : Queue) {conf pc} (h : EQ q pc conf) (c : Cmd) (hf : q.isQueueFull .esp32 = false) (hn : q.queueEntries ≠ 0) :
    (q.prepare .esp32 c).1.queueEntries ≠ 0 ∧ ((q.prepare .esp32 c).1.slot .esp32 (q.prepare .esp32 c).1.readIdx).steps = (q.slot .esp32 q.readIdx).steps := by
  obtain ⟨e, pe, pr, pw, _⟩ := prepare_spec .esp32 q c
  have hnf : q.queueEntries < ArchId.esp32.queueLen := by
    have h4 := h.xq.idx.2.2
    have h5 : q.queueEntries ≠ ArchId.esp32.queueLen := by
      intro hx
      unfold Queue.isQueueFull at hf
      rw [hx] at hf
      simp at hf
    omega
  have hne : q.readIdx % ArchId.esp32.queueLen ≠ q.nextWriteIdx % ArchId.esp32.queueLen := by
    rw [h.xq.wr]
    rcases ArchId.esp32.queueLen_cases with hl | hl <;> rw [hl] at hnf ⊢ <;> omega
  refine ⟨?_, by rw [pr]; simp [Queue.slot, pe, hne]⟩
  unfold Queue.queueEntries at hn ⊢
  rw [pr, pw]
  exact hn

theorem queue_accept (q : Queue) {conf next c st} (h : EQ q (.prepared next c st) conf) (n : QueueEnd) (hn : q.queueEntries ≠ 0) :
    ({ q with nextWriteIdx := u8 (q.nextWriteIdx + 1), qend := n } : Queue).queueEntries ≠ 0 := by
  have hroom := h.xq.room rfl
  obtain ⟨i1, i2, i3⟩ := h.xq.idx
  revert hn hroom
  unfold Queue.queueEntries subU8 u8
  dsimp only
  rcases ArchId.esp32.queueLen_cases with hl | hl <;> rw [hl] <;> omega

theorem MX.step {s : Mcpwm σ} {conf} (h : MX s conf) (ev : Mcpwm.Ev) (hp : s.ExtTurn (.hw ev)) : MX (s.step hw ev) conf := by
  suffices key : ∃ t : Mcpwm σ, s.step hw ev = t.sync ∧ MX t conf by
    obtain ⟨t, h1, h2⟩ := key
    rw [h1]
    exact h2.queue (h2.eq.congr rfl rfl rfl rfl rfl rfl rfl) rfl rfl rfl rfl rfl rfl rfl (fun hn => ⟨hn, rfl⟩)
  refine ⟨_, rfl, ?_⟩
  cases ev with
  | zero =>
    dsimp only
    split
    · rename_i hh
      unfold Mcpwm.zero
      have hsv : s.Served := hp
      refine { eq := h.eq, calm := fun _ => hsv, low := ?_, run := h.run, hd := h.hd }
      dsimp only
      intro hx
      rw [← h.run]
      revert hx
      cases s.run
      · intro hx; cases hx
      · exact fun _ => rfl
    · exact h
  | compare =>
    dsimp only
    split
    · unfold Mcpwm.compare
      dsimp only
      split
      · exact { eq := h.eq, calm := fun hx => absurd rfl hx, low := (fun hx => nomatch hx), run := h.run, hd := h.hd }
      · exact { eq := h.eq, calm := fun hx => absurd rfl hx, low := (fun hx => nomatch hx), run := h.run, hd := h.hd }
    · exact h
  | pcntIsr =>
    dsimp only
    split
    · rename_i hi
      have hh : s.timer = .high := by
        by_cases hx : s.timer = .high
        · exact hx
        · rw [(h.calm hx).1] at hi; cases hi
      exact MX.next (s := { s with irq := false }) { eq := h.eq, calm := fun hx => absurd hh hx, low := h.low, run := h.run, hd := h.hd } hh
    · exact h
  | teaIsr =>
    dsimp only
    split
    · rename_i hi
      have hh : s.timer = .high := by
        by_cases hx : s.timer = .high
        · exact hx
        · rw [(h.calm hx).2] at hi; cases hi
      exact h.next hh
    · exact h
  | otherRead => exact { eq := h.eq, calm := h.calm, low := h.low, run := h.run, hd := h.hd }
  | otherWrite =>
    have he : s.snap.getD s.ena = s.ena := hp
    refine { eq := h.eq, calm := ?_, low := h.low, run := h.run, hd := h.hd }
    dsimp only
    rw [he]
    exact h.calm
  | addBegin c st =>
    dsimp only
    cases hpc : s.pc with
    | idle =>
      dsimp only
      split
      · exact h
      split
      · exact h
      rename_i hf
      split
      · exact h
      rename_i hr
      have h0 := h.eq
      rw [hpc] at h0
      refine h.queue (h0.begin c st (by simpa using hf) hr hp.1 hp.2) rfl rfl rfl rfl rfl ?_ rfl ?_
      · obtain ⟨e, pe, pr, pw, prun, _⟩ := prepare_spec .esp32 s.q c
        exact prun
      · exact queue_prepare s.q h0 c (by simpa using hf)
    | prepared n c' st' => exact h
    | committed st' => exact h
  | addCommit =>
    dsimp only
    cases hpc : s.pc with
    | idle => exact h
    | committed st => exact h
    | prepared next c st =>
      have h0 := h.eq
      rw [hpc] at h0
      dsimp only
      by_cases hrd : s.q.ready = true
      · rw [commit_ok s.q next hrd h.eq.ign]
        exact h.queue (h0.accept st) rfl rfl rfl rfl rfl rfl rfl (fun hn => ⟨queue_accept s.q h0 next hn, rfl⟩)
      · have hc : s.q.commit next = (s.q, false) := by
          unfold Queue.commit
          rw [if_neg (by rw [h.eq.ign]; decide), if_neg hrd]
        rw [hc]
        have hpp : s.pc.NotLost s.q := hp
        rw [hpc] at hpp
        refine h.queue (h0.reject ?_) rfl rfl rfl rfl rfl rfl rfl (fun hn => ⟨hn, rfl⟩)
        by_cases hcu : c.countUp = s.q.qend.countUp
        · exact hcu
        · exact absurd (hpp hcu) hrd
  | addFinish =>
    dsimp only
    cases hpc : s.pc with
    | idle => exact h
    | prepared n c st => exact h
    | committed st =>
      have h0 := h.eq
      rw [hpc] at h0
      have h1 : MX ({ s with pc := .idle } : Mcpwm σ) conf := h.queue h0.leave rfl rfl rfl rfl rfl rfl rfl (fun hn => ⟨hn, rfl⟩)
      dsimp only
      split
      · rename_i hx
        rw [Bool.and_eq_true, Bool.not_eq_true'] at hx
        refine h1.start ?_
        have : s.q.running = true ∨ s.q.readIdx ≠ s.q.nextWriteIdx := hp
        rcases this with hy | hy
        · rw [hx.1] at hy; cases hy
        · exact fun h0 => hy ((Queue.empty_iff .esp32 s.q h.eq.xq.idx).mpr h0)
      · exact h1
  | startNull =>
    dsimp only
    cases hpc : s.pc with
    | prepared n c st => exact h
    | committed st => exact h
    | idle =>
      dsimp only
      split
      · rename_i hx
        refine h.start ?_
        intro h0
        have hy := (Queue.empty_iff .esp32 s.q h.eq.xq.idx).mpr h0
        unfold Queue.addNull at hx
        cases hr : s.q.running <;> cases hd : s.q.ready <;> simp [hy, hr, hd] at hx
      · exact h
  | forceStop p => exact absurd hp id
  | clearIgnore =>
    exact h.queue (h.eq.congr rfl rfl rfl h.eq.ign.symm rfl rfl rfl) rfl rfl rfl rfl rfl rfl rfl (fun hn => ⟨hn, rfl⟩)

theorem extPoll_head (q : Queue) (agree : Bool) : (q.extPoll .esp32 agree).queueEntries = q.queueEntries ∧ (q.extPoll .esp32 agree).running = q.running ∧
    ((q.extPoll .esp32 agree).slot .esp32 (q.extPoll .esp32 agree).readIdx).steps = (q.slot .esp32 q.readIdx).steps := by
  unfold Queue.extPoll
  split
  · exact ⟨rfl, rfl, by simp [Avr.clearRepeatingFlag, Queue.slot]⟩
  · exact ⟨rfl, rfl, rfl⟩

theorem MX.poll {s : Mcpwm σ} {l : ExtLog} (h : MX s l.conf) (agree : Bool) : MX (s.stepExt hw (.poll agree)) (l.polled s.q agree).conf := by
  obtain ⟨p1, p2, p3⟩ := extPoll_head s.q agree
  exact h.queue (h.eq.poll agree) rfl rfl rfl rfl rfl p2 rfl (fun hn => ⟨by change (s.q.extPoll .esp32 agree).queueEntries ≠ 0; rw [p1]; exact hn, p3⟩)

/-- a pulse is confirmed -/
theorem MX.pulse {s : Mcpwm σ} {conf} (h : MX s conf) (ht : s.timer = .low) (ho : s.out = true) : ∃ level, (s.q.requiredLevel .esp32, conf) = (some level, some level) := by
  obtain ⟨h1, h2⟩ := h.hd (h.low ht)
  refine ⟨(s.q.slot .esp32 s.q.readIdx).countUp == s.q.dirHighCountsUp, ?_⟩
  rw [requiredLevel_head .esp32 s.q h.eq.xq.idx h1, (h.eq.conf h1 (h2 ho)).1]

theorem MX.watch : ∀ (evs : List (ExtEv Mcpwm.Ev)) {s : Mcpwm σ} {l : ExtLog}, MX s l.conf → l.Confirmed → Mcpwm.AlongExt hw Mcpwm.ExtTurn s evs →
    MX (Mcpwm.watch hw s l evs).1 (Mcpwm.watch hw s l evs).2.conf ∧ (Mcpwm.watch hw s l evs).2.Confirmed
  | [], _, _, h, hc, _ => ⟨h, hc⟩
  | .hw ev :: evs, s, l, h, hc, hp => by
    have h1 := h.step (hw := hw) ev hp.1
    unfold Mcpwm.watch
    by_cases hx : ev = .compare ∧ s.timer = .low ∧ s.out = true
    · rw [if_pos hx]
      refine MX.watch evs (l := { l with pulses := (s.q.requiredLevel .esp32, l.conf) :: l.pulses }) h1 ?_ hp.2
      intro p hp
      rcases List.mem_cons.mp hp with hp | hp
      · rw [hp]; exact h.pulse hx.2.1 hx.2.2
      · exact hc p hp
    · rw [if_neg hx]
      exact MX.watch evs h1 hc hp.2
  | .poll agree :: evs, s, l, h, hc, hp => by
    refine MX.watch evs (h.poll (hw := hw) agree) ?_ hp.2
    unfold ExtLog.polled
    split <;> exact hc

theorem HK.next {s : Mcpwm σ} (h : HK s.q s.q) (he : s.q.IdxOK .esp32) : HK s.q (s.whatIsNext hw).q := by
  unfold Mcpwm.whatIsNext
  dsimp only
  by_cases hemp : s.q.readIdx = s.q.nextWriteIdx
  · exact absurd ((Queue.empty_iff .esp32 s.q he).mp hemp) h.cnt
  rw [if_neg hemp, if_pos h.rep, if_pos h.rep, if_neg hemp]
  have key : ∀ t : Mcpwm σ, t.q = s.q → HK s.q (t.apply hw (s.q.slot .esp32 s.q.readIdx)).q := by
    intro t ht
    obtain ⟨a1, -⟩ := apply_facts (hw := hw) t (s.q.slot .esp32 s.q.readIdx)
    rw [a1, ht]
    exact h.level _ _
  split <;> exact key _ rfl

theorem HK.mstart {s : Mcpwm σ} (h : HK s.q s.q) : HK s.q (s.startQueue hw).q := by
  have key : ∀ t : Mcpwm σ, HK s.q t.q → ∀ e, HK s.q (t.apply hw e).q := by
    intro t ht e
    rw [(apply_facts t e).1]
    exact HK.level ht _ _
  exact key { s with pcnt := hw.clear s.pcnt, prepared := false, q := { s.q with running := true } } (h.congr rfl rfl rfl) _

theorem HK.mstep {s : Mcpwm σ} (he : EQ s.q s.pc none) (hn : s.q.queueEntries ≠ 0) (ev : Mcpwm.Ev) (hp : s.ExtTurn (.hw ev)) : HK s.q (s.step hw ev).q := by
  obtain ⟨hr, hst⟩ := he.unconf hn
  have h0 := HK.refl hn hr
  suffices key : ∃ t : Mcpwm σ, s.step hw ev = t.sync ∧ HK s.q t.q by
    obtain ⟨t, h1, h2⟩ := key
    rw [h1]
    exact h2.congr rfl rfl rfl
  refine ⟨_, rfl, ?_⟩
  cases ev with
  | zero => dsimp only; split <;> exact h0
  | compare =>
    dsimp only
    split
    · unfold Mcpwm.compare
      dsimp only
      split <;> exact h0
    · exact h0
  | pcntIsr =>
    dsimp only
    split
    · exact HK.next (s := { s with irq := false }) h0 he.xq.idx
    · exact h0
  | teaIsr =>
    dsimp only
    split
    · exact h0.next he.xq.idx
    · exact h0
  | otherRead => exact h0
  | otherWrite => exact h0
  | addBegin c st =>
    dsimp only
    repeat' split
    all_goals first | exact h0 | skip
    rename_i hf _
    exact HK.begin he hn c (by simpa using hf)
  | addCommit =>
    dsimp only
    cases hpc : s.pc with
    | idle => exact h0
    | committed st => exact h0
    | prepared next c st =>
      rw [hpc] at he
      exact HK.commit he hn
  | addFinish =>
    dsimp only
    cases hpc : s.pc with
    | idle => exact h0
    | prepared n c st => exact h0
    | committed st =>
      dsimp only
      split
      · exact HK.mstart (s := { s with pc := .idle }) h0
      · exact h0
  | startNull =>
    dsimp only
    cases hpc : s.pc with
    | prepared n c st => exact h0
    | committed st => exact h0
    | idle =>
      dsimp only
      split
      · exact h0.mstart
      · exact h0
  | forceStop p => exact absurd hp id
  | clearIgnore => exact h0.congr rfl rfl rfl

theorem MX.forget {s : Mcpwm σ} {conf} (h : MX s conf) (hr : (s.q.slot .esp32 s.q.readIdx).repeatEntry = true) : MX s none :=
  { eq := h.eq.forget hr, calm := h.calm, low := h.low, run := h.run, hd := h.hd }

theorem mcpwm_hcu (s : Mcpwm σ) (ev : Mcpwm.Ev) : (s.step hw ev).q.dirHighCountsUp = s.q.dirHighCountsUp := by
  have hap : ∀ (t : Mcpwm σ) e, (t.apply hw e).q.dirHighCountsUp = t.q.dirHighCountsUp := by
    intro t e
    rw [(apply_facts t e).1]
    split <;> rfl
  have hnx : ∀ t : Mcpwm σ, (t.whatIsNext hw).q.dirHighCountsUp = t.q.dirHighCountsUp := by
    intro t
    unfold Mcpwm.whatIsNext
    dsimp only
    repeat' split
    all_goals first
      | rfl
      | exact hap _ _
  have hst : ∀ t : Mcpwm σ, (t.startQueue hw).q.dirHighCountsUp = t.q.dirHighCountsUp := by
    intro t
    exact hap { t with pcnt := hw.clear t.pcnt, prepared := false, q := { t.q with running := true } } _
  suffices key : ∃ t : Mcpwm σ, s.step hw ev = t.sync ∧ t.q.dirHighCountsUp = s.q.dirHighCountsUp by
    obtain ⟨t, h1, h2⟩ := key
    rw [h1]; exact h2
  refine ⟨_, rfl, ?_⟩
  cases ev with
  | pcntIsr => dsimp only; split; · exact hnx _
               · rfl
  | teaIsr => dsimp only; split; · exact hnx _
              · rfl
  | addFinish => dsimp only; repeat' split
                 all_goals first | rfl | exact hst _
  | startNull => dsimp only; repeat' split
                 all_goals first | rfl | exact hst _
  | addCommit =>
    dsimp only
    split
    · unfold Queue.commit
      dsimp only
      repeat' split
      all_goals rfl
    · rfl
  | compare =>
    dsimp only
    split
    · unfold Mcpwm.compare
      dsimp only
      split <;> rfl
    · rfl
  | _ => dsimp only; repeat' split
         all_goals rfl

/-- an unconfirmed change of direction stops the queue -/
theorem MX.mwait : ∀ (evs : List (ExtEv Mcpwm.Ev)) {s : Mcpwm σ} {l : ExtLog}, MX s none → s.q.queueEntries ≠ 0 → Mcpwm.AlongExt hw Mcpwm.ExtTurn s evs →
    (∀ agree, .poll agree ∈ evs → agree = false) →
    (Mcpwm.watch hw s l evs).2.pulses = l.pulses ∧ HK s.q (Mcpwm.watch hw s l evs).1.q ∧ EQ (Mcpwm.watch hw s l evs).1.q (Mcpwm.watch hw s l evs).1.pc none ∧
      (Mcpwm.watch hw s l evs).1.q.dirHighCountsUp = s.q.dirHighCountsUp
  | [], s, l, h, hn, _, _ => ⟨rfl, HK.refl hn (h.eq.unconf hn).1, h.eq, rfl⟩
  | .hw ev :: evs, s, l, h, hn, hp, hf => by
    have h1 := h.step (hw := hw) ev hp.1
    have hk := HK.mstep (hw := hw) h.eq hn ev hp.1
    have hx : ¬ (ev = .compare ∧ s.timer = .low ∧ s.out = true) := by
      rintro ⟨-, h2, h3⟩
      exact (h.hd (h.low h2)).2 h3 (h.eq.unconf hn).2
    unfold Mcpwm.watch
    rw [if_neg hx]
    obtain ⟨i1, i2, i3, i4⟩ := MX.mwait evs (l := l) h1 hk.cnt hp.2 (fun a ha => hf a (List.mem_cons_of_mem _ ha))
    exact ⟨i1, hk.trans i2, i3, i4.trans (mcpwm_hcu s ev)⟩
  | .poll agree :: evs, s, l, h, hn, hp, hf => by
    have ha : agree = false := hf agree List.mem_cons_self
    subst ha
    obtain ⟨p1, p2, p3⟩ := polled_none (l := l) h.eq hn
    have hs : s.stepExt hw (.poll false) = s := by
      change ({ s with q := s.q.extPoll .esp32 false } : Mcpwm σ) = s
      rw [p1]
    have hp2 := hp.2
    rw [hs] at hp2
    unfold Mcpwm.watch
    rw [hs]
    obtain ⟨i1, i2, i3, i4⟩ := MX.mwait evs (s := s) (l := l.polled s.q false) h hn hp2 (fun a ha => hf a (List.mem_cons_of_mem _ ha))
    exact ⟨i1.trans p3, i2, i3, i4⟩

end
end FAS
