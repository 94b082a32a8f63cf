import Verif.Lemmas.AvrRun
import Verif.Lemmas.QueueObs
import Verif.Spec.Clock

/-! The AVR driver against the clock: a punctual schedule is in time. -/

namespace FAS

structure Clk (a : ArchId) (s : Avr) (t : AvrHist) (now tc : Nat) : Prop where
  suf : s.q.running = true → ∃ t0 cs ps, t.phases = (t0, cs) :: ps ∧ (s.q.pending a).map Entry.ticks <:+ cs.map Cmd.ticks
  late : s.q.running = true → s.noMore = true → t.deadline ≤ now
  prep : ∀ n c st, s.pc = .prepared n c st → a.minCmdTicks ≤ c.duration
  com : ∀ st, s.pc = .committed st → (s.q.running = false → s.q.readIdx ≠ s.q.nextWriteIdx ∨ tc + a.minCmdTicks ≤ now) ∧
    (s.q.running = true → tc + a.minCmdTicks ≤ t.ends)

theorem rate_duration {a : ArchId} {c : Cmd} (h : ¬ Queue.commandRateTicks c < a.minCmdTicks) : a.minCmdTicks ≤ c.duration := by
  unfold Queue.commandRateTicks at h
  unfold Cmd.duration
  split at h
  · have : u32 (c.ticks * c.steps) ≤ c.ticks * c.steps := by unfold u32; exact Nat.mod_le _ _
    rw [Nat.max_eq_right (by omega)]; omega
  · rw [Nat.max_eq_left (by omega)]; omega

theorem lastPeriod_suffix {xs : List Nat} {x : Nat} {cs : List Cmd} (h : xs ++ [x] <:+ cs.map Cmd.ticks) : lastPeriod cs = x := by
  obtain ⟨pre, hpre⟩ := h
  unfold lastPeriod
  rw [← hpre, ← List.append_assoc]
  simp

theorem lastPeriod_le (cs : List Cmd) : lastPeriod cs ≤ durationSum cs := by
  rcases List.eq_nil_or_concat cs with h | ⟨xs, c, h⟩
  · rw [h]; exact Nat.le_refl _
  · have h : cs = xs ++ [c] := by simpa using h
    rw [lastPeriod_suffix (xs := xs.map Cmd.ticks) (x := c.ticks) (by simp [h]), h, durationSum_append]
    simp only [durationSum, Cmd.duration]
    have : c.ticks * 1 ≤ c.ticks * max 1 c.steps := Nat.mul_le_mul_left _ (by omega)
    omega

theorem AvrHist.deadline_le (t : AvrHist) : t.deadline ≤ t.ends := by
  unfold AvrHist.deadline AvrHist.ends
  split <;> omega

theorem Clk.later {a s t now now' tc} (h : Clk a s t now tc) (hle : now ≤ now') : Clk a s t now' tc :=
  { suf := h.suf, late := fun h1 h2 => Nat.le_trans (h.late h1 h2) hle, prep := h.prep
    com := fun st hx => ⟨fun hr => ((h.com st hx).1 hr).imp id (fun hy => Nat.le_trans hy hle), (h.com st hx).2⟩ }

/-- a compare event, not served too early -/
theorem Clk.compare {a lvl base s t qs now tc} (h : Core a s t qs) (hT : Tim a lvl base s t qs) (hC : Clk a s t now tc) (hav : a.isAvr = true)
    (hrun : s.q.running = true) (hocr : s.ocr ≤ now) : Clk a (s.compare a) t now tc := by
  obtain ⟨t0, cs0, ps, hph, hdur⟩ := hT.dur hrun
  have hends : t.ends = t0 + durationSum cs0 := by unfold AvrHist.ends; rw [hph]
  have hdl : t.deadline = t0 + durationSum cs0 - lastPeriod cs0 := by unfold AvrHist.deadline; rw [hph]
  obtain ⟨t0', cs0', ps', hph', hsuf⟩ := hC.suf hrun
  rw [hph] at hph'
  cases hph'
  cases hnm : s.noMore with
  | true =>
    obtain ⟨hone, hpn⟩ := hT.empt hrun hnm
    have hpe := h.pending_nil.mp hpn
    have hne := h.empty_iff.mpr hpe
    have hpu : s.pulsed = s := by simp [Avr.pulsed, hone]
    rw [Avr.compare_eq, hpu, Avr.isr_stop a s hne]
    have hr0 : durationSum qs.remaining = 0 := by simp [QSpec.remaining, hpe, durationSum]
    exact { suf := (fun hx => nomatch hx), late := (fun hx => nomatch hx), prep := hC.prep
            com := fun st hx => ⟨fun _ => Or.inr (by have := (hC.com st hx).2 hrun; omega), (fun hx => nomatch hx)⟩ }
  | false =>
    obtain ⟨e0, es0, hpend, hdir, htog⟩ := hT.dir1 hrun hnm
    have hne : s.q.readIdx ≠ s.q.nextWriteIdx := by
      intro hx
      have := h.pending_nil.mpr (h.empty_iff.mp hx)
      rw [this] at hpend; cases hpend
    obtain ⟨c, cs, hp, hcons, htk, hst, hcu, hd, hn⟩ := h.heads hav hne
    have hrep : (s.q.slot a s.q.readIdx).repeatEntry = false := h.norep _ (by rw [hcons]; simp)
    have hpre : ∀ n c' st, s.pc = .prepared n c' st → a.minCmdTicks ≤ c'.duration := hC.prep
    have hcom : ∀ st, s.pc = .committed st → tc + a.minCmdTicks ≤ t.ends := fun st hx => (hC.com st hx).2 hrun
    rw [hcons] at hsuf
    by_cases hdec : (s.q.slot a s.q.readIdx).steps > 1
    · have heq := Avr.isr_dec a s.pulsed (by simpa using hne) (by simpa using hdec)
      rw [← Avr.compare_eq] at heq
      simp only [Avr.pulsed_q] at heq
      rw [heq]
      have hr' : (Avr.decSteps a s.q).running = true := hrun
      refine { suf := fun _ => ⟨t0, cs0, ps, hph, ?_⟩, late := fun _ hx => ?_, prep := ?_, com := fun st hx => ⟨fun hy => ?_, fun _ => ?_⟩ }
      · simp only
        rw [pending_decSteps (a := a) h.sim.idx hn]
        simpa using hsuf
      · simp only [Avr.pulsed_noMore, hnm] at hx; cases hx
      · simpa using hpre
      · simp only [hr'] at hy; cases hy
      · exact hcom st (by simpa using hx)
    · have hrun' : s.q.complete.running = true := hrun
      by_cases hlast : s.q.complete.readIdx = s.q.complete.nextWriteIdx
      · have heq := Avr.isr_last a s.pulsed (by simpa using hne) (by simpa using hdec) (by simpa using hnm) (by simpa using hrep) (by simpa using hlast)
        rw [← Avr.compare_eq] at heq
        simp only [Avr.pulsed_q] at heq
        rw [heq]
        have hidx := (Queue.pending_cons a s.q h.sim.idx hn).2.1
        have hnil : s.q.complete.pending a = [] := by
          rw [Queue.pending_nil_iff]; exact (Queue.empty_iff a _ hidx).mp hlast
        rw [hnil] at hsuf
        have hcs : cs = [] := by
          have h2 : s.q.queueEntries = qs.pend.length := h.sim.length
          have h3 : (s.q.pending a).length = s.q.queueEntries := by simp [Queue.pending]
          rw [hcons, hnil, h2, hp] at h3
          simpa using h3.symm
        have hlp : lastPeriod cs0 = c.ticks := by
          have := lastPeriod_suffix (xs := []) (x := (s.q.slot a s.q.readIdx).ticks) (cs := cs0) (by simpa using hsuf)
          rw [this, htk]
        have hrem := QSpec.remaining_cons hp
        rw [hrem, hcs] at hdur
        simp only [durationSum, Cmd.duration] at hdur
        rw [Nat.max_eq_left (by omega)] at hdur
        refine { suf := fun _ => ⟨t0, cs0, ps, hph, ?_⟩, late := fun _ _ => ?_, prep := ?_, com := fun st hx => ⟨fun hy => ?_, fun _ => ?_⟩ }
        · simp only [hnil]; exact List.nil_suffix
        · rw [hdl, hlp]; omega
        · simpa using hpre
        · simp only [hrun'] at hy; cases hy
        · exact hcom st (by simpa using hx)
      · have heq := Avr.isr_next a s.pulsed (by simpa using hne) (by simpa using hdec) (by simpa using hnm) (by simpa using hrep) (by simpa using hlast)
        rw [← Avr.compare_eq] at heq
        simp only [Avr.pulsed_q, Avr.toggleFor_eq] at heq
        rw [heq]
        refine { suf := fun _ => ⟨t0, cs0, ps, hph, ?_⟩, late := fun _ hx => ?_, prep := ?_, com := fun st hx => ⟨fun hy => ?_, fun _ => ?_⟩ }
        · have : ({ s.q.complete with dirLevel := xor (s.q.complete.slot a s.q.complete.readIdx).toggleDir s.q.complete.dirLevel } : Queue).pending a =
              s.q.complete.pending a := rfl
          simp only [this]
          exact (List.suffix_cons _ _).trans hsuf
        · simp only [Avr.pulsed_noMore, hnm] at hx; cases hx
        · simpa using hpre
        · simp only [hrun'] at hy; cases hy
        · exact hcom st (by simpa using hx)

/-- a punctual event at a feasible time is in time and starts no empty queue -/
theorem Clk.inTime {a lvl base s t qs now tc time ev} (h : Core a s t qs) (_hT : Tim a lvl base s t qs) (hC : Clk a s t now tc) (hnow : now ≤ time)
    (hf : s.Feasible a tc time ev) (hp : ev = .addCommit → s.q.running = true → time < t.deadline) : s.InTime ev ∧ s.NoLateStart ev := by
  constructor
  · cases ev with
    | addCommit =>
      show s.noMore = false
      cases hr : s.q.running with
      | false =>
        have hm := h.mode
        rw [hr] at hm
        exact hm.1
      | true =>
        cases hnm : s.noMore with
        | false => rfl
        | true =>
          have h1 := hC.late hr hnm
          have h2 := hp rfl hr
          omega
    | _ => trivial
  · cases ev with
    | addFinish n =>
      obtain ⟨hpc, -, h2⟩ := hf
      obtain ⟨st, hpc⟩ : ∃ st, s.pc = .committed st := by
        cases hx : s.pc with
        | committed st => exact ⟨st, rfl⟩
        | _ => rw [hx] at hpc; cases hpc
      cases hr : s.q.running with
      | true => exact Or.inl hr
      | false =>
        rcases (hC.com st hpc).1 hr with h1 | h1
        · exact Or.inr h1
        · omega
    | _ => trivial

/-- every event of a punctual schedule preserves the invariant -/
theorem clk_step {a lvl base s t qs now tc time} {ev : Avr.Ev} (h : Core a s t qs) (hT : Tim a lvl base s t qs) (hC : Clk a s t now tc)
    (hav : a.isAvr = true) (hnow : now ≤ time) (hf : s.Feasible a tc time ev) (hp : ev = .addCommit → s.q.running = true → time < t.deadline)
    (hpl : ev.Plain) : Clk a (s.step a ev) (t.observe s (s.step a ev) ev) time (Avr.commitTime tc time ev) := by
  have hC' := hC.later hnow
  obtain ⟨hin, hls⟩ := hC.inTime h hT hnow hf hp
  have hsame : ∀ ev', (∀ n c st, s.pc = .prepared n c st → ev' ≠ .addCommit) → t.observe s s ev' = t := by
    intro ev' hne
    unfold AvrHist.observe
    have : ¬ (s.q.running = false ∧ s.q.running = true) := by rintro ⟨h1, h2⟩; rw [h1] at h2; cases h2
    rw [if_neg this]
    cases ev' with
    | addCommit =>
      cases hpc : s.pc with
      | prepared n c st => exact absurd rfl (hne n c st hpc)
      | _ => rfl
    | _ => rfl
  have hid : ∀ ev', s.step a ev' = s → (∀ n c st, s.pc = .prepared n c st → ev' ≠ .addCommit) → ev' ≠ .addCommit →
      Clk a (s.step a ev') (t.observe s (s.step a ev') ev') time (Avr.commitTime tc time ev') := by
    intro ev' he hne hnc
    rw [he, hsame ev' hne]
    have : Avr.commitTime tc time ev' = tc := by cases ev' <;> first | rfl | exact absurd rfl hnc
    rw [this]
    exact hC'
  have hstart : ∀ pc', (∀ n c st, pc' ≠ AddPc.prepared n c st) → (∀ st, pc' ≠ AddPc.committed st) → s.q.running = false →
      s.q.readIdx ≠ s.q.nextWriteIdx → Clk a (Avr.startQueue a time { s with pc := pc' }) (t.start (time + 10)) time tc := by
    intro pc' hpc1 hpc2 hr hne
    have hm := h.mode
    rw [hr] at hm
    have hw := h.wait
    rw [hr] at hw
    simp only [Bool.false_eq_true, if_false] at hw
    refine { suf := fun _ => ⟨time + 10, t.waiting, t.phases, rfl, ?_⟩, late := fun _ hx => ?_, prep := fun n c st hx => absurd hx (hpc1 n c st)
             com := fun st hx => absurd hx (hpc2 st) }
    · have hpn : (Avr.startQueue a time { s with pc := pc' }).q.pending a = s.q.pending a := by
        simp only [Avr.startQueue, Avr.toggleFor_eq]; rfl
      rw [hpn, hw]
      have : (s.q.pending a).map Entry.ticks = qs.pend.map Cmd.ticks := by
        have hrel := h.sim.rel
        have key : ∀ (es : List Entry) (cs : List Cmd) (B : Int) (d : Nat), Rel a B d es cs → es.map Entry.ticks = cs.map Cmd.ticks := by
          intro es
          induction es with
          | nil => intro cs B d hx; cases cs with
            | nil => rfl
            | cons _ _ => exact hx.elim
          | cons e es ih => intro cs B d hx; cases cs with
            | nil => exact hx.elim
            | cons c cs => simp only [List.map_cons, hx.1.ticks, ih cs _ _ hx.2]
        exact key _ _ _ _ hrel
      rw [this]
      exact List.suffix_refl _
    · have : (Avr.startQueue a time { s with pc := pc' }).noMore = s.noMore := rfl
      rw [this, hm.1] at hx
      cases hx
  cases ev with
  | compare =>
    cases hirq : s.irq with
    | false => exact hid .compare (by simp [Avr.step, hirq]) (fun _ _ _ _ hx => by cases hx) (fun hx => nomatch hx)
    | true =>
      have hrun : s.q.running = true := h.irq.symm.trans hirq
      have hst : s.step a .compare = s.compare a := by simp [Avr.step, hirq]
      have hob : t.observe s (s.compare a) .compare = t := by simp [AvrHist.observe, hrun]
      rw [hst, hob]
      exact hC'.compare h hT hav hrun (hf hirq)
  | addBegin c st =>
    by_cases hx : s.pc = .idle ∧ s.q.queueEntries ≠ a.queueLen ∧ ¬ Queue.commandRateTicks c < a.minCmdTicks
    · obtain ⟨hpc, hnf, hrate⟩ := hx
      have hst : s.step a (.addBegin c st) =
          { s with q := (s.q.prepare a c).1, pc := .prepared (s.q.prepare a c).2 c st } := by
        simp [Avr.step, hpc, h.ready, Queue.isQueueFull, hnf, hrate]
      have hle : s.q.queueEntries ≤ a.queueLen := h.sim.idx.2.2
      obtain ⟨e, pe, pr, pw, prun, -⟩ := prepare_spec a s.q c
      have hpd := Queue.pending_write_unused a s.q e h.sim.idx (by omega) (s.q.prepare a c).1 pe pr pw
      have hob : t.observe s { s with q := (s.q.prepare a c).1, pc := .prepared (s.q.prepare a c).2 c st }
          (.addBegin c st) = t := by
        simp only [AvrHist.observe, prun]
        rw [if_neg]
        rintro ⟨h1, h2⟩; rw [h1] at h2; cases h2
      rw [hst, hob]
      refine { suf := fun hr => ?_, late := fun hr => ?_, prep := fun n c' st' heq => ?_, com := (fun _ hx => nomatch hx) }
      · simp only [hpd.1]; exact hC'.suf (prun.symm.trans hr)
      · exact hC'.late (prun.symm.trans hr)
      · injection heq with h1 h2 h3
        subst h2
        exact rate_duration hrate
    · refine hid _ ?_ (fun _ _ _ _ hx => by cases hx) (fun hx => nomatch hx)
      cases hpc : s.pc with
      | idle =>
        by_cases h1 : s.q.queueEntries = a.queueLen
        · simp [Avr.step, hpc, h.ready, Queue.isQueueFull, h1]
        · have h2 : Queue.commandRateTicks c < a.minCmdTicks := by
            by_cases h2 : Queue.commandRateTicks c < a.minCmdTicks
            · exact h2
            · exact absurd ⟨hpc, h1, h2⟩ hx
          simp [Avr.step, hpc, h.ready, Queue.isQueueFull, h1, h2]
      | _ => simp [Avr.step, hpc]
  | addCommit =>
    have hin : s.noMore = false := hin
    cases hpc : s.pc with
    | prepared next c st =>
      have hst : s.step a .addCommit =
          { s with q := { s.q with nextWriteIdx := u8 (s.q.nextWriteIdx + 1), qend := next }, pc := .committed st } := by
        simp [Avr.step, hpc, commit_ok s.q next h.ready h.ign]
      have hob : t.observe s
          { s with q := { s.q with nextWriteIdx := u8 (s.q.nextWriteIdx + 1), qend := next }, pc := .committed st }
          .addCommit = t.accept s.q.running c := by
        simp only [AvrHist.observe, hpc, h.ign]
        rw [if_neg]
        · rfl
        · rintro ⟨h1, h2⟩; rw [h1] at h2; cases h2
      rw [hst, hob]
      obtain ⟨p1, p2, p3, p4, p5⟩ := h.prep next c st hpc
      obtain ⟨hpd, hidx⟩ := pending_commit (a := a) next h.sim.idx p2
      have hmin := hC.prep next c st hpc
      refine { suf := fun hr => ?_, late := fun _ hx => ?_, prep := (fun _ _ _ hx => nomatch hx), com := fun st' hx => ⟨fun _ => Or.inl ?_, fun hr => ?_⟩ }
      · have hr : s.q.running = true := hr
        obtain ⟨t0, cs, ps, hph, hsuf⟩ := hC.suf hr
        refine ⟨t0, cs ++ [c], ps, by simp [AvrHist.accept, hr, hph], ?_⟩
        simp only [hpd, List.map_append, List.map_cons, List.map_nil, p3.ticks]
        obtain ⟨pre, hpre⟩ := hsuf
        exact ⟨pre, by rw [← hpre, List.append_assoc]⟩
      · simp only [hin] at hx; cases hx
      · intro hx
        have := (Queue.empty_iff a _ hidx).mp hx
        rw [← Queue.pending_nil_iff (a := a), hpd] at this
        simp at this
      · have hr : s.q.running = true := hr
        obtain ⟨t0, cs, ps, hph, hsuf⟩ := hC.suf hr
        have h1 := hp rfl hr
        have h2 := t.deadline_le
        have h3 : (t.accept s.q.running c).ends = t.ends + c.duration := by
          simp [AvrHist.accept, hr, hph, AvrHist.ends, durationSum_append, durationSum, Nat.add_assoc]
        show time + a.minCmdTicks ≤ _
        rw [h3]
        omega
    | idle => have hx : s.pc.isPrepared = true := hf; rw [hpc] at hx; cases hx
    | committed st => have hx : s.pc.isPrepared = true := hf; rw [hpc] at hx; cases hx
  | addFinish n =>
    have hn : n = time := hf.2.1
    subst hn
    cases hpc : s.pc with
    | committed st =>
      by_cases hx : s.q.running = false ∧ st = true
      · have hne : s.q.readIdx ≠ s.q.nextWriteIdx := by
          rcases hls with hy | hy
          · rw [hx.1] at hy; cases hy
          · exact hy
        have hst : s.step a (.addFinish n) = Avr.startQueue a n { s with pc := .idle } := by
          simp [Avr.step, hpc, hx.1, hx.2]
        have hrn : (Avr.startQueue a n { s with pc := .idle }).q.running = true := by
          simp [Avr.startQueue, Avr.toggleFor_eq]
        have hob : t.observe s (Avr.startQueue a n { s with pc := .idle }) (.addFinish n) = t.start (n + 10) := by
          simp only [AvrHist.observe, hrn, hx.1, and_self, if_true]
          rfl
        rw [hst, hob]
        exact hstart .idle (fun _ _ _ hy => nomatch hy) (fun _ hy => nomatch hy) hx.1 hne
      · have hst : s.step a (.addFinish n) = { s with pc := .idle } := by
          have : (!s.q.running && st) = false := by
            cases hr : s.q.running <;> cases hs : st <;> simp_all
          simp [Avr.step, hpc, this]
        have hob : t.observe s { s with pc := .idle } (.addFinish n) = t := by
          simp only [AvrHist.observe]
          rw [if_neg]
          rintro ⟨h1, h2⟩; rw [h1] at h2; cases h2
        rw [hst, hob]
        exact { suf := hC'.suf, late := hC'.late, prep := (fun _ _ _ hx => nomatch hx), com := (fun _ hx => nomatch hx) }
    | idle => exact hid _ (by simp [Avr.step, hpc]) (fun n c st hx => by rw [hpc] at hx; cases hx) (fun hx => nomatch hx)
    | prepared n c st => exact hid _ (by simp [Avr.step, hpc]) (fun n c st _ hy => by cases hy) (fun hx => nomatch hx)
  | startNull n =>
    have hn : n = time := hf
    subst hn
    cases hpc : s.pc with
    | idle =>
      by_cases hx : s.q.running = false ∧ s.q.readIdx ≠ s.q.nextWriteIdx
      · have hst : s.step a (.startNull n) = Avr.startQueue a n { s with pc := .idle } := by
          have : { s with pc := AddPc.idle } = s := by cases s; simp_all
          rw [this]
          simp [Avr.step, hpc, Queue.addNull, h.ready, hx.1, Ne.symm hx.2]
        have hrn : (Avr.startQueue a n { s with pc := .idle }).q.running = true := by
          simp [Avr.startQueue, Avr.toggleFor_eq]
        have hob : t.observe s (Avr.startQueue a n { s with pc := .idle }) (.startNull n) = t.start (n + 10) := by
          simp only [AvrHist.observe, hrn, hx.1, and_self, if_true]
          rfl
        rw [hst, hob]
        exact hstart .idle (fun _ _ _ hy => nomatch hy) (fun _ hy => nomatch hy) hx.1 hx.2
      · refine hid _ ?_ (fun _ _ _ _ hx => by cases hx) (fun hx => nomatch hx)
        have : (s.q.addNull true).start = false := by
          unfold Queue.addNull
          rw [h.ready]
          cases hr : s.q.running with
          | true => simp
          | false =>
            have : s.q.nextWriteIdx = s.q.readIdx := by
              by_cases hy : s.q.readIdx = s.q.nextWriteIdx
              · exact hy.symm
              · exact absurd ⟨hr, hy⟩ hx
            simp [this]
        simp [Avr.step, hpc, this]
    | _ => exact hid _ (by simp [Avr.step, hpc]) (fun _ _ _ _ hx => by cases hx) (fun hx => nomatch hx)
  | forceStop p => exact hpl.elim
  | clearIgnore => exact hpl.elim
  | extPoll b => exact hpl.elim

/-- whole schedules -/
theorem clk_run {a lvl base} (hav : a.isAvr = true) : ∀ (evs : List (Nat × Avr.Ev)) {s t qs now tc},
    Core a s t qs → Tim a lvl base s t qs → Clk a s t now tc → (∀ ev ∈ evs, ev.2.Plain) → Avr.Clocked a s now tc evs → Avr.Punctual a s t evs →
    Avr.Along a Avr.InTime s (evs.map Prod.snd) ∧ Avr.Along a Avr.NoLateStart s (evs.map Prod.snd) ∧
    ∃ qs' tc', Core a (Avr.track a s t (evs.map Prod.snd)).1 (Avr.track a s t (evs.map Prod.snd)).2 qs' ∧
      Tim a lvl base (Avr.track a s t (evs.map Prod.snd)).1 (Avr.track a s t (evs.map Prod.snd)).2 qs' ∧
      Clk a (Avr.track a s t (evs.map Prod.snd)).1 (Avr.track a s t (evs.map Prod.snd)).2 ((evs.map Prod.fst).getLast?.getD now) tc'
  | [], _, _, qs, _, tc, h, hT, hC, _, _, _ => ⟨trivial, trivial, qs, tc, h, hT, hC⟩
  | (time, ev) :: evs, s, t, qs, now, tc, h, hT, hC, hp, hcl, hpu => by
    obtain ⟨h1, h2, h3⟩ := hcl
    obtain ⟨p1, p2⟩ := hpu
    have hpl : ev.Plain := hp (time, ev) (by simp)
    obtain ⟨hin, hls⟩ := hC.inTime h hT h1 h2 p1
    obtain ⟨qs1, hc1, hT1⟩ := avr_step (ok := True) h (fun _ => hT) hav ev hpl hls
    have hC1 := clk_step h hT hC hav h1 h2 p1 hpl
    obtain ⟨r1, r2, qs', tc', r3, r4, r5⟩ := clk_run hav evs hc1 (hT1 ⟨trivial, hin⟩) hC1 (fun e he => hp e (by simp [he])) h3 p2
    refine ⟨⟨hin, r1⟩, ⟨hls, r2⟩, qs', tc', r3, r4, ?_⟩
    have hl : ((((time, ev) :: evs).map Prod.fst).getLast?.getD now) = ((evs.map Prod.fst).getLast?.getD time) := by
      cases evs with
      | nil => rfl
      | cons x xs => simp [List.getLast?_cons]
    rw [hl]
    exact r5

end FAS
