import Verif.Lemmas.Clock
import Verif.Spec.RealTime

/-! The AVR driver in real time: how long it stays alive, and what a task cycle does to it. -/

namespace FAS
open Spec

def Entry.dur (e : Entry) : Nat := e.ticks * max 1 e.steps

structure Live (a : ArchId) (s : Avr) (t : AvrHist) (now : Nat) : Prop where
  suf : s.q.running = true → ∃ t0 cs ps, t.phases = (t0, cs) :: ps ∧ (s.q.pending a).tail.map Entry.dur <:+ cs.map Cmd.duration
  alive : s.q.running = true ∨ t.phases = [] ∨ t.ends ≤ now

theorem Live.later {a s t now now'} (h : Live a s t now) (hle : now ≤ now') : Live a s t now' :=
  ⟨h.suf, h.alive.imp id (fun hx => hx.imp id (fun hy => Nat.le_trans hy hle))⟩

/-- a compare event, not served too early -/
theorem Live.compare {a lvl base s t qs now} (h : Core a s t qs) (hT : Tim a lvl base s t qs) (hC : Live a s t now) (hav : a.isAvr = true)
    (hrun : s.q.running = true) (hocr : s.ocr ≤ now) : Live a (s.compare a) t now := by
  obtain ⟨t0, cs0, ps, hph, hdur⟩ := hT.dur hrun
  have hends : t.ends = t0 + durationSum cs0 := by unfold AvrHist.ends; rw [hph]
  obtain ⟨t0', cs0', ps', hph', hsuf⟩ := hC.suf hrun
  rw [hph] at hph'
  cases hph'
  cases hnm : s.noMore with
  | true =>
    obtain ⟨hone, hpn⟩ := hT.empt hrun hnm
    have hpe := h.pending_nil.mp hpn
    have hne := h.empty_iff.mpr hpe
    have hpu : s.pulsed = s := by simp [Avr.pulsed, hone]
    rw [Avr.compare_eq, hpu, Avr.isr_stop a s hne]
    have hr0 : durationSum qs.remaining = 0 := by simp [QSpec.remaining, hpe, durationSum]
    exact ⟨(fun hx => nomatch hx), Or.inr (Or.inr (by omega))⟩
  | false =>
    obtain ⟨e0, es0, hpend, hdir, htog⟩ := hT.dir1 hrun hnm
    have hne : s.q.readIdx ≠ s.q.nextWriteIdx := by
      intro hx
      have := h.pending_nil.mpr (h.empty_iff.mp hx)
      rw [this] at hpend; cases hpend
    obtain ⟨c, cs, hp, hcons, htk, hst, hcu, hd, hn⟩ := h.heads hav hne
    have hrep : (s.q.slot a s.q.readIdx).repeatEntry = false := h.norep _ (by rw [hcons]; simp)
    rw [hcons] at hsuf
    by_cases hdec : (s.q.slot a s.q.readIdx).steps > 1
    · have heq := Avr.isr_dec a s.pulsed (by simpa using hne) (by simpa using hdec)
      rw [← Avr.compare_eq] at heq
      simp only [Avr.pulsed_q] at heq
      rw [heq]
      have hr' : (Avr.decSteps a s.q).running = true := hrun
      refine ⟨fun _ => ⟨t0, cs0, ps, hph, ?_⟩, Or.inl hr'⟩
      simp only
      rw [pending_decSteps (a := a) h.sim.idx hn]
      simpa using hsuf
    · have hrun' : s.q.complete.running = true := hrun
      have htail : (s.q.complete.pending a).tail.map Entry.dur <:+ cs0.map Cmd.duration := by
        refine List.IsSuffix.trans ?_ hsuf
        rw [List.tail_cons, List.map_tail]
        exact List.tail_suffix _
      by_cases hlast : s.q.complete.readIdx = s.q.complete.nextWriteIdx
      · have heq := Avr.isr_last a s.pulsed (by simpa using hne) (by simpa using hdec) (by simpa using hnm) (by simpa using hrep) (by simpa using hlast)
        rw [← Avr.compare_eq] at heq
        simp only [Avr.pulsed_q] at heq
        rw [heq]
        exact ⟨fun _ => ⟨t0, cs0, ps, hph, htail⟩, Or.inl hrun'⟩
      · have heq := Avr.isr_next a s.pulsed (by simpa using hne) (by simpa using hdec) (by simpa using hnm) (by simpa using hrep) (by simpa using hlast)
        rw [← Avr.compare_eq] at heq
        simp only [Avr.pulsed_q, Avr.toggleFor_eq] at heq
        rw [heq]
        exact ⟨fun _ => ⟨t0, cs0, ps, hph, htail⟩, Or.inl hrun'⟩

theorem rel_dur {a : ArchId} (hav : a.isAvr = true) : ∀ (es : List Entry) (cs : List Cmd) (B : Int), Rel a B 0 es cs → es.map Entry.dur = cs.map Cmd.duration
  | [], [], _, _ => rfl
  | [], _ :: _, _, h => h.elim
  | _ :: _, [], _, h => h.elim
  | e :: es, c :: cs, _, h => by
    have h1 : e.dur = c.duration := by
      unfold Entry.dur Cmd.duration
      rw [h.1.ticks, h.1.steps, if_neg (by rw [ArchId.avr_start hav]; decide)]
      rfl
    simp only [List.map_cons, h1, rel_dur hav es cs _ h.2]

theorem Live.step {a lvl base s t qs now tc time} {ev : Avr.Ev} (h : Core a s t qs) (hT : Tim a lvl base s t qs) (hC : Clk a s t now tc) (hL : Live a s t now)
    (hav : a.isAvr = true) (hnow : now ≤ time) (hf : s.Feasible a tc time ev) (hp : ev = .addCommit → s.q.running = true → time < t.deadline)
    (hpl : ev.Plain) : Live a (s.step a ev) (t.observe s (s.step a ev) ev) time := by
  have hL' := hL.later hnow
  obtain ⟨hin, hls⟩ := hC.inTime h hT hnow hf hp
  have hno : ¬ (s.q.running = false ∧ s.q.running = true) := by rintro ⟨h1, h2⟩; rw [h1] at h2; cases h2
  have hid : ∀ ev', s.step a ev' = s → ev' ≠ .addCommit → Live a (s.step a ev') (t.observe s (s.step a ev') ev') time := by
    intro ev' he hnc
    have hob : t.observe s s ev' = t := by
      unfold AvrHist.observe
      rw [if_neg hno]
      cases ev' <;> first | rfl | exact absurd rfl hnc
    rw [he, hob]
    exact hL'
  have hstart : ∀ pc', s.q.running = false → Live a (Avr.startQueue a time { s with pc := pc' }) (t.start (time + 10)) time := by
    intro pc' hr
    have hw := h.wait
    rw [hr] at hw
    simp only [Bool.false_eq_true, if_false] at hw
    refine ⟨fun _ => ⟨time + 10, t.waiting, t.phases, rfl, ?_⟩, Or.inl ?_⟩
    · have hpn : (Avr.startQueue a time { s with pc := pc' }).q.pending a = s.q.pending a := by
        simp only [Avr.startQueue, Avr.toggleFor_eq]; rfl
      have hrel := h.sim.rel
      rw [h.dn hr] at hrel
      rw [hpn, hw, ← rel_dur hav _ _ _ hrel, List.map_tail]
      exact List.tail_suffix _
    · simp only [Avr.startQueue, Avr.toggleFor_eq]
  cases ev with
  | compare =>
    cases hirq : s.irq with
    | false => exact hid .compare (by simp [Avr.step, hirq]) (fun hx => nomatch hx)
    | true =>
      have hrun : s.q.running = true := h.irq.symm.trans hirq
      have hst : s.step a .compare = s.compare a := by simp [Avr.step, hirq]
      have hob : t.observe s (s.compare a) .compare = t := by simp [AvrHist.observe, hrun]
      rw [hst, hob]
      exact hL'.compare h hT hav hrun (hf hirq)
  | addBegin c st =>
    by_cases hx : s.pc = .idle ∧ s.q.queueEntries ≠ a.queueLen ∧ ¬ Queue.commandRateTicks c < a.minCmdTicks
    · obtain ⟨hpc, hnf, hrate⟩ := hx
      have hst : s.step a (.addBegin c st) =
          { s with q := (s.q.prepare a c).1, pc := .prepared (s.q.prepare a c).2 c st } := by
        simp [Avr.step, hpc, h.ready, Queue.isQueueFull, hnf, hrate]
      have hle : s.q.queueEntries ≤ a.queueLen := h.sim.idx.2.2
      obtain ⟨e, pe, pr, pw, prun, -⟩ := prepare_spec a s.q c
      have hpd := Queue.pending_write_unused a s.q e h.sim.idx (by omega) (s.q.prepare a c).1 pe pr pw
      have hob : t.observe s { s with q := (s.q.prepare a c).1, pc := .prepared (s.q.prepare a c).2 c st }
          (.addBegin c st) = t := by
        simp only [AvrHist.observe, prun]
        rw [if_neg hno]
      rw [hst, hob]
      refine ⟨fun hr => ?_, ?_⟩
      · simp only [hpd.1]; exact hL'.suf (prun.symm.trans hr)
      · exact hL'.alive.imp (fun hx => prun.trans hx) id
    · refine hid _ ?_ (fun hx => nomatch hx)
      cases hpc : s.pc with
      | idle =>
        by_cases h1 : s.q.queueEntries = a.queueLen
        · simp [Avr.step, hpc, h.ready, Queue.isQueueFull, h1]
        · have h2 : Queue.commandRateTicks c < a.minCmdTicks := by
            by_cases h2 : Queue.commandRateTicks c < a.minCmdTicks
            · exact h2
            · exact absurd ⟨hpc, h1, h2⟩ hx
          simp [Avr.step, hpc, h.ready, Queue.isQueueFull, h1, h2]
      | _ => simp [Avr.step, hpc]
  | addCommit =>
    cases hpc : s.pc with
    | prepared next c st =>
      have hst : s.step a .addCommit =
          { s with q := { s.q with nextWriteIdx := u8 (s.q.nextWriteIdx + 1), qend := next }, pc := .committed st } := by
        simp [Avr.step, hpc, commit_ok s.q next h.ready h.ign]
      have hob : t.observe s
          { s with q := { s.q with nextWriteIdx := u8 (s.q.nextWriteIdx + 1), qend := next }, pc := .committed st }
          .addCommit = t.accept s.q.running c := by
        simp only [AvrHist.observe, hpc, h.ign]
        rw [if_neg hno]
        rfl
      rw [hst, hob]
      obtain ⟨p1, p2, p3, p4, p5⟩ := h.prep next c st hpc
      obtain ⟨hpd, hidx⟩ := pending_commit (a := a) next h.sim.idx p2
      refine ⟨fun hr => ?_, ?_⟩
      · have hr : s.q.running = true := hr
        obtain ⟨t0, cs, ps, hph, hsuf⟩ := hL.suf hr
        refine ⟨t0, cs ++ [c], ps, by simp [AvrHist.accept, hr, hph], ?_⟩
        have hdur : (s.q.slot a s.q.nextWriteIdx).dur = c.duration := by
          unfold Entry.dur Cmd.duration
          rw [p3.ticks, p3.steps, if_neg (by rw [ArchId.avr_start hav]; decide)]
          rfl
        simp only [hpd]
        cases hpe : s.q.pending a with
        | nil => exact List.nil_suffix
        | cons e es =>
          rw [hpe] at hsuf
          simp only [List.cons_append, List.tail_cons, List.map_append, List.map_cons, List.map_nil, hdur]
          obtain ⟨pre, hpre⟩ := hsuf
          exact ⟨pre, by rw [← hpre, List.append_assoc]; rfl⟩
      · cases hr : s.q.running with
        | true => exact Or.inl rfl
        | false =>
          right
          rcases hL'.alive with hx | hx
          · rw [hr] at hx; cases hx
          · exact hx
    | idle => have hx : s.pc.isPrepared = true := hf; rw [hpc] at hx; cases hx
    | committed st => have hx : s.pc.isPrepared = true := hf; rw [hpc] at hx; cases hx
  | addFinish n =>
    have hn : n = time := hf.2.1
    subst hn
    cases hpc : s.pc with
    | committed st =>
      by_cases hx : s.q.running = false ∧ st = true
      · have hst : s.step a (.addFinish n) = Avr.startQueue a n { s with pc := .idle } := by
          simp [Avr.step, hpc, hx.1, hx.2]
        have hrn : (Avr.startQueue a n { s with pc := .idle }).q.running = true := by
          simp [Avr.startQueue, Avr.toggleFor_eq]
        have hob : t.observe s (Avr.startQueue a n { s with pc := .idle }) (.addFinish n) = t.start (n + 10) := by
          simp only [AvrHist.observe, hrn, hx.1, and_self, if_true]
          rfl
        rw [hst, hob]
        exact hstart .idle hx.1
      · have hst : s.step a (.addFinish n) = { s with pc := .idle } := by
          have : (!s.q.running && st) = false := by
            cases hr : s.q.running <;> cases hs : st <;> simp_all
          simp [Avr.step, hpc, this]
        have hob : t.observe s { s with pc := .idle } (.addFinish n) = t := by
          simp only [AvrHist.observe]
          rw [if_neg hno]
        rw [hst, hob]
        exact ⟨hL'.suf, hL'.alive⟩
    | idle => exact hid _ (by simp [Avr.step, hpc]) (fun hx => nomatch hx)
    | prepared n c st => exact hid _ (by simp [Avr.step, hpc]) (fun hx => nomatch hx)
  | startNull n =>
    have hn : n = time := hf
    subst hn
    cases hpc : s.pc with
    | idle =>
      by_cases hx : (s.q.addNull true).start = true
      · have hr : s.q.running = false := by
          cases hr : s.q.running with
          | false => rfl
          | true => simp [Queue.addNull, h.ready, hr] at hx
        have hst : s.step a (.startNull n) = Avr.startQueue a n { s with pc := .idle } := by
          have : { s with pc := AddPc.idle } = s := by cases s; simp_all
          rw [this]
          simp [Avr.step, hpc, hx]
        have hrn : (Avr.startQueue a n { s with pc := .idle }).q.running = true := by
          simp [Avr.startQueue, Avr.toggleFor_eq]
        have hob : t.observe s (Avr.startQueue a n { s with pc := .idle }) (.startNull n) = t.start (n + 10) := by
          simp only [AvrHist.observe, hrn, hr, and_self, if_true]
          rfl
        rw [hst, hob]
        exact hstart .idle hr
      · exact hid _ (by simp [Avr.step, hpc, hx]) (fun hx => nomatch hx)
    | _ => exact hid _ (by simp [Avr.step, hpc]) (fun hx => nomatch hx)
  | forceStop p => exact hpl.elim
  | clearIgnore => exact hpl.elim
  | extPoll b => exact hpl.elim

/-- All about the driver at a time. -/
def AvrInv (a : ArchId) (lvl : Bool → Bool) (base : Int) (s : Avr) (t : AvrHist) (now tc : Nat) : Prop :=
  ∃ qs, Core a s t qs ∧ Tim a lvl base s t qs ∧ Clk a s t now tc ∧ Live a s t now

theorem AvrInv.step {a lvl base s t now tc time} {ev : Avr.Ev} (h : AvrInv a lvl base s t now tc)
    (hav : a.isAvr = true) (hnow : now ≤ time) (hf : s.Feasible a tc time ev) (hp : ev = .addCommit → s.q.running = true → time < t.deadline)
    (hpl : ev.Plain) : AvrInv a lvl base (s.step a ev) (t.observe s (s.step a ev) ev) time (Avr.commitTime tc time ev) := by
  obtain ⟨qs, h1, h2, h3, h4⟩ := h
  obtain ⟨hin, hls⟩ := h3.inTime h1 h2 hnow hf hp
  obtain ⟨qs1, hc1, hT1⟩ := avr_step (ok := True) h1 (fun _ => h2) hav ev hpl hls
  exact ⟨qs1, hc1, hT1 ⟨trivial, hin⟩, clk_step h1 h2 h3 hav hnow hf hp hpl, h4.step h1 h2 h3 hav hnow hf hp hpl⟩

/-- At rest within the software the time of the latest critical section does not matter. -/
theorem AvrInv.anew {a lvl base s t now tc} (h : AvrInv a lvl base s t now tc) (hpc : s.pc = .idle) {now' : Nat} (hle : now ≤ now') (tc' : Nat) :
    AvrInv a lvl base s t now' tc' := by
  obtain ⟨qs, h1, h2, h3, h4⟩ := h
  refine ⟨qs, h1, h2, ?_, h4.later hle⟩
  have h3 := h3.later hle
  exact ⟨h3.suf, h3.late, h3.prep, fun st hx => by rw [hpc] at hx; cases hx⟩

theorem Avr.step_compare_pc (a : ArchId) (s : Avr) : (s.step a .compare).pc = s.pc := by
  unfold Avr.step Avr.compare Avr.isrBody
  dsimp only
  repeat' split
  all_goals rfl

theorem AvrHist.observe_compare (a : ArchId) {lvl base s t now tc} (h : AvrInv a lvl base s t now tc) :
    t.observe s (s.step a .compare) .compare = t := by
  obtain ⟨qs, h1, -⟩ := h
  unfold AvrHist.observe
  dsimp only
  rw [if_neg]
  rintro ⟨h2, h3⟩
  have : s.step a .compare = s := by simp [Avr.step, h1.irq, h2]
  rw [this, h2] at h3
  cases h3

theorem no_commit {a : ArchId} : ∀ (evs : List (Nat × Avr.Ev)) {s now tc r}, s.pc = .idle → Avr.Clocked a s now tc evs → avrCalls evs = .addCommit :: r → False
  | [], _, _, _, _, _, _, h => by cases h
  | (time, ev) :: evs, s, now, tc, r, hpc, hc, h => by
    cases ev with
    | compare =>
      exact no_commit evs (s := s.step a .compare) (by rw [Avr.step_compare_pc]; exact hpc) hc.2.2 h
    | addCommit =>
      have : s.pc.isPrepared = true := hc.2.1
      rw [hpc] at this; cases this
    | _ => cases h

theorem lastTime_cons (now time : Nat) (ev : Avr.Ev) (evs : List (Nat × Avr.Ev)) : lastTime now ((time, ev) :: evs) = lastTime time evs := by
  unfold lastTime
  cases evs with
  | nil => rfl
  | cons x xs => simp [List.getLast?_cons]

theorem le_lastTime {a : ArchId} : ∀ (evs : List (Nat × Avr.Ev)) {s now tc}, Avr.Clocked a s now tc evs → now ≤ lastTime now evs
  | [], _, now, _, _ => Nat.le_refl now
  | (time, ev) :: evs, _, _, _, h => by
    rw [lastTime_cons]
    exact Nat.le_trans h.1 (le_lastTime evs h.2.2)

/-- Queueing a command does not shorten the deadline. -/
theorem AvrHist.deadline_accept (t : AvrHist) (c : Cmd) (h : t.phases ≠ []) :
    t.deadline ≤ (t.accept true c).deadline ∧ (t.accept true c).ends = t.ends + c.duration := by
  obtain ⟨p, ps, hp⟩ : ∃ p ps, t.phases = p :: ps := by
    cases hp : t.phases with
    | nil => exact absurd hp h
    | cons p ps => exact ⟨p, ps, rfl⟩
  have h1 : (t.accept true c).phases = (p.1, p.2 ++ [c]) :: ps := by unfold AvrHist.accept; rw [hp]; rfl
  have h2 : lastPeriod (p.2 ++ [c]) = c.ticks := lastPeriod_suffix (xs := p.2.map Cmd.ticks) (by simp)
  have h3 : c.ticks ≤ c.duration := by
    unfold Cmd.duration
    have : c.ticks * 1 ≤ c.ticks * max 1 c.steps := Nat.mul_le_mul_left _ (by omega)
    omega
  unfold AvrHist.deadline AvrHist.ends
  rw [h1, hp]
  dsimp only
  rw [h2, durationSum_append]
  simp only [durationSum]
  omega

/-- What the software is about to do in the rest of a task cycle, with the commands which are still to be queued. -/
inductive ToDo (st : Bool) (fin : List Avr.Ev) : AddPc → List Avr.Ev → List Cmd → Prop where
  | idle (cs : List Cmd) : ToDo st fin .idle (addCalls st cs ++ fin) cs
  | prepared (n : QueueEnd) (c : Cmd) (cs : List Cmd) : ToDo st fin (.prepared n c st) (.addCommit :: .addFinish 0 :: (addCalls st cs ++ fin)) (c :: cs)
  | committed (cs : List Cmd) : ToDo st fin (.committed st) (.addFinish 0 :: (addCalls st cs ++ fin)) cs

theorem ToDo.none {st fin pc l cs} (h : ToDo st fin pc l cs) (hl : l = []) : cs = [] ∧ pc = .idle ∧ fin = [] := by
  cases h with
  | idle => cases cs with
    | nil => exact ⟨rfl, rfl, hl⟩
    | cons c cs => cases hl
  | _ => cases hl

/-- Both outcomes of the first phase. -/
theorem addBegin_cases (a : ArchId) (s : Avr) (c : Cmd) (st : Bool) (hpc : s.pc = .idle) :
    ((s.step a (.addBegin c st)).pc = .idle ∨ ∃ n, (s.step a (.addBegin c st)).pc = .prepared n c st) ∧
      (s.step a (.addBegin c st)).q.running = s.q.running := by
  unfold Avr.step
  rw [hpc]
  dsimp only
  repeat' split
  · exact ⟨Or.inl hpc, rfl⟩
  · exact ⟨Or.inl hpc, rfl⟩
  · exact ⟨Or.inl hpc, rfl⟩
  · obtain ⟨e, pe, pr, pw, prun, -⟩ := prepare_spec a s.q c
    exact ⟨Or.inr ⟨_, rfl⟩, prun⟩

theorem observe_addBegin (a : ArchId) (s : Avr) (t : AvrHist) (c : Cmd) (st : Bool) (hpc : s.pc = .idle) :
    t.observe s (s.step a (.addBegin c st)) (.addBegin c st) = t := by
  unfold AvrHist.observe
  dsimp only
  rw [if_neg]
  rintro ⟨h1, h2⟩
  rw [(addBegin_cases a s c st hpc).2, h1] at h2
  cases h2

/-- A task cycle of a running motor. -/
theorem running_cycle {a lvl base} (hav : a.isAvr = true) (B : Nat) : ∀ (evs : List (Nat × Avr.Ev)) {s t now tc cs},
    AvrInv a lvl base s t now tc → Avr.Clocked a s now tc evs → (∀ e ∈ evs, e.2 = .addCommit → e.1 ≤ B) → (∀ c ∈ cs, c.Valid) →
    ToDo true [] s.pc (avrCalls evs) cs → (cs ≠ [] → B < t.deadline) → (s.pc = .committed true → tc + a.minCmdTicks ≤ t.ends) →
    (Avr.track a s t (evs.map Prod.snd)).2 = t.queued cs ∧ (Avr.track a s t (evs.map Prod.snd)).1.pc = .idle ∧
    ∃ tc', AvrInv a lvl base (Avr.track a s t (evs.map Prod.snd)).1 (Avr.track a s t (evs.map Prod.snd)).2 (lastTime now evs) tc'
  | [], s, t, now, tc, cs, hI, _, _, _, hd, _, _ => by
    obtain ⟨rfl, hpc, -⟩ := hd.none rfl
    exact ⟨rfl, hpc, tc, hI⟩
  | (time, ev) :: evs, s, t, now, tc, cs, hI, hc, hB, hv, hd, hdl, hcom => by
    obtain ⟨c1, c2, c3⟩ := hc
    have hB' : ∀ e ∈ evs, e.2 = .addCommit → e.1 ≤ B := fun e he => hB e (by simp [he])
    have hmin : 640 ≤ a.minCmdTicks := by cases a <;> decide
    rw [lastTime_cons]
    change (Avr.track a (s.step a ev) (t.observe s (s.step a ev) ev) (evs.map Prod.snd)).2 = _ ∧ (Avr.track a (s.step a ev) (t.observe s (s.step a ev) ev) (evs.map Prod.snd)).1.pc = _ ∧
      ∃ tc', AvrInv a lvl base (Avr.track a (s.step a ev) (t.observe s (s.step a ev) ev) (evs.map Prod.snd)).1
        (Avr.track a (s.step a ev) (t.observe s (s.step a ev) ev) (evs.map Prod.snd)).2 (lastTime time evs) tc'
    cases ev with
    | compare =>
      have hI1 := hI.step hav c1 c2 (fun hx => nomatch hx) trivial
      rw [AvrHist.observe_compare a hI] at hI1 ⊢
      refine running_cycle hav B evs hI1 c3 hB' hv ?_ hdl ?_
      · rw [Avr.step_compare_pc]; exact hd
      · rw [Avr.step_compare_pc]; exact hcom
    | addBegin c st =>
      change ToDo true [] s.pc (.addBegin c st :: avrCalls evs) cs at hd
      obtain ⟨hpc, cs', rfl, rfl, hcalls⟩ : s.pc = .idle ∧ ∃ cs', cs = c :: cs' ∧ st = true ∧ avrCalls evs = .addCommit :: .addFinish 0 :: addCalls true cs' := by
        generalize hx : s.pc = pc at hd ⊢
        generalize hl : Avr.Ev.addBegin c st :: avrCalls evs = l at hd
        cases hd with
        | idle => cases cs with
          | nil => cases hl
          | cons c' cs' =>
            have hl : Avr.Ev.addBegin c st :: avrCalls evs = .addBegin c' true :: .addCommit :: .addFinish 0 :: (addCalls true cs' ++ []) := hl
            injection hl with h1 h2
            injection h1 with h3 h4
            exact ⟨rfl, cs', by rw [h3], h4, by rw [h2, List.append_nil]⟩
        | _ => cases hl
      have hI1 := hI.step hav c1 c2 (fun hx => nomatch hx) (hv c (by simp))
      rw [observe_addBegin a s t c true hpc] at hI1 ⊢
      rcases (addBegin_cases a s c true hpc).1 with h1 | ⟨n, h1⟩
      · exact (no_commit evs h1 c3 hcalls).elim
      · refine running_cycle hav B evs hI1 c3 hB' hv ?_ hdl ?_
        · rw [h1, hcalls]
          have := ToDo.prepared (st := true) (fin := []) n c cs'
          rw [List.append_nil] at this
          exact this
        · rw [h1]; intro hx; cases hx
    | addCommit =>
      change ToDo true [] s.pc (.addCommit :: avrCalls evs) cs at hd
      obtain ⟨n, c, cs', hpc, rfl, hcalls⟩ : ∃ n c cs', s.pc = .prepared n c true ∧ cs = c :: cs' ∧ avrCalls evs = .addFinish 0 :: (addCalls true cs' ++ []) := by
        generalize hx : s.pc = pc at hd ⊢
        generalize hl : Avr.Ev.addCommit :: avrCalls evs = l at hd
        cases hd with
        | idle => cases cs with
          | nil => cases hl
          | cons c' cs' => cases hl
        | prepared n c cs' =>
          injection hl with h1 h2
          exact ⟨n, c, cs', rfl, rfl, h2⟩
        | committed => cases hl
      have hle : time ≤ B := hB (time, .addCommit) (by simp) rfl
      have hd0 := hdl (by simp)
      have hde := t.deadline_le
      have hrun : s.q.running = true := by
        obtain ⟨qs, -, -, -, hL⟩ := hI
        rcases hL.alive with h1 | h1 | h1
        · exact h1
        · unfold AvrHist.deadline at hd0; rw [h1] at hd0; dsimp only at hd0; omega
        · omega
      have hI1 := hI.step hav c1 c2 (fun _ _ => by omega) trivial
      obtain ⟨qs, k1, -, k3, -⟩ := hI
      have hst : s.step a .addCommit =
          { s with q := { s.q with nextWriteIdx := u8 (s.q.nextWriteIdx + 1), qend := n }, pc := .committed true } := by
        simp [Avr.step, hpc, commit_ok s.q n k1.ready k1.ign]
      have hob : t.observe s (s.step a .addCommit) .addCommit = t.accept true c := by
        rw [hst]
        simp only [AvrHist.observe, hpc, k1.ign, hrun]
        rfl
      rw [hob] at hI1 ⊢
      have hph : t.phases ≠ [] := by
        obtain ⟨p, ps, hp⟩ := k1.ph hrun
        rw [hp]; simp
      obtain ⟨d1, d2⟩ := t.deadline_accept c hph
      have hmind := k3.prep n c true hpc
      refine running_cycle hav B evs hI1 c3 hB' (fun x hx => hv x (by simp [hx])) ?_ (fun _ => by omega) (fun _ => ?_)
      · rw [hst, hcalls]
        exact ToDo.committed cs'
      · change time + _ ≤ _
        omega
    | addFinish n =>
      change ToDo true [] s.pc (.addFinish 0 :: avrCalls evs) cs at hd
      obtain ⟨hpc, hcalls⟩ : s.pc = .committed true ∧ avrCalls evs = addCalls true cs ++ [] := by
        generalize hx : s.pc = pc at hd ⊢
        generalize hl : Avr.Ev.addFinish 0 :: avrCalls evs = l at hd
        cases hd with
        | idle => cases cs with
          | nil => cases hl
          | cons c' cs' => cases hl
        | prepared n c cs' => cases hl
        | committed =>
          injection hl with h1 h2
          exact ⟨rfl, h2⟩
      have hen := hcom hpc
      have htm : time < tc + a.minCmdTicks := c2.2.2
      have hrun : s.q.running = true := by
        obtain ⟨qs, -, -, -, hL⟩ := hI
        rcases hL.alive with h1 | h1 | h1
        · exact h1
        · unfold AvrHist.ends at hen; rw [h1] at hen; dsimp only at hen; omega
        · omega
      have hI1 := hI.step hav c1 c2 (fun hx => nomatch hx) trivial
      have hst : s.step a (.addFinish n) = { s with pc := .idle } := by simp [Avr.step, hpc, hrun]
      have hob : t.observe s (s.step a (.addFinish n)) (.addFinish n) = t := by
        simp only [AvrHist.observe, hrun]
        rw [if_neg]
        rintro ⟨h1, -⟩; cases h1
      rw [hob] at hI1 ⊢
      refine running_cycle hav B evs hI1 c3 hB' hv ?_ hdl ?_
      · rw [hst, hcalls]
        exact ToDo.idle cs
      · rw [hst]; intro hx; cases hx
    | _ =>
      exfalso
      generalize s.pc = pc at hd
      generalize hl : avrCalls _ = l at hd
      cases hd with
      | idle => cases cs with
        | nil => cases hl
        | cons c' cs' => cases hl
      | _ => cases hl

/-- A task cycle of a motor at standstill, with commands: they are queued, then the motor is started. -/
theorem starting_cycle {a lvl base} (hav : a.isAvr = true) : ∀ (evs : List (Nat × Avr.Ev)) {s now tc w cs},
    AvrInv a lvl base s ⟨[], w⟩ now tc → Avr.Clocked a s now tc evs → (∀ c ∈ cs, c.Valid) → s.q.running = false → w ++ cs ≠ [] →
    ToDo false [.startNull 0] s.pc (avrCalls evs) cs →
    ∃ t0, now ≤ t0 ∧ (Avr.track a s ⟨[], w⟩ (evs.map Prod.snd)).2 = ⟨[(t0, w ++ cs)], []⟩ ∧ (Avr.track a s ⟨[], w⟩ (evs.map Prod.snd)).1.pc = .idle ∧
    ∃ tc', AvrInv a lvl base (Avr.track a s ⟨[], w⟩ (evs.map Prod.snd)).1 (Avr.track a s ⟨[], w⟩ (evs.map Prod.snd)).2 (lastTime now evs) tc'
  | [], s, now, tc, w, cs, hI, _, _, _, _, hd => by
    cases (hd.none rfl).2.2
  | (time, ev) :: evs, s, now, tc, w, cs, hI, hc, hv, hr, hne, hd => by
    obtain ⟨c1, c2, c3⟩ := hc
    rw [lastTime_cons]
    change ∃ t0, now ≤ t0 ∧ (Avr.track a (s.step a ev) (AvrHist.observe ⟨[], w⟩ s (s.step a ev) ev) (evs.map Prod.snd)).2 = _ ∧
      (Avr.track a (s.step a ev) (AvrHist.observe ⟨[], w⟩ s (s.step a ev) ev) (evs.map Prod.snd)).1.pc = _ ∧
      ∃ tc', AvrInv a lvl base (Avr.track a (s.step a ev) (AvrHist.observe ⟨[], w⟩ s (s.step a ev) ev) (evs.map Prod.snd)).1
        (Avr.track a (s.step a ev) (AvrHist.observe ⟨[], w⟩ s (s.step a ev) ev) (evs.map Prod.snd)).2 (lastTime time evs) tc'
    cases ev with
    | compare =>
      have hst : s.step a .compare = s := by
        obtain ⟨qs, h1, -⟩ := hI
        simp [Avr.step, h1.irq, hr]
      have hI1 := hI.step hav c1 c2 (fun hx => nomatch hx) trivial
      rw [AvrHist.observe_compare a hI] at hI1 ⊢
      rw [hst] at hI1 c3 ⊢
      obtain ⟨t0, h0, hrest⟩ := starting_cycle hav evs hI1 c3 hv hr hne hd
      exact ⟨t0, by omega, hrest⟩
    | addBegin c st =>
      change ToDo false _ s.pc (.addBegin c st :: avrCalls evs) cs at hd
      obtain ⟨hpc, cs', rfl, rfl, hcalls⟩ : s.pc = .idle ∧ ∃ cs', cs = c :: cs' ∧ st = false ∧ avrCalls evs = .addCommit :: .addFinish 0 :: (addCalls false cs' ++ [.startNull 0]) := by
        generalize hx : s.pc = pc at hd ⊢
        generalize hl : Avr.Ev.addBegin c st :: avrCalls evs = l at hd
        cases hd with
        | idle => cases cs with
          | nil => cases hl
          | cons c' cs' =>
            have hl : Avr.Ev.addBegin c st :: avrCalls evs = .addBegin c' false :: .addCommit :: .addFinish 0 :: (addCalls false cs' ++ [.startNull 0]) := hl
            injection hl with h1 h2
            injection h1 with h3 h4
            exact ⟨rfl, cs', by rw [h3], h4, h2⟩
        | _ => cases hl
      have hI1 := hI.step hav c1 c2 (fun hx => nomatch hx) (hv c (by simp))
      rw [observe_addBegin a s _ c false hpc] at hI1 ⊢
      rcases (addBegin_cases a s c false hpc).1 with h1 | ⟨n, h1⟩
      · exact (no_commit evs h1 c3 hcalls).elim
      · obtain ⟨t0, h0, hrest⟩ := starting_cycle hav evs hI1 c3 hv ((addBegin_cases a s c false hpc).2.trans hr) hne (by
          rw [h1, hcalls]
          exact ToDo.prepared n c cs')
        exact ⟨t0, by omega, hrest⟩
    | addCommit =>
      change ToDo false _ s.pc (.addCommit :: avrCalls evs) cs at hd
      obtain ⟨n, c, cs', hpc, rfl, hcalls⟩ : ∃ n c cs', s.pc = .prepared n c false ∧ cs = c :: cs' ∧ avrCalls evs = .addFinish 0 :: (addCalls false cs' ++ [.startNull 0]) := by
        generalize hx : s.pc = pc at hd ⊢
        generalize hl : Avr.Ev.addCommit :: avrCalls evs = l at hd
        cases hd with
        | idle => cases cs with
          | nil => cases hl
          | cons c' cs' => cases hl
        | prepared n c cs' =>
          injection hl with h1 h2
          exact ⟨n, c, cs', rfl, rfl, h2⟩
        | committed => cases hl
      have hI1 := hI.step hav c1 c2 (fun _ hx => by rw [hr] at hx; cases hx) trivial
      obtain ⟨qs, k1, -⟩ := hI
      have hst : s.step a .addCommit =
          { s with q := { s.q with nextWriteIdx := u8 (s.q.nextWriteIdx + 1), qend := n }, pc := .committed false } := by
        simp [Avr.step, hpc, commit_ok s.q n k1.ready k1.ign]
      have hob : AvrHist.observe ⟨[], w⟩ s (s.step a .addCommit) .addCommit = ⟨[], w ++ [c]⟩ := by
        rw [hst]
        simp only [AvrHist.observe, hpc, k1.ign, hr]
        rfl
      rw [hob] at hI1 ⊢
      obtain ⟨t0, h0, hrest⟩ := starting_cycle hav evs hI1 c3 (cs := cs') (fun x hx => hv x (by simp [hx])) (by rw [hst]; exact hr) (by simp) (by
        rw [hst, hcalls]
        exact ToDo.committed cs')
      rw [List.append_assoc] at hrest
      exact ⟨t0, by omega, hrest⟩
    | addFinish n =>
      change ToDo false _ s.pc (.addFinish 0 :: avrCalls evs) cs at hd
      obtain ⟨hpc, hcalls⟩ : s.pc = .committed false ∧ avrCalls evs = addCalls false cs ++ [.startNull 0] := by
        generalize hx : s.pc = pc at hd ⊢
        generalize hl : Avr.Ev.addFinish 0 :: avrCalls evs = l at hd
        cases hd with
        | idle => cases cs with
          | nil => cases hl
          | cons c' cs' => cases hl
        | prepared n c cs' => cases hl
        | committed =>
          injection hl with h1 h2
          exact ⟨rfl, h2⟩
      have hI1 := hI.step hav c1 c2 (fun hx => nomatch hx) trivial
      have hst : s.step a (.addFinish n) = { s with pc := .idle } := by simp [Avr.step, hpc]
      have hob : AvrHist.observe ⟨[], w⟩ s (s.step a (.addFinish n)) (.addFinish n) = ⟨[], w⟩ := by
        rw [hst]
        simp only [AvrHist.observe, hr]
        rw [if_neg]
        rintro ⟨-, h1⟩; cases h1
      rw [hob] at hI1 ⊢
      obtain ⟨t0, h0, hrest⟩ := starting_cycle hav evs hI1 c3 hv (by rw [hst]; exact hr) hne (by
        rw [hst, hcalls]
        exact ToDo.idle cs)
      exact ⟨t0, by omega, hrest⟩
    | startNull n =>
      change ToDo false _ s.pc (.startNull 0 :: avrCalls evs) cs at hd
      obtain ⟨hpc, rfl, hcalls⟩ : s.pc = .idle ∧ cs = [] ∧ avrCalls evs = [] := by
        generalize hx : s.pc = pc at hd ⊢
        generalize hl : Avr.Ev.startNull 0 :: avrCalls evs = l at hd
        cases hd with
        | idle => cases cs with
          | nil =>
            injection hl with h1 h2
            exact ⟨rfl, rfl, h2⟩
          | cons c' cs' => cases hl
        | _ => cases hl
      have hn : n = time := c2
      subst hn
      have hI1 := hI.step hav c1 c2 (fun hx => nomatch hx) trivial
      obtain ⟨qs, k1, -⟩ := hI
      have hw := k1.wait
      rw [hr] at hw
      simp only [Bool.false_eq_true, if_false] at hw
      have hne' : s.q.readIdx ≠ s.q.nextWriteIdx := by
        intro hx
        rw [k1.empty_iff.mp hx] at hw
        rw [hw] at hne
        exact hne rfl
      have hst : s.step a (.startNull n) = Avr.startQueue a n s := by
        simp [Avr.step, hpc, Queue.addNull, k1.ready, hr, Ne.symm hne']
      have hrn : (Avr.startQueue a n s).q.running = true := by
        simp [Avr.startQueue, Avr.toggleFor_eq]
      have hob : AvrHist.observe ⟨[], w⟩ s (s.step a (.startNull n)) (.startNull n) = ⟨[(n + 10, w)], []⟩ := by
        rw [hst]
        simp only [AvrHist.observe, hrn, hr, and_self, if_true]
        rfl
      rw [hob] at hI1 ⊢
      have hpc' : (s.step a (.startNull n)).pc = .idle := by rw [hst]; exact hpc
      refine ⟨n + 10, by omega, ?_⟩
      have := running_cycle hav 0 evs (cs := []) hI1 c3 (fun e he hx => ?_) (fun c hx => nomatch hx) (by rw [hpc', hcalls]; exact ToDo.idle []) (fun hx => absurd rfl hx)
        (by rw [hpc']; intro hx; cases hx)
      · rw [List.append_nil]
        exact this
      · exfalso
        obtain ⟨x, ev⟩ := e
        dsimp only at hx
        subst hx
        clear c3 hI1 hd
        have : ∀ (l : List (Nat × Avr.Ev)), (x, .addCommit) ∈ l → avrCalls l ≠ [] := by
          intro l
          induction l with
          | nil => intro hx; cases hx
          | cons y ys ih =>
            intro hx
            rcases List.mem_cons.mp hx with h1 | h1
            · rw [← h1]; simp [avrCalls]
            · obtain ⟨y1, y2⟩ := y
              cases y2 with
              | compare => exact ih h1
              | _ => simp [avrCalls]
        exact this evs he hcalls
    | _ =>
      exfalso
      generalize s.pc = pc at hd
      generalize hl : avrCalls _ = l at hd
      cases hd with
      | idle => cases cs with
        | nil => cases hl
        | cons c' cs' => cases hl
      | _ => cases hl

end FAS
