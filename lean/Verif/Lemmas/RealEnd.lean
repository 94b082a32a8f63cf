import Verif.Lemmas.RealFill

/-! The end of the queue after a task cycle, in the stepper and in the driver. -/

namespace FAS
open Spec Stepper

/-- The end of the queue after a further command. -/
def qendOn (high : Bool) (qe : QueueEnd) (c : Cmd) : QueueEnd := ⟨Queue.nextPos qe.pos c, c.countUp, c.countUp == high⟩

theorem prepare_next (a : ArchId) (q : Queue) (c : Cmd) : (q.prepare a c).2 = qendOn q.dirHighCountsUp q.qend c := by
  unfold Queue.prepare qendOn
  dsimp only
  split <;> rfl

/-! ## The stepper -/

structure Ended (high : Bool) (s s' : Stepper) (new : List Cmd) : Prop where
  ign : s'.hw.q.ignoreCommands = false
  up : s'.hw.q.dirHighCountsUp = high
  qend : s'.hw.q.qend = new.foldl (qendOn high) s.hw.q.qend

theorem Ended.refl {high : Bool} {s s' : Stepper} (h1 : s'.hw.q.ignoreCommands = false) (h2 : s'.hw.q.dirHighCountsUp = high) (h3 : s'.hw.q.qend = s.hw.q.qend) :
    Ended high s s' [] := ⟨h1, h2, h3⟩

theorem Ended.trans {high : Bool} {s t u : Stepper} {xs ys : List Cmd} (h1 : Ended high s t xs) (h2 : Ended high t u ys) : Ended high s u (xs ++ ys) :=
  ⟨h2.ign, h2.up, by rw [h2.qend, h1.qend, List.foldl_append]⟩

def CallEnded (high : Bool) (k k' : Call) : Prop := k.s.hw.q.ignoreCommands = false → k.s.hw.q.dirHighCountsUp = high →
  ∃ new, k'.accepted = k.accepted ++ new ∧ Ended high k.s k'.s new

theorem CallEnded.of_eq {high : Bool} {k k' : Call} (h : k'.accepted = k.accepted) (h1 : k'.s.hw.q.qend = k.s.hw.q.qend)
    (h2 : k'.s.hw.q.ignoreCommands = k.s.hw.q.ignoreCommands) (h3 : k'.s.hw.q.dirHighCountsUp = k.s.hw.q.dirHighCountsUp) : CallEnded high k k' :=
  fun i u => ⟨[], by simp [h], Ended.refl (h2.trans i) (h3.trans u) h1⟩

theorem CallEnded.trans {high : Bool} {k k' k'' : Call} (h : CallEnded high k k') (h' : CallEnded high k' k'') : CallEnded high k k'' := by
  intro i u
  obtain ⟨xs, e1, m1⟩ := h i u
  obtain ⟨ys, e2, m2⟩ := h' m1.ign m1.up
  exact ⟨xs ++ ys, by rw [e2, e1, List.append_assoc], m1.trans m2⟩

theorem startFlag_fields (b : Bool) (q : Queue) : (if b then { q with running := true } else q).qend = q.qend ∧
    (if b then { q with running := true } else q).ignoreCommands = q.ignoreCommands ∧
    (if b then { q with running := true } else q).dirHighCountsUp = q.dirHighCountsUp := by
  cases b <;> exact ⟨rfl, rfl, rfl⟩

theorem Queue.add_qend (a : ArchId) (q : Queue) (c : Cmd) (st : Bool) (hi : q.ignoreCommands = false) :
    (q.add a c st).q.ignoreCommands = false ∧ (q.add a c st).q.dirHighCountsUp = q.dirHighCountsUp ∧
    (q.add a c st).q.qend = (if (q.add a c st).code = AQE_OK then qendOn q.dirHighCountsUp q.qend c else q.qend) := by
  obtain ⟨e, pe, pr, pw, prun, pready, pign, ppos, pdp, pdh, pms, pn, -⟩ := prepare_spec a q c
  cases hr : q.ready
  · rw [Queue.add_notReady a q c st hr]; simp [AQE_DEVICE_NOT_READY, AQE_OK, hi]
  · by_cases hf : q.queueEntries = a.queueLen
    · rw [Queue.add_full a q c st hr hf]; simp [AQE_QUEUE_FULL, AQE_OK, hi]
    · by_cases hl : Queue.commandRateTicks c < a.minCmdTicks
      · rw [Queue.add_low a q c st hr hf hl]; simp [AQE_ERROR_TICKS_TOO_LOW, AQE_OK, hi]
      · rw [Queue.add_ok a q c st hr hf hl hi]; simp [pign, hi, pdh, prepare_next]

theorem CallEnded.add (high : Bool) (a : ArchId) (gaps : Nat → Gap) (k : Call) (c : Cmd) (st : Bool) : CallEnded high k (k.add a gaps c st).1 := by
  intro i u
  obtain ⟨g1, g2, -, g4, -⟩ := k.s.hw.gap_fields a (gaps k.n)
  have hi : (k.s.hw.gap a (gaps k.n)).q.ignoreCommands = false := g2.trans i
  obtain ⟨p1, p2, p3⟩ := Queue.add_qend a (k.s.hw.gap a (gaps k.n)).q c st hi
  obtain ⟨f1, f2, f3⟩ := startFlag_fields ((k.s.hw.gap a (gaps k.n)).q.add a c st).start ((k.s.hw.gap a (gaps k.n)).q.add a c st).q
  by_cases h : ((k.s.hw.gap a (gaps k.n)).q.add a c st).code = AQE_OK
  · refine ⟨[c], ?_, f2.trans p1, f3.trans (p2.trans (g4.trans u)), ?_⟩
    · unfold Call.add
      dsimp only
      rw [if_pos ⟨h, by simp [hi]⟩]
    · refine f1.trans ?_
      rw [p3, if_pos h, g4, u, g1]
      rfl
  · refine ⟨[], ?_, f2.trans p1, f3.trans (p2.trans (g4.trans u)), ?_⟩
    · unfold Call.add
      dsimp only
      rw [if_neg (fun hh => h hh.1), List.append_nil]
    · refine f1.trans ?_
      rw [p3, if_neg h, g1]
      rfl

theorem CallEnded.addNull (high : Bool) (a : ArchId) (gaps : Nat → Gap) (k : Call) (st : Bool) : CallEnded high k (k.addNull a gaps st).1 := by
  obtain ⟨g1, g2, -, g4, -⟩ := k.s.hw.gap_fields a (gaps k.n)
  obtain ⟨f1, f2, f3⟩ := startFlag_fields ((k.s.hw.gap a (gaps k.n)).q.addNull st).start ((k.s.hw.gap a (gaps k.n)).q.addNull st).q
  rw [Queue.addNull_q] at f1 f2 f3
  refine CallEnded.of_eq rfl ?_ ?_ ?_
  · refine Eq.trans ?_ (f1.trans g1); unfold Call.addNull; dsimp only; rw [Queue.addNull_q]
  · refine Eq.trans ?_ (f2.trans g2); unfold Call.addNull; dsimp only; rw [Queue.addNull_q]
  · refine Eq.trans ?_ (f3.trans g4); unfold Call.addNull; dsimp only; rw [Queue.addNull_q]

theorem CallEnded.addPauses (high : Bool) (a : ArchId) (gaps : Nat → Gap) (u : Bool) :
    ∀ (ts : List Nat) (k : Call), CallEnded high k (k.addPauses a gaps u ts)
  | [], _ => CallEnded.of_eq rfl rfl rfl rfl
  | _ :: ts, k => (CallEnded.add high a gaps k _ false).trans (CallEnded.addPauses high a gaps u ts _)

theorem CallEnded.autoEnable (high : Bool) (a : ArchId) (ext : ExtPin) (gaps : Nat → Gap) (k : Call) (c : Cmd) (st : Bool) :
    CallEnded high k (k.autoEnable a ext gaps c st).1 := by
  unfold Call.autoEnable
  dsimp only
  have hw : ∀ w, CallEnded high k { k with writes := w } := fun w => CallEnded.of_eq rfl rfl rfl rfl
  split
  · split
    · exact hw _
    · split
      · exact (hw _).trans ((CallEnded.addPauses high a gaps _ _ _).trans (CallEnded.addNull high a gaps _ st))
      · exact hw _
  · exact CallEnded.of_eq rfl rfl rfl rfl

theorem CallEnded.dirChange (high : Bool) (a : ArchId) (gaps : Nat → Gap) (k : Call) (c : Cmd) (st : Bool) :
    CallEnded high k (k.dirChange a gaps c st).1 := by
  obtain ⟨g1, g2, -, g4, -⟩ := k.s.hw.gap_fields a (gaps k.n)
  have hg : CallEnded high k { k with s := { k.s with hw := k.s.hw.gap a (gaps k.n) }, n := k.n + 1 } := CallEnded.of_eq rfl g1 g2 g4
  unfold Call.dirChange
  dsimp only
  split
  · split
    · split
      · exact hg
      · split
        · exact hg.trans (CallEnded.add high a gaps _ _ st)
        · exact hg.trans ((CallEnded.add high a gaps _ _ st).trans (CallEnded.add high a gaps _ _ st))
    · split
      · exact CallEnded.add high a gaps _ _ st
      · exact CallEnded.of_eq rfl rfl rfl rfl
  · exact CallEnded.of_eq rfl rfl rfl rfl

theorem CallEnded.final (high : Bool) (a : ArchId) (gaps : Nat → Gap) (k : Call) (c : Cmd) (st : Bool) : CallEnded high k (k.final a gaps c st).1 := by
  unfold Call.final
  dsimp only
  have h := CallEnded.add high a gaps k c st
  split
  · exact h.trans (CallEnded.of_eq rfl rfl rfl rfl)
  · exact h

theorem addQueueEntry_ended (a : ArchId) (ext : ExtPin) (gaps : Nat → Gap) (busy : Bool) (s : Stepper) (c : Cmd) (st : Bool) (hi : s.hw.q.ignoreCommands = false) :
    Ended s.hw.q.dirHighCountsUp s (s.addQueueEntry a ext gaps busy c st).1.s (s.addQueueEntry a ext gaps busy c st).1.accepted := by
  have key : CallEnded s.hw.q.dirHighCountsUp (⟨s, 0, [], []⟩ : Call) (s.addQueueEntry a ext gaps busy c st).1 := by
    unfold addQueueEntry
    dsimp only
    split
    · exact CallEnded.of_eq rfl rfl rfl rfl
    split
    · exact CallEnded.of_eq rfl rfl rfl rfl
    split
    · exact CallEnded.of_eq rfl rfl rfl rfl
    have h1 := CallEnded.autoEnable s.hw.q.dirHighCountsUp a ext gaps ⟨s, 0, [], []⟩ c st
    split
    · rename_i k code hk; rw [hk] at h1; exact h1
    · rename_i k hk; rw [hk] at h1
      have h2 := CallEnded.dirChange s.hw.q.dirHighCountsUp a gaps k c st
      split
      · rename_i k' code hk'; rw [hk'] at h2; exact h1.trans h2
      · rename_i k' hk'; rw [hk'] at h2
        exact h1.trans (h2.trans (CallEnded.final s.hw.q.dirHighCountsUp a gaps k' c st))
  obtain ⟨new, h1, h2⟩ := key hi rfl
  simp only [List.nil_append] at h1
  rw [h1]
  exact h2

/-- The end of the queue after a task cycle. -/
theorem fillQueue_qend {a : ArchId} {env : Env} {junk : NextCommand} {s s' : Stepper} {acc : List Cmd}
    (h : s.fillQueue a env junk = some (s', acc)) : s'.hw.q.qend = acc.foldl (qendOn s.hw.q.dirHighCountsUp) s.hw.q.qend := by
  rcases fillQueue_cases a env junk s s' acc h with ⟨-, h1, h2⟩ | ⟨-, -, f0, f, x, h1, -, -, -, -, h2, h3, h4, h5⟩
  · rw [h1, h2]; rfl
  · have h0 : Ended s.hw.q.dirHighCountsUp s f0.s f0.accepted := by rw [h1, h2]; exact Ended.refl rfl rfl rfl
    have hl : Ended s.hw.q.dirHighCountsUp s f.s f.accepted := by
      refine Stepper.Fill.loop_induct a env (fun f => Ended s.hw.q.dirHighCountsUp s f.s f.accepted) ?_ _ _ _ _ _ h0 h3
      intro i f f' b _ hm hb
      obtain ⟨rg, cmd, -, -, hb⟩ := Stepper.Fill.body_cases a env i f f' b hb
      rcases hb with ⟨-, r, hr, ha, hb⟩ | ⟨-, -, hs, ha, -⟩
      · have hm' : Ended s.hw.q.dirHighCountsUp s r.1.s f'.accepted := by
          rw [ha, hr]
          have := addQueueEntry_ended a (env.ext i) (env.gaps i) (env.busy i) { f.s with rg := rg } cmd.command (!f.delayedStart) hm.ign
          have hu : ({ f.s with rg := rg } : Stepper).hw.q.dirHighCountsUp = s.hw.q.dirHighCountsUp := hm.up
          rw [hu] at this
          exact hm.trans ⟨this.ign, this.up, this.qend⟩
        rcases hb with ⟨-, -, hs, -⟩ | ⟨-, -, hs, -⟩ | ⟨-, -, hs, -⟩ <;> rw [hs] <;> exact ⟨hm'.ign, hm'.up, hm'.qend⟩
      · rw [ha, hs]; exact ⟨hm.ign, hm.up, hm.qend⟩
    rw [h4, h5]
    split
    · rw [(startQueue_keeps f.s true).2]; exact hl.qend
    · exact hl.qend

/-! ## The driver -/

theorem foldl_qendOn (high : Bool) (qe qe' : QueueEnd) (h : qe'.pos = qe.pos) : ∀ cs : List Cmd, cs ≠ [] → cs.foldl (qendOn high) qe' = cs.foldl (qendOn high) qe
  | [], hx => absurd rfl hx
  | c :: cs, _ => by
    rw [List.foldl_cons, List.foldl_cons]
    have : qendOn high qe' c = qendOn high qe c := by unfold qendOn; rw [h]
    rw [this]

/-- What the events of a task cycle leave as it is. -/
structure SameQ (q q' : Queue) : Prop where
  pin : q'.dirPin = q.dirPin
  up : q'.dirHighCountsUp = q.dirHighCountsUp
  ready : q'.ready = q.ready
  max : q'.maxSpeedInTicks = q.maxSpeedInTicks
  ign : q'.ignoreCommands = q.ignoreCommands

theorem SameQ.trans {q q' q'' : Queue} (h : SameQ q q') (h' : SameQ q' q'') : SameQ q q'' :=
  ⟨h'.pin.trans h.pin, h'.up.trans h.up, h'.ready.trans h.ready, h'.max.trans h.max, h'.ign.trans h.ign⟩

theorem startQueue_same (a : ArchId) (n : Nat) (s : Avr) : SameQ s.q (Avr.startQueue a n s).q ∧ (Avr.startQueue a n s).q.qend = s.q.qend := by
  unfold Avr.startQueue Avr.toggleFor
  dsimp only
  split <;> exact ⟨⟨rfl, rfl, rfl, rfl, rfl⟩, rfl⟩

theorem compare_same (a : ArchId) (s : Avr) : SameQ s.q (s.step a .compare).q ∧ (s.step a .compare).q.qend = s.q.qend := by
  unfold Avr.step Avr.compare Avr.isrBody Avr.toggleFor Avr.decSteps Queue.complete
  dsimp only
  repeat' split
  all_goals exact ⟨⟨rfl, rfl, rfl, rfl, rfl⟩, rfl⟩

/-- The end of the queue after the events of a task cycle. -/
theorem track_qend {a : ArchId} {st : Bool} {fin : List Avr.Ev} (hfin : fin = [] ∨ fin = [.startNull 0]) : ∀ (evs : List (Nat × Avr.Ev)) {s : Avr} {t : AvrHist} {now tc : Nat} {cs : List Cmd},
    Avr.Clocked a s now tc evs → ToDo st fin s.pc (avrCalls evs) cs ∨ (s.pc = .idle ∧ avrCalls evs = [] ∧ cs = []) → s.q.ready = true → s.q.ignoreCommands = false →
    (∀ n c st', s.pc = .prepared n c st' → n = qendOn s.q.dirHighCountsUp s.q.qend c) →
    SameQ s.q (Avr.track a s t (evs.map Prod.snd)).1.q ∧ (Avr.track a s t (evs.map Prod.snd)).1.q.qend = cs.foldl (qendOn s.q.dirHighCountsUp) s.q.qend
  | [], s, t, now, tc, cs, _, hd, _, _, _ => by
    have hcs : cs = [] := by
      rcases hd with hd | ⟨-, -, hd⟩
      · exact (hd.none rfl).1
      · exact hd
    subst hcs
    exact ⟨⟨rfl, rfl, rfl, rfl, rfl⟩, rfl⟩
  | (time, ev) :: evs, s, t, now, tc, cs, hc, hd, hr, hi, hp => by
    obtain ⟨c1, c2, c3⟩ := hc
    change SameQ s.q (Avr.track a (s.step a ev) (t.observe s (s.step a ev) ev) (evs.map Prod.snd)).1.q ∧
      (Avr.track a (s.step a ev) (t.observe s (s.step a ev) ev) (evs.map Prod.snd)).1.q.qend = _
    cases ev with
    | compare =>
      obtain ⟨k1, k2⟩ := compare_same a s
      have := track_qend hfin evs (t := t.observe s (s.step a .compare) .compare) c3 (cs := cs) (by rw [Avr.step_compare_pc]; exact hd) (k1.ready.trans hr) (k1.ign.trans hi)
        (by rw [Avr.step_compare_pc, k1.up, k2]; exact hp)
      rw [k1.up, k2] at this
      exact ⟨k1.trans this.1, this.2⟩
    | addBegin c st' =>
      have hd : ToDo st fin s.pc (.addBegin c st' :: avrCalls evs) cs := by
        rcases hd with hd | ⟨-, hd, -⟩
        · exact hd
        · cases hd
      obtain ⟨hpc, cs', rfl, rfl, hcalls⟩ : s.pc = .idle ∧ ∃ cs', cs = c :: cs' ∧ st' = st ∧ avrCalls evs = .addCommit :: .addFinish 0 :: (addCalls st cs' ++ fin) := by
        generalize hx : s.pc = pc at hd ⊢
        generalize hl : Avr.Ev.addBegin c st' :: avrCalls evs = l at hd
        cases hd with
        | idle => cases cs with
          | nil =>
            rcases hfin with rfl | rfl <;> cases hl
          | cons c' cs' =>
            have hl : Avr.Ev.addBegin c st' :: avrCalls evs = .addBegin c' st :: .addCommit :: .addFinish 0 :: (addCalls st cs' ++ fin) := hl
            injection hl with h1 h2
            injection h1 with h3 h4
            exact ⟨rfl, cs', by rw [h3], h4, h2⟩
        | _ => cases hl
      rcases (addBegin_cases a s c st' hpc).1 with h1 | ⟨n, h1⟩
      · exact (no_commit evs h1 c3 hcalls).elim
      · have hst : s.step a (.addBegin c st') = { s with q := (s.q.prepare a c).1, pc := .prepared (s.q.prepare a c).2 c st' } := by
          revert h1
          unfold Avr.step
          rw [hpc]
          dsimp only
          repeat' split
          all_goals first | (intro h1; rw [hpc] at h1; cases h1) | exact fun _ => rfl
        obtain ⟨e, pe, pr, pw, prun, pready, pign, ppos, pdp, pdh, pms, -⟩ := prepare_spec a s.q c
        have := track_qend hfin evs (t := t.observe s (s.step a (.addBegin c st')) (.addBegin c st')) c3 (cs := c :: cs')
          (Or.inl (by rw [h1, hcalls]; exact ToDo.prepared n c cs')) (by rw [hst]; exact pready.trans hr) (by rw [hst]; exact pign.trans hi)
          (by
            rw [hst]
            intro n' c' st'' hx
            injection hx with x1 x2 x3
            rw [← x1, ← x2, prepare_next]
            dsimp only
            unfold qendOn
            rw [pdh, ppos])
        rw [hst] at this ⊢
        dsimp only at this
        obtain ⟨h3, h4⟩ := this
        refine ⟨SameQ.trans ⟨pdp, pdh, pready, pms, pign⟩ h3, ?_⟩
        rw [h4, pdh]
        exact foldl_qendOn _ _ _ ppos _ (by simp)
    | addCommit =>
      have hd : ToDo st fin s.pc (.addCommit :: avrCalls evs) cs := by
        rcases hd with hd | ⟨-, hd, -⟩
        · exact hd
        · cases hd
      obtain ⟨n, c, cs', hpc, rfl, hcalls⟩ : ∃ n c cs', s.pc = .prepared n c st ∧ cs = c :: cs' ∧ avrCalls evs = .addFinish 0 :: (addCalls st cs' ++ fin) := by
        generalize hx : s.pc = pc at hd ⊢
        generalize hl : Avr.Ev.addCommit :: avrCalls evs = l at hd
        cases hd with
        | idle => cases cs with
          | nil =>
            rcases hfin with rfl | rfl <;> cases hl
          | cons c' cs' => cases hl
        | prepared n c cs' =>
          injection hl with h1 h2
          exact ⟨n, c, cs', rfl, rfl, h2⟩
        | committed => cases hl
      have hst : s.step a .addCommit =
          { s with q := { s.q with nextWriteIdx := u8 (s.q.nextWriteIdx + 1), qend := n }, pc := .committed st } := by
        simp [Avr.step, hpc, commit_ok s.q n hr hi]
      have := track_qend hfin evs (t := t.observe s (s.step a .addCommit) .addCommit) c3 (cs := cs')
        (Or.inl (by rw [hst, hcalls]; exact ToDo.committed cs')) (by rw [hst]; exact hr) (by rw [hst]; exact hi)
        (by rw [hst]; intro n' c' st'' hx; cases hx)
      have k1 : SameQ s.q (s.step a .addCommit).q := by rw [hst]; exact ⟨rfl, rfl, rfl, rfl, rfl⟩
      have k2 : (s.step a .addCommit).q.qend = n := by rw [hst]
      refine ⟨k1.trans this.1, ?_⟩
      rw [this.2, k1.up, k2, hp n c st hpc]
      rfl
    | addFinish n =>
      have hd : ToDo st fin s.pc (.addFinish 0 :: avrCalls evs) cs := by
        rcases hd with hd | ⟨-, hd, -⟩
        · exact hd
        · cases hd
      obtain ⟨hpc, hcalls⟩ : s.pc = .committed st ∧ avrCalls evs = addCalls st cs ++ fin := by
        generalize hx : s.pc = pc at hd ⊢
        generalize hl : Avr.Ev.addFinish 0 :: avrCalls evs = l at hd
        cases hd with
        | idle => cases cs with
          | nil =>
            rcases hfin with rfl | rfl <;> cases hl
          | cons c' cs' => cases hl
        | prepared n c cs' => cases hl
        | committed =>
          injection hl with h1 h2
          exact ⟨rfl, h2⟩
      have hs : SameQ s.q (s.step a (.addFinish n)).q ∧ (s.step a (.addFinish n)).q.qend = s.q.qend ∧ (s.step a (.addFinish n)).pc = .idle := by
        unfold Avr.step
        rw [hpc]
        dsimp only
        split
        · obtain ⟨k1, k2⟩ := startQueue_same a n { s with pc := .idle }
          exact ⟨k1, k2, rfl⟩
        · exact ⟨⟨rfl, rfl, rfl, rfl, rfl⟩, rfl, rfl⟩
      obtain ⟨k1, k2, k3⟩ := hs
      have := track_qend hfin evs (t := t.observe s (s.step a (.addFinish n)) (.addFinish n)) c3 (cs := cs)
        (Or.inl (by rw [k3, hcalls]; exact ToDo.idle cs)) (k1.ready.trans hr) (k1.ign.trans hi) (by rw [k3]; intro n' c' st'' hx; cases hx)
      rw [k1.up, k2] at this
      exact ⟨k1.trans this.1, this.2⟩
    | startNull n =>
      have hd : ToDo st fin s.pc (.startNull 0 :: avrCalls evs) cs := by
        rcases hd with hd | ⟨-, hd, -⟩
        · exact hd
        · cases hd
      obtain ⟨hpc, rfl, hcalls⟩ : s.pc = .idle ∧ cs = [] ∧ avrCalls evs = [] := by
        generalize hx : s.pc = pc at hd ⊢
        generalize hl : Avr.Ev.startNull 0 :: avrCalls evs = l at hd
        cases hd with
        | idle => cases cs with
          | nil =>
            rcases hfin with rfl | rfl
            · cases hl
            · injection hl with h1 h2
              exact ⟨rfl, rfl, h2⟩
          | cons c' cs' => cases hl
        | _ => cases hl
      have hs : SameQ s.q (s.step a (.startNull n)).q ∧ (s.step a (.startNull n)).q.qend = s.q.qend ∧ (s.step a (.startNull n)).pc = .idle := by
        unfold Avr.step
        rw [hpc]
        dsimp only
        split
        · obtain ⟨k1, k2⟩ := startQueue_same a n s
          exact ⟨k1, k2, hpc⟩
        · exact ⟨⟨rfl, rfl, rfl, rfl, rfl⟩, rfl, hpc⟩
      obtain ⟨k1, k2, k3⟩ := hs
      have := track_qend (st := st) hfin evs (t := t.observe s (s.step a (.startNull n)) (.startNull n)) c3 (cs := [])
        (Or.inr ⟨k3, hcalls, rfl⟩) (k1.ready.trans hr) (k1.ign.trans hi) (by rw [k3]; intro n' c' st'' hx; cases hx)
      rw [k1.up, k2] at this
      exact ⟨k1.trans this.1, this.2⟩
    | _ =>
      exfalso
      rcases hd with hd | ⟨-, hd, -⟩
      · generalize s.pc = pc at hd
        generalize hl : avrCalls _ = l at hd
        cases hd with
        | idle => cases cs with
          | nil => rcases hfin with rfl | rfl <;> cases hl
          | cons c' cs' => cases hl
        | _ => cases hl
      · cases hd

/-- The driver and the stepper agree about the end of the queue after a task cycle. -/
theorem cycle_qend {a : ArchId} {v : Avr} {h : AvrHist} {s s1 : Stepper} {env : Env} {junk : NextCommand} {acc : List Cmd} {evs : List (Nat × Avr.Ev)} {now tc : Nat}
    (hhw : s.hw.q = v.q) (hf : s.fillQueue a env junk = some (s1, acc)) (hpc : v.pc = .idle) (hr : v.q.ready = true) (hi : v.q.ignoreCommands = false)
    (hc : Avr.Clocked a v now tc evs) (hcalls : avrCalls evs = taskCalls v.q.running acc) :
    SameQ v.q (Avr.track a v h (evs.map Prod.snd)).1.q ∧ (Avr.track a v h (evs.map Prod.snd)).1.q.qend = s1.hw.q.qend := by
  have hq := fillQueue_qend hf
  rw [hhw] at hq
  rw [hq]
  have hp : ∀ n c st', v.pc = .prepared n c st' → n = qendOn v.q.dirHighCountsUp v.q.qend c := by
    intro n c st' hx; rw [hpc] at hx; cases hx
  unfold taskCalls at hcalls
  by_cases h1 : v.q.running = true
  · rw [if_pos h1] at hcalls
    refine track_qend (st := true) (fin := []) (Or.inl rfl) evs hc (Or.inl ?_) hr hi hp
    rw [hpc, hcalls, ← List.append_nil (addCalls true acc)]
    exact ToDo.idle acc
  · rw [if_neg h1] at hcalls
    by_cases h2 : acc = []
    · rw [if_pos h2] at hcalls
      exact track_qend (st := true) (fin := []) (Or.inl rfl) evs hc (Or.inr ⟨hpc, hcalls, h2⟩) hr hi hp
    · rw [if_neg h2] at hcalls
      refine track_qend (st := false) (fin := [.startNull 0]) (Or.inr rfl) evs hc (Or.inl ?_) hr hi hp
      rw [hpc, hcalls]
      exact ToDo.idle acc

end FAS
