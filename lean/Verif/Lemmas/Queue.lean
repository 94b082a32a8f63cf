import Verif.Spec.Queue

/-! Helper lemmas about the ring buffer and the refinement relation to `QSpec`. -/

namespace FAS

theorem ArchId.queueLen_cases (a : ArchId) : a.queueLen = 16 ∨ a.queueLen = 32 := by
  cases a <;> simp [ArchId.queueLen]

theorem ArchId.minCmd_pos (a : ArchId) : 0 < a.minCmdTicks ∧ a.minCmdTicks ≤ 4200 := by
  cases a <;> decide

theorem i32_range (x : Int) : -2147483648 ≤ i32 x ∧ i32 x < 2147483648 := by
  unfold i32; omega

theorem i32_of_range (x : Int) (h : -2147483648 ≤ x ∧ x < 2147483648) : i32 x = x := by
  unfold i32; omega

theorem i32_i32_add (x y : Int) : i32 (i32 x + y) = i32 (x + y) := by
  unfold i32; omega

theorem i32_eq_iff (x y : Int) : i32 x = i32 y ↔ (x - y) % 4294967296 = 0 := by
  unfold i32; omega

namespace Queue

/-- the pending entries, oldest first -/
def pending (a : ArchId) (q : Queue) : List Entry :=
  (List.range q.queueEntries).map fun k => q.slot a (u8 (q.readIdx + k))

/-- index well-formedness -/
def IdxOK (a : ArchId) (q : Queue) : Prop :=
  q.readIdx < 256 ∧ q.nextWriteIdx < 256 ∧ q.queueEntries ≤ a.queueLen

theorem pending_length (a : ArchId) (q : Queue) : (q.pending a).length = q.queueEntries := by
  simp [pending]

theorem pending_get (a : ArchId) (q : Queue) (k : Nat) (h : k < q.queueEntries) :
    (q.pending a)[k]? = some (q.slot a (u8 (q.readIdx + k))) := by
  simp [pending, h]

theorem empty_iff (a : ArchId) (q : Queue) (h : q.IdxOK a) :
    q.readIdx = q.nextWriteIdx ↔ q.queueEntries = 0 := by
  obtain ⟨h1, h2, h3⟩ := h
  unfold queueEntries subU8 at *
  omega

theorem pending_nil_iff (a : ArchId) (q : Queue) : q.pending a = [] ↔ q.queueEntries = 0 := by
  rw [← pending_length a q, List.length_eq_zero_iff]

/-- head and tail of the pending list -/
theorem pending_cons (a : ArchId) (q : Queue) (h : q.IdxOK a) (hne : q.queueEntries ≠ 0) :
    q.pending a = q.slot a q.readIdx :: (q.complete).pending a ∧ q.complete.IdxOK a ∧
      q.complete.queueEntries + 1 = q.queueEntries := by
  obtain ⟨h1, h2, h3⟩ := h
  have hql := a.queueLen_cases
  have hn : q.complete.queueEntries + 1 = q.queueEntries := by
    simp only [complete, queueEntries, subU8, u8] at *
    omega
  refine ⟨?_, ⟨?_, ?_, ?_⟩, hn⟩
  · unfold pending
    rw [← hn, List.range_succ_eq_map, List.map_cons, List.map_map]
    congr 1
    · simp only [u8, Nat.add_zero]; rw [Nat.mod_eq_of_lt h1]
    · apply List.map_congr_left
      intro k _
      simp only [Function.comp, complete, slot, u8]
      congr 1
      congr 1
      omega
  · simp only [complete, u8]; omega
  · exact h2
  · omega

theorem pending_drop (a : ArchId) (q : Queue) : q.drop.pending a = [] := by
  simp only [pending_nil_iff, drop, queueEntries, subU8]
  omega

/-- appending at the write index -/
theorem pending_push (a : ArchId) (q : Queue) (e : Entry) (h : q.IdxOK a)
    (hnf : q.queueEntries < a.queueLen) (q' : Queue)
    (he : q'.entry = fun i => if i = q.nextWriteIdx % a.queueLen then e else q.entry i)
    (hr : q'.readIdx = q.readIdx) (hw : q'.nextWriteIdx = u8 (q.nextWriteIdx + 1)) :
    q'.pending a = q.pending a ++ [e] ∧ q'.IdxOK a := by
  obtain ⟨h1, h2, h3⟩ := h
  have hql := a.queueLen_cases
  have hn : q'.queueEntries = q.queueEntries + 1 := by
    simp only [queueEntries, subU8, u8, hr, hw] at *
    omega
  have hwr : (q.readIdx + q.queueEntries) % 256 = q.nextWriteIdx := by
    simp only [queueEntries, subU8] at *
    omega
  refine ⟨?_, ⟨by omega, by rw [hw]; unfold u8; omega, by omega⟩⟩
  unfold pending
  rw [hn, List.range_succ, List.map_append]
  congr 1
  · apply List.map_congr_left
    intro k hk
    rw [List.mem_range] at hk
    simp only [slot, he, hr, u8]
    rw [if_neg]
    generalize q.queueEntries = n at *
    rcases hql with hq | hq <;> rw [hq] at hnf ⊢ <;> omega
  · simp only [List.map_cons, List.map_nil, slot, he, hr, u8, hwr]
    simp

/-- writing an unused slot does not change the pending list -/
theorem pending_write_unused (a : ArchId) (q : Queue) (e : Entry) (h : q.IdxOK a)
    (hnf : q.queueEntries < a.queueLen) (q' : Queue)
    (he : q'.entry = fun i => if i = q.nextWriteIdx % a.queueLen then e else q.entry i)
    (hr : q'.readIdx = q.readIdx) (hw : q'.nextWriteIdx = q.nextWriteIdx) :
    q'.pending a = q.pending a ∧ q'.IdxOK a := by
  obtain ⟨h1, h2, h3⟩ := h
  have hql := a.queueLen_cases
  have hn : q'.queueEntries = q.queueEntries := by
    simp only [queueEntries, hr, hw]
  have hwr : (q.readIdx + q.queueEntries) % 256 = q.nextWriteIdx := by
    simp only [queueEntries, subU8] at *
    omega
  refine ⟨?_, ⟨by omega, by omega, by omega⟩⟩
  unfold pending
  rw [hn]
  apply List.map_congr_left
  intro k hk
  rw [List.mem_range] at hk
  simp only [slot, he, hr, u8]
  rw [if_neg]
  generalize q.queueEntries = n at *
  rcases hql with hq | hq <;> rw [hq] at hnf ⊢ <;> omega

/-- modifying the entry in process -/
theorem pending_modify_head (a : ArchId) (q : Queue) (f : Entry → Entry) (h : q.IdxOK a)
    (hne : q.queueEntries ≠ 0) (q' : Queue)
    (he : q'.entry = fun j => if j = q.readIdx % a.queueLen then f (q.entry (q.readIdx % a.queueLen)) else q.entry j)
    (hr : q'.readIdx = q.readIdx) (hw : q'.nextWriteIdx = q.nextWriteIdx) :
    q'.pending a = f (q.slot a q.readIdx) :: q.complete.pending a ∧ q'.IdxOK a := by
  obtain ⟨h1, h2, h3⟩ := h
  have hql := a.queueLen_cases
  have hn : q'.queueEntries = q.queueEntries := by
    simp only [queueEntries, hr, hw]
  have hok : q'.IdxOK a := ⟨by omega, by omega, by omega⟩
  refine ⟨?_, hok⟩
  have hc := pending_cons a q' hok (by omega)
  have hc0 := pending_cons a q ⟨h1, h2, h3⟩ hne
  rw [hc.1]
  congr 1
  · simp [slot, he, hr]
  · unfold pending
    have : q'.complete.queueEntries = q.complete.queueEntries := by omega
    rw [this]
    apply List.map_congr_left
    intro k hk
    rw [List.mem_range] at hk
    simp only [slot, complete, he, hr, u8]
    rw [if_neg]
    have := hc0.2.2
    generalize q.queueEntries = n at *
    generalize q.complete.queueEntries = m at *
    rcases hql with hq | hq <;> rw [hq] at h3 ⊢ <;> omega

/-- congruence: pending depends only on entries and indices -/
theorem pending_congr (a : ArchId) (q q' : Queue) (he : q'.entry = q.entry)
    (hr : q'.readIdx = q.readIdx) (hw : q'.nextWriteIdx = q.nextWriteIdx) :
    q'.pending a = q.pending a ∧ (q.IdxOK a → q'.IdxOK a) := by
  have hn : q'.queueEntries = q.queueEntries := by simp only [queueEntries, hr, hw]
  refine ⟨by simp only [pending, slot, he, hr, hn], ?_⟩
  rintro ⟨h1, h2, h3⟩
  exact ⟨by omega, by omega, by omega⟩

end Queue
end FAS

namespace FAS

/-- an entry of the ring stores command `c`, of which `d` steps are done and which starts at position `B` -/
structure EntryOK (a : ArchId) (B : Int) (d : Nat) (e : Entry) (c : Cmd) : Prop where
  valid : c.Valid
  ticks : e.ticks = c.ticks
  countUp : e.countUp = c.countUp
  more : e.moreThanOneStep = decide (c.steps > 1)
  has : e.hasSteps = decide (c.steps > 0)
  steps : e.steps = if a.startPosField then c.steps else c.steps - d
  pos16 : (e.pos16 : Int) = (if a.startPosField then B else B + c.signed) % 65536
  dn : d = 0 ∨ d < c.steps

def Rel (a : ArchId) : Int → Nat → List Entry → List Cmd → Prop
  | _, d, [], [] => d = 0
  | B, d, e :: es, c :: cs => EntryOK a B d e c ∧ Rel a (B + c.signed) 0 es cs
  | _, _, _, _ => False

theorem Rel.length {a : ArchId} : ∀ {es : List Entry} {cs : List Cmd} {B d}, Rel a B d es cs →
    es.length = cs.length
  | [], [], _, _, _ => rfl
  | _ :: es, _ :: cs, _, _, h => by
    have := Rel.length h.2
    simp [this]
  | [], _ :: _, _, _, h => h.elim
  | _ :: _, [], _, _, h => h.elim

theorem Rel.append {a : ArchId} {e : Entry} {c : Cmd} : ∀ {es : List Entry} {cs : List Cmd} {B d},
    Rel a B d es cs → EntryOK a (B + signedSum cs) 0 e c → Rel a B d (es ++ [e]) (cs ++ [c])
  | [], [], B, d, h, he => by
    have h : d = 0 := h
    subst h
    simp only [signedSum, Int.add_zero] at he
    exact ⟨he, rfl⟩
  | _ :: es, c' :: cs, B, _, h, he => by
    refine ⟨h.1, Rel.append h.2 ?_⟩
    simp only [signedSum] at he
    rw [Int.add_assoc]; exact he
  | [], _ :: _, _, _, h, _ => h.elim
  | _ :: _, [], _, _, h, _ => h.elim

/-- Refinement relation between the code's queue and the specification. -/
structure Sim (a : ArchId) (h : Hw) (s : QSpec) : Prop where
  idx : h.q.IdxOK a
  run : h.q.running = s.running
  ready : h.q.ready = s.ready
  ign : h.q.ignoreCommands = s.ignore
  doneP : h.doneP = if a.startPosField then s.done else 0
  rel : Rel a (s.pos + s.todo - signedSum s.pend) s.done (h.q.pending a) s.pend
  pos : h.q.qend.pos = i32 (s.pos + s.todo)

theorem signedSum_append (xs ys : List Cmd) : signedSum (xs ++ ys) = signedSum xs + signedSum ys := by
  induction xs with
  | nil => simp [signedSum]
  | cons x xs ih => simp [signedSum, ih, Int.add_assoc]

theorem Sim.init (a : ArchId) : Sim a (Hw.init a) QSpec.init where
  idx := by cases a <;> (unfold Queue.IdxOK; decide)
  run := rfl
  ready := rfl
  ign := rfl
  doneP := by cases a <;> rfl
  rel := by cases a <;> exact rfl
  pos := rfl

theorem Sim.length {a h s} (hs : Sim a h s) : h.q.queueEntries = s.pend.length := by
  rw [← hs.rel.length, Queue.pending_length]

theorem commandRateTicks_eq (c : Cmd) (hc : c.Valid) : Queue.commandRateTicks c = c.duration := by
  obtain ⟨h1, h2⟩ := hc
  unfold Queue.commandRateTicks Cmd.duration u32
  split
  · rw [Nat.max_eq_right (by omega)]
    have : c.ticks * c.steps ≤ 65535 * 255 := Nat.mul_le_mul (by omega) (by omega)
    omega
  · rw [Nat.max_eq_left (by omega)]; omega

/-- effect of preparing a slot -/
theorem prepare_spec (a : ArchId) (q : Queue) (c : Cmd) :
    ∃ e, (q.prepare a c).1.entry = (fun i => if i = q.nextWriteIdx % a.queueLen then e else q.entry i) ∧
      (q.prepare a c).1.readIdx = q.readIdx ∧ (q.prepare a c).1.nextWriteIdx = q.nextWriteIdx ∧
      (q.prepare a c).1.running = q.running ∧ (q.prepare a c).1.ready = q.ready ∧
      (q.prepare a c).1.ignoreCommands = q.ignoreCommands ∧
      (q.prepare a c).1.qend.pos = q.qend.pos ∧
      (q.prepare a c).1.dirPin = q.dirPin ∧ (q.prepare a c).1.dirHighCountsUp = q.dirHighCountsUp ∧
      (q.prepare a c).1.maxSpeedInTicks = q.maxSpeedInTicks ∧
      (q.prepare a c).2.pos = Queue.nextPos q.qend.pos c ∧ (q.prepare a c).2.countUp = c.countUp ∧
      e.steps = c.steps ∧ e.countUp = c.countUp ∧ e.moreThanOneStep = decide (c.steps > 1) ∧
      e.hasSteps = decide (c.steps > 0) ∧ e.ticks = c.ticks ∧
      (e.pos16 : Int) = (if a.startPosField then q.qend.pos else Queue.nextPos q.qend.pos c) % 65536 := by
  have hp : (if (q.dirPin != pinUndefined && (q.isQueueEmpty && !q.running && !pinIsExternal q.dirPin)) = true
      then ({ q.qend with dir := (c.countUp == q.dirHighCountsUp) } : QueueEnd) else q.qend).pos = q.qend.pos := by
    split <;> rfl
  unfold Queue.prepare
  dsimp only
  refine ⟨_, rfl, rfl, rfl, rfl, rfl, rfl, hp, rfl, rfl, rfl, ?_, rfl, rfl, rfl, rfl, rfl, rfl, ?_⟩
  · rw [hp]
  · simp only [hp]
    split
    · omega
    · omega

theorem Sim.todo_add {s : QSpec} (c : Cmd) (hd : s.pend = [] → s.done = 0) :
    ({ s with pend := s.pend ++ [c] } : QSpec).todo = s.todo + c.signed := by
  unfold QSpec.todo
  cases h : s.pend with
  | nil =>
    simp only [List.nil_append, signedSum, hd h, Cmd.signed]
    split <;> simp
  | cons x xs =>
    simp only [List.cons_append, signedSum_append, signedSum]
    omega

theorem Sim.done_nil {a h s} (hs : Sim a h s) : s.pend = [] → s.done = 0 := by
  intro hn
  have := hs.rel
  rw [hn] at this
  cases hp : h.q.pending a with
  | nil => rw [hp] at this; exact this
  | cons => rw [hp] at this; exact this.elim

namespace Queue

theorem add_notReady (a : ArchId) (q : Queue) (c : Cmd) (st : Bool) (h : q.ready = false) :
    q.add a c st = ⟨q, AQE_DEVICE_NOT_READY, false⟩ := by
  simp [add, h]

theorem add_full (a : ArchId) (q : Queue) (c : Cmd) (st : Bool) (h : q.ready = true)
    (h2 : q.queueEntries = a.queueLen) : q.add a c st = ⟨q, AQE_QUEUE_FULL, false⟩ := by
  simp [add, h, isQueueFull, h2]

theorem add_low (a : ArchId) (q : Queue) (c : Cmd) (st : Bool) (h : q.ready = true)
    (h2 : q.queueEntries ≠ a.queueLen) (h3 : commandRateTicks c < a.minCmdTicks) :
    q.add a c st = ⟨q, AQE_ERROR_TICKS_TOO_LOW, false⟩ := by
  simp [add, h, isQueueFull, h2, h3]

theorem add_ignored (a : ArchId) (q : Queue) (c : Cmd) (st : Bool) (h : q.ready = true)
    (h2 : q.queueEntries ≠ a.queueLen) (h3 : ¬ commandRateTicks c < a.minCmdTicks)
    (h4 : q.ignoreCommands = true) :
    q.add a c st = ⟨(q.prepare a c).1, AQE_OK, !q.running && st⟩ := by
  obtain ⟨e, pe, pr, pw, prun, pready, pign, -⟩ := prepare_spec a q c
  simp [add, h, isQueueFull, h2, h3, commit, pign, h4, prun]

theorem add_ok (a : ArchId) (q : Queue) (c : Cmd) (st : Bool) (h : q.ready = true)
    (h2 : q.queueEntries ≠ a.queueLen) (h3 : ¬ commandRateTicks c < a.minCmdTicks)
    (h4 : q.ignoreCommands = false) :
    q.add a c st = ⟨{ (q.prepare a c).1 with
      nextWriteIdx := u8 (q.nextWriteIdx + 1), qend := (q.prepare a c).2 }, AQE_OK, !q.running && st⟩ := by
  obtain ⟨e, pe, pr, pw, prun, pready, pign, -⟩ := prepare_spec a q c
  simp [add, h, isQueueFull, h2, h3, commit, pign, h4, prun, pready, pw]

/-- the queue after the optional start -/
def started (q : Queue) (st : Bool) : Queue := if st then { q with running := true } else q

theorem started_spec (a : ArchId) (q : Queue) (st : Bool) :
    (q.started st).entry = q.entry ∧ (q.started st).readIdx = q.readIdx ∧
    (q.started st).nextWriteIdx = q.nextWriteIdx ∧ (q.started st).ready = q.ready ∧
    (q.started st).ignoreCommands = q.ignoreCommands ∧ (q.started st).qend = q.qend ∧
    (q.started st).running = (q.running || st) ∧ (q.started st).pending a = q.pending a ∧
    (q.IdxOK a → (q.started st).IdxOK a) := by
  have h : (q.started st).entry = q.entry ∧ (q.started st).readIdx = q.readIdx ∧
    (q.started st).nextWriteIdx = q.nextWriteIdx ∧ (q.started st).ready = q.ready ∧
    (q.started st).ignoreCommands = q.ignoreCommands ∧ (q.started st).qend = q.qend ∧
    (q.started st).running = (q.running || st) := by
    unfold started
    cases st <;> simp
  have hp := pending_congr a q (q.started st) h.1 h.2.1 h.2.2.1
  exact ⟨h.1, h.2.1, h.2.2.1, h.2.2.2.1, h.2.2.2.2.1, h.2.2.2.2.2.1, h.2.2.2.2.2.2, hp.1, hp.2⟩

end Queue

theorem addCode_eq {a : ArchId} {s : QSpec} {c : Cmd} :
    s.addCode a c = AQE_OK ↔ s.ready = true ∧ s.pend.length < a.queueLen ∧ ¬ c.duration < a.minCmdTicks := by
  unfold QSpec.addCode
  cases s.ready <;> simp [AQE_DEVICE_NOT_READY, AQE_OK, AQE_QUEUE_FULL, AQE_ERROR_TICKS_TOO_LOW]
  by_cases h : a.queueLen ≤ s.pend.length
  · simp [h]; omega
  · simp [h]; omega

/-- Adding a command refines the specification. -/
theorem Sim.add {a h s} (hs : Sim a h s) (c : Cmd) (hc : c.Valid) (start : Bool) :
    Sim a (Hw.step a h (.add c start)).1 (QSpec.step a s (.add c start)).1 ∧
      (Hw.step a h (.add c start)).2 = (QSpec.step a s (.add c start)).2 := by
  have hlen := hs.length
  have hql := a.queueLen_cases
  have hle := hs.idx.2.2
  have hrate := commandRateTicks_eq c hc
  obtain ⟨e, pe, pr, pw, prun, pready, pign, ppos, pdp, pdh, pms, pnpos, pncu, es, ecu, em, eh, et, ep⟩ :=
    prepare_spec a h.q c
  simp only [Hw.step, QSpec.step]
  by_cases h1 : s.ready = false
  · rw [Queue.add_notReady _ _ _ _ (hs.ready.trans h1)]
    have : s.addCode a c = AQE_DEVICE_NOT_READY := by simp [QSpec.addCode, h1]
    rw [this]
    exact ⟨hs, rfl⟩
  have h1' : s.ready = true := by simpa using h1
  by_cases h2 : s.pend.length = a.queueLen
  · rw [Queue.add_full _ _ _ _ (hs.ready.trans h1') (hlen.trans h2)]
    have : s.addCode a c = AQE_QUEUE_FULL := by simp [QSpec.addCode, h1', h2]
    rw [this]
    exact ⟨hs, rfl⟩
  have h2' : h.q.queueEntries ≠ a.queueLen := by omega
  by_cases h3 : c.duration < a.minCmdTicks
  · rw [Queue.add_low _ _ _ _ (hs.ready.trans h1') h2' (by omega)]
    have : s.addCode a c = AQE_ERROR_TICKS_TOO_LOW := by
      simp only [QSpec.addCode, h1']
      rw [if_neg (by simp), if_neg (by omega), if_pos h3]
    rw [this]
    exact ⟨hs, rfl⟩
  have hcode : s.addCode a c = AQE_OK := addCode_eq.mpr ⟨h1', by omega, h3⟩
  rw [hcode, if_pos rfl]
  by_cases h4 : s.ignore = true
  · rw [Queue.add_ignored _ _ _ _ (hs.ready.trans h1') h2' (by omega) (hs.ign.trans h4)]
    refine ⟨?_, rfl⟩
    simp only [h4, if_true]
    have hp := Queue.pending_write_unused a h.q e hs.idx (by omega) (h.q.prepare a c).1 pe pr pw
    obtain ⟨k1, k2, k3, k4, k5, k6, k7, k8, k9⟩ := Queue.started_spec a (h.q.prepare a c).1 (!h.q.running && start)
    change Sim a ⟨(h.q.prepare a c).1.started (!h.q.running && start), h.doneP⟩ _
    exact { idx := k9 hp.2
            run := by refine k7.trans ?_; rw [prun, hs.run]; cases s.running <;> cases start <;> rfl
            ready := k4.trans (pready.trans hs.ready)
            ign := by simp only [k5, pign, hs.ign, h4]
            doneP := hs.doneP
            rel := by simp only [k8, hp.1]; exact hs.rel
            pos := by simp only [k6, ppos]; exact hs.pos }
  have h4' : s.ignore = false := by simpa using h4
  rw [Queue.add_ok _ _ _ _ (hs.ready.trans h1') h2' (by omega) (hs.ign.trans h4')]
  refine ⟨?_, rfl⟩
  simp only [h4', Bool.false_eq_true, if_false]
  have hp := Queue.pending_push a h.q e hs.idx (by omega) { (h.q.prepare a c).1 with
          nextWriteIdx := u8 (h.q.nextWriteIdx + 1), qend := (h.q.prepare a c).2 }
          pe pr rfl
  have ht : ({ s with pend := s.pend ++ [c], running := s.running || start } : QSpec).todo = s.todo + c.signed :=
      Sim.todo_add (s := { s with running := s.running || start }) c hs.done_nil
  obtain ⟨k1, k2, k3, k4, k5, k6, k7, k8, k9⟩ := Queue.started_spec a ({ (h.q.prepare a c).1 with
          nextWriteIdx := u8 (h.q.nextWriteIdx + 1), qend := (h.q.prepare a c).2 }) (!h.q.running && start)
  change Sim a ⟨Queue.started ({ (h.q.prepare a c).1 with
          nextWriteIdx := u8 (h.q.nextWriteIdx + 1), qend := (h.q.prepare a c).2 })
          (!h.q.running && start), h.doneP⟩ _
  refine { idx := k9 hp.2, run := ?_, ready := k4.trans (pready.trans hs.ready), ign := ?_, doneP := hs.doneP,
           rel := ?_, pos := ?_ }
  · refine k7.trans ?_; simp only [prun, hs.run]; cases s.running <;> cases start <;> rfl
  · refine k5.trans ?_; simp only [pign, hs.ign, h4']
  · rw [← h4', ht]
    simp only [k8, hp.1]
    simp only [signedSum_append, signedSum, Int.add_zero]
    have : s.pos + (s.todo + c.signed) - (signedSum s.pend + c.signed) = s.pos + s.todo - signedSum s.pend := by omega
    rw [this]
    refine hs.rel.append ?_
    have : s.pos + s.todo - signedSum s.pend + signedSum s.pend = s.pos + s.todo := by omega
    rw [this]
    refine { valid := hc, ticks := et, countUp := ecu, more := em, has := eh, steps := (by simp [es]), pos16 := ?_,
             dn := Or.inl rfl }
    rw [ep, hs.pos]
    split
    · unfold i32; omega
    · unfold Queue.nextPos Cmd.signed i32; split <;> omega
  · rw [← h4', ht]
    simp only [k6, pnpos, Queue.nextPos, hs.pos]
    rw [i32_i32_add, Int.add_assoc]
    rfl

theorem Sim.addNull {a h s} (hs : Sim a h s) (start : Bool) :
    Sim a (Hw.step a h (.addNull start)).1 (QSpec.step a s (.addNull start)).1 ∧
      (Hw.step a h (.addNull start)).2 = (QSpec.step a s (.addNull start)).2 := by
  have hemp : h.q.nextWriteIdx = h.q.readIdx ↔ s.pend = [] := by
    rw [eq_comm, Queue.empty_iff a h.q hs.idx, hs.length, List.length_eq_zero_iff]
  simp only [Hw.step, QSpec.step]
  by_cases h1 : s.ready = false
  · have e1 : h.q.addNull start = ⟨h.q, AQE_DEVICE_NOT_READY, false⟩ := by
      simp [Queue.addNull, hs.ready, h1]
    have e2 : s.nullCode start = AQE_DEVICE_NOT_READY := by simp [QSpec.nullCode, h1]
    rw [e1, e2]
    exact ⟨hs, rfl⟩
  have h1' : s.ready = true := by simpa using h1
  by_cases h2 : start = true ∧ s.running = false ∧ s.pend = []
  · have e1 : h.q.addNull start = ⟨h.q, AQE_ERROR_EMPTY_QUEUE_TO_START, false⟩ := by
      simp [Queue.addNull, hs.ready, h1', hs.run, h2.1, h2.2.1, hemp.mpr h2.2.2]
    have e2 : s.nullCode start = AQE_ERROR_EMPTY_QUEUE_TO_START := by simp [QSpec.nullCode, h1', h2]
    rw [e1, e2]
    exact ⟨hs, rfl⟩
  have e1 : h.q.addNull start = ⟨h.q, AQE_OK, start && !h.q.running⟩ := by
    unfold Queue.addNull
    rw [hs.ready, h1']
    cases hst : start with
    | false => simp
    | true =>
      cases hrun : s.running with
      | true => simp [hs.run, hrun]
      | false =>
        have : ¬ h.q.nextWriteIdx = h.q.readIdx := by
          rw [hemp]; intro hh; exact h2 ⟨hst, hrun, hh⟩
        simp [hs.run, hrun, this]
  have e2 : s.nullCode start = AQE_OK := by simp only [QSpec.nullCode, h1', if_neg h2]; simp
  rw [e1, e2]
  obtain ⟨k1, k2, k3, k4, k5, k6, k7, k8, k9⟩ := Queue.started_spec a h.q (start && !h.q.running)
  refine ⟨?_, rfl⟩
  change Sim a ⟨h.q.started (start && !h.q.running), h.doneP⟩ _
  refine { idx := k9 hs.idx, run := ?_, ready := k4.trans hs.ready, ign := k5.trans hs.ign, doneP := hs.doneP,
           rel := ?_, pos := ?_ }
  · refine k7.trans ?_; simp only [hs.run]; cases s.running <;> cases start <;> rfl
  · simp only [k8]; exact hs.rel
  · simp only [k6]; exact hs.pos

theorem Rel.todo {a : ArchId} {s : QSpec} {es : List Entry} {c : Cmd} {cs : List Cmd} {B : Int} (hp : s.pend = c :: cs)
    (_h : Rel a B s.done es s.pend) :
    s.todo = signedSum s.pend - (if c.countUp then (s.done : Int) else -(s.done : Int)) := by
  unfold QSpec.todo
  rw [hp]
  simp only [signedSum, Cmd.signed]
  split <;> omega

theorem Sim.advance {a h s} (hs : Sim a h s) : Sim a (h.advance a) s.advance := by
  unfold Hw.advance Queue.isQueueEmpty
  by_cases he : h.q.queueEntries = 0
  · have : s.pend = [] := by
      rw [← List.length_eq_zero_iff, ← hs.length, he]
    simp [he, QSpec.advance, this]
    exact hs
  simp only [beq_iff_eq, he, if_false]
  obtain ⟨hcons, hidx, hn⟩ := Queue.pending_cons a h.q hs.idx he
  have hrel := hs.rel
  cases hp : s.pend with
  | nil => rw [← List.length_eq_zero_iff, ← hs.length] at hp; exact absurd hp he
  | cons c cs =>
  have htodo := Rel.todo (a := a) (es := h.q.pending a) hp hrel
  rw [hp, hcons] at hrel
  obtain ⟨hent, htail⟩ := hrel
  have hslot : h.q.entry (h.q.readIdx % a.queueLen) = h.q.slot a h.q.readIdx := rfl
  rw [hslot]
  have hpos := hs.pos
  rw [htodo, hp] at hpos
  rw [htodo, hp] at htail hent
  simp only [signedSum] at hpos htail hent
  -- completion of the head
  have hcomp : ∀ p : Int, p = s.pos + c.signed - (if c.countUp then (s.done : Int) else -(s.done : Int)) →
      Sim a ⟨h.q.complete, 0⟩ { s with pend := cs, done := 0, pos := p } := by
    intro p hpe
    have ht : ({ s with pend := cs, done := 0, pos := p } : QSpec).todo = signedSum cs := by
      unfold QSpec.todo
      cases cs with
      | nil => rfl
      | cons d ds =>
        simp only [signedSum, Cmd.signed]
        split <;> omega
    refine { idx := hidx, run := hs.run, ready := hs.ready, ign := hs.ign, doneP := by simp, rel := ?_, pos := ?_ }
    · rw [ht]
      simp only
      have : p + signedSum cs - signedSum cs = s.pos + (c.signed + signedSum cs -
        (if c.countUp then (s.done : Int) else -(s.done : Int))) - (c.signed + signedSum cs) + c.signed := by omega
      rw [this]; exact htail
    · rw [ht]
      simp only [Queue.complete]
      rw [hpos]
      congr 1; omega
  have hesteps := hent.steps
  have hdn := hent.dn
  simp only [QSpec.advance, hp]
  by_cases hs0 : c.steps = 0
  · have : (h.q.slot a h.q.readIdx).steps = 0 := by rw [hesteps]; split <;> omega
    simp only [this, if_true, hs0]
    apply hcomp
    have : s.done = 0 := by omega
    simp [Cmd.signed, hs0, this]
  have hne0 : (h.q.slot a h.q.readIdx).steps ≠ 0 := by rw [hesteps]; split <;> omega
  simp only [hne0, if_false, hs0]
  by_cases hlast : s.done + 1 = c.steps
  · simp only [hlast, if_true]
    have hfin : Sim a ⟨h.q.complete, 0⟩ { s with pend := cs, done := 0, pos := s.pos + if c.countUp then 1 else -1 } := by
      apply hcomp
      unfold Cmd.signed
      split <;> omega
    by_cases hst : a.startPosField = true
    · have hd := hs.doneP
      simp only [hst, if_true] at hd hesteps ⊢
      rw [if_neg (by omega)]
      exact hfin
    · simp only [hst] at hesteps ⊢
      simp only [Bool.false_eq_true, if_false] at hesteps ⊢
      rw [if_neg (by omega)]
      exact hfin
  · simp only [hlast, if_false]
    have ht : ∀ d p, ({ s with pend := c :: cs, done := d, pos := p } : QSpec).todo =
        c.signed + signedSum cs - (if c.countUp then (d : Int) else -(d : Int)) := by
      intro d p
      unfold QSpec.todo
      simp only [Cmd.signed]
      split <;> omega
    have hbase : s.pos + (if c.countUp then 1 else -1 : Int) + (c.signed + signedSum cs -
        (if c.countUp then ((s.done + 1 : Nat) : Int) else -((s.done + 1 : Nat) : Int))) =
        s.pos + (c.signed + signedSum cs - (if c.countUp then (s.done : Int) else -(s.done : Int))) := by
      split <;> omega
    by_cases hst : a.startPosField = true
    · have hd := hs.doneP
      simp only [hst, if_true] at hd hesteps ⊢
      rw [if_pos (by omega)]
      refine { idx := hs.idx, run := hs.run, ready := hs.ready, ign := hs.ign, doneP := ?_, rel := ?_, pos := ?_ }
      · simp [hst, hd]
      · rw [ht, hbase]
        simp only [signedSum, hcons]
        refine ⟨?_, htail⟩
        exact { hent with steps := (by simp [hst, hesteps]), dn := by omega }
      · rw [ht, hbase]; exact hpos
    · simp only [hst] at hesteps ⊢
      simp only [Bool.false_eq_true, if_false] at hesteps ⊢
      rw [if_pos (by omega)]
      have hm := Queue.pending_modify_head a h.q (fun e => { e with steps := e.steps - 1 }) hs.idx he
        { h.q with entry := fun j => if j = h.q.readIdx % a.queueLen then
            (fun e : Entry => { e with steps := e.steps - 1 }) (h.q.entry (h.q.readIdx % a.queueLen)) else h.q.entry j }
        rfl rfl rfl
      refine { idx := hm.2, run := hs.run, ready := hs.ready, ign := hs.ign, doneP := ?_, rel := ?_, pos := ?_ }
      · have hd := hs.doneP
        simp only [hst] at hd ⊢
        simpa using hd
      · rw [ht, hbase]
        simp only [signedSum]
        have := hm.1
        rw [hslot] at this
        rw [this]
        refine ⟨?_, htail⟩
        refine { hent with steps := ?_, dn := by omega }
        simp only [hst]
        simp only [Bool.false_eq_true, if_false]
        omega
      · rw [ht, hbase]; exact hpos

theorem Sim.dropAll {a h s} (hs : Sim a h s) :
    Sim a (Hw.step a h .dropAll).1 (QSpec.step a s .dropAll).1 := by
  have hidx := hs.idx
  refine { idx := ?_, run := rfl, ready := hs.ready, ign := hs.ign, doneP := ?_, rel := ?_, pos := ?_ }
  · obtain ⟨h1, h2, h3⟩ := hidx
    simp only [Hw.step, Queue.drop, Queue.IdxOK, Queue.queueEntries, subU8]
    exact ⟨h2, h2, by omega⟩
  · simp [Hw.step, QSpec.step]
  · simp only [Hw.step, QSpec.step, Queue.pending_drop]
    exact rfl
  · simp only [Hw.step, QSpec.step, QSpec.todo, Int.add_zero]
    exact hs.pos

/-- One operation refines the specification. -/
theorem Sim.step {a h s} (hs : Sim a h s) (op : Hw.Op) (hv : op.Valid) :
    Sim a (Hw.step a h op).1 (QSpec.step a s op).1 ∧ (Hw.step a h op).2 = (QSpec.step a s op).2 := by
  cases op with
  | add c st => exact hs.add c hv st
  | addNull st => exact hs.addNull st
  | advance => exact ⟨hs.advance, rfl⟩
  | dropAll => exact ⟨hs.dropAll, rfl⟩
  | setRunning b =>
    have hc' := Queue.pending_congr a h.q { h.q with running := b } rfl rfl rfl
    exact ⟨{ hs with idx := hc'.2 hs.idx, run := rfl, rel := by simp only [Hw.step, hc'.1]; exact hs.rel }, rfl⟩
  | setReady b =>
    have hc' := Queue.pending_congr a h.q { h.q with ready := b } rfl rfl rfl
    exact ⟨{ hs with idx := hc'.2 hs.idx, ready := rfl, rel := by simp only [Hw.step, hc'.1]; exact hs.rel }, rfl⟩
  | setIgnore b =>
    have hc' := Queue.pending_congr a h.q { h.q with ignoreCommands := b } rfl rfl rfl
    exact ⟨{ hs with idx := hc'.2 hs.idx, ign := rfl, rel := by simp only [Hw.step, hc'.1]; exact hs.rel }, rfl⟩
  | setDirPin p b =>
    have hc' := Queue.pending_congr a h.q (h.q.setDirPin p b) rfl rfl rfl
    exact ⟨{ hs with idx := hc'.2 hs.idx, rel := by simp only [Hw.step, hc'.1]; exact hs.rel }, rfl⟩

/-- A history refines the specification. -/
theorem Sim.exec {a} : ∀ (ops : List Hw.Op) {h s}, Sim a h s → (∀ op ∈ ops, op.Valid) →
    Sim a (Hw.run a h ops).1 (QSpec.run a s ops).1 ∧ (Hw.run a h ops).2 = (QSpec.run a s ops).2
  | [], _, _, hs, _ => ⟨hs, rfl⟩
  | op :: ops, h, s, hs, hv => by
    have h1 := hs.step op (hv op (by simp))
    have h2 := Sim.exec ops h1.1 (fun o ho => hv o (by simp [ho]))
    exact ⟨h2.1, by simp only [Hw.run, QSpec.run, h1.2, h2.2]⟩

end FAS
