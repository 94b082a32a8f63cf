import Verif.Lemmas.Mcpwm

/-! The position reported by the MCPWM/PCNT backend. -/

namespace FAS

/-- without pending interrupt the remaining commands are in the queue -/
theorem mcpwm_todo_served {s : Mcpwm ShadowPcnt} (hs : s.Served) : s.todo = Hw.readOut .esp32 ⟨s.q, if s.q.running then s.pcnt.val else 0⟩ := by
  have key : ∀ n, Hw.readOut .esp32 ⟨s.q, n⟩ = match (s.q.pending .esp32).map Entry.asCmd with | [] => [] | c :: cs => { c with steps := c.steps - n } :: cs := by
    intro n
    unfold Hw.readOut Queue.pending
    dsimp only
    cases hq : s.q.queueEntries with
    | zero => rfl
    | succ m =>
      rw [List.range_succ_eq_map]
      simp only [List.map_cons, List.map_map]
      refine congr (congrArg List.cons rfl) ?_
      apply List.map_congr_left
      intro k _
      simp only [Function.comp, Nat.succ_ne_zero, if_false]
      rfl
  rw [key]
  unfold Mcpwm.todo
  cases (s.q.pending .esp32).map Entry.asCmd with
  | nil => rfl
  | cons c cs =>
    dsimp only
    cases hr : s.q.running with
    | false => rfl
    | true =>
      rw [hs.1, hs.2]
      simp

structure PI (p0 : Int) (s : Mcpwm ShadowPcnt) (acc : List Cmd) : Prop where
  qp : QP .esp32 (p0 + signedSum acc) s.q s.pc
  off : s.q.running = false → s.pcnt.val = 0

theorem PI.sync {p0 s acc} (h : PI p0 s acc) : PI p0 s.sync acc :=
  { qp := h.qp.same ⟨rfl, rfl, rfl, rfl⟩, off := h.off }

theorem PI.isr {p0 acc} {s : Mcpwm ShadowPcnt} (h : PI p0 s acc) (hv : s.pcnt.val = 0) (hr : s.q.running = true) : PI p0 (s.whatIsNext shadowPcnt) acc := by
  obtain ⟨_, _, f3, f4, q0, f5, f6⟩ := mcpwm_next_frame shadowPcnt s
  refine { qp := ?_, off := ?_ }
  · rw [f3]
    have h0 : QP .esp32 (p0 + signedSum acc) q0 s.pc := by
      rcases f5 with f5 | ⟨f5, _, f7⟩
      · rw [f5]; exact h.qp
      · rw [f7]; exact h.qp.complete f5
    exact h0.same f6
  · intro hx
    rcases f4 with f4 | f4
    · rw [f4, hr] at hx; cases hx
    · rw [f4.2]; exact hv

theorem PI.start {p0 acc} {s : Mcpwm ShadowPcnt} (h : PI p0 s acc) : PI p0 (s.startQueue shadowPcnt) acc := by
  unfold Mcpwm.startQueue
  dsimp only
  obtain ⟨_, _, _, a4, a5, _, _, a8⟩ := mcpwm_apply_frame shadowPcnt { s with pcnt := shadowPcnt.clear s.pcnt, prepared := false, q := { s.q with running := true } }
    (Queue.slot .esp32 { s.q with running := true } s.q.readIdx)
  refine { qp := ?_, off := ?_ }
  · change QP _ _ _ (Mcpwm.apply shadowPcnt _ _).pc
    rw [a4]
    exact (h.qp.same (q' := { s.q with running := true }) ⟨rfl, rfl, rfl, rfl⟩).same a8
  · intro hx
    have : (Mcpwm.apply shadowPcnt { s with pcnt := shadowPcnt.clear s.pcnt, prepared := false, q := { s.q with running := true } }
      (Queue.slot .esp32 { s.q with running := true } s.q.readIdx)).q.running = false := hx
    rw [a5] at this
    cases this

theorem PI.step {lvl D p0 s acc} (hi : PI p0 s acc) (h : MInv lvl D s acc) (ev : Mcpwm.Ev) (hp : s.Basic ev) :
    PI p0 (s.step shadowPcnt ev) (acc ++ s.accepts ev) := by
  have hfin : (s.irq || (s.tea && s.ena)) = true → s.pcnt.val = 0 ∧ s.q.running = true := by
    intro hx
    cases hr : s.q.running with
    | false => rw [(h.off hr).2.2.1, (h.off hr).2.1] at hx; simp at hx
    | true =>
      obtain ⟨e, es, _, _, _, _, _, _, h7⟩ := h.on hr
      rcases h7 with h7 | h7
      · rw [h7.served] at hx; cases hx
      · exact ⟨h7.val, rfl⟩
  unfold Mcpwm.step
  apply PI.sync
  cases ev with
  | zero =>
    simp only [Mcpwm.accepts, List.append_nil]
    by_cases ht : s.timer = .high
    · rw [if_pos ht]; exact { qp := hi.qp, off := hi.off }
    · rw [if_neg ht]; exact hi
  | compare =>
    simp only [Mcpwm.accepts, List.append_nil]
    by_cases ht : s.timer = .low
    · rw [if_pos ht]
      have hr : s.q.running = true := by
        cases hr : s.q.running with
        | true => rfl
        | false => exact absurd ht (h.off hr).2.2.2
      have hq : (s.compare shadowPcnt).q = s.q ∧ (s.compare shadowPcnt).pc = s.pc := by
        unfold Mcpwm.compare
        dsimp only
        split <;> exact ⟨rfl, rfl⟩
      refine { qp := by rw [hq.1, hq.2]; exact hi.qp, off := ?_ }
      rw [hq.1, hr]; exact (fun hx => nomatch hx)
    · rw [if_neg ht]; exact hi
  | pcntIsr =>
    simp only [Mcpwm.accepts, List.append_nil]
    by_cases ht : s.irq = true
    · rw [if_pos ht]
      obtain ⟨hv, hr⟩ := hfin (by rw [ht]; rfl)
      exact PI.isr (s := { s with irq := false }) { qp := hi.qp, off := hi.off } hv hr
    · rw [if_neg ht]; exact hi
  | teaIsr =>
    simp only [Mcpwm.accepts, List.append_nil]
    by_cases ht : (s.tea && s.ena) = true
    · rw [if_pos ht]
      obtain ⟨hv, hr⟩ := hfin (by rw [ht]; simp)
      exact hi.isr hv hr
    · rw [if_neg ht]; exact hi
  | otherRead => simp only [Mcpwm.accepts, List.append_nil]; exact { qp := hi.qp, off := hi.off }
  | otherWrite => simp only [Mcpwm.accepts, List.append_nil]; exact { qp := hi.qp, off := hi.off }
  | addBegin c st =>
    simp only [Mcpwm.accepts, List.append_nil]
    cases hpc : s.pc with
    | idle =>
      simp only
      by_cases h1 : (!s.q.ready) = true
      · rw [if_pos h1]; exact hi
      rw [if_neg h1]
      by_cases h2 : s.q.isQueueFull .esp32 = true
      · rw [if_pos h2]; exact hi
      rw [if_neg h2]
      by_cases h3 : Queue.commandRateTicks c < ArchId.esp32.minCmdTicks
      · rw [if_pos h3]; exact hi
      rw [if_neg h3]
      have h4 := h.mq.idx.2.2
      have h5 : s.q.queueEntries ≠ ArchId.esp32.queueLen := by
        intro hx
        apply h2
        unfold Queue.isQueueFull
        rw [hx]
        simp
      exact { qp := hi.qp.prepare c st (by omega) hp, off := hi.off }
    | prepared n c' st' => exact hi
    | committed st' => exact hi
  | addCommit =>
    cases hpc : s.pc with
    | idle => simp only [Mcpwm.accepts, hpc, List.append_nil]; exact hi
    | committed st => simp only [Mcpwm.accepts, hpc, List.append_nil]; exact hi
    | prepared next c st =>
      simp only [Mcpwm.accepts, hpc, h.mq.ign]
      have hqp := hi.qp
      rw [hpc] at hqp
      by_cases hrd : s.q.ready = true
      · have e : (if (s.q.ready && !false) = true then [c] else []) = [c] := by rw [hrd]; rfl
        rw [e, commit_ok s.q next hrd h.mq.ign]
        refine { qp := ?_, off := hi.off }
        have e2 : p0 + signedSum (acc ++ [c]) = p0 + signedSum acc + c.signed := by
          rw [signedSum_append]; simp only [signedSum]; omega
        rw [e2]
        exact hqp.commit
      · have hrd : s.q.ready = false := by simpa using hrd
        have hc : s.q.commit next = (s.q, false) := by simp [Queue.commit, h.mq.ign, hrd]
        rw [hc, hrd]
        simp only [Bool.false_and, Bool.false_eq_true, if_false, List.append_nil]
        exact { qp := hi.qp.leave (fun _ _ _ hx => nomatch hx), off := hi.off }
  | addFinish =>
    simp only [Mcpwm.accepts, List.append_nil]
    cases hpc : s.pc with
    | idle => exact hi
    | prepared n c st => exact hi
    | committed st =>
      simp only
      have hl : PI p0 { s with pc := .idle } acc := { qp := hi.qp.leave (fun _ _ _ hx => nomatch hx), off := hi.off }
      by_cases hx : (!s.q.running && st) = true
      · rw [if_pos hx]; exact hl.start
      · rw [if_neg hx]; exact hl
  | startNull =>
    simp only [Mcpwm.accepts, List.append_nil]
    cases hpc : s.pc with
    | prepared n c st => exact hi
    | committed st => exact hi
    | idle =>
      simp only
      by_cases hx : (s.q.addNull true).start = true
      · rw [if_pos hx]; exact hi.start
      · rw [if_neg hx]; exact hi
  | forceStop p => exact hp.elim
  | clearIgnore => simp only [Mcpwm.accepts, List.append_nil]; exact { qp := hi.qp.same ⟨rfl, rfl, rfl, rfl⟩, off := hi.off }

theorem PI.run {lvl D p0} (hD : ∀ u, D u (lvl u)) : ∀ (evs : List Mcpwm.Ev) {s acc}, PI p0 s acc → MInv lvl D s acc → Mcpwm.Along shadowPcnt Mcpwm.Basic s evs →
    PI p0 (Mcpwm.track shadowPcnt s acc evs).1 (Mcpwm.track shadowPcnt s acc evs).2
  | [], _, _, hi, _, _ => hi
  | ev :: evs, _, _, hi, h, hp => PI.run hD evs (hi.step h ev hp.1) (h.step hD ev hp.1) hp.2

theorem PI.idle {s : Mcpwm ShadowPcnt} (h : s.Idle) (hv : s.pcnt.val = 0) (p0 : Int) (hpos : s.q.qend.pos = i32 p0) : PI p0 s [] := by
  have hn : s.q.queueEntries = 0 := by
    have := h.idx
    unfold Queue.queueEntries subU8
    omega
  have hpn : s.q.pending .esp32 = [] := (Queue.pending_nil_iff _ _).mpr hn
  refine { qp := { idx := ⟨h.idx.2, by have := h.idx; omega, by rw [hn]; omega⟩, pos := by simpa [signedSum] using hpos, rel := ?_, prep := ?_ }, off := fun _ => hv }
  · rw [hpn]; rfl
  · intro n c st hx; rw [h.pc] at hx; cases hx

theorem travel_append (a b : List (Nat × Bool × Option Bool)) : travel (a ++ b) = travel a + travel b := by
  induction a with
  | nil => simp [travel]
  | cons x xs ih =>
    obtain ⟨t, p, u⟩ := x
    rw [List.cons_append]
    simp only [travel, ih]
    omega

theorem travel_cycles (l : List Cmd) : travel (cycles l) = signedSum l := by
  induction l with
  | nil => rfl
  | cons c cs ih =>
    simp only [cycles, travel_append, ih, signedSum]
    congr 1
    have key : ∀ n : Nat, travel (List.replicate n (c.ticks, decide (c.steps ≠ 0), some c.countUp)) = if c.steps = 0 then 0 else (if c.countUp then (n : Int) else -(n : Int)) := by
      intro n
      induction n with
      | zero => simp [travel]
      | succ n ihn =>
        rw [List.replicate_succ]
        simp only [travel, ihn]
        by_cases h0 : c.steps = 0
        · simp [h0]
        · cases c.countUp <;> simp [h0] <;> omega
    rw [key]
    unfold Cmd.signed
    by_cases h0 : c.steps = 0
    · simp [h0]
    · rw [if_neg h0, Nat.max_eq_right (by omega)]

theorem Mcpwm.track_acc {σ : Type} (hw : PcntHw σ) : ∀ (evs : List Mcpwm.Ev) (s : Mcpwm σ) (acc : List Cmd),
    Mcpwm.track hw s acc evs = ((Mcpwm.track hw s [] evs).1, acc ++ (Mcpwm.track hw s [] evs).2)
  | [], _, _ => by simp [Mcpwm.track]
  | ev :: evs, s, acc => by
    simp only [Mcpwm.track, List.nil_append]
    rw [Mcpwm.track_acc hw evs _ (acc ++ s.accepts ev), Mcpwm.track_acc hw evs _ (s.accepts ev)]
    simp

/-- the position reported, if no interrupt is pending -/
theorem PI.position {lvl D p0 s acc} (hi : PI p0 s acc) (h : MInv lvl D s acc) (hs : s.Served) :
    s.q.getCurrentPosition .esp32 s.pcnt.val = i32 (p0 + travel (s.log.reverse.map Cycle.shape)) := by
  have hval : s.pcnt.val = if s.q.running then s.pcnt.val else 0 := by
    cases hr : s.q.running with
    | true => rfl
    | false => rw [hi.off hr]; rfl
  have hn : ∀ e es, s.q.pending .esp32 = e :: es → s.pcnt.val = 0 ∨ s.pcnt.val < e.steps := by
    intro e es he
    cases hr : s.q.running with
    | false => exact Or.inl (hi.off hr)
    | true =>
      obtain ⟨e', es', h1, _, _, _, _, _, h7⟩ := h.on hr
      rw [h1] at he
      injection he with he1 _
      rcases h7 with h7 | h7
      · by_cases h0 : e'.steps = 0
        · exact Or.inl (h7.pause h0).2
        · rw [← he1]; exact Or.inr (h7.steps h0).2
      · exact Or.inl h7.val
  rw [hi.qp.currentPosition rfl s.pcnt.val hn]
  congr 1
  have hl := congrArg travel h.log
  rw [travel_append, travel_cycles, travel_cycles] at hl
  have htodo : s.todo = Hw.readOut .esp32 ⟨s.q, s.pcnt.val⟩ := by
    rw [mcpwm_todo_served hs, ← hval]
  rw [htodo] at hl
  omega

/-- counted pulses of the command in process: no interrupt is pending -/
theorem PI.counting {lvl D p0 s acc} (hi : PI p0 s acc) (h : MInv lvl D s acc) (hv : s.pcnt.val ≠ 0) : s.Served := by
  cases hr : s.q.running with
  | false => exact absurd (hi.off hr) hv
  | true =>
    obtain ⟨e, es, _, _, _, _, _, _, h7⟩ := h.on hr
    rcases h7 with h7 | h7
    · exact Mcpwm.served_of h7.served
    · exact absurd h7.val hv

end FAS
