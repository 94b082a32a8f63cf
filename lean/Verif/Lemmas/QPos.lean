import Verif.Lemmas.RmtInv
import Verif.Lemmas.QueueObs

/-! Positions of the queue during the phases of addQueueEntry, for backends which do not modify the entries. -/

namespace FAS

/-- same ring and same end position -/
structure QSame (q q' : Queue) : Prop where
  entry : q'.entry = q.entry
  rd : q'.readIdx = q.readIdx
  wr : q'.nextWriteIdx = q.nextWriteIdx
  pos : q'.qend.pos = q.qend.pos

theorem QSame.refl (q : Queue) : QSame q q := ⟨rfl, rfl, rfl, rfl⟩

/-- `P` is the position after all commands in the queue -/
structure QP (a : ArchId) (P : Int) (q : Queue) (pc : AddPc) : Prop where
  idx : q.IdxOK a
  pos : q.qend.pos = i32 P
  rel : Rel a (P - signedSum ((q.pending a).map Entry.asCmd)) 0 (q.pending a) ((q.pending a).map Entry.asCmd)
  prep : ∀ next c st, pc = .prepared next c st → q.queueEntries < a.queueLen ∧ next.pos = i32 (P + c.signed) ∧ EntryOK a P 0 (q.slot a q.nextWriteIdx) c

theorem EntryOK.asCmd {a P e c} (h : EntryOK a P 0 e c) : e.asCmd = c := by
  have h1 := h.steps
  have h2 : (if a.startPosField then c.steps else c.steps - 0) = c.steps := by split <;> rfl
  rw [h2] at h1
  unfold Entry.asCmd
  rw [h.ticks, h1, h.countUp]

theorem QP.same {a P q q' pc} (h : QP a P q pc) (hs : QSame q q') : QP a P q' pc := by
  have hp := Queue.pending_congr a q q' hs.entry hs.rd hs.wr
  refine { idx := ?_, pos := hs.pos.trans h.pos, rel := by rw [hp.1]; exact h.rel, prep := ?_ }
  · exact hp.2 h.idx
  · intro next c st hpc
    obtain ⟨p1, p2, p3⟩ := h.prep next c st hpc
    refine ⟨?_, p2, ?_⟩
    · unfold Queue.queueEntries at *; rw [hs.rd, hs.wr]; exact p1
    · unfold Queue.slot at *; rw [hs.entry, hs.wr]; exact p3

theorem QP.leave {a P q pc pc'} (h : QP a P q pc) (hpc : ∀ n c st, pc' ≠ .prepared n c st) : QP a P q pc' :=
  { idx := h.idx, pos := h.pos, rel := h.rel, prep := fun n c st hx => absurd hx (hpc n c st) }

theorem QP.complete {a P q pc} (h : QP a P q pc) (hne : q.readIdx ≠ q.nextWriteIdx) : QP a P q.complete pc := by
  have hn : q.queueEntries ≠ 0 := fun hx => hne ((Queue.empty_iff a q h.idx).mpr hx)
  obtain ⟨hc, hci, hcn⟩ := Queue.pending_cons a q h.idx hn
  refine { idx := hci, pos := h.pos, rel := ?_, prep := ?_ }
  · have hr := h.rel
    rw [hc, List.map_cons] at hr
    have := hr.2
    simp only [signedSum] at this
    have e : P - ((q.slot a q.readIdx).asCmd.signed + signedSum ((q.complete.pending a).map Entry.asCmd)) + (q.slot a q.readIdx).asCmd.signed =
      P - signedSum ((q.complete.pending a).map Entry.asCmd) := by omega
    rw [e] at this
    exact this
  · intro next c st hpc
    obtain ⟨p1, p2, p3⟩ := h.prep next c st hpc
    exact ⟨by omega, p2, p3⟩

theorem QP.prepare {a P q pc} (h : QP a P q pc) (c : Cmd) (st : Bool) (hnf : q.queueEntries < a.queueLen) (hc : c.Valid) :
    QP a P (q.prepare a c).1 (.prepared (q.prepare a c).2 c st) := by
  obtain ⟨e, pe, pr, pw, prun, pready, pign, ppos, pdp, pdh, pms, pnpos, pncu, es, ecu, em, eh, et, ep⟩ := prepare_spec a q c
  have hp := Queue.pending_write_unused a q e h.idx hnf (q.prepare a c).1 pe pr pw
  have hsl : (q.prepare a c).1.slot a q.nextWriteIdx = e := by simp [Queue.slot, pe]
  have hpe : (q.prepare a c).1.queueEntries = q.queueEntries := by simp only [Queue.queueEntries, pr, pw]
  have hnp : Queue.nextPos q.qend.pos c = i32 (P + c.signed) := by
    unfold Queue.nextPos
    rw [h.pos]
    exact i32_i32_add P c.signed
  refine { idx := hp.2, pos := ppos.trans h.pos, rel := by rw [hp.1]; exact h.rel, prep := ?_ }
  intro next c' st' heq
  injection heq with h1 h2 h3
  subst h1 h2 h3
  rw [pw, hpe, hsl]
  refine ⟨hnf, pnpos.trans hnp, ?_⟩
  refine { valid := hc, ticks := et, countUp := ecu, more := em, has := eh, steps := ?_, pos16 := ?_, dn := Or.inl rfl }
  · rw [es]; split <;> rfl
  · rw [ep, hnp, h.pos]
    split
    · unfold i32; omega
    · unfold i32; omega

theorem QP.commit {a P q next c st} (h : QP a P q (.prepared next c st)) :
    QP a (P + c.signed) { q with nextWriteIdx := u8 (q.nextWriteIdx + 1), qend := next } (.committed st) := by
  obtain ⟨p1, p2, p3⟩ := h.prep next c st rfl
  obtain ⟨hp, hidx⟩ := pending_commit (a := a) next h.idx p1
  refine { idx := hidx, pos := p2, rel := ?_, prep := (fun _ _ _ hx => nomatch hx) }
  rw [hp, List.map_append, List.map_cons, List.map_nil, p3.asCmd, signedSum_append]
  refine Rel.append ?_ ?_
  · have e : P + c.signed - (signedSum ((q.pending a).map Entry.asCmd) + signedSum [c]) = P - signedSum ((q.pending a).map Entry.asCmd) := by
      simp only [signedSum]; omega
    rw [e]; exact h.rel
  · have e : P + c.signed - (signedSum ((q.pending a).map Entry.asCmd) + signedSum [c]) + signedSum ((q.pending a).map Entry.asCmd) = P := by
      simp only [signedSum]; omega
    rw [e]; exact p3

/-- the position reported, when `n` pulses of the first command have been counted -/
theorem QP.currentPosition {a P q pc} (ha : a.startPosField = true) (h : QP a P q pc) (n : Nat)
    (hn : ∀ e es, q.pending a = e :: es → n = 0 ∨ n < e.steps) :
    q.getCurrentPosition a n = i32 (P - signedSum (Hw.readOut a ⟨q, n⟩)) := by
  have hpn : q.pending a = [] ∨ ∃ e es, q.pending a = e :: es := by
    cases q.pending a with
    | nil => exact Or.inl rfl
    | cons e es => exact Or.inr ⟨e, es, rfl⟩
  rcases hpn with hpn | ⟨e, es, hpn⟩
  · have hq0 := (Queue.pending_nil_iff a q).mp hpn
    have hro : Hw.readOut a ⟨q, n⟩ = [] := by unfold Hw.readOut; simp only [hq0]; rfl
    rw [hro]
    unfold Queue.getCurrentPosition
    dsimp only
    rw [if_pos ((Queue.empty_iff a q h.idx).mpr hq0), h.pos]
    simp only [signedSum, Int.sub_zero]
    unfold i32 toU32; omega
  · have hr := h.rel
    rw [hpn, List.map_cons] at hr
    -- the specification state with `n` steps done
    have hsim : Sim a ⟨q, n⟩ { pend := e.asCmd :: es.map Entry.asCmd, done := n, pos := P - QSpec.todo { pend := e.asCmd :: es.map Entry.asCmd, done := n, pos := 0, running := q.running, ready := q.ready, ignore := q.ignoreCommands }
                               running := q.running, ready := q.ready, ignore := q.ignoreCommands } := by
      have hP : ∀ x : Int, x - QSpec.todo { pend := e.asCmd :: es.map Entry.asCmd, done := n, pos := 0, running := q.running, ready := q.ready, ignore := q.ignoreCommands } +
          QSpec.todo { pend := e.asCmd :: es.map Entry.asCmd, done := n, pos := x - QSpec.todo { pend := e.asCmd :: es.map Entry.asCmd, done := n, pos := 0, running := q.running, ready := q.ready, ignore := q.ignoreCommands }
                       running := q.running, ready := q.ready, ignore := q.ignoreCommands } = x := by
        intro x
        simp only [QSpec.todo]
        omega
      refine { idx := h.idx, run := rfl, ready := rfl, ign := rfl, doneP := by rw [ha]; rfl, rel := ?_, pos := ?_ }
      · dsimp only
        rw [hP, hpn]
        refine ⟨?_, hr.2⟩
        have h1 := hr.1
        refine { valid := h1.valid, ticks := h1.ticks, countUp := h1.countUp, more := h1.more, has := h1.has, steps := ?_, pos16 := h1.pos16, dn := ?_ }
        · have := h1.steps; rw [ha] at this ⊢; exact this
        · exact hn e es hpn
      · dsimp only
        rw [hP]; exact h.pos
    have := hsim.currentPosition
    dsimp only at this
    rw [this]
    congr 1
    have hro := hsim.readOut
    rw [hro]
    simp only [QSpec.todo, QSpec.remaining, signedSum, Cmd.signed]
    have hle : n ≤ e.asCmd.steps := by
      rcases hn e es hpn with h0 | h0
      · omega
      · change n ≤ e.steps; omega
    cases e.asCmd.countUp
    · simp only [Bool.false_eq_true, if_false]; omega
    · simp only [if_true]; omega

end FAS
