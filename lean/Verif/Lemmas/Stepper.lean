import Verif.Spec.Stepper
import Verif.Lemmas.Queue

/-!
# Lemmas about `addQueueEntry` on stepper level
-/

namespace FAS
open Spec

/-! ## Hardware progress -/

theorem Hw.advance_fields (a : ArchId) (h : Hw) :
    (h.advance a).q.qend = h.q.qend ∧ (h.advance a).q.ignoreCommands = h.q.ignoreCommands ∧
    (h.advance a).q.dirPin = h.q.dirPin ∧ (h.advance a).q.dirHighCountsUp = h.q.dirHighCountsUp ∧
    (h.advance a).q.ready = h.q.ready ∧ (h.advance a).q.maxSpeedInTicks = h.q.maxSpeedInTicks := by
  unfold Hw.advance
  dsimp only
  repeat' split
  all_goals exact ⟨rfl, rfl, rfl, rfl, rfl, rfl⟩

theorem Hw.advances_fields (a : ArchId) (n : Nat) (h : Hw) :
    (h.advances a n).q.qend = h.q.qend ∧ (h.advances a n).q.ignoreCommands = h.q.ignoreCommands ∧
    (h.advances a n).q.dirPin = h.q.dirPin ∧ (h.advances a n).q.dirHighCountsUp = h.q.dirHighCountsUp ∧
    (h.advances a n).q.ready = h.q.ready ∧ (h.advances a n).q.maxSpeedInTicks = h.q.maxSpeedInTicks := by
  induction n generalizing h with
  | zero => exact ⟨rfl, rfl, rfl, rfl, rfl, rfl⟩
  | succ n ih =>
    have h1 := ih (h.advanceRep a)
    have h2 : (h.advanceRep a).q.qend = h.q.qend ∧ (h.advanceRep a).q.ignoreCommands = h.q.ignoreCommands ∧
        (h.advanceRep a).q.dirPin = h.q.dirPin ∧ (h.advanceRep a).q.dirHighCountsUp = h.q.dirHighCountsUp ∧
        (h.advanceRep a).q.ready = h.q.ready ∧ (h.advanceRep a).q.maxSpeedInTicks = h.q.maxSpeedInTicks := by
      unfold Hw.advanceRep
      split
      · exact ⟨rfl, rfl, rfl, rfl, rfl, rfl⟩
      · exact h.advance_fields a
    exact ⟨h1.1.trans h2.1, h1.2.1.trans h2.2.1, h1.2.2.1.trans h2.2.2.1, h1.2.2.2.1.trans h2.2.2.2.1,
      h1.2.2.2.2.1.trans h2.2.2.2.2.1, h1.2.2.2.2.2.trans h2.2.2.2.2.2⟩

theorem Hw.gap_fields (a : ArchId) (h : Hw) (g : Gap) :
    (h.gap a g).q.qend = h.q.qend ∧ (h.gap a g).q.ignoreCommands = h.q.ignoreCommands ∧
    (h.gap a g).q.dirPin = h.q.dirPin ∧ (h.gap a g).q.dirHighCountsUp = h.q.dirHighCountsUp ∧
    (h.gap a g).q.ready = h.q.ready ∧ (h.gap a g).q.maxSpeedInTicks = h.q.maxSpeedInTicks :=
  h.advances_fields a g.advances

theorem Hw.advance_idx (a : ArchId) (h : Hw) (hi : h.q.IdxOK a) :
    (h.advance a).q.IdxOK a ∧ (h.advance a).q.queueEntries ≤ h.q.queueEntries := by
  unfold Hw.advance Queue.isQueueEmpty
  by_cases he : h.q.queueEntries = 0
  · simp [he, hi]
  · have hc := Queue.pending_cons a h.q hi he
    have hc2 : h.q.complete.queueEntries ≤ h.q.queueEntries := by omega
    simp only [beq_iff_eq, he, if_false]
    repeat' split
    all_goals first
      | exact ⟨hc.2.1, hc2⟩
      | exact ⟨hi, Nat.le_refl _⟩

theorem Hw.advances_idx (a : ArchId) (n : Nat) (h : Hw) (hi : h.q.IdxOK a) :
    (h.advances a n).q.IdxOK a ∧ (h.advances a n).q.queueEntries ≤ h.q.queueEntries := by
  induction n generalizing h with
  | zero => exact ⟨hi, Nat.le_refl _⟩
  | succ n ih =>
    have h2 : (h.advanceRep a).q.IdxOK a ∧ (h.advanceRep a).q.queueEntries ≤ h.q.queueEntries := by
      unfold Hw.advanceRep
      split
      · exact ⟨hi, Nat.le_refl _⟩
      · exact h.advance_idx a hi
    have h1 := ih (h.advanceRep a) h2.1
    exact ⟨h1.1, Nat.le_trans h1.2 h2.2⟩

theorem Hw.gap_idx (a : ArchId) (h : Hw) (g : Gap) (hi : h.q.IdxOK a) :
    (h.gap a g).q.IdxOK a ∧ (h.gap a g).q.queueEntries ≤ h.q.queueEntries :=
  h.advances_idx a g.advances hi

/-! ## What does not change during `addQueueEntry` -/

/-- All but the queue content, `queue_end`, the run state and the auto disable counter is the same. -/
structure Frame (s s' : Stepper) : Prop where
  rg : s'.rg = s.rg
  auto : s'.autoEnable = s.autoEnable
  delay : s'.dirChangeDelayTicks = s.dirChangeDelayTicks
  on : s'.onDelayTicks = s.onDelayTicks
  off : s'.offDelayCount = s.offDelayCount
  stepPin : s'.stepPin = s.stepPin
  high : s'.enHigh = s.enHigh
  low : s'.enLow = s.enLow
  fwd : s'.forwardPlanning = s.forwardPlanning
  ign : s'.hw.q.ignoreCommands = s.hw.q.ignoreCommands
  pin : s'.hw.q.dirPin = s.hw.q.dirPin
  up : s'.hw.q.dirHighCountsUp = s.hw.q.dirHighCountsUp
  ready : s'.hw.q.ready = s.hw.q.ready
  max : s'.hw.q.maxSpeedInTicks = s.hw.q.maxSpeedInTicks

theorem Frame.refl (s : Stepper) : Frame s s :=
  ⟨rfl, rfl, rfl, rfl, rfl, rfl, rfl, rfl, rfl, rfl, rfl, rfl, rfl, rfl⟩

theorem Frame.trans {s t u : Stepper} (h1 : Frame s t) (h2 : Frame t u) : Frame s u :=
  ⟨h2.rg.trans h1.rg, h2.auto.trans h1.auto, h2.delay.trans h1.delay, h2.on.trans h1.on,
   h2.off.trans h1.off, h2.stepPin.trans h1.stepPin, h2.high.trans h1.high, h2.low.trans h1.low,
   h2.fwd.trans h1.fwd, h2.ign.trans h1.ign, h2.pin.trans h1.pin, h2.up.trans h1.up,
   h2.ready.trans h1.ready, h2.max.trans h1.max⟩

theorem Queue.prepare_qend (a : ArchId) (q : Queue) (c : Cmd) :
    (q.prepare a c).1.qend.countUp = q.qend.countUp ∧ (q.prepare a c).2.countUp = c.countUp := by
  unfold Queue.prepare
  dsimp only
  refine ⟨?_, rfl⟩
  split <;> rfl

/-- Outcome of `Queue.add` on the fields of interest. -/
theorem Queue.add_fields (a : ArchId) (q : Queue) (c : Cmd) (st : Bool) :
    (q.add a c st).q.ignoreCommands = q.ignoreCommands ∧ (q.add a c st).q.dirPin = q.dirPin ∧
    (q.add a c st).q.dirHighCountsUp = q.dirHighCountsUp ∧ (q.add a c st).q.ready = q.ready ∧
    (q.add a c st).q.maxSpeedInTicks = q.maxSpeedInTicks ∧
    (q.add a c st).q.qend.countUp =
      (if (q.add a c st).code = AQE_OK ∧ q.ignoreCommands = false then c.countUp else q.qend.countUp) := by
  obtain ⟨e, pe, pr, pw, prun, pready, pign, ppos, pdp, pdh, pms, -⟩ := prepare_spec a q c
  have hq := prepare_qend a q c
  cases hr : q.ready
  · rw [add_notReady a q c st hr]
    exact ⟨rfl, rfl, rfl, hr, rfl, by simp [AQE_DEVICE_NOT_READY, AQE_OK]⟩
  · by_cases hf : q.queueEntries = a.queueLen
    · rw [add_full a q c st hr hf]
      exact ⟨rfl, rfl, rfl, hr, rfl, by simp [AQE_QUEUE_FULL, AQE_OK]⟩
    · by_cases hl : commandRateTicks c < a.minCmdTicks
      · rw [add_low a q c st hr hf hl]
        exact ⟨rfl, rfl, rfl, hr, rfl, by simp [AQE_ERROR_TICKS_TOO_LOW, AQE_OK]⟩
      · cases hi : q.ignoreCommands
        · rw [add_ok a q c st hr hf hl hi]
          exact ⟨pign.trans hi, pdp, pdh, pready.trans hr, pms, by simp [hq.2]⟩
        · rw [add_ignored a q c st hr hf hl hi]
          exact ⟨pign.trans hi, pdp, pdh, pready.trans hr, pms, by simp [hq.1]⟩

theorem Queue.add_idx (a : ArchId) (q : Queue) (c : Cmd) (st : Bool) (hi : q.IdxOK a) :
    (q.add a c st).q.IdxOK a ∧ (q.add a c st).q.queueEntries ≤ q.queueEntries + 1 := by
  obtain ⟨e, pe, pr, pw, prun, pready, pign, ppos, pdp, pdh, pms, -⟩ := prepare_spec a q c
  cases hr : q.ready
  · rw [add_notReady a q c st hr]; exact ⟨hi, by simp⟩
  · by_cases hf : q.queueEntries = a.queueLen
    · rw [add_full a q c st hr hf]; exact ⟨hi, by simp⟩
    · by_cases hl : commandRateTicks c < a.minCmdTicks
      · rw [add_low a q c st hr hf hl]; exact ⟨hi, by simp⟩
      · have hlt : q.queueEntries < a.queueLen := Nat.lt_of_le_of_ne hi.2.2 hf
        cases hig : q.ignoreCommands
        · rw [add_ok a q c st hr hf hl hig]
          have := pending_push a q e hi hlt ({ (q.prepare a c).1 with
            nextWriteIdx := u8 (q.nextWriteIdx + 1), qend := (q.prepare a c).2 }) pe pr rfl
          refine ⟨this.2, ?_⟩
          rw [← pending_length a, this.1, List.length_append, pending_length]; simp
        · rw [add_ignored a q c st hr hf hl hig]
          have := pending_write_unused a q e hi hlt (q.prepare a c).1 pe pr pw
          refine ⟨this.2, ?_⟩
          rw [← pending_length a, this.1, pending_length]; simp

theorem Queue.add_code_ok (a : ArchId) (q : Queue) (c : Cmd) (st : Bool) (hr : q.ready = true)
    (hf : q.queueEntries < a.queueLen) (hl : a.minCmdTicks ≤ commandRateTicks c) :
    (q.add a c st).code = AQE_OK := by
  cases hi : q.ignoreCommands
  · rw [add_ok a q c st hr (by omega) (by omega) hi]
  · rw [add_ignored a q c st hr (by omega) (by omega) hi]

namespace Stepper

/-- What one queue call does. -/
theorem Call.add_spec (a : ArchId) (gaps : Nat → Gap) (k : Call) (c : Cmd) (st : Bool) :
    Frame k.s (k.add a gaps c st).1.s ∧ (k.add a gaps c st).1.writes = k.writes ∧
    (k.add a gaps c st).1.s.counter = k.s.counter ∧
    (((k.add a gaps c st).2 = AQE_OK ∧ k.s.hw.q.ignoreCommands = false ∧
      (k.add a gaps c st).1.accepted = k.accepted ++ [c] ∧
      (k.add a gaps c st).1.s.hw.q.qend.countUp = c.countUp) ∨
     (((k.add a gaps c st).2 = AQE_OK → k.s.hw.q.ignoreCommands = true) ∧
      (k.add a gaps c st).1.accepted = k.accepted ∧
      (k.add a gaps c st).1.s.hw.q.qend.countUp = k.s.hw.q.qend.countUp)) := by
  have hg := k.s.hw.gap_fields a (gaps k.n)
  have ha := Queue.add_fields a (k.s.hw.gap a (gaps k.n)).q c st
  have hstart : ∀ (b : Bool) (q : Queue), (if b then { q with running := true } else q).ignoreCommands = q.ignoreCommands ∧
      (if b then { q with running := true } else q).dirPin = q.dirPin ∧
      (if b then { q with running := true } else q).dirHighCountsUp = q.dirHighCountsUp ∧
      (if b then { q with running := true } else q).ready = q.ready ∧
      (if b then { q with running := true } else q).maxSpeedInTicks = q.maxSpeedInTicks ∧
      (if b then { q with running := true } else q).qend = q.qend := by
    intro b q; cases b <;> exact ⟨rfl, rfl, rfl, rfl, rfl, rfl⟩
  have hs := hstart ((k.s.hw.gap a (gaps k.n)).q.add a c st).start ((k.s.hw.gap a (gaps k.n)).q.add a c st).q
  refine ⟨⟨rfl, rfl, rfl, rfl, rfl, rfl, rfl, rfl, rfl, ?_, ?_, ?_, ?_, ?_⟩, rfl, rfl, ?_⟩
  · exact hs.1.trans (ha.1.trans hg.2.1)
  · exact hs.2.1.trans (ha.2.1.trans hg.2.2.1)
  · exact hs.2.2.1.trans (ha.2.2.1.trans hg.2.2.2.1)
  · exact hs.2.2.2.1.trans (ha.2.2.2.1.trans hg.2.2.2.2.1)
  · exact hs.2.2.2.2.1.trans (ha.2.2.2.2.1.trans hg.2.2.2.2.2)
  · have hcu : (k.add a gaps c st).1.s.hw.q.qend.countUp =
        ((k.s.hw.gap a (gaps k.n)).q.add a c st).q.qend.countUp := by
      change (if _ then _ else _ : Queue).qend.countUp = _
      rw [hs.2.2.2.2.2]
    have hcode : (k.add a gaps c st).2 = ((k.s.hw.gap a (gaps k.n)).q.add a c st).code := rfl
    have hacc : (k.add a gaps c st).1.accepted =
        if ((k.s.hw.gap a (gaps k.n)).q.add a c st).code = AQE_OK ∧
          (!(k.s.hw.gap a (gaps k.n)).q.ignoreCommands) = true then k.accepted ++ [c] else k.accepted := rfl
    rw [hcu, hcode, hacc, ha.2.2.2.2.2, hg.1, hg.2.1]
    by_cases h1 : ((k.s.hw.gap a (gaps k.n)).q.add a c st).code = AQE_OK
    · cases h2 : k.s.hw.q.ignoreCommands
      · left; exact ⟨h1, rfl, by simp [h1], by simp [h1]⟩
      · right; exact ⟨fun _ => rfl, by simp, by simp⟩
    · right; exact ⟨fun h => absurd h h1, by simp [h1], by simp [h1]⟩

theorem Call.add_idx (a : ArchId) (gaps : Nat → Gap) (k : Call) (c : Cmd) (st : Bool)
    (hi : k.s.hw.q.IdxOK a) :
    (k.add a gaps c st).1.s.hw.q.IdxOK a ∧
    (k.add a gaps c st).1.s.hw.q.queueEntries ≤ k.s.hw.q.queueEntries + 1 := by
  have hg := k.s.hw.gap_idx a (gaps k.n) hi
  have ha := Queue.add_idx a (k.s.hw.gap a (gaps k.n)).q c st hg.1
  have hstart : ∀ (b : Bool) (q : Queue), q.IdxOK a →
      (if b then { q with running := true } else q).IdxOK a ∧
      (if b then { q with running := true } else q).queueEntries = q.queueEntries := by
    intro b q h; cases b <;> exact ⟨h, rfl⟩
  have hs := hstart ((k.s.hw.gap a (gaps k.n)).q.add a c st).start _ ha.1
  refine ⟨hs.1, ?_⟩
  have e : (k.add a gaps c st).1.s.hw.q.queueEntries =
    ((k.s.hw.gap a (gaps k.n)).q.add a c st).q.queueEntries := hs.2
  omega

theorem Call.add_ok (a : ArchId) (gaps : Nat → Gap) (k : Call) (c : Cmd) (st : Bool)
    (hi : k.s.hw.q.IdxOK a) (hr : k.s.hw.q.ready = true) (hf : k.s.hw.q.queueEntries < a.queueLen)
    (hl : a.minCmdTicks ≤ Queue.commandRateTicks c) :
    (k.add a gaps c st).2 = AQE_OK := by
  have hg := k.s.hw.gap_idx a (gaps k.n) hi
  have hgf := k.s.hw.gap_fields a (gaps k.n)
  exact Queue.add_code_ok a _ c st (hgf.2.2.2.2.1.trans hr) (by omega) hl

theorem Call.addNull_spec (a : ArchId) (gaps : Nat → Gap) (k : Call) (st : Bool) :
    Frame k.s (k.addNull a gaps st).1.s ∧ (k.addNull a gaps st).1.writes = k.writes ∧
    (k.addNull a gaps st).1.s.counter = k.s.counter ∧
    (k.addNull a gaps st).1.accepted = k.accepted ∧
    (k.addNull a gaps st).1.s.hw.q.qend = k.s.hw.q.qend ∧
    (k.s.hw.q.IdxOK a → (k.addNull a gaps st).1.s.hw.q.IdxOK a ∧
      (k.addNull a gaps st).1.s.hw.q.queueEntries ≤ k.s.hw.q.queueEntries) := by
  have hg := k.s.hw.gap_fields a (gaps k.n)
  have hq : ∀ q : Queue, (q.addNull st).q = q := by
    intro q; unfold Queue.addNull; repeat' split
    all_goals rfl
  have hs : (k.addNull a gaps st).1.s.hw.q = (k.s.hw.gap a (gaps k.n)).q ∨
      (k.addNull a gaps st).1.s.hw.q = { (k.s.hw.gap a (gaps k.n)).q with running := true } := by
    change (if _ then _ else _ : Queue) = _ ∨ (if _ then _ else _ : Queue) = _
    rw [hq]
    split
    · right; rfl
    · left; rfl
  have hidx := k.s.hw.gap_idx a (gaps k.n)
  rcases hs with hs | hs
  · refine ⟨⟨rfl, rfl, rfl, rfl, rfl, rfl, rfl, rfl, rfl, ?_, ?_, ?_, ?_, ?_⟩, rfl, rfl, rfl, ?_, ?_⟩
    all_goals rw [hs]
    · exact hg.2.1
    · exact hg.2.2.1
    · exact hg.2.2.2.1
    · exact hg.2.2.2.2.1
    · exact hg.2.2.2.2.2
    · exact hg.1
    · exact hidx
  · refine ⟨⟨rfl, rfl, rfl, rfl, rfl, rfl, rfl, rfl, rfl, ?_, ?_, ?_, ?_, ?_⟩, rfl, rfl, rfl, ?_, ?_⟩
    all_goals rw [hs]
    · exact hg.2.1
    · exact hg.2.2.1
    · exact hg.2.2.2.1
    · exact hg.2.2.2.2.1
    · exact hg.2.2.2.2.2
    · exact hg.1
    · exact hidx

/-! ## The on-delay pauses -/

/-- The pauses sum up to the delay, are 32768..65535 ticks or the whole delay, and are at most
`delay/65535`, rounded up, in number. -/
theorem onDelayPauses_spec : ∀ (n delay : Nat), delay ≤ n →
    ticksSum (onDelayPauses n delay) = delay ∧
    (∀ t ∈ onDelayPauses n delay, t < 65536 ∧ (32768 ≤ t ∨ (t = delay ∧ delay < 32768))) ∧
    (onDelayPauses n delay).length ≤ (delay + 65534) / 65535 ∧
    (delay < 65536 → 0 < delay → onDelayPauses n delay = [delay]) ∧
    (0 < delay → onDelayPauses n delay ≠ [])
  | 0, delay, h => by
    have : delay = 0 := by omega
    subst this
    refine ⟨rfl, ?_, ?_, ?_, ?_⟩ <;> simp [onDelayPauses]
  | n + 1, delay, h => by
    unfold onDelayPauses
    by_cases h0 : delay > 0
    · rw [if_pos h0]
      dsimp only
      by_cases h1 : delay / 2 > 65535
      · rw [if_pos h1]
        have ih := onDelayPauses_spec n (delay - 65535) (by omega)
        refine ⟨?_, ?_, ?_, ?_, ?_⟩
        · simp only [ticksSum]; omega
        · intro t ht
          rcases List.mem_cons.mp ht with rfl | ht
          · omega
          · have := ih.2.1 t ht
            omega
        · have := ih.2.2.1
          simp only [List.length_cons]
          omega
        · intro hlt; omega
        · intro _; exact List.cons_ne_nil _ _
      · rw [if_neg h1]
        by_cases h2 : delay / 2 < 32768
        · rw [if_pos h2]
          have e : u16 delay = delay := by unfold u16; omega
          rw [e]
          have hz : delay - delay = 0 := by omega
          have ih := onDelayPauses_spec n (delay - delay) (by omega)
          have hnil : onDelayPauses n (delay - delay) = [] := by
            rw [hz]; cases n <;> simp [onDelayPauses]
          rw [hnil]
          refine ⟨by simp [ticksSum], ?_, ?_, ?_, ?_⟩
          · intro t ht
            simp only [List.mem_singleton] at ht
            omega
          · simp only [List.length_cons, List.length_nil]; omega
          · intros; rfl
          · intro _; exact List.cons_ne_nil _ _
        · rw [if_neg h2]
          have e : u16 (delay / 2) = delay / 2 := by unfold u16; omega
          rw [e]
          have ih := onDelayPauses_spec n (delay - delay / 2) (by omega)
          refine ⟨?_, ?_, ?_, ?_, ?_⟩
          · simp only [ticksSum]; omega
          · intro t ht
            rcases List.mem_cons.mp ht with rfl | ht
            · omega
            · have := ih.2.1 t ht
              omega
          · simp only [List.length_cons]
            by_cases h3 : delay - delay / 2 < 65536
            · rw [ih.2.2.2.1 h3 (by omega)]
              simp; omega
            · have := ih.2.2.1
              omega
          · intro hlt; omega
          · intro _; exact List.cons_ne_nil _ _
    · rw [if_neg h0]
      have : delay = 0 := by omega
      subst this
      refine ⟨rfl, ?_, ?_, ?_, ?_⟩ <;> simp

end Stepper
end FAS
