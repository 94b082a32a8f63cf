import Verif.Spec.Avr
import Verif.Lemmas.QueueObs

/-! Invariants of the AVR backend. -/

namespace FAS

/-! ## the interrupt, case by case -/
namespace Avr

theorem isr_stop (a : ArchId) (s : Avr) (h : s.q.readIdx = s.q.nextWriteIdx) :
    isrBody a s = { s with irq := false, one := false, q := { s.q with running := false }, noMore := false } := by
  simp [isrBody, h]

theorem isr_dec (a : ArchId) (s : Avr) (h : s.q.readIdx ≠ s.q.nextWriteIdx) (h1 : (s.q.slot a s.q.readIdx).steps > 1) :
    isrBody a s = { s with q := decSteps a s.q, one := true, ocr := s.ocr + (s.q.slot a s.q.readIdx).ticks } := by
  simp [isrBody, h, h1]

theorem isr_wake (a : ArchId) (s : Avr) (h : s.q.readIdx ≠ s.q.nextWriteIdx)
    (h1 : ¬ (s.q.slot a s.q.readIdx).steps > 1) (h2 : s.noMore = true) :
    isrBody a s = { s with noMore := false, q := toggleFor (s.q.slot a s.q.readIdx) s.q,
                           one := decide ((s.q.slot a s.q.readIdx).steps ≠ 0),
                           ocr := s.ocr + (if (s.q.slot a s.q.readIdx).steps ≠ 0 then 10
                                           else (s.q.slot a s.q.readIdx).ticks) } := by
  simp [isrBody, h, h1, h2]

theorem isr_last (a : ArchId) (s : Avr) (h : s.q.readIdx ≠ s.q.nextWriteIdx)
    (h1 : ¬ (s.q.slot a s.q.readIdx).steps > 1) (h2 : s.noMore = false)
    (h3 : (s.q.slot a s.q.readIdx).repeatEntry = false) (h4 : s.q.complete.readIdx = s.q.complete.nextWriteIdx) :
    isrBody a s = { s with q := s.q.complete, noMore := true, one := false,
                           ocr := s.ocr + (s.q.slot a s.q.readIdx).ticks } := by
  simp [isrBody, h, h1, h2, h3, h4]

theorem isr_next (a : ArchId) (s : Avr) (h : s.q.readIdx ≠ s.q.nextWriteIdx)
    (h1 : ¬ (s.q.slot a s.q.readIdx).steps > 1) (h2 : s.noMore = false)
    (h3 : (s.q.slot a s.q.readIdx).repeatEntry = false) (h4 : s.q.complete.readIdx ≠ s.q.complete.nextWriteIdx) :
    isrBody a s = { s with q := toggleFor (s.q.complete.slot a s.q.complete.readIdx) s.q.complete,
                           one := decide ((s.q.complete.slot a s.q.complete.readIdx).steps ≠ 0),
                           ocr := s.ocr + (s.q.slot a s.q.readIdx).ticks } := by
  simp [isrBody, h, h1, h2, h3, h4]

/-- the state the interrupt sees: the compare event has eventually created a pulse -/
def pulsed (s : Avr) : Avr := if s.one then { s with pulses := ⟨s.ocr, s.q.dirLevel⟩ :: s.pulses } else s

theorem compare_eq (a : ArchId) (s : Avr) : compare a s = isrBody a s.pulsed := rfl

@[simp] theorem pulsed_q (s : Avr) : s.pulsed.q = s.q := by unfold pulsed; split <;> rfl
@[simp] theorem pulsed_noMore (s : Avr) : s.pulsed.noMore = s.noMore := by unfold pulsed; split <;> rfl
@[simp] theorem pulsed_irq (s : Avr) : s.pulsed.irq = s.irq := by unfold pulsed; split <;> rfl
@[simp] theorem pulsed_one (s : Avr) : s.pulsed.one = s.one := by unfold pulsed; split <;> rfl
@[simp] theorem pulsed_ocr (s : Avr) : s.pulsed.ocr = s.ocr := by unfold pulsed; split <;> rfl
@[simp] theorem pulsed_pc (s : Avr) : s.pulsed.pc = s.pc := by unfold pulsed; split <;> rfl
theorem pulsed_pulses (s : Avr) : s.pulsed.pulses = (if s.one then [⟨s.ocr, s.q.dirLevel⟩] else []) ++ s.pulses := by
  unfold pulsed; split <;> simp_all

theorem toggleFor_eq (e : Entry) (q : Queue) : toggleFor e q = { q with dirLevel := xor e.toggleDir q.dirLevel } := by
  unfold toggleFor
  cases e.toggleDir <;> simp

end Avr

/-! ## progress of the specification queue -/

theorem QSpec.advance_dec {s : QSpec} {c : Cmd} {cs : List Cmd} (hp : s.pend = c :: cs) (h : c.steps - s.done > 1) :
    s.advance = { s with pend := c :: cs, done := s.done + 1, pos := s.pos + if c.countUp then 1 else -1 } := by
  unfold QSpec.advance
  rw [hp]
  simp only
  rw [if_neg (by omega), if_neg (by omega)]

theorem QSpec.advance_fin {s : QSpec} {c : Cmd} {cs : List Cmd} (hp : s.pend = c :: cs) (h : ¬ c.steps - s.done > 1)
    (hd : s.done = 0 ∨ s.done < c.steps) :
    s.advance = { s with
      pend := cs, done := 0, pos := s.pos + if c.steps = 0 then 0 else if c.countUp then 1 else -1 } := by
  unfold QSpec.advance
  rw [hp]
  simp only
  by_cases h0 : c.steps = 0
  · simp [h0]
  · rw [if_neg h0, if_pos (by omega), if_neg h0]

theorem QSpec.remaining_zero {s : QSpec} (h : s.done = 0) : s.remaining = s.pend := by
  unfold QSpec.remaining
  cases hp : s.pend with
  | nil => rfl
  | cons c cs => simp [h]

theorem QSpec.remaining_cons {s : QSpec} {c : Cmd} {cs : List Cmd} (hp : s.pend = c :: cs) :
    s.remaining = { c with steps := c.steps - s.done } :: cs := by
  unfold QSpec.remaining; rw [hp]

theorem QSpec.remaining_append {s s' : QSpec} {c : Cmd} (hd : s.pend = [] → s.done = 0) (hp : s'.pend = s.pend ++ [c])
    (hdd : s'.done = s.done) : s'.remaining = s.remaining ++ [c] := by
  unfold QSpec.remaining
  rw [hp]
  cases h : s.pend with
  | nil => simp [hdd, hd h]
  | cons x xs => simp [hdd]

/-! ## pulses of the specification -/

theorem specPulses_append (lvl : Bool → Bool) : ∀ (xs ys : List Cmd) (t : Nat),
    specPulses lvl t (xs ++ ys) = specPulses lvl t xs ++ specPulses lvl (t + durationSum xs) ys
  | [], ys, t => by simp [specPulses, durationSum]
  | x :: xs, ys, t => by
    simp only [List.cons_append, specPulses, durationSum, specPulses_append lvl xs ys, List.append_assoc, Nat.add_assoc]

theorem durationSum_append : ∀ (xs ys : List Cmd), durationSum (xs ++ ys) = durationSum xs + durationSum ys
  | [], ys => by simp [durationSum]
  | x :: xs, ys => by simp only [List.cons_append, durationSum, durationSum_append xs ys, Nat.add_assoc]

theorem stepSum_append : ∀ (xs ys : List Cmd), stepSum (xs ++ ys) = stepSum xs + stepSum ys
  | [], ys => by simp [stepSum]
  | x :: xs, ys => by simp only [List.cons_append, stepSum, stepSum_append xs ys, Nat.add_assoc]

/-- first pulse of a command with more than one step -/
theorem specPulses_more (lvl : Bool → Bool) (t k n : Nat) (u : Bool) (cs : List Cmd) (hn : n ≥ 1) :
    specPulses lvl t (⟨k, n + 1, u⟩ :: cs) = ⟨t, lvl u⟩ :: specPulses lvl (t + k) (⟨k, n, u⟩ :: cs) := by
  simp only [specPulses, Cmd.duration]
  rw [List.range_succ_eq_map, List.map_cons, List.map_map, List.cons_append]
  have h1 : k * max 1 (n + 1) = k + k * max 1 n := by
    rw [Nat.max_eq_right (by omega), Nat.max_eq_right (by omega), Nat.mul_succ]; omega
  rw [h1]
  congr 1
  · simp
  · congr 1
    · apply List.map_congr_left
      intro i _
      simp only [Function.comp, Nat.succ_eq_add_one, Nat.add_mul, Nat.one_mul, Pulse.mk.injEq, and_true]
      omega
    · rw [Nat.add_assoc]

theorem specPulses_one (lvl : Bool → Bool) (t k : Nat) (u : Bool) (cs : List Cmd) :
    specPulses lvl t (⟨k, 1, u⟩ :: cs) = ⟨t, lvl u⟩ :: specPulses lvl (t + k) cs := by
  simp [specPulses, Cmd.duration, List.range_succ]

theorem specPulses_pause (lvl : Bool → Bool) (t k : Nat) (u : Bool) (cs : List Cmd) :
    specPulses lvl t (⟨k, 0, u⟩ :: cs) = specPulses lvl (t + k) cs := by
  simp [specPulses, Cmd.duration]

end FAS
