import Verif.Lemmas.Clock
import Verif.Props.Avr

/-!
# C81: the AVR driver against the clock

`Avr.Clocked` is a schedule with times, in which the interrupt is never served too early. `Avr.Punctual` is the duty of the application: queue the next
command before the last step of those queued before.
-/

namespace FAS

theorem clk_fresh (a : ArchId) (hav : a.isAvr = true) (pin : Nat) (hpin : pin = pinUndefined ∨ pin < 128) (hi : Bool)
    (evs : List (Nat × Avr.Ev)) (hplain : ∀ ev ∈ evs, ev.2.Plain) (tc : Nat) (hclk : Avr.Clocked a (Avr.fresh a pin hi) 0 tc evs)
    (hpun : Avr.Punctual a (Avr.fresh a pin hi) ⟨[], []⟩ evs) :
    let r := Avr.track a (Avr.fresh a pin hi) ⟨[], []⟩ (evs.map Prod.snd)
    Avr.Along a Avr.InTime (Avr.fresh a pin hi) (evs.map Prod.snd) ∧ Avr.Along a Avr.NoLateStart (Avr.fresh a pin hi) (evs.map Prod.snd) ∧
    ∃ qs tc', Core a r.1 r.2 qs ∧ Tim a (dirLevelFor pin hi) 0 r.1 r.2 qs ∧ Clk a r.1 r.2 ((evs.map Prod.fst).getLast?.getD 0) tc' := by
  intro r
  have hq := Avr.fresh_quiet a pin hi
  have hC : Clk a (Avr.fresh a pin hi) ⟨[], []⟩ 0 tc :=
    { suf := fun hx => (by rw [hq.run] at hx; cases hx), late := fun hx => (by rw [hq.run] at hx; cases hx)
      prep := fun _ _ _ hx => (by rw [hq.pc] at hx; cases hx), com := fun _ hx => (by rw [hq.pc] at hx; cases hx) }
  have hT := Tim.quiet a _ hq
  exact clk_run hav evs (Core.quiet a _ hq hpin (Avr.fresh_pos a pin hi)) hT hC hplain hclk hpun

/-- **C81.** If, while the motor is running, every command is queued before the last step of the commands queued before – at the time which follows from
the documented durations –, then no schedule of interrupts, however late they are served, makes any difference: every pulse comes exactly at its
documented time and with its direction, and the position is exact. None of the guards of C08–C10 is needed. -/
theorem C81_punctual (a : ArchId) (hav : a.isAvr = true) (pin : Nat) (hpin : pin = pinUndefined ∨ pin < 128) (hi : Bool)
    (evs : List (Nat × Avr.Ev)) (hplain : ∀ ev ∈ evs, ev.2.Plain) (hclk : Avr.Clocked a (Avr.fresh a pin hi) 0 0 evs)
    (hpun : Avr.Punctual a (Avr.fresh a pin hi) ⟨[], []⟩ evs) :
    let r := Avr.track a (Avr.fresh a pin hi) ⟨[], []⟩ (evs.map Prod.snd)
    (∃ rest, r.2.expected (dirLevelFor pin hi) = r.1.pulses.reverse ++ rest ∧ (∀ p ∈ rest, r.1.ocr ≤ p.time) ∧
      (r.1.q.running = false → rest = [])) ∧
    (pin ≠ pinUndefined → r.1.q.getCurrentPosition a 0 = i32 (pulseSum hi r.1.pulses)) := by
  intro r
  obtain ⟨hin, hls, -⟩ := clk_fresh a hav pin hpin hi evs hplain 0 hclk hpun
  have hpl : ∀ ev ∈ evs.map Prod.snd, ev.Plain := by
    intro ev he
    obtain ⟨x, hx, rfl⟩ := List.mem_map.mp he
    exact hplain x hx
  exact ⟨C10_pulse_train_partial a hav pin hpin hi _ hpl hls hin, (C09_direction_and_position_partial a hav pin hpin hi _ hpl hls hin).2⟩

/-- **C81 (remaining time).** `ticksInQueue()` is exact in real time: the commands queued end at the next compare event plus what is left of the command
in process plus `ticksInQueue()`. So at any time at which no interrupt is overdue the motor has work for at least `ticksInQueue()` more ticks. -/
theorem C81_ticks_in_queue (a : ArchId) (hav : a.isAvr = true) (pin : Nat) (hpin : pin = pinUndefined ∨ pin < 128) (hi : Bool)
    (evs : List (Nat × Avr.Ev)) (hplain : ∀ ev ∈ evs, ev.2.Plain) (hclk : Avr.Clocked a (Avr.fresh a pin hi) 0 0 evs)
    (hpun : Avr.Punctual a (Avr.fresh a pin hi) ⟨[], []⟩ evs) :
    let r := Avr.track a (Avr.fresh a pin hi) ⟨[], []⟩ (evs.map Prod.snd)
    r.1.q.running = true →
    r.2.ends = r.1.ocr + durationSum ((Hw.readOut a ⟨r.1.q, 0⟩).take 1) + r.1.q.ticksInQueue a ∧
    ∀ now, now ≤ r.1.ocr → now + r.1.q.ticksInQueue a ≤ r.2.ends := by
  intro r hrun
  obtain ⟨-, -, qs, tc', h, hT, -⟩ := clk_fresh a hav pin hpin hi evs hplain 0 hclk hpun
  obtain ⟨t0, cs, ps, hph, hdur⟩ := hT.dur hrun
  have hro : Hw.readOut a ⟨r.1.q, 0⟩ = qs.remaining := h.sim.readOut
  have htk : r.1.q.ticksInQueue a = durationSum qs.pend.tail := h.sim.ticksInQueue
  have hends : r.2.ends = t0 + durationSum cs := by
    have : r.2.phases = (t0, cs) :: ps := hph
    unfold AvrHist.ends; rw [this]
  have key : durationSum qs.remaining = durationSum (qs.remaining.take 1) + durationSum qs.pend.tail := by
    cases hp : qs.pend with
    | nil => simp [QSpec.remaining, hp, durationSum]
    | cons c cs => rw [QSpec.remaining_cons hp]; simp [durationSum]
  have hdur : r.1.ocr + durationSum qs.remaining = t0 + durationSum cs := hdur
  rw [hro, htk, hends]
  refine ⟨by omega, fun now hnow => by omega⟩

/-- A punctual schedule: the second command is queued at tick 900, before the last step (at 1010) of the first one; the interrupts are up to 300 ticks late. -/
def clockedExample : List (Nat × Avr.Ev) :=
  [(0, .addBegin ⟨1000, 2, true⟩ true), (0, .addCommit), (0, .addFinish 0), (20, .compare), (890, .addBegin ⟨700, 3, false⟩ true),
   (900, .addCommit), (950, .addFinish 950), (1310, .compare), (2012, .compare), (2900, .compare)]

example : (∀ ev ∈ clockedExample, ev.2.Plain) ∧ Avr.Clocked .avr328 (Avr.fresh .avr328 5 true) 0 0 clockedExample ∧
    Avr.Punctual .avr328 (Avr.fresh .avr328 5 true) ⟨[], []⟩ clockedExample ∧
    (Avr.track .avr328 (Avr.fresh .avr328 5 true) ⟨[], []⟩ (clockedExample.map Prod.snd)).1.pulses.reverse =
      [⟨10, true⟩, ⟨1010, true⟩, ⟨2010, false⟩, ⟨2710, false⟩] := by
  decide +kernel

/-- The deadline is sharp: with the second command queued two ticks after the last step – and long before the end – of the first one, its first pulse is one
period late and the distance of the last pulses is 10 ticks instead of 1000. -/
theorem C81_deadline_sharp :
    let evs : List (Nat × Avr.Ev) := [(0, .addBegin ⟨1000, 1, true⟩ true), (0, .addCommit), (0, .addFinish 0), (11, .compare), (11, .addBegin ⟨1000, 3, true⟩ true),
      (12, .addCommit), (13, .addFinish 13), (1010, .compare), (2010, .compare), (3010, .compare), (3020, .compare), (4020, .compare)]
    let r := Avr.track .avr328 (Avr.fresh .avr328 5 true) ⟨[], []⟩ (evs.map Prod.snd)
    (∀ ev ∈ evs, ev.2.Plain) ∧ Avr.Clocked .avr328 (Avr.fresh .avr328 5 true) 0 0 evs ∧
    (r.2.expected (dirLevelFor 5 true)).map Pulse.time = [10, 1010, 2010, 3010] ∧
    r.1.pulses.reverse.map Pulse.time = [10, 2010, 3010, 3020] := by
  decide +kernel

end FAS
