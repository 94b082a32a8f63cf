import Verif.Lemmas.DueTime
import Verif.Props.Due

/-!
# Property C88: pulse times of the SAM Due backend

`DueT.track (DueT.init pin hi) ⟨[], []⟩ evs` executes an arbitrary schedule of ends of PWM periods (with their interrupts after an arbitrary
latency), phases of `addQueueEntry` calls and PWM interrupts of other steppers, and records for each start of the queue the time at which its first
command begins and the commands accepted since. `times` are the times of the pulses, newest first. `AvrHist.stepTimes` are the documented times.
-/

namespace FAS

theorem TInv.init (pin : Nat) (hpin : pin = pinUndefined ∨ pin < 128) (hi : Bool) : TInv (DueT.init pin hi) ⟨[], []⟩ := by
  have hid := Due.fresh_idle pin hpin hi
  have hd := DInv.idle hid False
  have hp : (Due.fresh pin hi).q.pending .sam = [] := by
    rw [Queue.pending_nil_iff]; exact (due_ne_empty _ hd.idx).mp hid.idx.1
  exact { base := ⟨_, _, _, hd, fun u => DirOK.of_lvl _ _ _ u⟩
          on := fun hx => by
            have hx' : (Due.fresh pin hi).q.running = true := hx
            rw [hid.run] at hx'; cases hx'
          off := fun _ => ⟨(fun hx => nomatch hx), by change [] = _; rw [show (DueT.init pin hi).s = Due.fresh pin hi from rfl, hp]; rfl, rfl, fun _ _ _ hx => nomatch hx⟩
          flag := fun _ => rfl
          fr := (fun hx => nomatch hx)
          ord := trivial }

theorem SInv.init (pin : Nat) (hpin : pin = pinUndefined ∨ pin < 128) (hi : Bool) : SInv (DueT.init pin hi) := by
  have hid := Due.fresh_idle pin hpin hi
  have hd := DInv.idle hid False
  have hp : (Due.fresh pin hi).q.pending .sam = [] := by
    rw [Queue.pending_nil_iff]; exact (due_ne_empty _ hd.idx).mp hid.idx.1
  refine { pz := ?_, pzp := (fun _ _ _ hx => nomatch hx), irq := (fun hx => nomatch hx), old := Or.inr rfl }
  rw [show (DueT.init pin hi).s = Due.fresh pin hi from rfl, hp]
  intro e he
  cases he

/-- One uninterrupted call of addQueueEntry at time `now`. -/
def dueTAdd (c : Cmd) (start : Bool) (now : Nat) : List DueT.Ev := [.addBegin c start, .addCommit, .addFinish now]

/-- Two starts of the queue, with a pause within and a command which arrives during the last period. -/
def dueTExample : List DueT.Ev :=
  dueTAdd ⟨10000, 3, true⟩ true 1000 ++ [.boundary 40 true] ++ dueTAdd ⟨30000, 0, true⟩ true 5000 ++ [.boundary 21 true] ++ dueTAdd ⟨5000, 2, true⟩ true 15000 ++
    [.boundary 10 true, .boundary 30 true, .otherIsr 40000, .boundary 0 true, .boundary 0 true] ++ dueTAdd ⟨8000, 1, true⟩ true 67000 ++
    [.boundary 0 true, .boundary 0 true] ++ dueTAdd ⟨9000, 2, true⟩ true 90000 ++ [.boundary 5 false, .boundary 5 false, .boundary 5 false]

/-- C88, for schedules in which the PWM interrupt at the begin of a pause is not ignored: the pulses emitted are, and those of the commands in the
queue will be, exactly at the documented times, counted from the begin of the first command of each start of the queue; and no start is earlier than
the documented end of the preceding commands. -/
theorem C88_pulse_times_partial (pin : Nat) (hpin : pin = pinUndefined ∨ pin < 128) (hi : Bool) (evs : List DueT.Ev)
    (hb : DueT.Along DueT.Basic (DueT.init pin hi) evs) (hf : DueT.Along DueT.Unfiltered (DueT.init pin hi) evs) :
    let d := (DueT.track (DueT.init pin hi) ⟨[], []⟩ evs).1
    let t := (DueT.track (DueT.init pin hi) ⟨[], []⟩ evs).2
    (d.s.q.running = true → d.times.reverse ++ stepTimes d.next (Hw.readOut .sam ⟨d.s.q, 0⟩) = t.stepTimes) ∧
      (d.s.q.running = false → d.times.reverse = t.stepTimes) ∧ PhasesOrdered t.phases := by
  intro d t
  have h : TInv d t := TInv.track evs (TInv.init pin hpin hi) hb hf
  refine ⟨fun hr => ?_, fun hr => (h.off hr).2.2.1, h.ord⟩
  rw [due_readOut]
  exact (h.on hr).2.2.2.2.1

example : DueT.Along DueT.Basic (DueT.init 5 true) dueTExample ∧ DueT.Along DueT.Unfiltered (DueT.init 5 true) dueTExample ∧
    (DueT.track (DueT.init 5 true) ⟨[], []⟩ dueTExample).1.times.reverse = [1000, 11000, 21000, 61000, 66000, 71000, 90000, 99000] ∧
    (DueT.track (DueT.init 5 true) ⟨[], []⟩ dueTExample).2.phases = [(90000, [⟨9000, 2, true⟩]), (71000, [⟨8000, 1, true⟩]),
      (1000, [⟨10000, 3, true⟩, ⟨30000, 0, true⟩, ⟨5000, 2, true⟩])] := by
  decide +kernel

/-- C88 within the first 71 minutes, if each command with steps followed by a pause has at least 100 µs (plus the latency `J` of the interrupts)
between its steps: the same. -/
theorem C88_slow_pulse_times_partial (pin : Nat) (hpin : pin = pinUndefined ∨ pin < 128) (hi : Bool) (evs : List DueT.Ev) (J : Nat)
    (hb : DueT.Along DueT.Basic (DueT.init pin hi) evs) (hs : DueT.Along (DueT.Slow J) (DueT.init pin hi) evs) :
    let d := (DueT.track (DueT.init pin hi) ⟨[], []⟩ evs).1
    let t := (DueT.track (DueT.init pin hi) ⟨[], []⟩ evs).2
    (d.s.q.running = true → d.times.reverse ++ stepTimes d.next (Hw.readOut .sam ⟨d.s.q, 0⟩) = t.stepTimes) ∧
      (d.s.q.running = false → d.times.reverse = t.stepTimes) ∧ PhasesOrdered t.phases :=
  C88_pulse_times_partial pin hpin hi evs hb (SInv.track evs (TInv.init pin hpin hi) (SInv.init pin hpin hi) hb hs)

example : DueT.Along (DueT.Slow 40) (DueT.init 5 true) dueTExample := by decide +kernel

/-- spacing of documented times -/
theorem stepTimes_spaced (m : Nat) : ∀ (cs : List Cmd) (t : Nat), (∀ c ∈ cs, c.steps ≠ 0 → m ≤ c.ticks) →
    (stepTimes t cs).Pairwise (fun a b => a + m ≤ b) ∧ ∀ x ∈ stepTimes t cs, t ≤ x ∧ x + m ≤ t + durationSum cs
  | [], t, _ => ⟨List.Pairwise.nil, fun x hx => nomatch hx⟩
  | c :: cs, t, h => by
    obtain ⟨i1, i2⟩ := stepTimes_spaced m cs (t + c.duration) (fun x hx => h x (List.mem_cons_of_mem _ hx))
    have hc := h c (by simp)
    have hstep : ∀ i, i < c.steps → t + i * c.ticks + m ≤ t + c.duration := by
      intro i hi
      have := hc (by omega)
      have h1 : c.duration = c.ticks * c.steps := by unfold Cmd.duration; rw [show max 1 c.steps = c.steps by omega]
      have h2 : (i + 1) * c.ticks ≤ c.steps * c.ticks := Nat.mul_le_mul_right _ hi
      rw [h1, Nat.mul_comm c.ticks]
      rw [Nat.succ_mul] at h2
      omega
    rw [stepTimes]
    refine ⟨?_, ?_⟩
    · rw [List.pairwise_append]
      refine ⟨?_, i1, ?_⟩
      · rw [List.pairwise_map]
        refine List.Pairwise.imp_of_mem ?_ List.pairwise_lt_range
        intro a b ha hb hab
        have := hc (by have := List.mem_range.mp ha; omega)
        have h2 : (a + 1) * c.ticks ≤ b * c.ticks := Nat.mul_le_mul_right _ hab
        rw [Nat.succ_mul] at h2
        omega
      · intro a ha b hb
        obtain ⟨i, hi, rfl⟩ := List.mem_map.mp ha
        have := hstep i (List.mem_range.mp hi)
        have := (i2 b hb).1
        omega
    · intro x hx
      rw [durationSum]
      rcases List.mem_append.mp hx with hx | hx
      · obtain ⟨i, hi, rfl⟩ := List.mem_map.mp hx
        have := hstep i (List.mem_range.mp hi)
        refine ⟨by omega, by omega⟩
      · have := i2 x hx
        omega

theorem phases_spaced (m : Nat) : ∀ (ps : List (Nat × List Cmd)), PhasesOrdered ps → (∀ p ∈ ps, ∀ c ∈ p.2, c.steps ≠ 0 → m ≤ c.ticks) →
    (ps.reverse.flatMap fun p => stepTimes p.1 p.2).Pairwise (fun a b => a + m ≤ b) ∧
      ∀ t0 cs ps', ps = (t0, cs) :: ps' → ∀ x ∈ ps.reverse.flatMap fun p => stepTimes p.1 p.2, x + m ≤ t0 + durationSum cs
  | [], _, _ => ⟨List.Pairwise.nil, fun _ _ _ hx => nomatch hx⟩
  | p :: ps, ho, h => by
    have ho' : PhasesOrdered ps := by
      cases ps with
      | nil => trivial
      | cons r ps => exact ho.2
    obtain ⟨i1, i2⟩ := phases_spaced m ps ho' (fun q hq => h q (List.mem_cons_of_mem _ hq))
    obtain ⟨s1, s2⟩ := stepTimes_spaced m p.2 p.1 (h p (by simp))
    have hle : ∀ x ∈ ps.reverse.flatMap fun p => stepTimes p.1 p.2, x + m ≤ p.1 := by
      cases ps with
      | nil => intro x hx; cases hx
      | cons r ps =>
        intro x hx
        have := i2 r.1 r.2 ps rfl x hx
        have := ho.1
        omega
    rw [List.reverse_cons, List.flatMap_append, List.flatMap_cons, List.flatMap_nil, List.append_nil]
    refine ⟨?_, ?_⟩
    · rw [List.pairwise_append]
      refine ⟨i1, s1, ?_⟩
      intro a ha b hb
      have := hle a ha
      have := (s2 b hb).1
      omega
    · intro t0 cs ps' heq x hx
      injection heq with heq _
      subst heq
      rcases List.mem_append.mp hx with hx | hx
      · have := hle x hx
        omega
      · exact (s2 x hx).2

/-- C88: two pulses are never closer than the shortest `ticks` of all commands accepted, also across a stop and start of the queue. -/
theorem C88_min_distance_partial (pin : Nat) (hpin : pin = pinUndefined ∨ pin < 128) (hi : Bool) (evs : List DueT.Ev) (m : Nat)
    (hb : DueT.Along DueT.Basic (DueT.init pin hi) evs) (hf : DueT.Along DueT.Unfiltered (DueT.init pin hi) evs)
    (hm : ∀ c ∈ (DueT.track (DueT.init pin hi) ⟨[], []⟩ evs).2.accepted, c.steps ≠ 0 → m ≤ c.ticks) :
    ((DueT.init pin hi).run evs).times.reverse.Pairwise (fun a b => a + m ≤ b) := by
  have hrun : ∀ (evs : List DueT.Ev) (d : DueT) (t : AvrHist), (DueT.track d t evs).1 = d.run evs := by
    intro evs
    induction evs with
    | nil => intro d t; rfl
    | cons ev evs ih => intro d t; exact ih _ _
  rw [← hrun evs _ ⟨[], []⟩]
  obtain ⟨h1, h2, h3⟩ := C88_pulse_times_partial pin hpin hi evs hb hf
  have h4 := (phases_spaced m _ h3 (by
    intro p hp c hc
    refine hm c ?_
    unfold AvrHist.accepted
    rw [List.mem_append]
    left
    rw [List.mem_flatMap]
    exact ⟨p, List.mem_reverse.mpr hp, hc⟩)).1
  cases hr : (DueT.track (DueT.init pin hi) ⟨[], []⟩ evs).1.s.q.running with
  | true =>
    have h5 := h1 hr
    unfold AvrHist.stepTimes at h5
    rw [← h5, List.pairwise_append] at h4
    exact h4.1
  | false =>
    have h5 := h2 hr
    unfold AvrHist.stepTimes at h5
    rw [← h5] at h4
    exact h4

example : (∀ c ∈ (DueT.track (DueT.init 5 true) ⟨[], []⟩ dueTExample).2.accepted, c.steps ≠ 0 → 5000 ≤ c.ticks) ∧
    ((DueT.init 5 true).run dueTExample).times.length = 8 := by
  decide +kernel

/-- Why C88 is restricted: after steps less than 100 µs apart, the interrupt at the begin of a pause is ignored, and the pause takes twice as long:
here 2 ms instead of 1 ms, with 48 µs between the steps. -/
theorem C88_fast_pause_refuted :
    let evs := dueTAdd ⟨1000, 5, true⟩ false 100 ++ dueTAdd ⟨21000, 0, true⟩ false 200 ++ dueTAdd ⟨21000, 1, true⟩ true 300 ++
      List.replicate 9 (.boundary 21 true)
    let r := DueT.track (DueT.init 5 true) ⟨[], []⟩ evs
    DueT.Along DueT.Basic (DueT.init 5 true) evs ∧ r.2.phases = [(300, [⟨1000, 5, true⟩, ⟨21000, 0, true⟩, ⟨21000, 1, true⟩])] ∧
      r.2.stepTimes = [300, 1300, 2300, 3300, 4300, 26300] ∧ r.1.times.reverse = [300, 1300, 2300, 3300, 4300, 47300] := by
  decide +kernel

/-- A pause as the very first command takes twice as long: there is no step before, the end of which could begin it. -/
theorem C88_first_pause_refuted :
    let evs := dueTAdd ⟨21000, 0, true⟩ false 100 ++ dueTAdd ⟨21000, 1, true⟩ true 10000 ++ List.replicate 3 (.boundary 21 true)
    let r := DueT.track (DueT.init 5 true) ⟨[], []⟩ evs
    DueT.Along DueT.Basic (DueT.init 5 true) evs ∧ DueT.Along DueT.Unfiltered (DueT.init 5 true) evs ∧
      stepTimes 10000 r.2.accepted = [31000] ∧ r.1.times.reverse = [52000] := by
  decide +kernel

/-- A pause which is added during the last period of the preceding command is lost: the next step comes right after that period. -/
theorem C88_late_pause_refuted :
    let evs := dueTAdd ⟨10000, 2, true⟩ true 1000 ++ [.boundary 21 true, .boundary 21 true] ++ dueTAdd ⟨60000, 0, true⟩ true 12000 ++
      dueTAdd ⟨10000, 1, true⟩ true 12100 ++ [.boundary 21 true, .boundary 21 true]
    let r := DueT.track (DueT.init 5 true) ⟨[], []⟩ evs
    r.2.accepted = [⟨10000, 2, true⟩, ⟨60000, 0, true⟩, ⟨10000, 1, true⟩] ∧ r.1.times.reverse = [1000, 11000, 21000] := by
  decide +kernel

end FAS
