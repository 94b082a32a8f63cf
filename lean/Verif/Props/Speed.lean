import Verif.Props.Periods
import Verif.Props.Queue
import Verif.Spec.Speed

/-!
# Reported current speed: C29
-/

namespace FAS

open Spec

theorem speedUs_of {a : ArchId} {s : Stepper} {rt junk : Bool} {t : Nat} {up : Bool}
    (h : s.getCurrentSpeedInTicks a rt junk = (t, up)) (ht : t < 4294967296) : IsPeriodUs a t up (s.getCurrentSpeedInUs a rt junk) := by
  unfold Stepper.getCurrentSpeedInUs IsPeriodUs signed
  dsimp only
  rw [h]
  dsimp only
  have h1 : 16 ≤ a.ticksPerS / 1000000 := by cases a <;> decide
  have h2 : t / (a.ticksPerS / 1000000) ≤ t / 16 := Nat.div_le_div_left h1 (by decide)
  have h3 : i32 ((t / (a.ticksPerS / 1000000) : Nat) : Int) = (t / (a.ticksPerS / 1000000) : Nat) := by
    generalize t / (a.ticksPerS / 1000000) = x at h2
    unfold i32
    omega
  rw [h3]

theorem speedMilliHz_of {a : ArchId} (ha : a ≠ .sam) {s : Stepper} {rt junk : Bool} {t : Nat} {up : Bool}
    (h : s.getCurrentSpeedInTicks a rt junk = (t, up)) (ht : 8 ≤ t) : IsSpeedMilliHz a t up (s.getCurrentSpeedInMilliHz a rt junk) := by
  have hf : a.ticksPerS = 16000000 := by cases a <;> first | rfl | exact absurd rfl ha
  refine ⟨4000000000 / t * 4, ?_, ?_, ?_⟩
  · unfold Stepper.getCurrentSpeedInMilliHz signed
    dsimp only
    rw [h]
    dsimp only
    rw [if_pos (by omega), hf]
    have h0 : u32 (250 * 16000000) = 4000000000 := by decide
    rw [h0]
    have h1 : 4000000000 / t ≤ 4000000000 / 8 := Nat.div_le_div_left ht (by decide)
    have h2 : i32 ((u32 (4000000000 / t * 4) : Nat) : Int) = (4000000000 / t * 4 : Nat) := by
      generalize 4000000000 / t = x at h1
      unfold i32 u32
      omega
    rw [h2]
  · rw [hf]
    have := Nat.div_mul_le_self 4000000000 t
    have e : 4000000000 / t * 4 * t = 4 * (4000000000 / t * t) := by rw [Nat.mul_right_comm, Nat.mul_comm]
    rw [e]; omega
  · rw [hf]
    have := Nat.lt_div_mul_add (a := 4000000000) (b := t) (by omega)
    have e : (4000000000 / t * 4 + 4) * t = 4 * (4000000000 / t * t + t) := by
      rw [show 4000000000 / t * 4 + 4 = 4 * (4000000000 / t + 1) by omega, Nat.mul_assoc, Nat.add_mul, Nat.one_mul]
    rw [e]; omega

theorem speed_zero {a : ArchId} {s : Stepper} {rt junk up : Bool} (h : s.getCurrentSpeedInTicks a rt junk = (0, up)) :
    s.getCurrentSpeedInUs a rt junk = 0 ∧ s.getCurrentSpeedInMilliHz a rt junk = 0 := by
  unfold Stepper.getCurrentSpeedInUs Stepper.getCurrentSpeedInMilliHz
  dsimp only
  rw [h]
  constructor
  · dsimp only
    rw [Nat.zero_div]
    split <;> rfl
  · rfl

/-- Services which deliver pauses only do not change the reported speed. -/
theorem pauses_speed (a : ArchId) : ∀ (cs : List Cmd) (g g' : RampGen), InRange g → Services a g cs g' → (∀ c ∈ cs, IsPause c) →
    g'.rw.state = g.rw.state ∧ g'.rw.currTicks = g.rw.currTicks := by
  intro cs
  induction cs with
  | nil =>
    intro g g' _ h _
    cases h
    exact ⟨rfl, rfl⟩
  | cons x xs ih =>
    intro g g' hr h hall
    generalize hl : x :: xs = l at h
    cases h with
    | nil => cases hl
    | @cons _ g1 _ qe junk c cs' hj hg hrest =>
      obtain ⟨hx, hcs⟩ := List.cons.inj hl
      subst hcs
      have hxp := hall x (by simp)
      have hp := prepared a g qe
      obtain ⟨-, -, q3, -⟩ := InRange_serve hr hj hg
      obtain ⟨e1, e2⟩ := ih _ _ q3 hrest (fun c hc => hall c (by simp [hc]))
      rcases service_cases hr hg with ⟨-, -, h1, -⟩ | ⟨hgg, -, h1⟩
      · exact absurd (by rw [hx]; exact h1) hxp.1
      rcases h1 with ⟨h1, h2⟩ | ⟨-, -, -, -, h2⟩ | ⟨remaining, same, ph, P, ho⟩
      · have f1 : (g1.afterCommandEnqueued c).rw.state = g.rw.state := by
          rw [h2, ← hp.state, hgg]; rfl
        have f2 : (g1.afterCommandEnqueued c).rw.currTicks = g.rw.currTicks := by
          rw [h2, ← hp.ticks, hgg]; rfl
        exact ⟨e1.trans f1, e2.trans f2⟩
      · exact absurd (by rw [hx, h2]; rfl) hxp.1
      · exact absurd hxp.2 (by rw [hx]; have := ho.facts.steps_pos; omega)

theorem Services.append {a : ArchId} : ∀ {xs ys : List Cmd} {g g1 g2 : RampGen}, Services a g xs g1 → Services a g1 ys g2 → Services a g (xs ++ ys) g2 := by
  intro xs ys g g1 g2 h1 h2
  induction h1 with
  | nil => exact h2
  | cons qe junk c cs hj hg _ ih => exact .cons qe junk c _ hj hg (ih h2)

/-- C29 with the speed of the ramp generator (`realtime == false`): from a step command on until the next one, the reported speed is the one
of the time between these steps, positive if the step command counts up and negative if it counts down. With an idle ramp generator
it is 0. `junk` is the content of uninitialised memory.

Missing: SAM Due with `getCurrentSpeedInMilliHz()` (`C29_sam_refuted`), a ramp which has not been served yet (`C29_not_started_refuted`), and
the case excluded by `hguard`, in which the period is not kept (`C36_slow_speed_change_refuted`). -/
theorem C29_ramp_speed_partial (a : ArchId) (s : Stepper) (junk : Bool) :
    (s.rg.isActive = false → s.getCurrentSpeedInUs a false junk = 0 ∧ s.getCurrentSpeedInMilliHz a false junk = 0) ∧
    ∀ (g g1 g2 : RampGen) (qe : QueueEnd) (jc c : NextCommand) (cs1 cs2 : List Cmd) (d : Cmd), InRange g → jc.rw.performedRampUpSteps < 4294967296 →
      g.getNextCommand a qe jc = some (g1, c) → IsStep c.command → Services a (g1.afterCommandEnqueued c) cs1 s.rg →
      Services a s.rg (cs2 ++ [d]) g2 → (∀ x ∈ cs1 ++ cs2, IsPause x) → IsStep d →
      (g1.ro.config.parameters.minTravelTicks ≤ 65535 ∨ g1.stepsToStop ≠ g1.ro.config.maxRampUpSteps) →
      let period := c.command.ticks + ticksSum ((cs1 ++ cs2).map Cmd.ticks)
      IsPeriodUs a period c.command.countUp (s.getCurrentSpeedInUs a false junk) ∧
      (a ≠ .sam → 8 ≤ period → IsSpeedMilliHz a period c.command.countUp (s.getCurrentSpeedInMilliHz a false junk)) := by
  constructor
  · intro hi
    apply speed_zero (up := junk)
    unfold Stepper.getCurrentSpeedInTicks
    simp [hi]
  · intro g g1 g2 qe jc c cs1 cs2 d hr hj h hc hs1 hs2 hpz hd hguard period
    obtain ⟨-, -, q3, -⟩ := InRange_serve hr hj h
    have hall := Services.append hs1 hs2
    rw [← List.append_assoc] at hall
    obtain ⟨hsum, -⟩ := C36_period_conserved_partial a g g1 g2 qe jc c (cs1 ++ cs2) d hr hj h hc hall hpz hd hguard
    obtain ⟨e1, e2⟩ := pauses_speed a cs1 _ _ q3 hs1 (fun x hx => hpz x (by simp [hx]))
    have hP : s.rg.rw.currTicks = period := e2.trans hsum.symm
    have hst : s.rg.rw.state = c.rw.state := e1
    have hlt : period < 4294967296 := by
      have : c.rw.currTicks < 4294967296 := q3.period
      simp only [period]
      omega
    rcases service_cases hr h with ⟨-, -, h1, -⟩ | ⟨hgg, -, h1⟩
    · exact absurd h1 hc.1
    rcases h1 with ⟨-, h2⟩ | ⟨-, -, -, -, h2⟩ | ⟨remaining, same, ph, P, ho⟩
    · exact absurd hc.2 (by rw [h2]; exact (by decide : ¬ 1 ≤ 0))
    · exact absurd (by rw [h2]; rfl) hc.1
    have hstate := ho.facts.state
    have hact : s.rg.isActive = true := by
      unfold RampGen.isActive
      rw [hst, hstate]
      cases c.command.countUp <;> simp [RampState.IDLE]
    have hup : decide (s.rg.rw.state.dir = .up) = c.command.countUp := by
      rw [hst, hstate]
      cases c.command.countUp <;> rfl
    have hsp : s.getCurrentSpeedInTicks a false junk = (period, c.command.countUp) := by
      unfold Stepper.getCurrentSpeedInTicks
      simp only [Bool.false_eq_true, if_false, Bool.not_false, if_true, hact]
      rw [hup, hP]
    exact ⟨speedUs_of hsp hlt, fun ha h8 => speedMilliHz_of ha hsp h8⟩

/-- C29 with the speed of the queue (`realtime == true`), for every history of the queue: 0 for an empty queue, and the speed of the command in process, if
this is followed by another step without pause; else the speed of the ramp generator is reported.

Missing: in the last case it should be the speed of the motor, see `C29_single_step_refuted`; SAM Due with
`getCurrentSpeedInMilliHz()` (`C29_sam_refuted`). -/
theorem C29_queue_speed_partial (a : ArchId) (ops : List Hw.Op) (hv : ∀ op ∈ ops, op.Valid) (s : Stepper)
    (hs : s.hw = (Hw.run a (Hw.init a) ops).1) (junk : Bool) :
    let pend := (QSpec.init.run a ops).1.pend
    (pend = [] → s.getCurrentSpeedInUs a true junk = 0 ∧ s.getCurrentSpeedInMilliHz a true junk = 0) ∧
    (∀ c cs, pend = c :: cs → QueueKnowsSpeed pend → IsPeriodUs a c.ticks c.countUp (s.getCurrentSpeedInUs a true junk) ∧
      (a ≠ .sam → 8 ≤ c.ticks → IsSpeedMilliHz a c.ticks c.countUp (s.getCurrentSpeedInMilliHz a true junk))) ∧
    (¬ QueueKnowsSpeed pend → s.getCurrentSpeedInUs a true junk = s.getCurrentSpeedInUs a false junk ∧
      s.getCurrentSpeedInMilliHz a true junk = s.getCurrentSpeedInMilliHz a false junk) := by
  intro pend
  have h7 := C07_realtime_speed a ops hv
  rw [← hs] at h7
  change _ = match pend with | [] => _ | c :: cs => _ at h7
  have hpv : ∀ c ∈ pend, c.Valid := (Sim.exec ops (Sim.init a) hv).1.rel.valid
  generalize pend = pend at h7 hpv
  cases pend with
  | nil =>
    refine ⟨fun _ => ?_, fun _ _ h => (nomatch h), fun h => absurd trivial h⟩
    apply speed_zero (up := junk)
    unfold Stepper.getCurrentSpeedInTicks
    dsimp only at h7
    simp only [if_true, h7]
    rfl
  | cons c cs =>
    refine ⟨fun h => (nomatch h), ?_, ?_⟩
    · intro c' cs' he hk
      obtain ⟨h1, h2⟩ := List.cons.inj he
      subst h1 h2
      have hc := hpv c (by simp)
      have hst : c.steps ≠ 0 := by
        rcases hk with hk | hk <;> omega
      dsimp only at h7
      rw [if_neg hst] at h7
      have hval : (s.hw.q.getActualTicksWithDirection a).valid = true := by
        rw [h7]
        dsimp only
        rcases hk with hk | ⟨-, d, hd, hk⟩
        · rw [decide_eq_true (by omega)]; rfl
        · cases cs with
          | nil => cases hd
          | cons d' _ =>
            cases hd
            rw [Bool.or_eq_true]
            exact Or.inr (decide_eq_true (by omega))
      rw [h7] at hval
      dsimp only at hval
      rw [hval] at h7
      have hsp : s.getCurrentSpeedInTicks a true junk = (c.ticks, c.countUp) := by
        unfold Stepper.getCurrentSpeedInTicks
        simp only [if_true, h7]
        rfl
      have hlt : c.ticks < 4294967296 := by
        have := hc.1
        omega
      exact ⟨speedUs_of hsp hlt, fun ha h8 => speedMilliHz_of ha hsp h8⟩
    · intro hk
      have hinv : (s.hw.q.getActualTicksWithDirection a).valid = false := by
        rw [h7]
        dsimp only
        split
        · rfl
        · rename_i hst
          dsimp only
          have h1 : ¬ 2 ≤ c.steps := fun h => hk (Or.inl h)
          rw [decide_eq_false (by omega), Bool.false_or]
          cases cs with
          | nil => rfl
          | cons d _ =>
            apply decide_eq_false
            intro h2
            exact hk (Or.inr ⟨by omega, d, by simp, by omega⟩)
      by_cases ha : s.rg.isActive = true
      · have : s.getCurrentSpeedInTicks a true junk = s.getCurrentSpeedInTicks a false junk := by
          unfold Stepper.getCurrentSpeedInTicks
          simp only [if_true, hinv, Bool.not_false, ha, Bool.false_eq_true, if_false]
        unfold Stepper.getCurrentSpeedInUs Stepper.getCurrentSpeedInMilliHz
        rw [this]
        exact ⟨rfl, rfl⟩
      · have h1 : ∃ up, s.getCurrentSpeedInTicks a true junk = (0, up) := by
          unfold Stepper.getCurrentSpeedInTicks
          simp only [if_true, hinv, Bool.not_false, ha, Bool.false_eq_true, if_false]
          exact ⟨_, rfl⟩
        have h2 : ∃ up, s.getCurrentSpeedInTicks a false junk = (0, up) := by
          unfold Stepper.getCurrentSpeedInTicks
          simp only [Bool.not_false, if_true, ha, Bool.false_eq_true, if_false]
          exact ⟨_, rfl⟩
        obtain ⟨_, h1⟩ := h1
        obtain ⟨_, h2⟩ := h2
        rw [(speed_zero h1).1, (speed_zero h1).2, (speed_zero h2).1, (speed_zero h2).2]
        exact ⟨rfl, rfl⟩

/-- C29 does not hold before the first service of a ramp: `moveTo(100)` at standstill. The queue is empty and the motor does not move, but
`getCurrentSpeedInUs(false)` reports -268435455 µs. -/
theorem C29_not_started_refuted :
    let s := ((configuredStepper .esp32).moveTo 100).1
    s.hw.q.queueEntries = 0 ∧ ∀ junk, s.getCurrentSpeedInUs .esp32 false junk = -268435455 := by
  decide +kernel

/-- C29 does not hold on SAM Due: with a period of 21000 ticks (1 ms) the speed is 1000 steps/s, or 1000000 mHz. The reported value is 181908. -/
theorem C29_sam_refuted :
    let s := (Stepper.addQueueEntry .sam none (fun _ => ⟨0, false⟩) false (configuredStepper .sam) ⟨21000, 2, true⟩ true).1.s
    s.hw.q.queueEntries = 1 ∧ ∀ junk, s.getCurrentSpeedInUs .sam true junk = 1000 ∧ s.getCurrentSpeedInMilliHz .sam true junk = 181908 := by
  decide +kernel

/-- C29 does not hold for a single step without ramp: while the step is executed the reported speed is 0. -/
theorem C29_single_step_refuted :
    let s := (Stepper.addQueueEntry .esp32 none (fun _ => ⟨0, false⟩) false (configuredStepper .esp32) ⟨20000, 1, true⟩ true).1.s
    s.isRunning = true ∧ s.hw.q.queueEntries = 1 ∧ ∀ junk, s.getCurrentSpeedInUs .esp32 true junk = 0 ∧ s.getCurrentSpeedInMilliHz .esp32 true junk = 0 := by
  decide +kernel

/-- A queue history with a downward command in process. -/
example : let ops : List Hw.Op := [.add ⟨5000, 1, true⟩ true, .add ⟨6400, 7, false⟩ true, .advance]
    let s : Stepper := { configuredStepper .esp32 with hw := (Hw.run .esp32 (Hw.init .esp32) ops).1 }
    (QSpec.init.run .esp32 ops).1.pend = [⟨6400, 7, false⟩] ∧ s.getCurrentSpeedInUs .esp32 true true = -400 ∧
    s.getCurrentSpeedInMilliHz .esp32 true true = -2500000 := by
  decide +kernel

/-- A slow ramp downwards: a step command, with pauses up to the next one. -/
example : ∃ d, (Drive.run .esp32 (fun _ => junk0) 0 ⟨((((configuredStepper .esp32).setSpeedInTicks 200000).1.setAcceleration 100).1.moveTo (-10)).1.rg, ⟨0, false, false⟩⟩) = some d ∧
    ∃ r, d.g.getNextCommand .esp32 d.qe junk0 = some r ∧ IsStep r.2.command ∧ r.1.stepsToStop ≠ r.1.ro.config.maxRampUpSteps ∧
    ∃ r1, (r.1.afterCommandEnqueued r.2).getNextCommand .esp32 ⟨-1, false, false⟩ r.2 = some r1 ∧ IsPause r1.2.command ∧
      ({ configuredStepper .esp32 with rg := r1.1.afterCommandEnqueued r1.2 } : Stepper).getCurrentSpeedInUs .esp32 false true < -10000 := by
  apply exists_of_any
  decide +kernel

end FAS
