import Verif.Props.Config
import Verif.Props.Engine
import Verif.Spec.Limits
import Verif.Props.Fill
import Mathlib.Tactic.Ring

/-!
# The maximum speed: C67
-/

namespace FAS

open Spec Stepper

/-- C67, first part: after any history of the engine, a successful connection of a further stepper sets the speed limit of every connected
stepper to the one for the number of steppers, and then every stepper accepts the speed promised for this number. -/
theorem C67_limit_of_connected (a : ArchId) (rule : SlotRule) (hr : SlotRuleOK rule) (ops : List ConnectOp) (pin driver : Nat) (valid : Bool) :
    let st := connectRun a rule (Engine.init, []) ops
    let r := st.1.connect a rule valid pin driver
    r.2 ≠ none →
    ∀ j s, r.1.stepper j = some s →
      s.getMaxSpeedInTicks = shortestPeriod a (st.2.length + 1) ∧
      (s.setSpeedInHz a (promisedHz a (st.2.length + 1))).2 = 0 := by
  intro st r hne j s hj
  have h : st.1.Conn rule st.2 := Engine.Conn.run hr ops _ _ (Engine.Conn.init rule)
  cases hc : r.2 with
  | none => exact absurd hc hne
  | some i =>
    have h' := h.connect (a := a) hr pin driver valid
    have hlen := nodup_bounded_length _ _ h'.nodup h'.bound
    have hmax := rule.max_le hr
    obtain ⟨-, -, -, -, hst⟩ := st.1.connect_some a rule valid pin driver i hc
    have hc2 : (st.1.connect a rule valid pin driver).2 = some i := hc
    rw [hc2] at hlen
    simp only [Option.toList_some, List.length_append, List.length_cons, List.length_nil] at hlen
    have hcnt : u8 (st.1.cnt + 1) = st.2.length + 1 := by
      have := h.cnt
      unfold u8; omega
    rw [hcnt] at hst
    have hj2 := hst j
    rw [show (st.1.connect a rule valid pin driver).1.stepper j = some s from hj] at hj2
    generalize (if j = i then some (Stepper.init a pin) else st.1.stepper j) = o at hj2
    cases o with
    | none => exact absurd hj2 (by simp)
    | some s0 =>
      have hs : s = s0.adjustSpeedToStepperCount a (st.2.length + 1) := by simpa using hj2
      have hm : s.getMaxSpeedInTicks = shortestPeriod a (st.2.length + 1) := by
        rw [hs]
        cases a <;> rfl
      refine ⟨hm, ?_⟩
      have hset := (C25_speed_setters a s (promisedHz a (st.2.length + 1)) (by unfold promisedHz; cases a <;> dsimp only <;> (try decide) <;> split <;> (try decide) <;> split <;> decide)).2.2
      have hpos : 0 < promisedHz a (st.2.length + 1) := by
        unfold promisedHz; cases a <;> dsimp only <;> (try decide) <;> split <;> (try decide) <;> split <;> decide
      rw [if_pos hpos] at hset
      unfold SpeedSet at hset
      dsimp only at hset
      rw [if_pos, ] at hset
      · exact hset.1
      · rw [hm]
        unfold promisedHz shortestPeriod
        cases a <;> dsimp only <;> (try decide) <;> split <;> (try decide) <;> split <;> decide

/-- Three steppers on AVR: the limit of the first one goes from 50 to 20 kHz. -/
example :
    let st := connectRun .avr2560 ArchId.avr2560.slotRule (Engine.init, []) [.connect 6 0 true, .connect 7 0 true]
    let r := st.1.connect .avr2560 ArchId.avr2560.slotRule true 8 0
    r.2 = some 2 ∧ (st.1.stepper 0).map getMaxSpeedInTicks = some 426 ∧ (r.1.stepper 0).map getMaxSpeedInTicks = some 800 ∧
      shortestPeriod .avr2560 3 = 800 ∧ promisedHz .avr2560 3 = 20000 := by decide +kernel

/-- C67, second part: the limit in the other units. Period in microseconds, rounded down; steps per second, rounded down; steps per 1000 s with
an error below 4. The last one needs a limit of at least 4 ticks and does not hold on SAM Due, see `C67_milliHz_refuted`. -/
theorem C67_units_partial (a : ArchId) (s : Stepper) (h0 : 0 < s.getMaxSpeedInTicks) (h16 : s.getMaxSpeedInTicks < 65536) :
    s.getMaxSpeedInUs a = s.getMaxSpeedInTicks / ticksPerUs a ∧
    (∃ hz, s.getMaxSpeedInHz a = some hz ∧ IsSpeed a.ticksPerS s.getMaxSpeedInTicks hz 1) ∧
    (a ≠ .sam → 4 ≤ s.getMaxSpeedInTicks →
      ∃ mHz, s.getMaxSpeedInMilliHz a = some mHz ∧ IsSpeed (1000 * a.ticksPerS) s.getMaxSpeedInTicks mHz 4) := by
  unfold getMaxSpeedInUs getMaxSpeedInHz getMaxSpeedInMilliHz
  generalize s.getMaxSpeedInTicks = t at h0 h16
  refine ⟨?_, ?_, ?_⟩
  · unfold u16 ticksPerUs
    cases a <;> simp only [ArchId.ticksPerS] <;> omega
  · rw [if_neg (by omega)]
    refine ⟨_, rfl, Nat.div_mul_le_self _ _, ?_⟩
    rw [Nat.mul_comm]
    exact Nat.lt_mul_div_succ _ h0
  · intro ha h4
    rw [if_neg (by omega)]
    refine ⟨_, rfl, ?_⟩
    have hb : u32 (250 * a.ticksPerS) = 250 * a.ticksPerS := by
      cases a <;> first | rfl | exact absurd rfl ha
    have hle : 250 * a.ticksPerS ≤ 4000000000 := by cases a <;> first | decide | exact absurd rfl ha
    rw [hb]
    have e1 : 250 * a.ticksPerS / t * t ≤ 250 * a.ticksPerS := Nat.div_mul_le_self _ _
    have e2 : 250 * a.ticksPerS < t * (250 * a.ticksPerS / t + 1) := Nat.lt_mul_div_succ _ h0
    generalize hx : 250 * a.ticksPerS / t = x at e1 e2
    have hx4 : x * 4 ≤ x * t := Nat.mul_le_mul_left _ h4
    have hu : u32 (x * 4) = x * 4 := by unfold u32; omega
    rw [hu]
    unfold IsSpeed
    constructor
    · have : x * 4 * t = 4 * (x * t) := by ring
      rw [this]; omega
    · have : (x * 4 + 4) * t = 4 * (t * (x + 1)) := by ring
      rw [this]; omega

/-- Two steppers on AVR. -/
example : let s := (Stepper.init .avr328 9).adjustSpeedToStepperCount .avr328 2
    s.getMaxSpeedInTicks = 426 ∧ s.getMaxSpeedInUs .avr328 = 26 ∧ s.getMaxSpeedInHz .avr328 = some 37558 ∧
    s.getMaxSpeedInMilliHz .avr328 = some 37558684 := by decide +kernel

/-- C67 does not hold for `getMaxSpeedInMilliHz()` on SAM Due: 250*21000000 does not fit 32 bit, the result is 9.1 kHz instead of 50 kHz. -/
theorem C67_milliHz_refuted :
    let s := (Stepper.init .sam 9).adjustSpeedToStepperCount .sam 1
    s.getMaxSpeedInTicks = 420 ∧ s.getMaxSpeedInMilliHz .sam = some 9095548 ∧ ¬ IsSpeed (1000 * ArchId.sam.ticksPerS) 420 9095548 4 := by
  refine ⟨by decide +kernel, by decide +kernel, ?_⟩
  unfold IsSpeed; decide

/-- C67, third part: the limit as reported in steps/s or steps/1000s is accepted by the setter of the same unit; the limit in microseconds is
accepted exactly if it is a whole number of microseconds. -/
theorem C67_limit_is_accepted_partial (a : ArchId) (s : Stepper) (h0 : 0 < s.getMaxSpeedInTicks) (h16 : s.getMaxSpeedInTicks < 65536) :
    (s.setSpeedInTicks s.getMaxSpeedInTicks).2 = 0 ∧
    (∃ hz, s.getMaxSpeedInHz a = some hz ∧ (s.setSpeedInHz a hz).2 = 0) ∧
    (a ≠ .sam → 80 ≤ s.getMaxSpeedInTicks → ∃ mHz, s.getMaxSpeedInMilliHz a = some mHz ∧ (s.setSpeedInMilliHz a mHz).2 = 0) ∧
    ((s.setSpeedInUs a (s.getMaxSpeedInUs a)).2 = 0 ↔ ticksPerUs a ∣ s.getMaxSpeedInTicks) := by
  obtain ⟨u1, ⟨hz, u2, u3⟩, u4⟩ := C67_units_partial a s h0 h16
  have hroundGe : ∀ n f : Nat, 0 < f → f * s.getMaxSpeedInTicks ≤ n → s.getMaxSpeedInTicks ≤ roundDiv n f := by
    intro n f hf h
    have := (roundDiv_nearest n f hf).2
    by_contra hlt
    have h2 : roundDiv n f + 1 ≤ s.getMaxSpeedInTicks := by omega
    have h3 := Nat.mul_le_mul_left f h2
    have : 2 * f * roundDiv n f + 2 * f = 2 * (f * (roundDiv n f + 1)) := by ring
    omega
  have hroundLt : ∀ n f : Nat, 0 < f → n < 21000000000000 → 4294967295 * f > n + f → roundDiv n f ≠ 0xffffffff := by
    intro n f hf hn h
    have := (roundDiv_nearest n f hf).1
    intro he
    rw [he] at this
    omega
  refine ⟨?_, ⟨hz, u2, ?_⟩, ?_, ?_⟩
  · have h := setSpeedInTicks_spec s s.getMaxSpeedInTicks
    unfold SpeedSet at h
    dsimp only at h
    rw [if_pos ⟨Nat.le_refl _, by omega⟩] at h
    exact h.1
  · have hT : a.ticksPerS ≤ 21000000 := by cases a <;> decide
    have hT2 : 16000000 ≤ a.ticksPerS := by cases a <;> decide
    have hpos : 0 < hz := by
      rcases Nat.eq_zero_or_pos hz with h | h
      · have := u3.2; rw [h] at this; omega
      · exact h
    have hle : hz * 1 ≤ hz * s.getMaxSpeedInTicks := Nat.mul_le_mul_left _ h0
    have h := (C25_speed_setters a s hz (by have := u3.1; omega)).2.2
    rw [if_pos hpos] at h
    unfold SpeedSet at h
    dsimp only at h
    rw [if_pos ⟨hroundGe _ _ hpos u3.1, hroundLt _ _ hpos (by omega) (by omega)⟩] at h
    exact h.1
  · intro ha h80
    obtain ⟨mHz, m1, m2, m3⟩ := u4 ha (by omega)
    refine ⟨mHz, m1, ?_⟩
    have hT : a.ticksPerS = 16000000 := by cases a <;> first | rfl | exact absurd rfl ha
    rw [hT] at m2 m3
    have hbig : 4 < mHz := by
      by_contra hc
      have h2 : (mHz + 4) * s.getMaxSpeedInTicks ≤ 8 * s.getMaxSpeedInTicks := Nat.mul_le_mul_right _ (by omega)
      omega
    have hm32 : mHz * 80 ≤ mHz * s.getMaxSpeedInTicks := Nat.mul_le_mul_left _ h80
    have hround := hroundGe (1000 * 16000000) mHz (by omega) m2
    have hdiv : RampGen.divForMilliHz a mHz = roundDiv (1000 * a.ticksPerS) mHz := by
      rcases divForMilliHz_or a ha mHz hbig with h | ⟨-, h⟩
      · exact h
      · rw [hT] at h; omega
    unfold setSpeedInMilliHz
    rw [if_neg (by rw [hT]; omega), hdiv, hT]
    have h := setSpeedInTicks_spec s (roundDiv (1000 * 16000000) mHz)
    unfold SpeedSet at h
    dsimp only at h
    rw [if_pos ⟨hround, hroundLt _ _ (by omega) (by omega) (by omega)⟩] at h
    exact h.1
  · have hper : ticksPerUs a = 16 ∨ ticksPerUs a = 21 := by cases a <;> first | exact Or.inl rfl | exact Or.inr rfl
    rw [u1]
    have h := (C25_speed_setters a s (s.getMaxSpeedInTicks / ticksPerUs a) (by rcases hper with e | e <;> rw [e] <;> omega)).2.1
    rw [if_pos (by rcases hper with e | e <;> rw [e] <;> omega)] at h
    unfold SpeedSet at h
    dsimp only at h
    by_cases hd : ticksPerUs a ∣ s.getMaxSpeedInTicks
    · rw [if_pos (by rw [Nat.div_mul_cancel hd]; omega)] at h
      exact ⟨fun _ => hd, fun _ => h.1⟩
    · rw [if_neg] at h
      · rw [h]
        exact ⟨fun he => absurd (show (-1 : Int) = 0 from he) (by decide), fun he => absurd he hd⟩
      · rcases hper with e | e <;> rw [e] at hd ⊢ <;> omega

/-- C67 does not hold for microseconds: with two steppers on AVR the limit is reported as 26 us, and `setSpeedInUs(26)` fails. -/
theorem C67_us_not_accepted_refuted :
    let st := connectRun .avr328 ArchId.avr328.slotRule (Engine.init, []) [.connect 9 0 true, .connect 10 0 true]
    ∃ s, st.1.stepper 0 = some s ∧ s.getMaxSpeedInUs .avr328 = 26 ∧ (s.setSpeedInUs .avr328 26).2 = -1 := by
  apply exists_of_any; decide +kernel

end FAS
