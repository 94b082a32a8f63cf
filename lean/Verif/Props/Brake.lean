import Verif.Lemmas.LinearRamp
import Mathlib.Tactic.Ring

/-!
# Speed and braking distance: C85, C86
-/

namespace FAS

open Spec

theorem steadyRamp_law {a : ArchId} {A : Nat} (hA : 0 < A) (hA2 : A < 2 ^ 31) {n : Nat} (h1 : 1 ≤ n) (h2 : n < 4294967296) :
    (steadyRamp a A n : ℝ) ≤ 201 / 200 * idealPeriod a A n + 1 ∧ idealPeriod a A n ≤ 201 / 200 * (steadyRamp a A n + 1) := by
  obtain ⟨c, hc, he⟩ := steadyRamp_configured a A
  rw [← he]
  exact C33_sqrt_law hc hA hA2 (by omega) (by omega) (by omega) (by omega)

theorem idealPeriod_sq (a : ArchId) {A n : Nat} (hA : 0 < A) (hn : 1 ≤ n) :
    idealPeriod a A n ^ 2 * (2 * A * n) = (a.ticksPerS : ℝ) ^ 2 := by
  have h0 : (0 : ℝ) < 2 * A * n := by
    have : (0 : ℝ) < A := by exact_mod_cast hA
    have : (0 : ℝ) < n := by exact_mod_cast hn
    positivity
  unfold idealPeriod
  rw [div_pow, Real.sq_sqrt h0.le]
  field_simp

theorem steadyRamp_smooth {a : ArchId} {A : Nat} (hA : 0 < A) (hA2 : A < 2 ^ 31) {n k : Nat} (h1 : 1 ≤ n) (h2 : n + k < 4294967296) (h3 : k ≤ 50)
    (h4 : 65535 < steadyRamp a A n) : a.minCmdTicks ≤ steadyRamp a A (n + k) := by
  have hm : a.minCmdTicks ≤ 4200 := by cases a <;> decide
  have l1 := (steadyRamp_law (a := a) hA hA2 h1 (by omega)).1
  have l2 := (steadyRamp_law (a := a) hA hA2 (n := n + k) (by omega) h2).2
  have q1 := idealPeriod_sq a hA h1
  have q2 := idealPeriod_sq a (n := n + k) hA (by omega)
  have p1 := idealPeriod_pos a hA h1
  have p2 := idealPeriod_pos a (steps := n + k) hA (by omega)
  have h5 : (65536 : ℝ) ≤ steadyRamp a A n := by exact_mod_cast h4
  generalize idealPeriod a A n = I at *
  generalize idealPeriod a A (n + k) = J at *
  have hAr : (0 : ℝ) < A := by exact_mod_cast hA
  have hnr : (1 : ℝ) ≤ n := by exact_mod_cast h1
  have hkr : (k : ℝ) ≤ 50 := by exact_mod_cast h3
  have e : J ^ 2 * (n + k) = I ^ 2 * n := by
    push_cast at q2
    have : 2 * (A : ℝ) * (J ^ 2 * (n + k)) = 2 * A * (I ^ 2 * n) := by
      rw [show 2 * (A : ℝ) * (J ^ 2 * (n + k)) = J ^ 2 * (2 * A * (n + k)) by ring, q2, ← q1]; ring
    exact mul_left_cancel₀ (by positivity) this
  have hI : 65000 ≤ I := by linarith
  have hJ : I ^ 2 ≤ 51 * J ^ 2 := by
    have h6 : J ^ 2 * (n + k) ≤ J ^ 2 * (51 * n) := by
      apply mul_le_mul_of_nonneg_left _ (by positivity)
      nlinarith
    have h7 : I ^ 2 * n ≤ (51 * J ^ 2) * n := by rw [← e]; linarith
    exact le_of_mul_le_mul_right h7 (by linarith)
  have hJ2 : 9000 ≤ J := by nlinarith
  have h8 : (4200 : ℝ) ≤ steadyRamp a A (n + k) := by linarith
  have h9 : 4200 ≤ steadyRamp a A (n + k) := by exact_mod_cast h8
  omega

theorem steadyRamp_anti {a : ArchId} {A : Nat} (hA : 0 < A) (hA2 : A < 2 ^ 31) : Planner.Antitone32 (steadyRamp a A) := fun s t h1 h2 h3 => by
  obtain ⟨c, hc, he⟩ := steadyRamp_configured a A
  rw [← he]; exact C60_period_monotone_partial hc hA hA2 h1 h2 (by omega)

/-- **C60** with linear acceleration: more ramp steps give no period which is longer by more than about two percent and two ticks.

Missing: exact monotonicity, which is refuted (`C60_linear_acceleration_refuted`). -/
theorem C60_linear_partial {a : ArchId} {accel sH : Nat} {c : RampConfig} (h : Configured a accel sH c) (ha : 0 < accel) (ha2 : accel < 2 ^ 31)
    (hs : sH < 2 ^ 32 - 2) {s t : Nat} (h0 : 0 < s) (hst : s ≤ t) (h1 : t < 2 ^ 32) :
    10000 * c.calculateTicks a t ≤ 10201 * c.calculateTicks a s + 20201 := by
  by_cases hs0 : sH = 0
  · subst hs0
    have := C60_period_monotone_partial h ha ha2 h0 hst h1
    omega
  · obtain ⟨c2, hc2, he2⟩ := linearRamp_configured a accel sH
    have he : ∀ n, 0 < n → n < 2 ^ 32 → c.calculateTicks a n = linearRamp a accel sH n := by
      intro n h3 h4
      rw [← he2, C32_period_no_overflow h ha ha2 (by omega) h3 h4, C32_period_no_overflow hc2 ha ha2 (by omega) h3 h4]
    rw [he _ h0 (by omega), he _ (by omega) h1]
    have h4 := linearRamp_near (a := a) (H := sH) ha ha2 (by omega) (by omega) h0 hst h1
    have h5 : (10000 : ℝ) * linearRamp a accel sH t ≤ 10201 * linearRamp a accel sH s + 20201 := by linarith
    exact_mod_cast h5

/-- The case in which exact monotonicity is violated. -/
example : Configured .avr328 1000 5000 (rampConfig .avr328 1000 5000 80) ∧
    10000 * (rampConfig .avr328 1000 5000 80).calculateTicks .avr328 496 ≤ 10201 * (rampConfig .avr328 1000 5000 80).calculateTicks .avr328 495 + 20201 :=
  ⟨rampConfig_configured _ _ _ _, C60_linear_partial (rampConfig_configured _ _ _ _) (by decide) (by decide) (by decide) (by decide) (by decide) (by decide)⟩

/-- Both kinds of ramp. -/
theorem ramp_good {a : ArchId} {T A H : Nat} (hmin : a.minCmdTicks ≤ T) (hA : 0 < A) (hA2 : A < 2 ^ 31) (hH : H < 4294967294)
    (hlin : H = 0 ∨ 23 * a.minCmdTicks ≤ 20 * T) : Planner.GoodRamp a T (lowest (linearRamp a A H)) (linearRamp a A H) := by
  by_cases hH0 : H = 0
  · subst hH0
    rw [linearRamp_zero]
    obtain ⟨c, hc, he⟩ := steadyRamp_configured a A
    have hanti : Planner.Antitone32 (steadyRamp a A) := steadyRamp_anti hA hA2
    have hlow : ∀ n, 1 ≤ n → n < 4294967296 → lowest (steadyRamp a A) n = steadyRamp a A n := by
      intro n h1 h2
      obtain ⟨m, m1, m2, m3⟩ := lowest_spec (steadyRamp a A) h1
      have := hanti m n (by omega) m2 h2
      have := lowest_le (steadyRamp a A) h1
      omega
    refine ⟨fun s t h1 h2 _ => lowest_anti _ h1 h2, fun n h1 _ => lowest_le _ h1, fun n h1 h2 => ?_, fun n k h1 h2 h3 h4 => ?_, fun n h1 h2 h3 => ?_,
      fun P h1 h2 h3 h4 => ?_⟩
    · have := ticks_lively_plain hc hA hA2 n h1 h2
      rw [he] at this; omega
    · rw [hlow _ (by omega) h2]; exact steadyRamp_smooth hA hA2 h1 h2 h3 h4
    · rw [hlow _ h1 h2]; omega
    · have hm : 0 < a.minCmdTicks := by cases a <;> decide
      have hp := Planner.horizon_pos (a := a) (P := P) (by omega)
      have hsm := Planner.horizon_small (a := a) (P := P) (by omega)
      rw [hlow _ hp (by omega)] at h3
      omega
  · exact linearRamp_good hA hA2 (by omega) hH (hlin.resolve_left hH0)

/-- The braking distance of a speed, if the period is at most by the factor `c` shorter than the one of constant acceleration with `n` steps. -/
theorem brake_of {a : ArchId} {A P : Nat} (hA : 0 < A) {I c n : ℝ} (hn : 0 ≤ n) (h0 : 0 ≤ I) (hI : I ≤ c * (P + 1))
    (hsq : (a.ticksPerS : ℝ) ^ 2 ≤ I ^ 2 * (2 * A * n)) : idealRampSteps a A (P + 1) ≤ c ^ 2 * n := by
  have hP : (0 : ℝ) ≤ P := Nat.cast_nonneg _
  have hAr : (0 : ℝ) < A := by exact_mod_cast hA
  unfold idealRampSteps
  push_cast
  rw [div_pow, div_div, div_le_iff₀ (by positivity)]
  have h2 : I ^ 2 ≤ (c * ((P : ℝ) + 1)) ^ 2 := pow_le_pow_left₀ h0 hI 2
  calc (a.ticksPerS : ℝ) ^ 2 ≤ I ^ 2 * (2 * A * n) := hsq
    _ ≤ (c * ((P : ℝ) + 1)) ^ 2 * (2 * A * n) := mul_le_mul_of_nonneg_right h2 (by positivity)
    _ = c ^ 2 * n * (((P : ℝ) + 1) ^ 2 * (2 * A)) := by ring

/-- Linear acceleration is not faster than three quarters of the acceleration. -/
theorem idealCubicPeriod_sq (a : ArchId) {A H n : Nat} (hA : 0 < A) (hn : 1 ≤ n) (hH : n < H) :
    (a.ticksPerS : ℝ) ^ 2 ≤ idealCubicPeriod a A H n ^ 2 * (3 / 2 * A * n) := by
  have h6 := idealCubicPeriod_six a (H := H) hA (by omega) hn
  have hp := idealCubicPeriod_pos a (sH := H) hA (by omega) hn
  have hAr : (0 : ℝ) < A := by exact_mod_cast hA
  have hnr : (0 : ℝ) < n := by exact_mod_cast hn
  have hHr : (n : ℝ) ≤ H := by exact_mod_cast hH.le
  have hT : (0 : ℝ) ≤ a.ticksPerS := Nat.cast_nonneg _
  generalize idealCubicPeriod a A H n = I at *
  refine (pow_le_pow_iff_left₀ (by positivity) (by positivity) (n := 3) (by norm_num)).mp ?_
  have h1 : 8 * (n : ℝ) * ((a.ticksPerS : ℝ) ^ 2) ^ 3 ≤ 8 * n * (I ^ 2 * (3 / 2 * A * n)) ^ 3 := by
    calc 8 * (n : ℝ) * ((a.ticksPerS : ℝ) ^ 2) ^ 3 = 8 * n * (a.ticksPerS : ℝ) ^ 6 := by ring
      _ ≤ 8 * H * (a.ticksPerS : ℝ) ^ 6 := mul_le_mul_of_nonneg_right (by linarith) (by positivity)
      _ = _ := by rw [← h6]; ring
  exact le_of_mul_le_mul_left h1 (by positivity)

/-- The braking distance of a speed, if the ramp is not faster than the speed within `n` steps. -/
theorem brake_le {a : ArchId} {A H n P : Nat} (hA : 0 < A) (hA2 : A < 2 ^ 31) (hH : H < 4294967294) (h1 : 1 ≤ n) (h2 : n < 4294967296)
    (h : lowest (linearRamp a A H) n ≤ P) : idealRampSteps a A (P + 1) ≤ (201 / 200) ^ 2 * n := by
  obtain ⟨m, m1, m2, m3⟩ := lowest_spec (linearRamp a A H) h1
  rw [m3] at h
  have hr : (linearRamp a A H m : ℝ) ≤ P := by exact_mod_cast h
  have hmn : (m : ℝ) ≤ n := by exact_mod_cast m2
  have hm0 : (0 : ℝ) ≤ m := Nat.cast_nonneg _
  obtain ⟨c, hc, he⟩ := linearRamp_configured a A H
  rw [← he] at hr
  by_cases c1 : m < H
  · have l := (C33_cubic_law hc hA hA2 (by omega) m1 c1).2
    have hp := idealCubicPeriod_pos a (sH := H) hA (by omega) m1
    have := brake_of (a := a) (P := P) hA (c := 101 / 100) (n := 3 / 4 * m) (by positivity) hp.le (by linarith)
      (by rw [show (2 : ℝ) * A * (3 / 4 * m) = 3 / 2 * A * m by ring]; exact idealCubicPeriod_sq a hA m1 c1)
    linarith
  · have l := (C33_sqrt_law hc hA hA2 (by omega) m1 (by omega) (by omega)).2
    have hp := idealPeriod_pos a (accel := A) (steps := m - (H + 2) / 4) hA (by omega)
    have hq : ((m - (H + 2) / 4 : Nat) : ℝ) ≤ m := by exact_mod_cast (show m - (H + 2) / 4 ≤ m by omega)
    have := brake_of (a := a) (P := P) hA (c := 201 / 200) (n := ((m - (H + 2) / 4 : Nat) : ℝ)) (Nat.cast_nonneg _) hp.le (by linarith)
      (idealPeriod_sq a hA (by omega)).ge
    linarith

/-- A stopped motor has no braking distance. -/
theorem brake_stopped {a : ArchId} {A : Nat} (hA : 0 < A) : idealRampSteps a A (ticksForStoppedMotor + 1) ≤ 1 := by
  have hAr : (1 : ℝ) ≤ A := by exact_mod_cast hA
  have ht : (a.ticksPerS : ℝ) ≤ 21000000 := by cases a <;> (unfold ArchId.ticksPerS; norm_num)
  have h0 : (0 : ℝ) ≤ a.ticksPerS := Nat.cast_nonneg _
  unfold idealRampSteps ticksForStoppedMotor
  rw [div_le_one (by positivity)]
  have h1 : (a.ticksPerS : ℝ) / ((0xffffffff + 1 : Nat) : ℝ) ≤ 1 := by
    rw [div_le_one (by positivity)]
    push_cast
    linarith
  have h2 : (0 : ℝ) ≤ (a.ticksPerS : ℝ) / ((0xffffffff + 1 : Nat) : ℝ) := by positivity
  nlinarith

theorem Planner.Brakeable.distance {a : ArchId} {T A H P n : Nat} (hA : 0 < A) (hA2 : A < 2 ^ 31) (hH : H < 4294967294) (hmin : a.minCmdTicks ≤ T)
    (hn : n < 2147483648) (h : Planner.Brakeable a T (lowest (linearRamp a A H)) P n) :
    idealRampSteps a A (P + 1) ≤ (201 / 200) ^ 2 * ((max n (stepsIn2ms a P) : Nat) : ℝ) := by
  have hm : 0 < a.minCmdTicks := by cases a <;> decide
  have h1 := Planner.horizon_pos (a := a) (P := P) (by have := h.set; omega)
  have h2 := Planner.horizon_small (a := a) (P := P) (by have := h.set; omega)
  refine le_trans (brake_le hA hA2 hH (by omega) (by omega) h.slow) ?_
  have h3 : max n (Planner.horizon a P) ≤ max n (stepsIn2ms a P) := by
    have := Planner.horizon_2ms (a := a) (P := P)
    omega
  have h4 : ((max n (Planner.horizon a P) : Nat) : ℝ) ≤ ((max n (stepsIn2ms a P) : Nat) : ℝ) := by exact_mod_cast h3
  exact mul_le_mul_of_nonneg_left h4 (by norm_num)

theorem SteadyHist.steady {a : ArchId} {T A H : Nat} (hmin : a.minCmdTicks ≤ T) (hT : T < ticksForStoppedMotor) (hA : 0 < A) (hA2 : A < 2 ^ 31)
    (hH : H < 4294967294) (hlin : H = 0 ∨ 23 * a.minCmdTicks ≤ 20 * T)
    {s : Stepper} (h : SteadyHist a T A H s) : InRange s.rg ∧ SteadyInv a T A H s.rg := by
  induction h with
  | start s h =>
    have e : (s.setLinearAcceleration H).rg.rw = s.rg.rw ∧ (s.setLinearAcceleration H).rg.ro = s.rg.ro ∧
        (s.setLinearAcceleration H).rg.parameters.validSpeed = s.rg.parameters.validSpeed ∧
        (s.setLinearAcceleration H).rg.parameters.validAcceleration = s.rg.parameters.validAcceleration ∧
        (s.setLinearAcceleration H).rg.parameters.sJump = s.rg.parameters.sJump ∧ (s.setLinearAcceleration H).rg.parameters.sH = H := by
      unfold Stepper.setLinearAcceleration RampParams.setCubicAccelerationSteps
      dsimp only
      split
      · exact ⟨rfl, rfl, rfl, rfl, rfl, rfl⟩
      · rename_i hne
        exact ⟨rfl, rfl, rfl, rfl, rfl, by simpa using hne⟩
    refine ⟨InRange_call a s (.config (.linear H)) (by rw [h]; exact ⟨by decide, by decide, by decide, by decide, by decide, by decide⟩) trivial, ?_⟩
    obtain ⟨e1, e2, e3, e4, e5, e6⟩ := e
    have hin : (s.setLinearAcceleration H).rg.isActive = false := by unfold RampGen.isActive; rw [e1, h]; rfl
    exact ⟨(by rw [e3, h]; exact fun h => (by cases h)), (by rw [e4, h]; exact fun h => (by cases h)), e6, (by rw [e5, h]; rfl),
      (by rw [hin]; exact fun h => (by cases h)), (by rw [hin]; exact fun h => (by cases h)), (by rw [e2, h]; rfl),
      (by rw [hin]; exact fun h => (by cases h)), (by rw [hin]; exact fun h => (by cases h))⟩
  | @call s c _ hok ih =>
    refine ⟨InRange_call a s c ih.1 ?_, SteadyInv.call s c ih.2 hok⟩
    unfold ticksForStoppedMotor at hT
    cases c <;> try trivial
    rename_i k
    cases k <;> try trivial
    · change _ < _; change _ = _ at hok; omega
    · change _ < _; change _ = _ at hok; omega
  | task env junk acc _ hj hf ih =>
    refine fillQueue_rg_induct (fun g => InRange g ∧ SteadyInv a T A H g) ?_ ih hj hf
    intro g g' qe junk c hi ha hv hj hg
    obtain ⟨r0, r1, r2, r3⟩ := InRange_serve hi.1 hj hg
    obtain ⟨s1, s2, s3⟩ := hi.2.serve (ramp_good hmin hA hA2 hH hlin) hmin hT ha hg
    exact ⟨r0, ⟨r1, s1⟩, ⟨r2, s2⟩, ⟨r3, s3⟩⟩
  | other _ hs ih => rw [hs]; exact ih

/-- Without linear acceleration, `setLinearAcceleration(0)` need not be called. -/
theorem Spec.SteadyHist.of_ramp {a : ArchId} {T A : Nat} {s : Stepper} (h : RampHist a (ApiCall.Steady T A 0) s) : SteadyHist a T A 0 s := by
  induction h with
  | start s h => exact .other (.start s h) (by rw [h]; unfold Stepper.setLinearAcceleration RampParams.setCubicAccelerationSteps; dsimp only; rw [h]; rfl)
  | call c _ hok ih => exact .call c ih hok
  | task env junk acc _ hj hf ih => exact .task env junk acc ih hj hf
  | other _ hs ih => exact .other ih hs

theorem SteadyInv.distance {a : ArchId} {T A H : Nat} (hmin : a.minCmdTicks ≤ T) (hA : 0 < A) (hA2 : A < 2 ^ 31) (hH : H < 4294967294)
    {g : RampGen} (hi : SteadyInv a T A H g) (ha : g.isActive = true) :
    idealRampSteps a A (g.rw.currTicks + 1) ≤ (201 / 200) ^ 2 * ((max g.stepsToStop (stepsIn2ms a g.rw.currTicks) : Nat) : ℝ) := by
  by_cases hs : g.rw.currTicks = ticksForStoppedMotor
  · rw [hs]
    refine le_trans (brake_stopped hA) ?_
    have h1 : 1 ≤ max g.stepsToStop (stepsIn2ms a ticksForStoppedMotor) := by unfold stepsIn2ms; omega
    have h2 : (1 : ℝ) ≤ ((max g.stepsToStop (stepsIn2ms a ticksForStoppedMotor) : Nat) : ℝ) := by exact_mod_cast h1
    linarith
  · obtain ⟨-, h1, -, h3⟩ := hi.moving ha hs
    exact h3.distance hA hA2 hH hmin h1

/-- **C85**. `stepsToStop()` is honest. Speed `T` (in ticks), acceleration `A` and `H` steps of linear acceleration (0: none) are set, and not changed any more; everything else (moves, stops, changes of
direction, target and position, in any order, at any time) is arbitrary. Then in every state with an active ramp, the braking distance
`v² / (2 A)` which physics demands for the speed reached at the end of the queue is at most `stepsToStop()`, or the steps made in 2 ms, plus one percent.

With linear acceleration the speed has to be 15 percent below one step per `MIN_CMD_TICKS`, as the ramp is not quite monotone.

Missing: speeds faster than one step per `MIN_CMD_TICKS` (see `C85_fast_refuted`), changed settings while the motor moves, jump start (see `C85_jump_refuted`). -/
theorem C85_can_stop_partial {a : ArchId} {T A H : Nat} (hmin : a.minCmdTicks ≤ T) (hT : T < 4294967295) (hA : 0 < A) (hA2 : A < 2 ^ 31)
    (hH : H < 4294967294) (hlin : H = 0 ∨ 23 * a.minCmdTicks ≤ 20 * T)
    {s : Stepper} (h : SteadyHist a T A H s) (hm : s.getPeriodInTicksAfterCommandsCompleted ≠ 0) :
    idealRampSteps a A (s.getPeriodInTicksAfterCommandsCompleted + 1) ≤
      (201 / 200) ^ 2 * ((max s.rg.stepsToStop (stepsIn2ms a s.getPeriodInTicksAfterCommandsCompleted) : Nat) : ℝ) := by
  have hi := (SteadyHist.steady hmin hT hA hA2 hH hlin h).2
  unfold Stepper.getPeriodInTicksAfterCommandsCompleted at hm ⊢
  by_cases ha : s.rg.isActive = true
  · rw [if_pos ha]
    exact hi.distance hmin hA hA2 hH ha
  · rw [if_neg ha] at hm
    exact absurd rfl hm

/-- The hypotheses are met: a motor which has accelerated. -/
example : ∃ s, SteadyHist .avr328 4000 10000 0 s ∧ s.getPeriodInTicksAfterCommandsCompleted ≠ 0 ∧
    s.getPeriodInTicksAfterCommandsCompleted ≠ ticksForStoppedMotor ∧ 2 ≤ s.rg.stepsToStop := by
  have h1 : SteadyHist .avr328 4000 10000 0 (ApiCall.exec .avr328 (ApiCall.exec .avr328 (ApiCall.exec .avr328
      ((Stepper.init .avr328 1).setAbsoluteSpeedLimit 640) (.config (.speed 4000))) (.config (.acceleration 10000))) (.moveTo 1000)) :=
    .of_ramp (.call _ (.call _ (.call _ (.start _ rfl) rfl) rfl) trivial)
  have h2 : ((ApiCall.exec .avr328 (ApiCall.exec .avr328 (ApiCall.exec .avr328
      ((Stepper.init .avr328 1).setAbsoluteSpeedLimit 640) (.config (.speed 4000))) (.config (.acceleration 10000))) (.moveTo 1000)).fillQueue
      .avr328 calmEnv junk0).any (fun r => decide (r.1.getPeriodInTicksAfterCommandsCompleted ≠ 0 ∧
        r.1.getPeriodInTicksAfterCommandsCompleted ≠ ticksForStoppedMotor ∧ 2 ≤ r.1.rg.stepsToStop)) = true := by decide +kernel
  obtain ⟨⟨s, acc⟩, h3, h4⟩ := Option.any_eq_true .. |>.mp h2
  exact ⟨s, .task calmEnv junk0 acc h1 (by decide) h3, of_decide_eq_true h4⟩

/-- And with linear acceleration over 20 steps. -/
example : ∃ s, SteadyHist .avr328 4000 10000 20 s ∧ s.getPeriodInTicksAfterCommandsCompleted ≠ 0 ∧
    s.getPeriodInTicksAfterCommandsCompleted ≠ ticksForStoppedMotor ∧ 2 ≤ s.rg.stepsToStop ∧ (20 = 0 ∨ 23 * ArchId.avr328.minCmdTicks ≤ 20 * 4000) := by
  have h1 : SteadyHist .avr328 4000 10000 20 (ApiCall.exec .avr328 (ApiCall.exec .avr328 (ApiCall.exec .avr328
      (((Stepper.init .avr328 1).setAbsoluteSpeedLimit 640).setLinearAcceleration 20) (.config (.speed 4000))) (.config (.acceleration 10000))) (.moveTo 1000)) :=
    .call _ (.call _ (.call _ (.start _ rfl) rfl) rfl) trivial
  have h2 : ((ApiCall.exec .avr328 (ApiCall.exec .avr328 (ApiCall.exec .avr328
      (((Stepper.init .avr328 1).setAbsoluteSpeedLimit 640).setLinearAcceleration 20) (.config (.speed 4000))) (.config (.acceleration 10000))) (.moveTo 1000)).fillQueue
      .avr328 calmEnv junk0).any (fun r => decide (r.1.getPeriodInTicksAfterCommandsCompleted ≠ 0 ∧
        r.1.getPeriodInTicksAfterCommandsCompleted ≠ ticksForStoppedMotor ∧ 2 ≤ r.1.rg.stepsToStop)) = true := by decide +kernel
  obtain ⟨⟨s, acc⟩, h3, h4⟩ := Option.any_eq_true .. |>.mp h2
  obtain ⟨k1, k2, k3⟩ := of_decide_eq_true h4
  exact ⟨s, .task calmEnv junk0 acc h1 (by decide) h3, k1, k2, k3, by decide⟩

/-- C85 does not hold for high speeds: ESP32, 80 ticks (200000 steps/s, the limit), acceleration 1e7 steps/s². The planner looks ahead by 400 steps (2 ms), but a
command has at most 255 steps. So the speed is calculated for more steps than are made and counted. The set speed is reached with `stepsToStop()` = 1866, but the motor
needs 2000 steps to stop with the set acceleration. -/
theorem C85_fast_refuted : ∃ s, SteadyHist .esp32 80 10000000 0 s ∧ s.getPeriodInTicksAfterCommandsCompleted = 80 ∧
    s.rg.stepsToStop = 1866 ∧ s.rg.rw.state.phase = .coast ∧ idealRampSteps .esp32 10000000 80 = 2000 ∧
    (201 / 200) ^ 2 * ((max s.rg.stepsToStop (stepsIn2ms .esp32 80) : Nat) : ℝ) < idealRampSteps .esp32 10000000 81 := by
  have h1 : SteadyHist .esp32 80 10000000 0 (ApiCall.exec .esp32 (ApiCall.exec .esp32 (ApiCall.exec .esp32
      ((Stepper.init .esp32 1).adjustSpeedToStepperCount .esp32 1) (.config (.speed 80))) (.config (.acceleration 10000000))) (.moveTo 20000)) :=
    .of_ramp (.call _ (.call _ (.call _ (.start _ rfl) rfl) rfl) trivial)
  have h2 : ((ApiCall.exec .esp32 (ApiCall.exec .esp32 (ApiCall.exec .esp32
      ((Stepper.init .esp32 1).adjustSpeedToStepperCount .esp32 1) (.config (.speed 80))) (.config (.acceleration 10000000))) (.moveTo 20000)).fillQueue
      .esp32 calmEnv junk0).any (fun r => decide (r.1.getPeriodInTicksAfterCommandsCompleted = 80 ∧ r.1.rg.stepsToStop = 1866 ∧
        r.1.rg.rw.state.phase = .coast)) = true := by decide +kernel
  obtain ⟨⟨s, acc⟩, h3, h4⟩ := Option.any_eq_true .. |>.mp h2
  obtain ⟨k1, k2, k3⟩ := of_decide_eq_true h4
  refine ⟨s, .task calmEnv junk0 acc h1 (by decide) h3, k1, k2, k3, ?_, ?_⟩
  · unfold idealRampSteps ArchId.ticksPerS; norm_num
  · have : max s.rg.stepsToStop (stepsIn2ms .esp32 80) = 1866 := by rw [k2]; decide
    rw [this]
    unfold idealRampSteps ArchId.ticksPerS; norm_num

/-- C85 does not hold with jump start: AVR, 400000 ticks (40 steps/s), acceleration 10 steps/s², `setJumpStart(1)`. After `moveTo(1)` the ramp is at its set speed with
`stepsToStop()` = 0. If now `moveTo(1000)` follows, the motor goes on with the set speed: it has not accelerated at all, and believes it can stop at once. It needs 80 steps to stop with the set
acceleration. -/
theorem C85_jump_refuted : ∃ s, RampHist .avr328 (fun c => c.Steady 400000 10 0 ∨ c = .config (.jump 1)) s ∧
    s.getPeriodInTicksAfterCommandsCompleted = 400000 ∧ s.rg.stepsToStop = 0 ∧ s.rg.rw.state.phase = .coast ∧
    s.getPositionAfterCommandsCompleted = 2 ∧ s.rg.ro.targetPos = 1000 ∧ idealRampSteps .avr328 10 400000 = 80 ∧
    (201 / 200) ^ 2 * ((max s.rg.stepsToStop (stepsIn2ms .avr328 400000) : Nat) : ℝ) < idealRampSteps .avr328 10 400001 := by
  have h1 : RampHist .avr328 (fun c => c.Steady 400000 10 0 ∨ c = .config (.jump 1)) (ApiCall.exec .avr328 (ApiCall.exec .avr328 (ApiCall.exec .avr328 (ApiCall.exec .avr328
      ((Stepper.init .avr328 1).setAbsoluteSpeedLimit 640) (.config (.speed 400000))) (.config (.acceleration 10))) (.config (.jump 1))) (.moveTo 1)) :=
    .call _ (.call _ (.call _ (.call _ (.start _ rfl) (.inl rfl)) (.inl rfl)) (.inr rfl)) (.inl trivial)
  have h2 : ((ApiCall.exec .avr328 (ApiCall.exec .avr328 (ApiCall.exec .avr328 (ApiCall.exec .avr328
      ((Stepper.init .avr328 1).setAbsoluteSpeedLimit 640) (.config (.speed 400000))) (.config (.acceleration 10))) (.config (.jump 1))) (.moveTo 1)).fillQueue
      .avr328 calmEnv junk0).any (fun r => ((ApiCall.exec .avr328 { r.1 with hw := { r.1.hw with q := r.1.hw.q.drop } } (.moveTo 1000)).fillQueue .avr328 calmEnv junk0).any
        (fun r => decide (r.1.getPeriodInTicksAfterCommandsCompleted = 400000 ∧ r.1.rg.stepsToStop = 0 ∧ r.1.rg.rw.state.phase = .coast ∧
          r.1.getPositionAfterCommandsCompleted = 2 ∧ r.1.rg.ro.targetPos = 1000))) = true := by decide +kernel
  obtain ⟨⟨s1, acc1⟩, h3, h4⟩ := Option.any_eq_true .. |>.mp h2
  obtain ⟨⟨s2, acc2⟩, h5, h6⟩ := Option.any_eq_true .. |>.mp h4
  have h7 := RampHist.task calmEnv junk0 acc1 h1 (by decide) h3
  have h8 : RampHist .avr328 _ { s1 with hw := { s1.hw with q := s1.hw.q.drop } } := h7.other rfl
  have h9 := RampHist.task calmEnv junk0 acc2 (h8.call (.moveTo 1000) (.inl trivial)) (by decide) h5
  obtain ⟨k1, k2, k3, k4, k5⟩ := of_decide_eq_true h6
  refine ⟨s2, h9, k1, k2, k3, k4, k5, ?_, ?_⟩
  · unfold idealRampSteps ArchId.ticksPerS; norm_num
  · have : max s2.rg.stepsToStop (stepsIn2ms .avr328 400000) = 1 := by rw [k2]; decide
    rw [this]
    unfold idealRampSteps ArchId.ticksPerS; norm_num

/-! ## C86 -/

/-- The period of the state is the one of the last step command. -/
theorem SteadyInv.step_period {a : ArchId} {T A H : Nat} (hmin : a.minCmdTicks ≤ T) (hT : T < ticksForStoppedMotor) (hA : 0 < A) (hA2 : A < 2 ^ 31)
    (hH : H < 4294967294) (hlin : H = 0 ∨ 23 * a.minCmdTicks ≤ 20 * T)
    {g g' : RampGen} {qe : QueueEnd} {junk c : NextCommand} (hi : SteadyInv a T A H g) (ha : g.isActive = true)
    (h : g.getNextCommand a qe junk = some (g', c)) (hact : (g'.afterCommandEnqueued c).isActive = true) (hs : 1 ≤ c.command.steps) :
    stepPeriod c = c.rw.currTicks := by
  obtain ⟨p1, p2, p3, p4, p5, p6, p7⟩ := hi.prepare ha qe
  unfold RampGen.getNextCommand at h
  dsimp only at h
  by_cases hf : (g.prepare a qe).ro.forceImmediateStop = true
  · rw [if_pos hf] at h
    cases h
    cases hact
  · rw [if_neg hf] at h
    cases hp : Planner.getNextCommand a (g.prepare a qe).ro (g.prepare a qe).rw qe junk with
    | none => rw [hp] at h; cases h
    | some c1 =>
      rw [hp] at h
      cases h
      rcases Planner.getNextCommand_cases hp with ⟨-, he⟩ | ⟨hnp, need, remaining, ht, ⟨-, -, he⟩ | ⟨hnd, countUp, hcu, hpl⟩⟩
      · rw [he] at hs; exact absurd hs (by change ¬ 1 ≤ 0; decide)
      · unfold RampGen.isActive RampGen.afterCommandEnqueued at hact
        rw [he] at hact; cases hact
      · have hmov : g.rw.currTicks ≠ ticksForStoppedMotor → (g.prepare a qe).rw.performedRampUpSteps < 2147483648 ∧
            (g.prepare a qe).rw.currTicks < 4294967296 ∧
            Planner.Brakeable a T (lowest (linearRamp a A H)) (g.prepare a qe).rw.currTicks (g.prepare a qe).rw.performedRampUpSteps := by
          intro h1
          obtain ⟨-, m1, m2, m3⟩ := hi.moving ha h1
          have e := (p7.resolve_left (fun h => h1 h.1)).2
          rw [e, p5]
          exact ⟨m1, m2, m3⟩
        have hct : (g.prepare a qe).rw.currTicks < 4294967296 ∧ (g.prepare a qe).rw.performedRampUpSteps < 2147483648 := by
          rcases p7 with ⟨e1, e2⟩ | ⟨e1, e2⟩
          · rw [p5, e1, e2]; decide
          · exact ⟨(hmov e1).2.1, (hmov e1).1⟩
        have hr := p3.2
        replace p3 := p3.1
        refine (Planner.plan_brake (a := a) (f := lowest (linearRamp a A H)) (by rw [hr, p3.speed]; exact ramp_good hmin hA hA2 hH hlin) (by rw [p3.speed]; exact hmin) (by rw [p3.speed]; exact hT) hct.2
          (Planner.target_lt ht) hct.1 (by intro h0; rw [hcu, if_pos h0]; simp) hnd ?_ hpl).1
        rw [p3.speed]
        rcases p7 with ⟨e1, e2⟩ | ⟨e1, e2⟩
        · exact Or.inl ⟨by rw [p5]; exact e1, e2⟩
        · exact Or.inr ⟨by rw [p5]; exact e1, (hmov e1).2.2⟩

/-- What is known about the acceleration of a service. -/
theorem SteadyInv.room {a : ArchId} {T A H : Nat} (hmin : a.minCmdTicks ≤ T) (hT : T < ticksForStoppedMotor)
    {g g' : RampGen} {qe : QueueEnd} {junk c : NextCommand} (hi : SteadyInv a T A H g) (ha : g.isActive = true)
    (h : g.getNextCommand a qe junk = some (g', c)) (hc : g'.isRunningContinuously = false) {R : Nat}
    (hR : R = (shortestWay g'.ro.targetPos qe.pos).natAbs) (hs : 1 ≤ c.command.steps)
    (hdir : Towards g' qe.pos c.command.countUp) (hlt : g'.rw.performedRampUpSteps < R)
    (hph : c.rw.state.phase = .accelerate) :
    g'.rw.performedRampUpSteps + 2 * c.command.steps ≤ R ∨
      (g'.rw.performedRampUpSteps = 0 ∧ R = 1) := by
  obtain ⟨p1, p2, p3, p4, p5, p6, p7⟩ := hi.prepare ha qe
  unfold RampGen.getNextCommand at h
  dsimp only at h
  by_cases hf : (g.prepare a qe).ro.forceImmediateStop = true
  · rw [if_pos hf] at h
    cases h
    cases hph
  · rw [if_neg hf] at h
    cases hp : Planner.getNextCommand a (g.prepare a qe).ro (g.prepare a qe).rw qe junk with
    | none => rw [hp] at h; cases h
    | some c1 =>
      rw [hp] at h
      cases h
      rcases Planner.getNextCommand_cases hp with ⟨-, he⟩ | ⟨hnp, need, remaining, ht, ⟨-, -, he⟩ | ⟨hnd, countUp, hcu, hpl⟩⟩
      · rw [he] at hs; exact absurd hs (by change ¬ 1 ≤ 0; decide)
      · rw [he] at hph; cases hph
      · have hrem : remaining = R ∧ (countUp = need) := by
          have hcd : c.command.countUp = countUp := by
            rcases Planner.plan_cases hpl with ⟨o, s, -, -, ⟨-, e⟩ | ⟨-, d, pl, p, sp, pa, -, -, -, -, e⟩⟩
            · rw [e] at hph; cases hph
            · rw [e]; rfl
          rcases Planner.target_cases ht with ⟨e1, -⟩ | ⟨-, -, e3, e4⟩
          · unfold RampGen.isRunningContinuously at hc
            rw [e1] at hc; cases hc
          · refine ⟨by rw [hR]; exact e3, ?_⟩
            unfold Towards at hdir
            rw [hc, if_neg (by decide), hcd] at hdir
            unfold shortestWay at hdir
            rw [e4]
            generalize i32 ((g.prepare a qe).ro.targetPos - qe.pos) = w at *
            cases countUp
            · simp only [Bool.false_eq_true, if_false] at hdir
              rw [if_neg (by omega)]
              symm
              apply decide_eq_false
              omega
            · simp only [if_true] at hdir
              rw [if_neg (by omega)]
              symm
              exact decide_eq_true hdir
        rw [show (countUp == need) = true by rw [hrem.2]; simp, hrem.1] at hpl
        have hset : (g.prepare a qe).ro.config.parameters.minTravelTicks ≤ (g.prepare a qe).rw.currTicks := by
          rw [p3.1.speed, p5]
          by_cases hst : g.rw.currTicks = ticksForStoppedMotor
          · rw [hst]; omega
          · exact (hi.moving ha hst).2.2.2.set
        rcases Planner.plan_room (by rw [p3.1.speed]; exact hmin) hset (by rw [← hrem.1]; exact Planner.target_lt ht) hlt hpl hph with r | ⟨r1, r2⟩
        · exact Or.inl r
        · right
          rw [p5] at r1
          have e0 := (p7.resolve_right (fun h => h.1 r1)).2
          rw [e0] at r2 ⊢
          exact ⟨rfl, r2⟩

/-- A move with constant settings towards `p`, which began `W0` steps before `p`. -/
structure Approach (a : ArchId) (T A H : Nat) (p W0 : Int) (d : Drive) : Prop where
  range : InRange d.g
  steady : SteadyInv a T A H d.g
  move : d.g.isActive = true → (d.g.prepare a d.qe).isRunningContinuously = false ∧ (d.g.prepare a d.qe).ro.targetPos = p ∧ d.g.ro.forceStop = false
  way : d.g.isActive = true → (0 ≤ shortestWay p d.qe.pos ∧ shortestWay p d.qe.pos ≤ W0 ∨ W0 ≤ shortestWay p d.qe.pos ∧ shortestWay p d.qe.pos ≤ 0) ∧
    (d.g.prepare a d.qe).stepsToStop ≤ W0.natAbs - (shortestWay p d.qe.pos).natAbs ∧
    ((d.g.prepare a d.qe).stepsToStop ≤ (shortestWay p d.qe.pos).natAbs ∧
        ((d.g.prepare a d.qe).stepsToStop = 0 ∨ if d.qe.countUp then 0 < shortestWay p d.qe.pos else shortestWay p d.qe.pos < 0) ∨
      (shortestWay p d.qe.pos = 0 ∧ (d.g.prepare a d.qe).stepsToStop = 1))

/-- One step command. -/
theorem approach_step {w W0 : Int} {n n' k : Nat} {up q same : Bool} (hw : -2147483648 < w) (hw2 : w < 2147483648)
    (h1 : 0 ≤ w ∧ w ≤ W0 ∨ W0 ≤ w ∧ w ≤ 0) (h2 : n ≤ W0.natAbs - w.natAbs)
    (h3 : n ≤ w.natAbs ∧ (n = 0 ∨ if q then 0 < w else w < 0) ∨ (w = 0 ∧ n = 1))
    (hnd : ¬(w.natAbs = 0 ∧ n ≤ 1)) (hk : 1 ≤ k) (hstand : n = 0 → same = true) (hm : n ≠ 0 → up = q)
    (hs : same = true ↔ (if up then 0 < w else w < 0))
    (hkind : (same = true ∧ n < w.natAbs ∧ n' = n + k ∧ n + k ≤ w.natAbs ∧ (n + 2 * k ≤ w.natAbs ∨ (n = 0 ∧ w.natAbs = 1))) ∨
      (same = true ∧ n < w.natAbs ∧ n' = n ∧ n + k ≤ w.natAbs) ∨
      (same = true ∧ n ≤ w.natAbs ∧ n' + k ≤ w.natAbs ∧ n' ≤ n) ∨
      (¬(same = true ∧ n ≤ w.natAbs) ∧ n' + k = n)) :
    let w' := i32 (if up then w - k else w + k)
    (0 ≤ w' ∧ w' ≤ W0 ∨ W0 ≤ w' ∧ w' ≤ 0) ∧ n' ≤ W0.natAbs - w'.natAbs ∧
    (n' ≤ w'.natAbs ∧ (n' = 0 ∨ if up then 0 < w' else w' < 0) ∨ (w' = 0 ∧ n' = 1)) := by
  have hsame : same = true ∧ n ≤ w.natAbs := by
    rcases h3 with ⟨h3, h4⟩ | ⟨h3, h4⟩
    · refine ⟨?_, h3⟩
      rcases h4 with h4 | h4
      · exact hstand h4
      · by_cases h5 : n = 0
        · exact hstand h5
        · rw [hs, hm h5]; exact h4
    · omega
  have hdir := hs.mp hsame.1
  have hle : k ≤ w.natAbs := by
    rcases hkind with h | h | h | h
    · omega
    · omega
    · omega
    · exact absurd hsame h.1
  have hkind' : (n' = n + k ∧ (n + 2 * k ≤ w.natAbs ∨ (n = 0 ∧ w.natAbs = 1))) ∨ (n' ≤ n ∧ n' + k ≤ w.natAbs) := by
    rcases hkind with h | h | h | h
    · exact Or.inl ⟨h.2.2.1, h.2.2.2.2⟩
    · right; omega
    · right; omega
    · exact absurd hsame h.1
  clear hkind hs hm hstand h3
  dsimp only
  cases up
  · simp only [Bool.false_eq_true, if_false] at *
    have e : i32 (w + k) = w + k := by unfold i32; omega
    rw [e]
    omega
  · simp only [if_true] at *
    have e : i32 (w - k) = w - k := by unfold i32; omega
    rw [e]
    omega

theorem Approach.serve {a : ArchId} {T A H : Nat} (hmin : a.minCmdTicks ≤ T) (hT : T < ticksForStoppedMotor) (hA : 0 < A) (hA2 : A < 2 ^ 31)
    (hH : H < 4294967294) (hlin : H = 0 ∨ 23 * a.minCmdTicks ≤ 20 * T)
    {p W0 : Int} {d d' : Drive} {junk : NextCommand} (hi : Approach a T A H p W0 d) (ha : d.g.isActive = true)
    (hj : junk.rw.performedRampUpSteps < 4294967296) (h : d.serve a junk = some d') : Approach a T A H p W0 d' := by
  unfold Drive.serve at h
  cases hn : d.g.getNextCommand a d.qe junk with
  | none => rw [hn] at h; cases h
  | some gc =>
    obtain ⟨g1, c⟩ := gc
    rw [hn] at h
    dsimp only at h
    cases h
    obtain ⟨-, -, r2, -⟩ := InRange_serve hi.range hj hn
    obtain ⟨-, s2, -⟩ := hi.steady.serve (ramp_good hmin hA hA2 hH hlin) hmin hT ha hn
    have hsum := hi.steady.step_period hmin hT hA hA2 hH hlin ha hn
    have hroom := fun h1 R h2 => hi.steady.room hmin hT ha hn h1 (R := R) h2
    have hp := prepared a d.g d.qe
    have hs := prepare_settled a d.g d.qe
    obtain ⟨m1, m2, m3⟩ := hi.move ha
    obtain ⟨w1, w2, w3⟩ := hi.way ha
    suffices hxy : _ ∧ _ from ⟨r2, s2, hxy.1, hxy.2⟩
    by_cases hact : (g1.afterCommandEnqueued c).isActive = true
    rotate_left
    · exact ⟨fun h => absurd h hact, fun h => absurd h hact⟩
    suffices hsuff : ∀ qe2, qe2 = (if c.command.ticks = 0 then d.qe
        else { pos := i32 (posAfter d.qe.pos c.command), countUp := c.command.countUp, dir := d.qe.dir : QueueEnd }) →
        (((g1.afterCommandEnqueued c).prepare a qe2).isRunningContinuously = false ∧ ((g1.afterCommandEnqueued c).prepare a qe2).ro.targetPos = p ∧
          (g1.afterCommandEnqueued c).ro.forceStop = false) ∧
        (0 ≤ shortestWay p qe2.pos ∧ shortestWay p qe2.pos ≤ W0 ∨ W0 ≤ shortestWay p qe2.pos ∧ shortestWay p qe2.pos ≤ 0) ∧
        ((g1.afterCommandEnqueued c).prepare a qe2).stepsToStop ≤ W0.natAbs - (shortestWay p qe2.pos).natAbs ∧
        (((g1.afterCommandEnqueued c).prepare a qe2).stepsToStop ≤ (shortestWay p qe2.pos).natAbs ∧
          (((g1.afterCommandEnqueued c).prepare a qe2).stepsToStop = 0 ∨ if qe2.countUp then 0 < shortestWay p qe2.pos else shortestWay p qe2.pos < 0) ∨
          (shortestWay p qe2.pos = 0 ∧ ((g1.afterCommandEnqueued c).prepare a qe2).stepsToStop = 1)) by
      obtain ⟨x, y⟩ := hsuff _ rfl
      exact ⟨fun _ => x, fun _ => y⟩
    intro qe2 hqe
    rcases service_cases hi.range hn with ⟨-, -, -, h1⟩ | ⟨hgg, -, hc⟩
    · rw [isActive_stopped (g := g1.afterCommandEnqueued c) h1] at hact; cases hact
    · rw [← hgg] at hp hs m1 m2 w2 w3
      have hfs := hp.fstop
      have hc1 : (g1.afterCommandEnqueued c).parameters = g1.parameters := rfl
      have hc2 : (g1.afterCommandEnqueued c).ro = g1.ro := rfl
      have hc3 : (g1.afterCommandEnqueued c).rw = c.rw := rfl
      generalize hg2 : g1.afterCommandEnqueued c = g2 at *
      have hf1 : g1.ro.forceStop = false := by rw [hfs]; exact m3
      have hsm := prepare_same a g2 qe2 (by rw [hc1]; exact hp.papply) (by rw [hc2]; exact hs.1)
      rw [hc2] at hsm
      have hsm2 := hsm.2 hf1 (hs.2.1 m3)
      have hcont : (g2.prepare a qe2).isRunningContinuously = false := by
        rw [hsm2.2]; unfold RampGen.isRunningContinuously at m1 ⊢; rw [hc2]; exact m1
      refine ⟨⟨hcont, by rw [hsm2.1]; exact m2, by rw [hc2]; exact hf1⟩, ?_⟩
      have hbr : (g2.prepare a qe2).stepsToStop = 0 ∨ (g2.prepare a qe2).stepsToStop = c.rw.performedRampUpSteps := by
        obtain ⟨-, -, -, -, -, -, q7⟩ := s2.prepare hact qe2
        rcases q7 with ⟨-, q⟩ | ⟨-, q⟩
        · exact Or.inl q
        · right; rw [← hc3]; exact q
      have hzero : ∀ {w : Int} {n m : Nat} {b : Bool}, n = 0 ∨ n = m →
          ((0 ≤ w ∧ w ≤ W0 ∨ W0 ≤ w ∧ w ≤ 0) ∧ m ≤ W0.natAbs - w.natAbs ∧ (m ≤ w.natAbs ∧ (m = 0 ∨ if b then 0 < w else w < 0) ∨ (w = 0 ∧ m = 1))) →
          ((0 ≤ w ∧ w ≤ W0 ∨ W0 ≤ w ∧ w ≤ 0) ∧ n ≤ W0.natAbs - w.natAbs ∧ (n ≤ w.natAbs ∧ (n = 0 ∨ if b then 0 < w else w < 0) ∨ (w = 0 ∧ n = 1))) := by
        intro w n m b h1 ⟨h2, h3, h4⟩
        rcases h1 with h1 | h1
        · subst h1
          exact ⟨h2, Nat.zero_le _, Or.inl ⟨Nat.zero_le _, Or.inl rfl⟩⟩
        · subst h1; exact ⟨h2, h3, h4⟩
      apply hzero hbr
      rcases hc with ⟨h1, h2⟩ | ⟨-, -, -, -, h2⟩ | ⟨remaining, same, ph, P, ho⟩
      · -- pause
        have hpp : c.rw.performedRampUpSteps = g1.stepsToStop := by rw [h2]; rfl
        have hpos : i32 (posAfter d.qe.pos c.command) = i32 d.qe.pos := by
          rw [h2]; unfold posAfter; dsimp only; split <;> simp
        have hq2 : i32 qe2.pos = i32 d.qe.pos ∧ qe2.countUp = d.qe.countUp := by
          rw [hqe]
          split
          · exact ⟨rfl, rfl⟩
          · refine ⟨?_, by rw [h2]⟩
            change i32 (i32 _) = _
            rw [hpos]; unfold i32; omega
        have hw : shortestWay p qe2.pos = shortestWay p d.qe.pos := by
          unfold shortestWay
          rw [← i32_sub_i32, ← i32_sub_i32 _ d.qe.pos, hq2.1]
        rw [hw, hpp, hq2.2]
        exact ⟨w1, w2, w3⟩
      · -- complete
        unfold RampGen.isActive at hact
        rw [hc3, h2] at hact
        cases hact
      · -- steps
        have f := ho.facts
        have hway := ho.way m1
        rw [m2] at hway
        have hspeed : g1.ro.config.parameters.minTravelTicks = T := by
          rw [hgg]; exact (hi.steady.prepare ha d.qe).2.2.1.1.speed
        have htk : c.command.ticks ≠ 0 := by
          have := f.pos
          rcases f.period with ⟨h1, -⟩ | ⟨-, -, -, -, -, h9⟩
          · rw [h1]; split <;> omega
          · intro h0
            have e := hsum hact f.steps_pos
            unfold stepPeriod at e
            have : 0 < a.minCmdTicks := by cases a <;> decide
            unfold ticksForStoppedMotor at hT
            rw [h0, h9, hspeed] at e
            unfold u32 at e
            omega
        rw [if_neg htk] at hqe
        have hqp : qe2.pos = i32 (posAfter d.qe.pos c.command) := by rw [hqe]
        have hqu : qe2.countUp = c.command.countUp := by rw [hqe]
        have hw2 : shortestWay p (i32 (posAfter d.qe.pos c.command)) =
            i32 (if c.command.countUp then shortestWay p d.qe.pos - c.command.steps else shortestWay p d.qe.pos + c.command.steps) := by
          unfold shortestWay posAfter
          rw [i32_sub_i32]
          cases c.command.countUp
          · simp only [Bool.false_eq_true, if_false]; unfold i32; omega
          · simp only [if_true]; unfold i32; omega
        rw [hqp, hqu, hw2]
        have hrange : -2147483648 < shortestWay p d.qe.pos ∧ shortestWay p d.qe.pos < 2147483648 := by
          have h1 := hway.2
          have h2 : -2147483648 ≤ shortestWay p d.qe.pos ∧ shortestWay p d.qe.pos < 2147483648 := by
            unfold shortestWay i32; omega
          omega
        have hsame := ho.towards
        have htow : Towards g1 d.qe.pos c.command.countUp ↔ (if c.command.countUp then 0 < shortestWay p d.qe.pos else shortestWay p d.qe.pos < 0) := by
          unfold Towards
          rw [m1, if_neg (by decide), m2]
        have hnd := ho.notDone
        have hlt : g1.rw.performedRampUpSteps < 2147483648 := by
          have : g1.stepsToStop = g1.rw.performedRampUpSteps := rfl
          rcases w3 with ⟨h1, -⟩ | ⟨-, h1⟩ <;> omega
        refine approach_step (n := g1.rw.performedRampUpSteps) hrange.1 hrange.2 w1 w2 w3 (by rw [← hway.1]; exact hnd) f.steps_pos ho.stand ho.moving
          (hsame.trans htow) ?_
        rw [← hway.1]
        rcases f.kind with ⟨h1, h2, h3, -, -, -, h4, h5, -⟩ | ⟨-, h1, h2, -, -, h3, h4⟩ | ⟨-, -, h1⟩
        · refine Or.inl ⟨h2, h3, h4, h5, ?_⟩
          refine hroom m1 remaining (by rw [m2]; exact hway.1) f.steps_pos (hsame.mp h2) h3 ?_
          rw [f.state, h1]
        · exact Or.inr (Or.inl ⟨h1, h2, h3, h4⟩)
        · rcases h1 (by omega) with h1 | h1
          · exact Or.inr (Or.inr (Or.inl h1))
          · exact Or.inr (Or.inr (Or.inr h1))

theorem Approach.run {a : ArchId} {T A H : Nat} (hmin : a.minCmdTicks ≤ T) (hT : T < ticksForStoppedMotor) (hA : 0 < A) (hA2 : A < 2 ^ 31)
    (hH : H < 4294967294) (hlin : H = 0 ∨ 23 * a.minCmdTicks ≤ 20 * T)
    {p W0 : Int} (junk : Nat → NextCommand) (hj : ∀ i, (junk i).rw.performedRampUpSteps < 4294967296) (n : Nat) :
    ∀ {d d' : Drive}, Approach a T A H p W0 d → Drive.run a junk n d = some d' → Approach a T A H p W0 d' := by
  induction n with
  | zero => intro d d' hi h; cases h; exact hi
  | succ n ih =>
    intro d d' hi h
    unfold Drive.run at h
    by_cases ha : d.g.isActive = true
    · rw [if_pos ha] at h
      cases hd : d.serve a (junk n) with
      | none => rw [hd] at h; cases h
      | some d1 =>
        rw [hd] at h
        exact ih (hi.serve hmin hT hA hA2 hH hlin ha (hj n) hd) h
    · rw [if_neg ha] at h
      cases h; exact hi

/-- The begin of a move from standstill. -/
theorem Approach.start {a : ArchId} {T A H : Nat} {s : Stepper} (hr : InRange s.rg) (hi : SteadyInv a T A H s.rg) (hidle : s.rg.isActive = false)
    (hforce : s.rg.ro.forceImmediateStop = false) (p : Int) :
    Approach a T A H p (shortestWay p s.hw.q.qend.pos) ⟨(s.moveTo p).1.rg, s.hw.q.qend⟩ := by
  have hr2 := InRange_call a s (.moveTo p) hr trivial
  have hi2 : SteadyInv a T A H (s.moveTo p).1.rg := SteadyInv.call s (.moveTo p) hi trivial
  suffices hxy : _ ∧ _ from ⟨hr2, hi2, hxy.1, hxy.2⟩
  have hrg : (s.moveTo p).1.rg = (s.rg.moveTo p s.hw.q.qend).1 := rfl
  by_cases hok : (s.rg.moveTo p s.hw.q.qend).2 = MOVE_OK
  · by_cases hne : p = s.hw.q.qend.pos
    · have hin : (s.moveTo p).1.rg.isActive = false := by
        rw [hrg]
        unfold RampGen.moveTo at hok ⊢
        dsimp only at hok ⊢
        split at hok
        · contradiction
        · rename_i hv
          rw [if_neg hv]
          unfold RampGen.startMove
          dsimp only
          rw [hidle, hne]
          simp only [Bool.false_and, Bool.false_eq_true, if_false, ne_eq, not_true, decide_false]
          exact hidle
      exact ⟨fun h => absurd (hin.symm.trans h) (by decide), fun h => absurd (hin.symm.trans h) (by decide)⟩
    · obtain ⟨f1, f2, f3, f4, f5, f6, f7, f8, f9, -⟩ := moveTo_prepared a s.rg p s.hw.q.qend hidle hforce hok hne
      have hz : ((s.moveTo p).1.rg.prepare a s.hw.q.qend).stepsToStop = 0 :=
        (prepared a _ s.hw.q.qend).stand (by rw [hrg]; exact f3) (by rw [hrg, f9]; exact hi.jump)
      refine ⟨fun _ => ⟨by rw [hrg]; exact f6, by rw [hrg]; exact f5, by rw [hrg]; exact f2⟩, fun _ => ?_⟩
      dsimp only
      rw [hz]
      refine ⟨by omega, by omega, Or.inl ⟨by omega, Or.inl rfl⟩⟩
  · have hin : (s.moveTo p).1.rg.isActive = false := by
      rw [hrg]
      unfold RampGen.moveTo at hok ⊢
      dsimp only at hok ⊢
      split at hok
      · rename_i hv
        rw [if_pos hv]; exact hidle
      · exact absurd rfl hok
    exact ⟨fun h => absurd (hin.symm.trans h) (by decide), fun h => absurd (hin.symm.trans h) (by decide)⟩

/-- **C86**. A move from standstill keeps to its way: speed `T` (in ticks), acceleration `A` and `H` steps of linear acceleration (0: none) are set,
and not changed. After `moveTo(p)` (or nothing, if it is
rejected), as often as the task serves the ramp while the ramp is active,
* the end of the queue is between the start and the target, so the target is never passed,
* the braking distance `v² / (2 A)` of the speed reached there is at most the way already gone and at most the way still to go, or the steps made in 2 ms, plus
one percent: the speed profile is bounded by the trapezoid.

Missing: as in C85. -/
theorem C86_trapezoid_partial {a : ArchId} {T A H : Nat} (hmin : a.minCmdTicks ≤ T) (hT : T < 4294967295) (hA : 0 < A) (hA2 : A < 2 ^ 31)
    (hH : H < 4294967294) (hlin : H = 0 ∨ 23 * a.minCmdTicks ≤ 20 * T)
    {s : Stepper} (hh : SteadyHist a T A H s) (hidle : s.rg.isActive = false) (hforce : s.rg.ro.forceImmediateStop = false)
    (p : Int) (junk : Nat → NextCommand) (hj : ∀ i, (junk i).rw.performedRampUpSteps < 4294967296) (n : Nat) (d : Drive)
    (h : Drive.run a junk n ⟨(s.moveTo p).1.rg, s.hw.q.qend⟩ = some d) (ha : d.g.isActive = true) :
    (0 ≤ shortestWay p d.qe.pos ∧ shortestWay p d.qe.pos ≤ shortestWay p s.getPositionAfterCommandsCompleted ∨
      shortestWay p s.getPositionAfterCommandsCompleted ≤ shortestWay p d.qe.pos ∧ shortestWay p d.qe.pos ≤ 0) ∧
    idealRampSteps a A (d.g.rw.currTicks + 1) ≤ (201 / 200) ^ 2 *
      ((max (min (shortestWay d.qe.pos s.getPositionAfterCommandsCompleted).natAbs (shortestWay p d.qe.pos).natAbs)
        (stepsIn2ms a d.g.rw.currTicks) : Nat) : ℝ) := by
  have hst := SteadyHist.steady hmin hT hA hA2 hH hlin hh
  have hi := Approach.run hmin hT hA hA2 hH hlin junk hj n (Approach.start hst.1 hst.2 hidle hforce p) h
  have hq : s.getPositionAfterCommandsCompleted = s.hw.q.qend.pos := rfl
  rw [hq]
  obtain ⟨w1, w2, w3⟩ := hi.way ha
  refine ⟨w1, ?_⟩
  have hmade : (shortestWay d.qe.pos s.hw.q.qend.pos).natAbs = (shortestWay p s.hw.q.qend.pos).natAbs - (shortestWay p d.qe.pos).natAbs := by
    clear w2 w3
    unfold shortestWay at *
    unfold i32 at *
    omega
  have hle : (d.g.prepare a d.qe).stepsToStop ≤ max (min (shortestWay d.qe.pos s.hw.q.qend.pos).natAbs (shortestWay p d.qe.pos).natAbs) 1 := by
    rw [hmade]
    rcases w3 with ⟨w3, -⟩ | ⟨w3, w4⟩ <;> omega
  obtain ⟨-, -, -, -, -, -, p7⟩ := hi.steady.prepare ha d.qe
  have h1 : 1 ≤ stepsIn2ms a d.g.rw.currTicks := by unfold stepsIn2ms; omega
  rcases p7 with ⟨e1, -⟩ | ⟨e1, e2⟩
  · rw [e1] at h1 ⊢
    refine le_trans (brake_stopped hA) ?_
    have h2 : (1 : ℝ) ≤ ((max (min (shortestWay d.qe.pos s.hw.q.qend.pos).natAbs (shortestWay p d.qe.pos).natAbs)
        (stepsIn2ms a ticksForStoppedMotor) : Nat) : ℝ) := by
      exact_mod_cast (show 1 ≤ _ by omega)
    linarith
  · refine le_trans (hi.steady.distance hmin hA hA2 hH ha) (mul_le_mul_of_nonneg_left ?_ (by norm_num))
    have e3 : d.g.stepsToStop = (d.g.prepare a d.qe).stepsToStop := e2.symm
    rw [e3]
    exact_mod_cast (show _ ≤ _ by omega)

/-- The hypotheses are met in the middle of a move by 40 steps, after 20 services of the ramp. -/
example : ∃ s n d, SteadyHist .avr328 4000 10000 0 s ∧ s.rg.isActive = false ∧ s.rg.ro.forceImmediateStop = false ∧
    Drive.run .avr328 (fun _ => junk0) n ⟨(s.moveTo 40).1.rg, s.hw.q.qend⟩ = some d ∧ d.g.isActive = true ∧ 10 ≤ d.qe.pos ∧ d.qe.pos ≤ 30 ∧ d.g.rw.currTicks < 30000 := by
  refine ⟨ApiCall.exec .avr328 (ApiCall.exec .avr328 ((Stepper.init .avr328 1).setAbsoluteSpeedLimit 640) (.config (.speed 4000)))
    (.config (.acceleration 10000)), 20, ?_⟩
  have h : (Drive.run .avr328 (fun _ => junk0) 20 ⟨((ApiCall.exec .avr328 (ApiCall.exec .avr328 ((Stepper.init .avr328 1).setAbsoluteSpeedLimit 640)
      (.config (.speed 4000))) (.config (.acceleration 10000))).moveTo 40).1.rg, (Stepper.init .avr328 1).hw.q.qend⟩).any
      (fun d => decide (d.g.isActive = true ∧ 10 ≤ d.qe.pos ∧ d.qe.pos ≤ 30 ∧ d.g.rw.currTicks < 30000)) = true := by decide +kernel
  obtain ⟨d, h3, h4⟩ := Option.any_eq_true .. |>.mp h
  obtain ⟨k1, k2, k3⟩ := of_decide_eq_true h4
  exact ⟨d, .of_ramp (.call _ (.call _ (.start _ rfl) rfl) rfl), by decide +kernel, by decide +kernel, h3, k1, k2, k3⟩

/-- And with linear acceleration over 20 steps. -/
example : ∃ s n d, SteadyHist .avr328 4000 10000 20 s ∧ s.rg.isActive = false ∧ s.rg.ro.forceImmediateStop = false ∧
    Drive.run .avr328 (fun _ => junk0) n ⟨(s.moveTo 40).1.rg, s.hw.q.qend⟩ = some d ∧ d.g.isActive = true ∧ 10 ≤ d.qe.pos ∧ d.qe.pos ≤ 30 ∧ d.g.rw.currTicks < 60000 := by
  refine ⟨ApiCall.exec .avr328 (ApiCall.exec .avr328 (((Stepper.init .avr328 1).setAbsoluteSpeedLimit 640).setLinearAcceleration 20) (.config (.speed 4000)))
    (.config (.acceleration 10000)), 30, ?_⟩
  have h : (Drive.run .avr328 (fun _ => junk0) 30 ⟨((ApiCall.exec .avr328 (ApiCall.exec .avr328 (((Stepper.init .avr328 1).setAbsoluteSpeedLimit 640).setLinearAcceleration 20)
      (.config (.speed 4000))) (.config (.acceleration 10000))).moveTo 40).1.rg, (Stepper.init .avr328 1).hw.q.qend⟩).any
      (fun d => decide (d.g.isActive = true ∧ 10 ≤ d.qe.pos ∧ d.qe.pos ≤ 30 ∧ d.g.rw.currTicks < 60000)) = true := by decide +kernel
  obtain ⟨d, h3, h4⟩ := Option.any_eq_true .. |>.mp h
  obtain ⟨k1, k2, k3⟩ := of_decide_eq_true h4
  exact ⟨d, .call _ (.call _ (.start _ rfl) rfl) rfl, by decide +kernel, by decide +kernel, h3, k1, k2, k3⟩

end FAS
