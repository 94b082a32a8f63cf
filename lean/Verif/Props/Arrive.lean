import Verif.Props.Motion
import Verif.Props.RampCalc

/-!
# A move arrives at its target: C57
-/

namespace FAS

open Spec

/-- The slowest step of a ramp without linear acceleration has less than 2^24 ticks. -/
theorem ticks_lively_plain {a : ArchId} {accel : Nat} {c : RampConfig} (h : Configured a accel 0 c) (ha : 0 < accel) (ha2 : accel < 2 ^ 31)
    (n : Nat) (h1 : 1 ≤ n) (h2 : n < 4294967296) : c.calculateTicks a n ≤ 16777216 := by
  refine Nat.le_trans (C60_period_monotone_partial h ha ha2 (s := 1) (by omega) h1 (by omega)) ?_
  rw [C32_period_no_overflow h ha ha2 (by omega) (by omega) (by omega)]
  unfold Unbounded.ticks
  rw [if_pos (by omega)]
  have hA := pmflFrom_accel ha (by omega)
  have hone : pmflFrom (1 - (0 + 2) / 4) = 0 := by decide +kernel
  rw [hone, Int.zero_add]
  have d1 : (pmflFrom accel).tdiv 2 = pmflFrom accel / 2 := Int.tdiv_eq_ediv_of_nonneg (by omega)
  rw [d1]
  refine Nat.le_trans (C31_monotone.2 _ a.pmfTicksPerSDivSqrt2 (by omega)) ?_
  cases a <;> decide +kernel

/-- The slowest step of any ramp has less than 2^30 ticks. -/
theorem ticks_lively {a : ArchId} {accel sH : Nat} {c : RampConfig} (h : Configured a accel sH c) (ha : 0 < accel) (ha2 : accel < 2 ^ 31)
    (hs : sH < 4294967294) (n : Nat) (h1 : 1 ≤ n) (h2 : n < 4294967296) : c.calculateTicks a n ≤ 1073741824 := by
  rw [C32_period_no_overflow h ha ha2 (by omega) (by omega) (by omega)]
  unfold Unbounded.ticks
  have hA := pmflFrom_accel ha (by omega)
  by_cases c1 : n ≥ sH
  · rw [if_pos c1]
    have hS := pmflFrom_range (x := n - (sH + 2) / 4) (by omega) (by omega)
    have d1 : (pmflFrom (n - (sH + 2) / 4) + pmflFrom accel).tdiv 2 = (pmflFrom (n - (sH + 2) / 4) + pmflFrom accel) / 2 :=
      Int.tdiv_eq_ediv_of_nonneg (by omega)
    rw [d1]
    refine Nat.le_trans (C31_monotone.2 _ a.pmfTicksPerSDivSqrt2 (by omega)) ?_
    cases a <;> decide +kernel
  · rw [if_neg c1]
    have hr := cubic_range a ha (by omega) (sH := sH) (by omega) (by omega)
    have hS := pmflFrom_range h1 (by omega)
    have hP := powDiv3_eq hS.1 hS.2
    refine Nat.le_trans (C31_monotone.2 _ 15201 (by omega)) ?_
    decide +kernel

/-- The speed of a ramp has an upper limit: a period of at least one tick for every number of steps for which this is physically so, with a margin of 2 percent. -/
theorem ticks_positive (a : ArchId) {accel sH : Nat} (ha : 0 < accel) (ha2 : accel < 2 ^ 31) (hs : sH < 4294967294) {n : Nat} (h1 : 1 ≤ n)
    (h2 : n < 4294967296) (hfast : 205 * accel * n ≤ 100 * a.ticksPerS ^ 2) : 0 < Unbounded.ticks a accel sH n := by
  have hc := rampConfig_configured a accel sH 1000
  have hAr : (0 : ℝ) < accel := by exact_mod_cast ha
  have hnr : (1 : ℝ) ≤ n := by exact_mod_cast h1
  have hfr : (205 : ℝ) * accel * n ≤ 100 * (a.ticksPerS : ℝ) ^ 2 := by exact_mod_cast hfast
  have hT : (0 : ℝ) < a.ticksPerS := by
    have : 0 < a.ticksPerS := by cases a <;> decide
    exact_mod_cast this
  rw [← C32_period_no_overflow hc ha ha2 (by omega) (by omega) (by omega)]
  -- the physical period
  have key : ∀ x : ℝ, 0 < x → x ≤ 2 * accel * n → 101 / 100 < a.ticksPerS / Real.sqrt x := by
    intro x hx hle
    rw [lt_div_iff₀ (Real.sqrt_pos.mpr hx)]
    have h3 : Real.sqrt x ^ 2 = x := Real.sq_sqrt hx.le
    have h4 : (101 / 100 * Real.sqrt x) ^ 2 < (a.ticksPerS : ℝ) ^ 2 := by
      rw [mul_pow, h3]; nlinarith
    exact lt_of_pow_lt_pow_left₀ 2 hT.le h4
  by_cases c1 : n ≥ sH
  · have l := (C33_sqrt_law hc ha ha2 (by omega) h1 (by omega) c1).2
    have h5 : 1 ≤ n - (sH + 2) / 4 ∧ n - (sH + 2) / 4 ≤ n := by omega
    have h6 : (1 : ℝ) ≤ (n - (sH + 2) / 4 : Nat) ∧ ((n - (sH + 2) / 4 : Nat) : ℝ) ≤ n := by exact_mod_cast h5
    generalize n - (sH + 2) / 4 = m at *
    have hm : (0 : ℝ) < m := by linarith [h6.1]
    have k := key (2 * accel * m) (by positivity) (mul_le_mul_of_nonneg_left h6.2 (by positivity))
    unfold idealPeriod at l
    have : (0 : ℝ) < (rampConfig a accel sH 1000).calculateTicks a n := by linarith
    exact_mod_cast this
  · have l := (C33_cubic_law hc ha ha2 (by omega) h1 (by omega)).2
    have hn0 : (0 : ℝ) < n := by linarith
    have hsn : (n : ℝ) ≤ sH := by
      have : n ≤ sH := by omega
      exact_mod_cast this
    have hs0 : (0 : ℝ) < sH := by linarith
    have k := key (3 / 2 * accel * n) (by positivity) (mul_le_mul_of_nonneg_right (by linarith) hn0.le)
    have hden : Real.sqrt (3 / 2 * accel) * (sH : ℝ) ^ (-(1 / 6) : ℝ) * (n : ℝ) ^ (2 / 3 : ℝ) ≤ Real.sqrt (3 / 2 * accel * n) := by
      rw [Real.sqrt_mul (show (0 : ℝ) ≤ 3 / 2 * accel by positivity) n, mul_assoc]
      refine mul_le_mul_of_nonneg_left ?_ (Real.sqrt_nonneg _)
      calc (sH : ℝ) ^ (-(1 / 6) : ℝ) * (n : ℝ) ^ (2 / 3 : ℝ) ≤ (n : ℝ) ^ (-(1 / 6) : ℝ) * (n : ℝ) ^ (2 / 3 : ℝ) :=
            mul_le_mul_of_nonneg_right (Real.rpow_le_rpow_of_nonpos hn0 hsn (by norm_num)) (by positivity)
        _ = Real.sqrt n := by rw [← Real.rpow_add hn0, Real.sqrt_eq_rpow]; norm_num
    have k2 : a.ticksPerS / Real.sqrt (3 / 2 * accel * n) ≤ idealCubicPeriod a accel sH n := by
      unfold idealCubicPeriod
      exact div_le_div_of_nonneg_left hT.le (by positivity) hden
    have : (0 : ℝ) < (rampConfig a accel sH 1000).calculateTicks a n := by linarith
    exact_mod_cast this

/-- If a ramp is still slow enough for commands of one step after `m` steps, then the speed is far from one tick per step even after 65 times as many steps. -/
theorem law_reach (a : ArchId) {accel sH : Nat} (ha : 0 < accel) (ha2 : accel < 2 ^ 31) (hs : sH < 4294967294) {m : Nat} (h1 : 1 ≤ m)
    (h2 : m < 4294967296) (hslow : 640 ≤ Unbounded.ticks a accel sH m) : 13325 * accel * m ≤ 100 * a.ticksPerS ^ 2 := by
  have hc := rampConfig_configured a accel sH 1000
  rw [← C32_period_no_overflow hc ha ha2 (by omega) (by omega) (by omega)] at hslow
  have hsl : (640 : ℝ) ≤ (rampConfig a accel sH 1000).calculateTicks a m := by exact_mod_cast hslow
  have hAr : (0 : ℝ) < accel := by exact_mod_cast ha
  have hmr : (1 : ℝ) ≤ m := by exact_mod_cast h1
  have hm0 : (0 : ℝ) < m := by linarith
  have hT : (0 : ℝ) < a.ticksPerS := by
    have : 0 < a.ticksPerS := by cases a <;> decide
    exact_mod_cast this
  suffices h : (13325 : ℝ) * accel * m ≤ 100 * (a.ticksPerS : ℝ) ^ 2 by exact_mod_cast h
  -- the square of the speed
  have key : ∀ x : ℝ, 0 ≤ x → 632 * x ≤ a.ticksPerS → 399424 * x ^ 2 ≤ (a.ticksPerS : ℝ) ^ 2 := by
    intro x hx hle
    have h3 : (632 * x) ^ 2 ≤ (a.ticksPerS : ℝ) ^ 2 := pow_le_pow_left₀ (by positivity) hle 2
    nlinarith
  by_cases c1 : m ≥ sH
  · have l := (C33_sqrt_law hc ha ha2 (by omega) h1 (by omega) c1).1
    have h5 : 1 ≤ m - (sH + 2) / 4 ∧ m ≤ 2 * (m - (sH + 2) / 4) := by omega
    have h6 : (1 : ℝ) ≤ (m - (sH + 2) / 4 : Nat) ∧ (m : ℝ) ≤ 2 * (m - (sH + 2) / 4 : Nat) := by exact_mod_cast h5
    generalize m - (sH + 2) / 4 = q at *
    have hq : (0 : ℝ) < q := by linarith [h6.1]
    unfold idealPeriod at l
    have hx : (0 : ℝ) < 2 * accel * q := by positivity
    have hI : 632 ≤ a.ticksPerS / Real.sqrt (2 * accel * q) := by linarith
    rw [le_div_iff₀ (Real.sqrt_pos.mpr hx)] at hI
    have k := key _ (Real.sqrt_nonneg _) hI
    rw [Real.sq_sqrt hx.le] at k
    have h7 : (accel : ℝ) * m ≤ accel * (2 * q) := mul_le_mul_of_nonneg_left h6.2 hAr.le
    have h8 : (0 : ℝ) < accel * m := by positivity
    nlinarith
  · have l := (C33_cubic_law hc ha ha2 (by omega) h1 (by omega)).1
    have hs0 : (0 : ℝ) < sH := by
      have : 0 < sH := by omega
      exact_mod_cast this
    have hs1 : (sH : ℝ) ≤ 41 ^ (6 : ℕ) := by
      have : sH ≤ 41 ^ 6 := by omega
      exact_mod_cast this
    unfold idealCubicPeriod at l
    have hden : (0 : ℝ) < Real.sqrt (3 / 2 * accel) * (sH : ℝ) ^ (-(1 / 6) : ℝ) * (m : ℝ) ^ (2 / 3 : ℝ) := by positivity
    have hI : 632 ≤ a.ticksPerS / (Real.sqrt (3 / 2 * accel) * (sH : ℝ) ^ (-(1 / 6) : ℝ) * (m : ℝ) ^ (2 / 3 : ℝ)) := by linarith
    rw [le_div_iff₀ hden] at hI
    have h41 : (1 / 41 : ℝ) ≤ (sH : ℝ) ^ (-(1 / 6) : ℝ) := by
      have h3 : ((41 : ℝ) ^ (6 : ℕ)) ^ (-(1 / 6) : ℝ) ≤ (sH : ℝ) ^ (-(1 / 6) : ℝ) := Real.rpow_le_rpow_of_nonpos hs0 hs1 (by norm_num)
      have h4 : ((41 : ℝ) ^ (6 : ℕ)) ^ (-(1 / 6) : ℝ) = 1 / 41 := by
        rw [← Real.rpow_natCast, ← Real.rpow_mul (by norm_num)]
        norm_num
      linarith
    have hm23 : Real.sqrt m ≤ (m : ℝ) ^ (2 / 3 : ℝ) := by
      rw [Real.sqrt_eq_rpow]
      exact Real.rpow_le_rpow_of_exponent_le hmr (by norm_num)
    have hd : Real.sqrt (3 / 2 * accel * m) / 41 ≤ Real.sqrt (3 / 2 * accel) * (sH : ℝ) ^ (-(1 / 6) : ℝ) * (m : ℝ) ^ (2 / 3 : ℝ) := by
      rw [Real.sqrt_mul (show (0 : ℝ) ≤ 3 / 2 * accel by positivity) m]
      calc Real.sqrt (3 / 2 * accel) * Real.sqrt m / 41 = Real.sqrt (3 / 2 * accel) * (1 / 41) * Real.sqrt m := by ring
        _ ≤ _ := mul_le_mul (mul_le_mul_of_nonneg_left h41 (Real.sqrt_nonneg _)) hm23 (Real.sqrt_nonneg _) (by positivity)
    have hx : (0 : ℝ) < 3 / 2 * accel * m := by positivity
    have k := key (Real.sqrt (3 / 2 * accel * m) / 41) (by positivity) (by linarith)
    rw [div_pow, Real.sq_sqrt hx.le] at k
    have h8 : (0 : ℝ) < accel * m := by positivity
    nlinarith

/-- A ramp reaches each set speed, for which one step is long enough for a command, after a number `B` of steps, and the periods of 65 further steps are not 0. -/
theorem ticks_turn (a : ArchId) {accel sH : Nat} (ha : 0 < accel) (ha2 : accel < 2 ^ 31) (hs : sH < 4294967294) {t : Nat} (ht : a.minCmdTicks ≤ t) :
    ∃ B, 1 ≤ B ∧ (∀ n, B ≤ n → n < 4294967296 → Unbounded.ticks a accel sH n ≤ t) ∧
      ∀ n, 1 ≤ n → n < 4294967296 → n ≤ B + 65 → 0 < Unbounded.ticks a accel sH n := by
  have hm : 640 ≤ a.minCmdTicks := by cases a <;> decide
  have hf : 256000000000000 ≤ a.ticksPerS ^ 2 := by cases a <;> decide
  -- the smallest one
  have hex : ∃ B, ∀ n, B ≤ n → n < 4294967296 → Unbounded.ticks a accel sH n ≤ t := ⟨4294967296, fun n h1 h2 => by omega⟩
  classical
  obtain ⟨B, hB, hmin⟩ : ∃ B, (∀ n, B ≤ n → n < 4294967296 → Unbounded.ticks a accel sH n ≤ t) ∧
      ∀ m, m < B → ¬∀ n, m ≤ n → n < 4294967296 → Unbounded.ticks a accel sH n ≤ t :=
    ⟨Nat.find hex, Nat.find_spec hex, fun m h => Nat.find_min hex h⟩
  by_cases hB2 : B ≤ 2
  · refine ⟨max 1 B, by omega, fun n h1 h2 => hB n (by omega) h2, fun n h1 h2 h3 => ticks_positive a ha ha2 hs h1 h2 ?_⟩
    have h4 : accel * n ≤ 2 ^ 31 * 67 := Nat.mul_le_mul (by omega) (by omega)
    have h5 : 205 * accel * n = 205 * (accel * n) := Nat.mul_assoc _ _ _
    omega
  · have hlast : t < Unbounded.ticks a accel sH (B - 1) ∧ B - 1 < 4294967296 := by
      have := hmin (B - 1) (by omega)
      apply Decidable.byContradiction
      intro h
      apply this
      intro n h1 h2
      by_cases hn : B ≤ n
      · exact hB n hn h2
      · have : n = B - 1 := by omega
        subst this
        omega
    have hreach := law_reach a ha ha2 hs (m := B - 1) (by omega) (by omega) (by omega)
    refine ⟨B, by omega, hB, fun n h1 h2 h3 => ticks_positive a ha ha2 hs h1 h2 ?_⟩
    have h4 : accel * n ≤ accel * (65 * (B - 1)) := Nat.mul_le_mul_left _ (by omega)
    have h5 : 205 * accel * n = 205 * (accel * n) := Nat.mul_assoc _ _ _
    have h6 : 13325 * accel * (B - 1) = 13325 * (accel * (B - 1)) := Nat.mul_assoc _ _ _
    have h7 : accel * (65 * (B - 1)) = 65 * (accel * (B - 1)) := by ring
    omega

/-- The guard of the theorems below: the speed which the acceleration could reach on four times the way (at least 160000 steps) has a period of more than one tick. -/
theorem ticks_far (a : ArchId) {accel : Int} {lin W : Nat} (ha1 : 0 < accel) (ha2 : accel < 2147483648) (hlin : lin < 4294967294)
    (hW : W < 2147483648) (hfast : 5 * accel.toNat * max 40000 (W + 1) ≤ a.ticksPerS ^ 2) (n : Nat) (h1 : 1 ≤ n) (h2 : n ≤ max 65535 (2 * W + 1)) :
    0 < Unbounded.ticks a accel.toNat lin n := by
  refine ticks_positive a (by omega) (by omega) hlin h1 (by omega) ?_
  have h3 : 205 * n ≤ 500 * max 40000 (W + 1) := by omega
  calc 205 * accel.toNat * n = accel.toNat * (205 * n) := by ring
    _ ≤ accel.toNat * (500 * max 40000 (W + 1)) := Nat.mul_le_mul_left _ h3
    _ = 100 * (5 * accel.toNat * max 40000 (W + 1)) := by ring
    _ ≤ 100 * a.ticksPerS ^ 2 := Nat.mul_le_mul_left _ hfast

/-- The state in which the task finds the ramp after `moveTo()` at standstill. -/
theorem moveTo_prepared (a : ArchId) (g : RampGen) (p : Int) (qe : QueueEnd) (hi : g.isActive = false) (hf : g.ro.forceImmediateStop = false)
    (hok : (g.moveTo p qe).2 = MOVE_OK) (hne : p ≠ qe.pos) :
    (g.moveTo p qe).1.isActive = true ∧ (g.moveTo p qe).1.ro.forceStop = false ∧ (g.moveTo p qe).1.rw.currTicks = ticksForStoppedMotor ∧
    (g.moveTo p qe).1.rw.pauseTicksLeft = g.rw.pauseTicksLeft ∧
    ((g.moveTo p qe).1.prepare a qe).ro.targetPos = p ∧ ((g.moveTo p qe).1.prepare a qe).isRunningContinuously = false ∧
    ((g.moveTo p qe).1.prepare a qe).ro.forceImmediateStop = false ∧
    ((g.moveTo p qe).1.prepare a qe).ro.config.parameters.minTravelTicks = g.parameters.minTravelTicks ∧
    ((g.moveTo p qe).1.prepare a qe).ro.config.parameters.sJump = g.parameters.sJump ∧
    ∃ c0 : RampConfig, c0.parameters = g.parameters.setTargetPosition p ∧
      ∀ n, ((g.moveTo p qe).1.prepare a qe).ro.config.calculateTicks a n = (c0.update a).calculateTicks a n := by
  have hst : g.rw.state = RampState.IDLE := by unfold RampGen.isActive at hi; simpa using hi
  have hv : g.parameters.checkValidConfig = MOVE_OK := by
    unfold RampGen.moveTo at hok
    dsimp only at hok
    split at hok
    · contradiction
    · rename_i h; simpa using h
  obtain ⟨G, hG⟩ : ∃ G, (g.moveTo p qe).1 = G := ⟨_, rfl⟩
  have hGp : G.parameters = g.parameters.setTargetPosition p := by
    rw [← hG]; unfold RampGen.moveTo; dsimp only; rw [if_neg (by rw [hv]; decide)]; rfl
  have hGr : G.rw = { g.rw with currTicks := ticksForStoppedMotor, state := ⟨.accelerate, .none⟩ } := by
    rw [← hG]; unfold RampGen.moveTo; dsimp only; rw [if_neg (by rw [hv]; decide)]
    unfold RampGen.startMove
    dsimp only
    rw [hi]
    simp only [Bool.false_and, Bool.false_eq_true, if_false]
    rw [if_pos (by simpa using fun h => hne h.symm)]
    unfold RampRw.startRampIfNotRunning
    rw [if_pos hst]
  have hGo : G.ro = { g.ro with forceStop := false } := by
    rw [← hG]; unfold RampGen.moveTo; dsimp only; rw [if_neg (by rw [hv]; decide)]; rfl
  rw [hG]
  clear hG
  have hap : G.parameters.apply = true := by rw [hGp]; rfl
  have hu : ∀ c : RampConfig, (c.update a).parameters = c.parameters := by
    intro c; unfold RampConfig.update RampConfig.updateCubic; dsimp only; split <;> rfl
  -- take over
  obtain ⟨G1, hG1⟩ : ∃ G1, G.takeOver a = G1 := ⟨_, rfl⟩
  have h1c : G1.ro.config = ({ G.ro.config with parameters := G.parameters } : RampConfig).update a := by
    rw [← hG1]; unfold RampGen.takeOver; rw [if_pos hap]
  have h1f : G1.ro.forceStop = false ∧ G1.ro.forceImmediateStop = false := by
    rw [← hG1]; unfold RampGen.takeOver; rw [if_pos hap]
    rw [hGo]
    refine ⟨rfl, ?_⟩
    dsimp only
    rw [hf]; rfl
  have h2 : (G1.startSteps a).ro = G1.ro := by
    unfold RampGen.startSteps
    dsimp only
    split
    · rfl
    · split <;> rfl
  have h1p : G1.ro.config.parameters = g.parameters.setTargetPosition p := by rw [h1c, hu]; exact hGp
  have h3 : ∀ G2 : RampGen, G2.ro = G1.ro → ∀ b, (G2.updateTarget b qe).ro =
      { G1.ro with config := { G1.ro.config with parameters := { G1.ro.config.parameters with anyChange := false } }, targetPos := p } := by
    intro G2 h b
    unfold RampGen.updateTarget
    dsimp only
    rw [h, h1f.1, h1p]
    rfl
  have h4 : ∀ b, ((G1.startSteps a).updateTarget b qe).clearRecalc.ro =
      { G1.ro with config := { G1.ro.config with parameters := { G1.ro.config.parameters with anyChange := false, recalcRampSteps := false } }
                   targetPos := p } := by
    intro b
    unfold RampGen.clearRecalc
    dsimp only
    rw [h3 _ h2]
  unfold RampGen.prepare RampGen.isRunningContinuously
  rw [hG1, h4]
  dsimp only
  refine ⟨?_, by rw [hGo], by rw [hGr], by rw [hGr], rfl, by rw [h1p]; rfl, h1f.2, by rw [h1p]; rfl, by rw [h1p]; rfl,
    ({ G.ro.config with parameters := G.parameters } : RampConfig), hGp, fun n => ?_⟩
  · unfold RampGen.isActive; rw [hGr]; rfl
  · rw [← h1c]; rfl

theorem rank_le (w : Int) (p : Nat) (up : Bool) : motionRank w p up ≤ 2 * (w.natAbs + p) + 1 := by
  unfold motionRank
  cases up
  · simp only [Bool.false_eq_true, if_false]
    repeat' split
    all_goals omega
  · simp only [if_true]
    repeat' split
    all_goals omega

/-- The stepper is configured at standstill (speed, acceleration, steps of linear acceleration, jump start), and gets a `moveTo(p)`. -/
def configuredMove (s : Stepper) (speed : Nat) (accel : Int) (lin jump : Nat) (p : Int) : Stepper :=
  (((((s.setSpeedInTicks speed).1.setAcceleration accel).1.setLinearAcceleration lin).setJumpStart jump).moveTo p).1

theorem setSpeed_facts (q : RampParams) (t : Nat) : (q.setSpeedInTicks t).minTravelTicks = t ∧ (q.setSpeedInTicks t).validSpeed = true := by
  unfold RampParams.setSpeedInTicks
  split
  · exact ⟨rfl, rfl⟩
  · rename_i h
    simp only [Bool.or_eq_true, Bool.not_eq_true', decide_eq_true_eq, not_or, Bool.not_eq_false, ne_eq, not_not] at h
    exact ⟨h.2, h.1⟩

theorem setAccel_facts (q : RampParams) (n : Nat) : (q.setAcceleration n).pmflAccel = pmflFrom n ∧ (q.setAcceleration n).validAcceleration = true ∧
    (q.setAcceleration n).minTravelTicks = q.minTravelTicks ∧ (q.setAcceleration n).validSpeed = q.validSpeed := by
  unfold RampParams.setAcceleration
  dsimp only
  split
  · exact ⟨rfl, rfl, rfl, rfl⟩
  · rename_i h
    simp only [Bool.or_eq_true, Bool.not_eq_true', decide_eq_true_eq, not_or, Bool.not_eq_false, ne_eq, not_not] at h
    exact ⟨h.2, h.1, rfl, rfl⟩

theorem setCubic_facts (q : RampParams) (n : Nat) : (q.setCubicAccelerationSteps n).sH = n ∧
    (q.setCubicAccelerationSteps n).pmflAccel = q.pmflAccel ∧ (q.setCubicAccelerationSteps n).validAcceleration = q.validAcceleration ∧
    (q.setCubicAccelerationSteps n).minTravelTicks = q.minTravelTicks ∧ (q.setCubicAccelerationSteps n).validSpeed = q.validSpeed := by
  unfold RampParams.setCubicAccelerationSteps
  split
  · exact ⟨rfl, rfl, rfl, rfl, rfl⟩
  · rename_i h
    exact ⟨by simpa using h, rfl, rfl, rfl, rfl⟩

/-- The configuration which the move gets. -/
theorem configured_facts (s : Stepper) (speed : Nat) (accel : Int) (lin jump : Nat) (hlimit : s.getMaxSpeedInTicks ≤ speed) (hs2 : speed < 4294967295)
    (ha1 : 0 < accel) (s1 : Stepper) (hs : (((s.setSpeedInTicks speed).1.setAcceleration accel).1.setLinearAcceleration lin).setJumpStart jump = s1) :
    s1.hw = s.hw ∧ s1.rg.ro = s.rg.ro ∧ s1.rg.rw = s.rg.rw ∧ s1.rg.parameters.minTravelTicks = speed ∧
      s1.rg.parameters.pmflAccel = pmflFrom accel.toNat ∧ s1.rg.parameters.sH = lin ∧ s1.rg.parameters.sJump = jump ∧
      s1.rg.parameters.checkValidConfig = MOVE_OK := by
  rw [← hs]
  have hset : (s.setSpeedInTicks speed).1 = { s with rg := { s.rg with parameters := s.rg.parameters.setSpeedInTicks speed } } := by
    unfold Stepper.setSpeedInTicks
    rw [if_neg (Nat.not_lt.mpr hlimit), if_neg (by unfold ticksForStoppedMotor; omega)]
  rw [hset]
  unfold Stepper.setJumpStart Stepper.setLinearAcceleration Stepper.setAcceleration RampGen.setAcceleration RampParams.setJumpStart
    RampParams.checkValidConfig
  rw [if_neg (by omega)]
  dsimp only
  obtain ⟨x1, x2⟩ := setSpeed_facts s.rg.parameters speed
  obtain ⟨y1, y2, y3, y4⟩ := setAccel_facts (s.rg.parameters.setSpeedInTicks speed) accel.toNat
  obtain ⟨z1, z2, z3, z4, z5⟩ := setCubic_facts ((s.rg.parameters.setSpeedInTicks speed).setAcceleration accel.toNat) lin
  rw [z1, z2, z3, z4, z5, y1, y2, y3, y4, x1, x2]
  exact ⟨rfl, rfl, rfl, rfl, rfl, rfl, rfl, rfl⟩
/-- The state after the configuration and `moveTo()`. -/
theorem configuredMove_state (a : ArchId) (s : Stepper) (hh : RampHist a ApiCall.Typed s) (hidle : s.rg.isActive = false)
    (hforce : s.rg.ro.forceImmediateStop = false) (speed : Nat) (accel : Int) (lin jump : Nat) (p : Int)
    (hlimit : s.getMaxSpeedInTicks ≤ speed) (hs1 : 2 ≤ speed) (hs2 : speed ≤ 65535 ∨ (jump = 0 ∧ speed < 4294967295)) (ha1 : 0 < accel) (ha2 : accel < 2147483648)
    (hlin : lin < 4294967294) (hjump : jump < 4294967296) (J : Nat)
    (hJ : p ≠ s.getPositionAfterCommandsCompleted → ((configuredMove s speed accel lin jump p).rg.prepare a s.hw.q.qend).stepsToStop ≤ J)
    (hdist : (shortestWay p s.getPositionAfterCommandsCompleted).natAbs + J < 2147483648)
    (hfast : (∀ n, 1 ≤ n → n ≤ max 65535 (2 * ((shortestWay p s.getPositionAfterCommandsCompleted).natAbs + J) + 1) →
      0 < Unbounded.ticks a accel.toNat lin n) ∨ (jump = 0 ∧ a.minCmdTicks ≤ speed)) :
    (p = s.hw.q.qend.pos → (configuredMove s speed accel lin jump p).rg.isActive = false) ∧
    (p ≠ s.hw.q.qend.pos →
      Safe a (2 * ((shortestWay p s.hw.q.qend.pos).natAbs + J) + 1) ⟨(configuredMove s speed accel lin jump p).rg, s.hw.q.qend⟩ ∧
      (configuredMove s speed accel lin jump p).rg.isActive = true ∧ (configuredMove s speed accel lin jump p).rg.ro.forceStop = false ∧
      ((configuredMove s speed accel lin jump p).rg.prepare a s.hw.q.qend).ro.forceImmediateStop = false ∧
      ((configuredMove s speed accel lin jump p).rg.prepare a s.hw.q.qend).ro.targetPos = p) := by
  obtain ⟨s1, hs⟩ : ∃ s1, ((((s.setSpeedInTicks speed).1.setAcceleration accel).1.setLinearAcceleration lin).setJumpStart jump) = s1 := ⟨_, rfl⟩
  have hcm : configuredMove s speed accel lin jump p = (s1.moveTo p).1 := by rw [← hs]; rfl
  -- the configuration
  obtain ⟨e1, e2, e3, e4, e5, e6, e7, e8⟩ := configured_facts s speed accel lin jump hlimit (by omega) ha1 s1 hs
  have hr : InRange s1.rg := by
    have hr := RampHist.inRange hh
    exact ⟨by omega, by omega, by rw [e2]; exact hr.usedSpeed, by rw [e2]; exact hr.usedJump, by rw [e3]; exact hr.brake, by rw [e3]; exact hr.period⟩
  have hpause : s1.rg.rw.pauseTicksLeft = 0 := by rw [e3]; exact RampHist.idlePause hh hidle
  have hidle1 : s1.rg.isActive = false := by unfold RampGen.isActive; rw [e3]; exact hidle
  have hq : s.getPositionAfterCommandsCompleted = s.hw.q.qend.pos := rfl
  rw [hq] at hdist hfast hJ
  rw [hcm] at hJ ⊢
  have hrg : (s1.moveTo p).1.rg = (s1.rg.moveTo p s.hw.q.qend).1 := by unfold Stepper.moveTo; rw [e1]
  rw [hrg] at hJ ⊢
  have hok : (s1.rg.moveTo p s.hw.q.qend).2 = MOVE_OK := by
    unfold RampGen.moveTo; dsimp only; rw [if_neg (by rw [e8]; decide)]
  have hr2 : InRange (s1.rg.moveTo p s.hw.q.qend).1 := by
    have := InRange_call a s1 (.moveTo p) hr trivial
    change InRange (s1.moveTo p).1.rg at this
    rw [hrg] at this; exact this
  generalize s.hw.q.qend = qe at *
  refine ⟨fun hne => ?_, fun hne => ?_⟩
  · -- nothing to do
    have hin : (s1.rg.moveTo p qe).1.isActive = false := by
      unfold RampGen.moveTo; dsimp only; rw [if_neg (by rw [e8]; decide)]
      unfold RampGen.startMove
      dsimp only
      rw [hidle1, hne]
      simp only [Bool.false_and, Bool.false_eq_true, if_false, ne_eq, not_true, decide_false]
      exact hidle1
    exact hin
  · replace hJ := hJ hne
    obtain ⟨f1, f2, f3, f4, f5, f6, f7, f8, f9, c0, f10, f11⟩ := moveTo_prepared a s1.rg p qe hidle1 (by rw [e2]; exact hforce) hok hne
    have hconf : Configured a accel.toNat lin (c0.update a) := ⟨c0, by rw [f10]; exact e5, by rw [f10]; exact e6, rfl⟩
    have hA : 0 < accel.toNat ∧ accel.toNat < 2 ^ 31 := by omega
    have hsafe : Safe a (2 * ((shortestWay p qe.pos).natAbs + J) + 1) ⟨(s1.rg.moveTo p qe).1, qe⟩ := by
      have hcrawl : 65535 < speed → Crawls ((s1.rg.moveTo p qe).1.prepare a qe).ro.config (s1.rg.moveTo p qe).1.rw.currTicks := by
        intro h
        rw [f3]
        unfold Crawls ticksForStoppedMotor
        rw [f8, f9, e4, e7]
        omega
      have hlive : Lively a ((s1.rg.moveTo p qe).1.prepare a qe).ro.config (s1.rg.moveTo p qe).1.rw.currTicks := by
        refine ⟨by rw [f8, e4]; exact hs1, ?_, fun n h1 h2 => ?_⟩
        · by_cases h : speed ≤ 65535
          · left; rw [f8, e4]; exact h
          · exact Or.inr (hcrawl (by omega))
        rw [f11]
        have := ticks_lively hconf hA.1 hA.2 hlin n h1 h2
        unfold ticksForStoppedMotor
        omega
      refine ⟨⟨hr2, ?_, f6, Or.inr ⟨hlive, fun _ => ?_⟩, ?_, ?_⟩, hlive, ?_, ?_, by omega, ?_⟩
      · change (s1.rg.moveTo p qe).1.rw.pauseTicksLeft < _
        rw [f4, hpause]; omega
      · change (s1.rg.moveTo p qe).1.rw.pauseTicksLeft = 0
        rw [f4, hpause]
      · by_cases h : speed ≤ 65535
        · left; rw [f8, e4]; omega
        · exact Or.inr (hcrawl (by omega))
      · change ((s1.rg.moveTo p qe).1.prepare a qe).stepsToStop < _
        omega
      · rcases hfast with hfast | ⟨hj0, hslow⟩
        · left
          intro n h1 h2
          change 0 < ((s1.rg.moveTo p qe).1.prepare a qe).ro.config.calculateTicks a n
          rw [f11, C32_period_no_overflow hconf hA.1 hA.2 (by omega) (steps := n) (by omega) (by omega)]
          exact hfast n h1 h2
        · right
          obtain ⟨B, b1, b2, b3⟩ := ticks_turn a hA.1 hA.2 hlin hslow
          have h0 : ((s1.rg.moveTo p qe).1.prepare a qe).stepsToStop = 0 := (prepared a _ qe).stand f3 (by rw [f9, e7]; exact hj0)
          refine ⟨B, f2, by rw [f9, e7]; exact hj0, by rw [f8, e4]; exact hslow, ?_, b1, fun n h1 h2 => ?_, fun n h1 h2 h3 => ?_, ?_, fun h1 => ?_⟩
          · change ((s1.rg.moveTo p qe).1.prepare a qe).ro.config.parameters.minTravelTicks ≤ (s1.rg.moveTo p qe).1.rw.currTicks
            rw [f8, e4, f3]; unfold ticksForStoppedMotor; omega
          · change ((s1.rg.moveTo p qe).1.prepare a qe).ro.config.calculateTicks a n ≤ _
            rw [f8, e4, f11, C32_period_no_overflow hconf hA.1 hA.2 (by omega) (steps := n) (by omega) (by omega)]
            exact b2 n h1 h2
          · change 0 < ((s1.rg.moveTo p qe).1.prepare a qe).ro.config.calculateTicks a n
            rw [f11, C32_period_no_overflow hconf hA.1 hA.2 (by omega) (steps := n) (by omega) (by omega)]
            exact b3 n h1 (by omega) h2
          · change ((s1.rg.moveTo p qe).1.prepare a qe).stepsToStop ≤ _
            omega
          · change B ≤ ((s1.rg.moveTo p qe).1.prepare a qe).stepsToStop at h1
            omega
      · unfold motionReach
        refine Nat.le_trans (rank_le _ _ _) ?_
        change 2 * ((shortestWay ((s1.rg.moveTo p qe).1.prepare a qe).ro.targetPos qe.pos).natAbs + _) + 1 ≤ _
        rw [f5]
        change 2 * (_ + ((s1.rg.moveTo p qe).1.prepare a qe).stepsToStop) + 1 ≤ _
        omega
      · change 0 < (s1.rg.moveTo p qe).1.rw.currTicks
        rw [f3]; decide
    exact ⟨hsafe, f1, f2, f7, f5⟩

/-- C57 in terms of the API: any stepper (`RampHist`: any history of calls and task cycles) at standstill gets a set speed which is accepted (with jump start: of up to 65535 ticks), an
acceleration, any number of steps of linear acceleration, and any jump start. Then `moveTo(p)` finishes, without undefined behaviour, with the end of the queue at `p`: as often as
the task serves the ramp from some service on, independent of the content of uninitialised memory.

The distance is less than 2^31 minus the number of steps (`J`) with which a jump start begins the ramp. With jump start, or with a set speed for which a command of one step would be too short
(`minCmdTicks`, 25000 steps/s on AVR, otherwise 5000 steps/s): the periods which the ramp calculates for up to twice as many steps are at least one tick (see `C57_plain_moveTo_arrives_partial` for numbers).

Missing: set speeds of more than 65535 ticks with jump start; with higher speeds, higher acceleration with long distances. -/
theorem C57_moveTo_arrives_partial (a : ArchId) (s : Stepper) (hh : RampHist a ApiCall.Typed s) (hidle : s.rg.isActive = false)
    (hforce : s.rg.ro.forceImmediateStop = false) (speed : Nat) (accel : Int) (lin jump : Nat) (p : Int)
    (hlimit : s.getMaxSpeedInTicks ≤ speed) (hs1 : 2 ≤ speed) (hs2 : speed ≤ 65535 ∨ (jump = 0 ∧ speed < 4294967295)) (ha1 : 0 < accel) (ha2 : accel < 2147483648)
    (hlin : lin < 4294967294) (hjump : jump < 4294967296) (hp : i32 p = p) (J : Nat)
    (hJ : p ≠ s.getPositionAfterCommandsCompleted → ((configuredMove s speed accel lin jump p).rg.prepare a s.hw.q.qend).stepsToStop ≤ J)
    (hdist : (shortestWay p s.getPositionAfterCommandsCompleted).natAbs + J < 2147483648)
    (hfast : (∀ n, 1 ≤ n → n ≤ max 65535 (2 * ((shortestWay p s.getPositionAfterCommandsCompleted).natAbs + J) + 1) →
      0 < Unbounded.ticks a accel.toNat lin n) ∨ (jump = 0 ∧ a.minCmdTicks ≤ speed)) :
    ∃ N, ∀ (junk : Nat → NextCommand), (∀ i, (junk i).rw.performedRampUpSteps < 4294967296) → ∀ n, N ≤ n →
      ∃ d, Drive.run a junk n ⟨(configuredMove s speed accel lin jump p).rg, s.hw.q.qend⟩ = some d ∧ d.g.isActive = false ∧ i32 d.qe.pos = p := by
  obtain ⟨h1, h2⟩ := configuredMove_state a s hh hidle hforce speed accel lin jump p hlimit hs1 hs2 ha1 ha2 hlin hjump J hJ hdist hfast
  by_cases hne : p = s.hw.q.qend.pos
  · have hin := h1 hne
    refine ⟨0, fun junk _ n _ => ⟨⟨_, s.hw.q.qend⟩, ?_, hin, ?_⟩⟩
    · cases n with
      | zero => rfl
      | succ n => unfold Drive.run; rw [if_neg (by rw [hin]; decide)]
    · rw [← hne]; exact hp
  · obtain ⟨hsafe, f1, f2, f7, f5⟩ := h2 hne
    obtain ⟨N, hN⟩ := C57_arrives_partial a _ _ hsafe f1
    refine ⟨N, fun junk hj n hn => ?_⟩
    obtain ⟨d, h1, h2, h3⟩ := hN junk hj n hn
    refine ⟨d, h1, h2, ?_⟩
    have h4 := h3 f2 f7
    dsimp only at h4
    rw [f5] at h4
    unfold shortestWay i32 at h4
    unfold i32 at hp ⊢
    omega

/-- Without jump start, the ramp starts with a braking distance of 0. -/
theorem configuredMove_stand (a : ArchId) (s : Stepper) (hidle : s.rg.isActive = false) (hforce : s.rg.ro.forceImmediateStop = false)
    (speed : Nat) (accel : Int) (lin : Nat) (p : Int) (hlimit : s.getMaxSpeedInTicks ≤ speed) (hs2 : speed < 4294967295) (ha1 : 0 < accel)
    (hne : p ≠ s.getPositionAfterCommandsCompleted) : ((configuredMove s speed accel lin 0 p).rg.prepare a s.hw.q.qend).stepsToStop ≤ 0 := by
  obtain ⟨s1, hs⟩ : ∃ s1, ((((s.setSpeedInTicks speed).1.setAcceleration accel).1.setLinearAcceleration lin).setJumpStart 0) = s1 := ⟨_, rfl⟩
  obtain ⟨e1, e2, e3, e4, e5, e6, e7, e8⟩ := configured_facts s speed accel lin 0 hlimit hs2 ha1 s1 hs
  have hcm : (configuredMove s speed accel lin 0 p).rg = (s1.rg.moveTo p s.hw.q.qend).1 := by
    rw [← e1, ← hs]; rfl
  have hidle1 : s1.rg.isActive = false := by unfold RampGen.isActive; rw [e3]; exact hidle
  have hok : (s1.rg.moveTo p s.hw.q.qend).2 = MOVE_OK := by
    unfold RampGen.moveTo; dsimp only; rw [if_neg (by rw [e8]; decide)]
  obtain ⟨-, -, f3, -, -, -, -, -, f9, -⟩ := moveTo_prepared a s1.rg p s.hw.q.qend hidle1 (by rw [e2]; exact hforce) hok hne
  rw [hcm]
  exact Nat.le_of_eq ((prepared a _ s.hw.q.qend).stand f3 (by rw [f9]; exact e7))

/-- C57 without jump start, with any linear acceleration, and any distance but exactly 2^31: `moveTo(p)` arrives, with any acceleration for set speeds of at most 25000 steps/s on AVR, otherwise 5000 steps/s; and for higher
set speeds with any acceleration and distance for which the speed does not get beyond one tick per step (for 20000 steps/s² and less: every distance). -/
theorem C57_plain_moveTo_arrives_partial (a : ArchId) (s : Stepper) (hh : RampHist a ApiCall.Typed s) (hidle : s.rg.isActive = false)
    (hforce : s.rg.ro.forceImmediateStop = false) (speed : Nat) (accel : Int) (lin : Nat) (p : Int)
    (hlimit : s.getMaxSpeedInTicks ≤ speed) (hs1 : 2 ≤ speed) (hs2 : speed < 4294967295) (ha1 : 0 < accel) (ha2 : accel < 2147483648)
    (hlin : lin < 4294967294) (hp : i32 p = p) (hdist : shortestWay p s.getPositionAfterCommandsCompleted ≠ -2147483648)
    (hfast : a.minCmdTicks ≤ speed ∨
      5 * accel.toNat * max 40000 ((shortestWay p s.getPositionAfterCommandsCompleted).natAbs + 1) ≤ a.ticksPerS ^ 2) :
    ∃ N, ∀ (junk : Nat → NextCommand), (∀ i, (junk i).rw.performedRampUpSteps < 4294967296) → ∀ n, N ≤ n →
      ∃ d, Drive.run a junk n ⟨(configuredMove s speed accel lin 0 p).rg, s.hw.q.qend⟩ = some d ∧ d.g.isActive = false ∧ i32 d.qe.pos = p := by
  have h : -2147483648 ≤ shortestWay p s.getPositionAfterCommandsCompleted ∧ shortestWay p s.getPositionAfterCommandsCompleted < 2147483648 := by
    unfold shortestWay i32; omega
  exact C57_moveTo_arrives_partial a s hh hidle hforce speed accel lin 0 p hlimit hs1 (Or.inr ⟨rfl, hs2⟩) ha1 ha2 hlin (by omega) hp 0
    (configuredMove_stand a s hidle hforce speed accel lin p hlimit hs2 ha1) (by omega)
    (hfast.symm.imp (fun hfast n h1 h2 => ticks_far a ha1 ha2 hlin (by omega) hfast n h1 h2) (fun h => ⟨rfl, h⟩))

/-- The hypotheses are met: a stepper moves from 0 to 300 with 50 steps of linear acceleration. -/
example : ∃ N, ∀ (junk : Nat → NextCommand), (∀ i, (junk i).rw.performedRampUpSteps < 4294967296) → ∀ n, N ≤ n →
    ∃ d, Drive.run .esp32 junk n ⟨(configuredMove (Stepper.init .esp32 1) 20000 10000 50 0 300).rg, (Stepper.init .esp32 1).hw.q.qend⟩ = some d ∧
      d.g.isActive = false ∧ i32 d.qe.pos = 300 :=
  C57_plain_moveTo_arrives_partial .esp32 _ (RampHist.start _ rfl) rfl rfl 20000 10000 50 300 (by decide) (by decide) (by decide) (by decide) (by decide)
    (by decide) (by decide) (by decide) (by decide)

/-- A slow move: 131072 ticks per step (8.2 ms). -/
example : ∃ N, ∀ (junk : Nat → NextCommand), (∀ i, (junk i).rw.performedRampUpSteps < 4294967296) → ∀ n, N ≤ n →
    ∃ d, Drive.run .esp32 junk n ⟨(configuredMove (Stepper.init .esp32 1) 131072 10000 0 0 300).rg, (Stepper.init .esp32 1).hw.q.qend⟩ = some d ∧
      d.g.isActive = false ∧ i32 d.qe.pos = 300 :=
  C57_plain_moveTo_arrives_partial .esp32 _ (RampHist.start _ rfl) rfl rfl 131072 10000 0 300 (by decide) (by decide) (by decide) (by decide) (by decide)
    (by decide) (by decide) (by decide) (by decide)

/-- The steepest ramp to a far target. -/
example : ∃ N, ∀ (junk : Nat → NextCommand), (∀ i, (junk i).rw.performedRampUpSteps < 4294967296) → ∀ n, N ≤ n →
    ∃ d, Drive.run .esp32 junk n ⟨(configuredMove (Stepper.init .esp32 1) 20000 2147483647 0 0 2000000000).rg, (Stepper.init .esp32 1).hw.q.qend⟩ = some d ∧
      d.g.isActive = false ∧ i32 d.qe.pos = 2000000000 :=
  C57_plain_moveTo_arrives_partial .esp32 _ (RampHist.start _ rfl) rfl rfl 20000 2147483647 0 2000000000 (by decide) (by decide) (by decide) (by decide) (by decide)
    (by decide) (by decide) (by decide) (Or.inl (by decide))

/-- 20000 steps/s² are within the guard for every distance. -/
example (a : ArchId) (accel : Int) (h1 : 0 < accel) (h2 : accel ≤ 20000) (w : Nat) (h3 : w < 2147483648) : 5 * accel.toNat * max 40000 (w + 1) ≤ a.ticksPerS ^ 2 := by
  have h4 : 256000000000000 ≤ a.ticksPerS ^ 2 := by cases a <;> decide
  have h5 : 5 * accel.toNat * max 40000 (w + 1) ≤ 5 * 20000 * 2147483648 := Nat.mul_le_mul (by omega) (by omega)
  omega

/-- Also with a jump start of 100 steps, and back. -/
example : ∃ N, ∀ (junk : Nat → NextCommand), (∀ i, (junk i).rw.performedRampUpSteps < 4294967296) → ∀ n, N ≤ n →
    ∃ d, Drive.run .avr328 junk n ⟨(configuredMove (Stepper.init .avr328 1) 20000 100000 0 100 (-300)).rg, (Stepper.init .avr328 1).hw.q.qend⟩ = some d ∧
      d.g.isActive = false ∧ i32 d.qe.pos = -300 :=
  C57_moveTo_arrives_partial .avr328 _ (RampHist.start _ rfl) rfl rfl 20000 100000 0 100 (-300) (by decide) (by decide) (Or.inl (by decide)) (by decide) (by decide)
    (by decide) (by decide) (by decide) 100 (fun _ => by decide +kernel) (by decide)
    (Or.inl fun n h1 h2 => ticks_far .avr328 (W := 400) (by decide) (by decide) (by decide) (by decide) (by decide) n h1 (by
      have : (shortestWay (-300) (Stepper.init .avr328 1).getPositionAfterCommandsCompleted).natAbs = 300 := by decide
      omega))

end FAS
