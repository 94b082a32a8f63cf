import Verif.Spec.RampCalc
import Verif.Props.Pmf
import Verif.Lemmas.PmfLog

/-!
# C32, C33: the ramp calculation
-/

namespace FAS
open Spec

theorem i16_id {x : Int} (h1 : -32768 ≤ x) (h2 : x ≤ 32767) : i16 x = x := by
  unfold i16; omega

theorem tdiv_pos {x : Int} {n : Nat} (h : 0 ≤ x) : x.tdiv n = x / n :=
  Int.tdiv_eq_ediv_of_nonneg h

theorem tdiv_two_range (x : Int) : (0 ≤ x → x.tdiv 2 = x / 2) ∧ (x < 0 → x.tdiv 2 = -((-x) / 2)) := by
  constructor
  · intro h; exact Int.tdiv_eq_ediv_of_nonneg h
  · intro h
    have : (-x).tdiv 2 = (-x) / 2 := Int.tdiv_eq_ediv_of_nonneg (by omega)
    rw [Int.neg_tdiv] at this
    omega

theorem pmflFrom_range {x : Nat} (h0 : 0 < x) (h : x < 4294967296) :
    0 ≤ pmflFrom x ∧ pmflFrom x ≤ 16384 := by
  have h1 := C31_monotone.1 1 x h0 (by omega)
  have h2 := C31_monotone.1 x 4294967295 (by omega) (by omega)
  have e1 : pmflFrom 1 = 0 := by decide +kernel
  have e2 : pmflFrom 4294967295 = 16384 := by decide +kernel
  omega

theorem pmflFrom_accel {x : Nat} (h0 : 0 < x) (h : x < 2147483648) :
    0 ≤ pmflFrom x ∧ pmflFrom x ≤ 15872 := by
  have h1 := C31_monotone.1 1 x h0 (by omega)
  have h2 := C31_monotone.1 x 2147483647 (by omega) (by omega)
  have e1 : pmflFrom 1 = 0 := by decide +kernel
  have e2 : pmflFrom 2147483647 = 15872 := by decide +kernel
  omega

theorem powDiv3_eq {x : Int} (h0 : 0 ≤ x) (h : x ≤ 16384) :
    pmflPowDiv3 x = Unbounded.powDiv3 x ∧ 0 ≤ Unbounded.powDiv3 x ∧
      Unbounded.powDiv3 x ≤ 5463 ∧ Unbounded.powDiv3 x ≤ x + 1 := by
  have d1 : x.tdiv 2 = x / 2 := Int.tdiv_eq_ediv_of_nonneg h0
  have i1 : i16 (x / 2) = x / 2 := i16_id (by omega) (by omega)
  have d2 : (x / 2).tdiv 4 = (x / 2) / 4 := Int.tdiv_eq_ediv_of_nonneg (by omega)
  have i2 : i16 (x / 2 + x / 2 / 4) = x / 2 + x / 2 / 4 := i16_id (by omega) (by omega)
  unfold pmflPowDiv3 Unbounded.powDiv3
  simp only [d1, i1, d2, i2]
  generalize hy : x / 2 + x / 2 / 4 = y
  have d3 : y.tdiv 16 = y / 16 := Int.tdiv_eq_ediv_of_nonneg (by omega)
  have i3 : i16 (y + y / 16) = y + y / 16 := i16_id (by omega) (by omega)
  simp only [d3, i3]
  generalize hz : y + y / 16 = z
  have d4 : z.tdiv 256 = z / 256 := Int.tdiv_eq_ediv_of_nonneg (by omega)
  have i4 : i16 (z + z / 256) = z + z / 256 := i16_id (by omega) (by omega)
  simp only [d4, i4]
  generalize hw : z + z / 256 = w
  have i5 : i16 (w + 1) = w + 1 := i16_id (by omega) (by omega)
  have d5 : (w + 1).tdiv 2 = (w + 1) / 2 := Int.tdiv_eq_ediv_of_nonneg (by omega)
  have i6 : i16 ((w + 1) / 2) = (w + 1) / 2 := i16_id (by omega) (by omega)
  rw [i5, d5, i6]
  exact ⟨rfl, by omega, by omega, by omega⟩

theorem cubic_range (a : ArchId) {accel sH : Nat} (ha : 0 < accel) (ha2 : accel < 2147483648)
    (hs : 0 < sH) (hs2 : sH < 4294967296) :
    4000 ≤ Unbounded.cubic a accel sH ∧ Unbounded.cubic a accel sH ≤ 15200 := by
  have hA := pmflFrom_accel ha ha2
  have hS := pmflFrom_range hs hs2
  have hP := powDiv3_eq hS.1 hS.2
  have hT : a.pmfTicksPerS = 0x2fdd ∨ a.pmfTicksPerS = 0x30a6 := by cases a <;> simp [ArchId.pmfTicksPerS]
  unfold Unbounded.cubic pmfThreeHalves
  have hd := tdiv_two_range (Unbounded.powDiv3 (pmflFrom sH) - (0x012c + pmflFrom accel))
  generalize (Unbounded.powDiv3 (pmflFrom sH) - (0x012c + pmflFrom accel)).tdiv 2 = D at *
  by_cases c : 0 ≤ Unbounded.powDiv3 (pmflFrom sH) - (0x012c + pmflFrom accel)
  · have := hd.1 c; omega
  · have := hd.2 (by omega); omega

theorem cubic_range_low (a : ArchId) {accel sH : Nat} (ha : 0 < accel) (ha2 : accel < 2147483648)
    (hs : 0 < sH) (hs2 : sH < 4294967296) :
    -32768 ≤ Unbounded.ticksH a accel sH ∧ Unbounded.ticksH a accel sH ≤ 32767 := by
  have := cubic_range a ha ha2 hs hs2
  have hS := pmflFrom_range hs hs2
  have hP := powDiv3_eq hS.1 hS.2
  unfold Unbounded.ticksH
  rw [if_pos hs]
  omega

/-- The derived values of a configuration are those of unbounded arithmetic. -/
theorem configured_eq {a : ArchId} {accel sH : Nat} {c : RampConfig} (h : Configured a accel sH c)
    (ha : 0 < accel) (ha2 : accel < 2147483648) (hs2 : sH < 4294967296) :
    c.parameters.pmflAccel = pmflFrom accel ∧ c.parameters.sH = sH ∧
      (0 < sH → c.cubic = Unbounded.cubic a accel sH) ∧
      c.pmflTicksH = Unbounded.ticksH a accel sH := by
  obtain ⟨c0, h1, h2, rfl⟩ := h
  have hA := pmflFrom_accel ha ha2
  unfold RampConfig.update
  simp only
  unfold RampConfig.updateCubic
  by_cases hs : 0 < sH
  · have hS := pmflFrom_range hs hs2
    have hP := powDiv3_eq hS.1 hS.2
    have hr := cubic_range a ha ha2 hs hs2
    have hr2 := cubic_range_low a ha ha2 hs hs2
    unfold Unbounded.ticksH at hr2
    rw [if_pos hs] at hr2
    have e1 : i16 (pmfThreeHalves + pmflFrom accel) = pmfThreeHalves + pmflFrom accel := by
      unfold pmfThreeHalves; exact i16_id (by omega) (by omega)
    have hT : a.pmfTicksPerS = 0x2fdd ∨ a.pmfTicksPerS = 0x30a6 := by
      cases a <;> simp [ArchId.pmfTicksPerS]
    have e2 : i16 ((Unbounded.powDiv3 (pmflFrom sH) - (pmfThreeHalves + pmflFrom accel)).tdiv 2) =
        (Unbounded.powDiv3 (pmflFrom sH) - (pmfThreeHalves + pmflFrom accel)).tdiv 2 := by
      unfold Unbounded.cubic at hr
      exact i16_id (by omega) (by omega)
    have e3 : i16 (a.pmfTicksPerS +
        (Unbounded.powDiv3 (pmflFrom sH) - (pmfThreeHalves + pmflFrom accel)).tdiv 2) =
        Unbounded.cubic a accel sH := by
      have : a.pmfTicksPerS +
        (Unbounded.powDiv3 (pmflFrom sH) - (pmfThreeHalves + pmflFrom accel)).tdiv 2 =
          Unbounded.cubic a accel sH := rfl
      rw [this]; exact i16_id (by omega) (by omega)
    rw [h2, if_pos hs]
    simp only [h1, hP.1, e1, e2, e3]
    refine ⟨trivial, h2, fun _ => trivial, ?_⟩
    unfold Unbounded.ticksH
    rw [if_pos hs]
    exact i16_id hr2.1 hr2.2
  · rw [h2, if_neg hs]
    refine ⟨h1, h2, fun h => absurd h hs, ?_⟩
    unfold Unbounded.ticksH
    rw [if_neg hs]

/-- The argument of the period calculation stays positive. -/
theorem ticks_arg {sH steps : Nat} (h0 : 0 < steps) (h : steps < 4294967296) (hs : sH ≤ steps) :
    subU32 steps (u32 (sH + 2) / 4) = (if sH + 2 < 4294967296 then steps - (sH + 2) / 4 else steps) ∧
      0 < steps - (sH + 2) / 4 := by
  unfold subU32 u32
  split <;> omega

/-- **C32** (period). For every acceleration accepted by `setAcceleration`, every number of steps of
linear acceleration and every ramp step, the period calculated with 16 bit arithmetic is the same as
with unbounded integers. -/
theorem C32_period_no_overflow {a : ArchId} {accel sH : Nat} {c : RampConfig}
    (h : Configured a accel sH c) (ha : 0 < accel) (ha2 : accel < 2 ^ 31) (hs : sH < 2 ^ 32 - 2)
    {steps : Nat} (h0 : 0 < steps) (h1 : steps < 2 ^ 32) :
    c.calculateTicks a steps = Unbounded.ticks a accel sH steps := by
  obtain ⟨e1, e2, e3, e4⟩ := configured_eq h ha (by omega) (by omega)
  have hA := pmflFrom_accel ha (by omega)
  unfold RampConfig.calculateTicks Unbounded.ticks
  rw [e1, e2]
  by_cases c1 : steps ≥ sH
  · rw [if_pos c1, if_pos c1]
    obtain ⟨g1, g2⟩ := ticks_arg (sH := sH) h0 (by omega) c1
    rw [if_pos (by omega)] at g1
    have hS := pmflFrom_range g2 (by omega)
    simp only [g1]
    rw [i16_id (x := pmflFrom (steps - (sH + 2) / 4) + pmflFrom accel) (by omega) (by omega)]
    have hd : (pmflFrom (steps - (sH + 2) / 4) + pmflFrom accel).tdiv 2 =
      (pmflFrom (steps - (sH + 2) / 4) + pmflFrom accel) / 2 := Int.tdiv_eq_ediv_of_nonneg (by omega)
    rw [hd, i16_id (x := (pmflFrom (steps - (sH + 2) / 4) + pmflFrom accel) / 2)
      (by omega) (by omega), i16_id]
    · cases a <;> simp only [ArchId.pmfTicksPerSDivSqrt2] <;> omega
    · cases a <;> simp only [ArchId.pmfTicksPerSDivSqrt2] <;> omega
  · rw [if_neg c1, if_neg c1]
    have hS := pmflFrom_range h0 (by omega)
    have hP := powDiv3_eq hS.1 hS.2
    have hr := cubic_range a ha (by omega) (sH := sH) (by omega) (by omega)
    simp only [hP.1]
    rw [e3 (by omega), i16_id (by omega) (by omega)]

/-- **C32** (ramp steps). The same for the number of ramp steps of a period; here the sum with the
offset for linear acceleration must fit in 32 bit (see `C32_ramp_steps_refuted`). -/
theorem C32_ramp_steps_no_overflow_partial {a : ArchId} {accel sH : Nat} {c : RampConfig}
    (h : Configured a accel sH c) (ha : 0 < accel) (ha2 : accel < 2 ^ 31) (hs : sH < 2 ^ 32 - 2)
    {ticks : Nat} (h0 : 0 < ticks) (h1 : ticks < 2 ^ 32)
    (hfit : Unbounded.rampSteps a accel sH ticks < 2 ^ 32) :
    c.calculateRampSteps a ticks = Unbounded.rampSteps a accel sH ticks := by
  obtain ⟨e1, e2, e3, e4⟩ := configured_eq h ha (by omega) (by omega)
  have hA := pmflFrom_accel ha (by omega)
  have hS := pmflFrom_range h0 (by omega)
  unfold Unbounded.rampSteps at hfit
  unfold RampConfig.calculateRampSteps Unbounded.rampSteps
  simp only
  rw [e1, e2, e4]
  by_cases c1 : pmflFrom ticks ≤ Unbounded.ticksH a accel sH
  · rw [if_pos c1] at hfit
    rw [if_pos c1, if_pos c1]
    have hF : a.pmfAccelFactor = 0x5f4c ∨ a.pmfAccelFactor = 0x5dba := by
      cases a <;> simp [ArchId.pmfAccelFactor]
    rw [i16_id (x := a.pmfAccelFactor - pmflFrom accel) (by omega) (by omega)]
    have hq : pmflToU32 (i16 (a.pmfAccelFactor - pmflFrom accel - pmflSquare (pmflFrom ticks))) =
        pmflToU32 (a.pmfAccelFactor - pmflFrom accel - 2 * pmflFrom ticks) := by
      unfold pmflSquare
      rw [if_neg (by omega), if_neg (by omega)]
      by_cases c2 : pmflFrom ticks = 16384
      · rw [c2, pmflToU32_zero_of_neg (v := a.pmfAccelFactor - pmflFrom accel - 2 * 16384) (by omega),
          pmflToU32_zero_of_neg]
        have : i16 (16384 + 16384) = -32768 := by decide
        rw [this]; unfold i16; omega
      · rw [i16_id (x := pmflFrom ticks + pmflFrom ticks) (by omega) (by omega),
          i16_id (by omega) (by omega)]
        congr 1; omega
    rw [hq]
    unfold u32
    omega
  · rw [if_neg c1] at hfit
    rw [if_neg c1, if_neg c1]
    have hsp : 0 < sH := by
      by_contra hc
      have : sH = 0 := by omega
      subst this
      unfold Unbounded.ticksH pmfMax at c1
      simp at c1
      omega
    have hr := cubic_range a ha (by omega) hsp (by omega)
    rw [e3 hsp, i16_id (x := Unbounded.cubic a accel sH - pmflFrom ticks) (by omega) (by omega)]
    have hd := tdiv_two_range (Unbounded.cubic a accel sH - pmflFrom ticks)
    rw [i16_id]
    · by_cases c3 : 0 ≤ Unbounded.cubic a accel sH - pmflFrom ticks
      · have := hd.1 c3; omega
      · have := hd.2 (by omega); omega
    · by_cases c3 : 0 ≤ Unbounded.cubic a accel sH - pmflFrom ticks
      · have := hd.1 c3; omega
      · have := hd.2 (by omega); omega

/-- A configuration as the library derives it. -/
def rampConfig (a : ArchId) (accel sH ticks : Nat) : RampConfig :=
  RampConfig.update a
    ⟨(((RampParams.init.setAcceleration accel).setCubicAccelerationSteps sH).setSpeedInTicks ticks),
      0, 0, 0⟩

theorem rampConfig_configured (a : ArchId) (accel sH ticks : Nat) :
    Configured a accel sH (rampConfig a accel sH ticks) := by
  by_cases h : sH = 0
  · subst h; exact ⟨_, rfl, rfl, rfl⟩
  · refine ⟨_, ?_, ?_, rfl⟩ <;>
    · unfold RampParams.setCubicAccelerationSteps
      rw [if_pos (show (RampParams.init.setAcceleration accel).sH ≠ sH from fun e => h e.symm)]
      rfl

/-- **C32** is not true for the sum with the offset for linear acceleration: for an acceleration of
1 step/s², 80 ticks (200000 steps/s at 16 MHz) and six steps of linear acceleration, the saturated
number of ramp steps wraps to one. -/
theorem C32_ramp_steps_refuted :
    Configured .avr328 1 6 (rampConfig .avr328 1 6 80) ∧
    (rampConfig .avr328 1 6 80).calculateRampSteps .avr328 80 = 1 ∧
    Unbounded.rampSteps .avr328 1 6 80 = 4294967297 := by
  refine ⟨rampConfig_configured _ _ _ _, by decide +kernel, by decide +kernel⟩

example : (rampConfig .avr328 1000 0 80).calculateTicks .avr328 100 = 35808 := by decide +kernel
example : Unbounded.ticks .avr328 1000 50 10 = 170752 := by decide +kernel
example : Unbounded.rampSteps .avr328 1000 50 2000 = 32077 := by decide +kernel

theorem logb_sqrt {x : ℝ} (h : 0 < x) : Real.logb 2 (Real.sqrt x) = Real.logb 2 x / 2 := by
  rw [Real.sqrt_eq_rpow, Real.logb_rpow_eq_mul_logb_of_pos h]
  ring

theorem idealPeriod_pos (a : ArchId) {accel steps : Nat} (ha : 0 < accel) (hs : 0 < steps) :
    0 < idealPeriod a accel steps := by
  have h1 : (0 : ℝ) < accel := by exact_mod_cast ha
  have h2 : (0 : ℝ) < steps := by exact_mod_cast hs
  have h3 : (0 : ℝ) < a.ticksPerS := by cases a <;> simp [ArchId.ticksPerS]
  unfold idealPeriod
  positivity

theorem idealPeriod_log (a : ArchId) {accel steps : Nat} (ha : 0 < accel) (hs : 0 < steps) :
    Real.logb 2 (idealPeriod a accel steps) =
      Real.logb 2 a.ticksPerS - (1 + Real.logb 2 accel + Real.logb 2 steps) / 2 := by
  have h1 : (0 : ℝ) < accel := by exact_mod_cast ha
  have h2 : (0 : ℝ) < steps := by exact_mod_cast hs
  have h3 : (0 : ℝ) < a.ticksPerS := by cases a <;> simp [ArchId.ticksPerS]
  unfold idealPeriod
  rw [Real.logb_div (by positivity) (by positivity), logb_sqrt (by positivity),
    Real.logb_mul (by positivity) (by positivity), Real.logb_mul (by positivity) (by positivity),
    Real.logb_self_eq_one (by norm_num)]

theorem ticksPerS_pow : ∀ a : ArchId,
    2 ^ (8 * a.pmfTicksPerSDivSqrt2.toNat + 2046) ≤ 2 ^ 0 * a.ticksPerS ^ 4096 ∧
    a.ticksPerS ^ 4096 ≤ 2 ^ (8 * a.pmfTicksPerSDivSqrt2.toNat + 2049) := by
  intro a; cases a <;> decide +kernel

/-- The constant for `TICKS_PER_S / sqrt(2)` is accurate to a quarter of a unit. -/
theorem ticksPerS_log (a : ArchId) :
    (a.pmfTicksPerSDivSqrt2 : ℝ) - 1 / 4 ≤ 512 * (Real.logb 2 a.ticksPerS - 1 / 2) ∧
    512 * (Real.logb 2 a.ticksPerS - 1 / 2) ≤ (a.pmfTicksPerSDivSqrt2 : ℝ) + 1 / 8 := by
  have hp : 0 < a.ticksPerS := by cases a <;> simp [ArchId.ticksPerS]
  obtain ⟨h1, h2⟩ := ticksPerS_pow a
  have b1 := le_logb_of_pow hp h1
  have b2 := logb_le_of_pow hp h2
  have hc : ((a.pmfTicksPerSDivSqrt2.toNat : Nat) : ℝ) = (a.pmfTicksPerSDivSqrt2 : ℝ) := by
    cases a <;> simp [ArchId.pmfTicksPerSDivSqrt2]
  push_cast at b1 b2
  rw [hc] at b1 b2
  constructor <;> linarith

/-- Comparing numbers by 512 times their binary logarithm. -/
theorem le_of_log {x y : ℝ} (hx : 0 < x) (hy : 0 < y) {d : ℝ}
    (h : 512 * Real.logb 2 x ≤ 512 * Real.logb 2 y + d) : x ≤ 2 ^ (d / 512) * y := by
  rw [← Real.logb_le_logb (b := 2) (by norm_num) hx (by positivity),
    Real.logb_mul (by positivity) (by positivity), Real.logb_rpow (by norm_num) (by norm_num)]
  linarith

theorem two_rpow_log (v : ℝ) : 512 * Real.logb 2 ((2 : ℝ) ^ (v / 512)) = v := by
  rw [Real.logb_rpow (by norm_num) (by norm_num)]; ring

theorem pow_201 : 8 * 200 ^ 512 ≤ 201 ^ 512 := by decide +kernel
theorem pow_101 : 128 * 100 ^ 512 ≤ 101 ^ 512 := by decide +kernel

/-- `2^(3/512)` is at most 1.005. -/
theorem rpow_201 : (2 : ℝ) ^ ((3 : ℝ) / 512) ≤ 201 / 200 := by
  have h : (8 : ℝ) ≤ (201 / 200) ^ 512 := by
    rw [div_pow, le_div_iff₀ (by positivity)]
    exact_mod_cast pow_201
  have h3 : ((2 : ℝ) ^ ((3 : ℝ) / 512)) ^ 512 = 8 := by
    rw [← Real.rpow_natCast, ← Real.rpow_mul (by norm_num)]
    norm_num
  refine le_of_pow_le_pow_left₀ (n := 512) (by norm_num) (by norm_num) ?_
  rw [h3]; exact h

/-- `2^(7/512)` is at most 1.01. -/
theorem rpow_101 : (2 : ℝ) ^ ((7 : ℝ) / 512) ≤ 101 / 100 := by
  have h : (128 : ℝ) ≤ (101 / 100) ^ 512 := by
    rw [div_pow, le_div_iff₀ (by positivity)]
    exact_mod_cast pow_101
  have h3 : ((2 : ℝ) ^ ((7 : ℝ) / 512)) ^ 512 = 128 := by
    rw [← Real.rpow_natCast, ← Real.rpow_mul (by norm_num)]
    norm_num
  refine le_of_pow_le_pow_left₀ (n := 512) (by norm_num) (by norm_num) ?_
  rw [h3]; exact h

theorem rpow_mono {d D K : ℝ} (hK : (2 : ℝ) ^ (D / 512) ≤ K) (h : d ≤ D) :
    (2 : ℝ) ^ (d / 512) ≤ K :=
  le_trans (Real.rpow_le_rpow_of_exponent_le (by norm_num) (by linarith)) hK

/-- The conversion of a logarithm which is known up to a small error. -/
theorem to_close {v : Int} {I d1 d2 D K : ℝ} (hI : 0 < I) (hv : v < 16384)
    (hK : (2 : ℝ) ^ (D / 512) ≤ K) (hD1 : d1 + 1 / 2 ≤ D) (hD2 : d2 + 3 / 4 ≤ D)
    (h1 : 512 * Real.logb 2 I ≤ v + d1) (h2 : (v : ℝ) ≤ 512 * Real.logb 2 I + d2) :
    (pmflToU32 v : ℝ) ≤ K * I + 1 ∧ I ≤ K * (pmflToU32 v + 1) := by
  have hK0 : 0 < K := lt_of_lt_of_le (by positivity) hK
  by_cases c0 : v < 0
  · rw [pmflToU32_zero_of_neg c0]
    have hv1 : (v : ℝ) ≤ -1 := by exact_mod_cast (by omega : v ≤ -1)
    have : I ≤ 2 ^ ((d1 - 1) / 512) * 1 := le_of_log hI (by norm_num) (by simp; linarith)
    have r1 := rpow_mono (d := d1 - 1) hK (by linarith)
    have hKI : 0 < K * I := by positivity
    norm_num at this ⊢
    constructor <;> linarith
  obtain ⟨n, rfl⟩ := Int.eq_ofNat_of_zero_le (a := v) (by omega)
  push_cast at h1 h2
  by_cases c1 : n < 5120
  · obtain ⟨t1, t2⟩ := pmflToU32_small_log c1
    push_cast at t1 t2
    have hW : (0 : ℝ) < 2 ^ ((n : ℝ) / 512) := by positivity
    have w1 : (2 : ℝ) ^ ((n : ℝ) / 512) ≤ 2 ^ (d2 / 512) * I :=
      le_of_log hW hI (by rw [two_rpow_log]; exact h2)
    have w2 : I ≤ 2 ^ (d1 / 512) * 2 ^ ((n : ℝ) / 512) :=
      le_of_log hI hW (by rw [two_rpow_log]; exact h1)
    have r1 := rpow_mono (d := d2) hK (by linarith)
    have r2 := rpow_mono (d := d1) hK (by linarith)
    have hT : (pmflToU32 (n : Int) : ℝ) ≤ ((pmflToU32 (n : Int) - 1 : Nat) : ℝ) + 1 := by
      have : pmflToU32 (n : Int) ≤ (pmflToU32 (n : Int) - 1) + 1 := by omega
      exact_mod_cast this
    constructor
    · have : (2 : ℝ) ^ (d2 / 512) * I ≤ K * I := mul_le_mul_of_nonneg_right r1 hI.le
      linarith
    · have : (2 : ℝ) ^ (d1 / 512) * 2 ^ ((n : ℝ) / 512) ≤ K * (pmflToU32 (n : Int) + 1) :=
        mul_le_mul r2 t2 hW.le hK0.le
      linarith
  · obtain ⟨t0, t1, t2⟩ := pmflToU32_log (v := n) (by omega) (by omega)
    have hT : (0 : ℝ) < pmflToU32 (n : Int) := by exact_mod_cast t0
    have w1 : (pmflToU32 (n : Int) : ℝ) ≤ 2 ^ ((d2 + 3 / 4) / 512) * I :=
      le_of_log hT hI (by linarith)
    have w2 : I ≤ 2 ^ ((d1 + 1 / 2) / 512) * pmflToU32 (n : Int) :=
      le_of_log hI hT (by linarith)
    have r1 := rpow_mono (d := d2 + 3 / 4) hK hD2
    have r2 := rpow_mono (d := d1 + 1 / 2) hK hD1
    have q1 := mul_le_mul_of_nonneg_right r1 hI.le
    have q2 := mul_le_mul_of_nonneg_right r2 hT.le
    constructor <;> nlinarith

/-- **C33**. The period after any number of ramp steps beyond the linear acceleration, with any
acceleration, is `TICKS_PER_S / sqrt(2 * accel * s)` up to half a percent and one tick. Here `s` is
the number of steps, less a quarter of the steps of linear acceleration. -/
theorem C33_sqrt_law {a : ArchId} {accel sH : Nat} {c : RampConfig} (h : Configured a accel sH c)
    (ha : 0 < accel) (ha2 : accel < 2 ^ 31) (hs : sH < 2 ^ 32 - 2) {steps : Nat} (h0 : 0 < steps)
    (h1 : steps < 2 ^ 32) (hsH : sH ≤ steps) :
    (c.calculateTicks a steps : ℝ) ≤
      201 / 200 * idealPeriod a accel (steps - (sH + 2) / 4) + 1 ∧
    idealPeriod a accel (steps - (sH + 2) / 4) ≤ 201 / 200 * (c.calculateTicks a steps + 1) := by
  rw [C32_period_no_overflow h ha ha2 (by omega) h0 h1]
  unfold Unbounded.ticks
  rw [if_pos (by omega)]
  have h0 : 0 < steps - (sH + 2) / 4 := by omega
  have h1 : steps - (sH + 2) / 4 < 2 ^ 32 := by omega
  generalize steps - (sH + 2) / 4 = steps at *
  have hA := pmflFrom_accel ha (by omega)
  have hS := pmflFrom_range h0 (by omega)
  have lA := pmflFrom_log ha (by omega)
  have lS := pmflFrom_log h0 (by omega)
  have lT := ticksPerS_log a
  have hI := idealPeriod_log a ha h0
  have hK : a.pmfTicksPerSDivSqrt2 < 16384 := by cases a <;> simp [ArchId.pmfTicksPerSDivSqrt2]
  have hd : (pmflFrom steps + pmflFrom accel).tdiv 2 =
    (pmflFrom steps + pmflFrom accel) / 2 := Int.tdiv_eq_ediv_of_nonneg (by omega)
  rw [hd]
  have hq1 : 2 * ((pmflFrom steps + pmflFrom accel) / 2) ≤ pmflFrom steps + pmflFrom accel := by
    omega
  have hq2 : pmflFrom steps + pmflFrom accel ≤ 2 * ((pmflFrom steps + pmflFrom accel) / 2) + 1 := by
    omega
  have hq3 : 0 ≤ (pmflFrom steps + pmflFrom accel) / 2 := by omega
  generalize (pmflFrom steps + pmflFrom accel) / 2 = D at *
  have hq1r : 2 * (D : ℝ) ≤ pmflFrom steps + pmflFrom accel := by exact_mod_cast hq1
  have hq2r : (pmflFrom steps : ℝ) + pmflFrom accel ≤ 2 * (D : ℝ) + 1 := by exact_mod_cast hq2
  refine to_close (d1 := 1) (d2 := 9 / 4) (idealPeriod_pos a ha h0) (by omega) rpow_201
    (by norm_num) (by norm_num) ?_ ?_
  · rw [hI]; push_cast; linarith
  · rw [hI]; push_cast; linarith

/-- The hypotheses are met, for example by an acceleration of 1000 steps/s². -/
example : Configured .esp32 1000 20 (rampConfig .esp32 1000 20 80) := rampConfig_configured _ _ _ _

/-! ### Linear acceleration -/

theorem powDiv3_close {x : Int} (h0 : 0 ≤ x) (h : x ≤ 16384) :
    x - 5 ≤ 3 * Unbounded.powDiv3 x ∧ 3 * Unbounded.powDiv3 x ≤ x + 1 := by
  have d1 : x.tdiv 2 = x / 2 := Int.tdiv_eq_ediv_of_nonneg h0
  have d2 : (x / 2).tdiv 4 = (x / 2) / 4 := Int.tdiv_eq_ediv_of_nonneg (by omega)
  unfold Unbounded.powDiv3
  simp only [d1, d2]
  generalize hy : x / 2 + x / 2 / 4 = y
  have d3 : y.tdiv 16 = y / 16 := Int.tdiv_eq_ediv_of_nonneg (by omega)
  simp only [d3]
  generalize hz : y + y / 16 = z
  have d4 : z.tdiv 256 = z / 256 := Int.tdiv_eq_ediv_of_nonneg (by omega)
  simp only [d4]
  generalize hw : z + z / 256 = w
  have d5 : (w + 1).tdiv 2 = (w + 1) / 2 := Int.tdiv_eq_ediv_of_nonneg (by omega)
  rw [d5]
  omega

theorem idealCubicPeriod_pos (a : ArchId) {accel sH steps : Nat} (ha : 0 < accel) (hs : 0 < sH)
    (h0 : 0 < steps) : 0 < idealCubicPeriod a accel sH steps := by
  have h1 : (0 : ℝ) < accel := by exact_mod_cast ha
  have h2 : (0 : ℝ) < steps := by exact_mod_cast h0
  have h4 : (0 : ℝ) < sH := by exact_mod_cast hs
  have h3 : (0 : ℝ) < a.ticksPerS := by cases a <;> simp [ArchId.ticksPerS]
  unfold idealCubicPeriod
  positivity

theorem idealCubicPeriod_log (a : ArchId) {accel sH steps : Nat} (ha : 0 < accel) (hs : 0 < sH)
    (h0 : 0 < steps) :
    Real.logb 2 (idealCubicPeriod a accel sH steps) =
      Real.logb 2 a.ticksPerS - (Real.logb 2 (3 / 2) + Real.logb 2 accel) / 2
        + Real.logb 2 sH / 6 - 2 / 3 * Real.logb 2 steps := by
  have h1 : (0 : ℝ) < accel := by exact_mod_cast ha
  have h2 : (0 : ℝ) < steps := by exact_mod_cast h0
  have h4 : (0 : ℝ) < sH := by exact_mod_cast hs
  have h3 : (0 : ℝ) < a.ticksPerS := by cases a <;> simp [ArchId.ticksPerS]
  unfold idealCubicPeriod
  rw [Real.logb_div (by positivity) (by positivity), Real.logb_mul (by positivity) (by positivity),
    Real.logb_mul (by positivity) (by positivity), logb_sqrt (by positivity),
    Real.logb_mul (by positivity) (by positivity), Real.logb_rpow_eq_mul_logb_of_pos h4,
    Real.logb_rpow_eq_mul_logb_of_pos h2]
  ring

theorem ticksPerS_full_pow : ∀ a : ArchId,
    2 ^ (4 * a.pmfTicksPerS.toNat) ≤ 2 ^ 1 * a.ticksPerS ^ 2048 ∧
    a.ticksPerS ^ 2048 ≤ 2 ^ (4 * a.pmfTicksPerS.toNat) := by
  intro a; cases a <;> decide +kernel

/-- The constant for `TICKS_PER_S` is accurate to a quarter of a unit. -/
theorem ticksPerS_full_log (a : ArchId) :
    (a.pmfTicksPerS : ℝ) - 1 / 4 ≤ 512 * Real.logb 2 a.ticksPerS ∧
    512 * Real.logb 2 a.ticksPerS ≤ (a.pmfTicksPerS : ℝ) := by
  have hp : 0 < a.ticksPerS := by cases a <;> simp [ArchId.ticksPerS]
  obtain ⟨h1, h2⟩ := ticksPerS_full_pow a
  have b1 := le_logb_of_pow hp h1
  have b2 := logb_le_of_pow hp h2
  have hc : ((a.pmfTicksPerS.toNat : Nat) : ℝ) = (a.pmfTicksPerS : ℝ) := by
    cases a <;> simp [ArchId.pmfTicksPerS]
  push_cast at b1 b2
  rw [hc] at b1 b2
  constructor <;> linarith

theorem three_pow : 2 ^ (299 + 512) ≤ 2 ^ 0 * 3 ^ 512 ∧ 3 ^ 512 ≤ 2 ^ (300 + 512) := by
  decide +kernel

/-- The constant for 3/2 is accurate to one unit. -/
theorem threeHalves_log : 299 ≤ 512 * Real.logb 2 (3 / 2) ∧ 512 * Real.logb 2 (3 / 2) ≤ 300 := by
  have b1 := le_logb_of_pow (x := 3) (by norm_num) three_pow.1
  have b2 := logb_le_of_pow (x := 3) (by norm_num) three_pow.2
  rw [Real.logb_div (by norm_num) (by norm_num), Real.logb_self_eq_one (by norm_num)]
  push_cast at b1 b2
  constructor <;> linarith

/-- **C33** (linear acceleration). While the acceleration still rises, the period is that of a motion
with constant jerk up to one percent and one tick. -/
theorem C33_cubic_law {a : ArchId} {accel sH : Nat} {c : RampConfig} (h : Configured a accel sH c)
    (ha : 0 < accel) (ha2 : accel < 2 ^ 31) (hs : sH < 2 ^ 32 - 2) {steps : Nat} (h0 : 0 < steps)
    (hsH : steps < sH) :
    (c.calculateTicks a steps : ℝ) ≤ 101 / 100 * idealCubicPeriod a accel sH steps + 1 ∧
    idealCubicPeriod a accel sH steps ≤ 101 / 100 * (c.calculateTicks a steps + 1) := by
  have hs0 : 0 < sH := by omega
  rw [C32_period_no_overflow h ha ha2 (by omega) h0 (by omega)]
  unfold Unbounded.ticks
  rw [if_neg (by omega)]
  have hr := cubic_range a ha (by omega) hs0 (by omega)
  have hA := pmflFrom_accel ha (by omega)
  have hS := pmflFrom_range h0 (by omega)
  have hH := pmflFrom_range hs0 (by omega)
  have lA := pmflFrom_log ha (by omega)
  have lS := pmflFrom_log h0 (by omega)
  have lH := pmflFrom_log hs0 (by omega)
  have lT := ticksPerS_full_log a
  have l3 := threeHalves_log
  have hI := idealCubicPeriod_log a ha hs0 h0
  have pS := powDiv3_close hS.1 hS.2
  have pH := powDiv3_close hH.1 hH.2
  have pS2 := powDiv3_eq hS.1 hS.2
  have hv : Unbounded.cubic a accel sH - (pmflFrom steps - Unbounded.powDiv3 (pmflFrom steps)) <
      16384 := by omega
  have hcub : 2 * (Unbounded.cubic a accel sH - a.pmfTicksPerS) - 1 ≤
      Unbounded.powDiv3 (pmflFrom sH) - (300 + pmflFrom accel) ∧
      Unbounded.powDiv3 (pmflFrom sH) - (300 + pmflFrom accel) ≤
      2 * (Unbounded.cubic a accel sH - a.pmfTicksPerS) + 1 := by
    unfold Unbounded.cubic pmfThreeHalves
    have hd := tdiv_two_range (Unbounded.powDiv3 (pmflFrom sH) - (0x012c + pmflFrom accel))
    generalize (Unbounded.powDiv3 (pmflFrom sH) - (0x012c + pmflFrom accel)).tdiv 2 = D at *
    by_cases c : 0 ≤ Unbounded.powDiv3 (pmflFrom sH) - (0x012c + pmflFrom accel)
    · have := hd.1 c; omega
    · have := hd.2 (by omega); omega
  generalize Unbounded.cubic a accel sH = C at *
  generalize Unbounded.powDiv3 (pmflFrom steps) = PS at *
  generalize Unbounded.powDiv3 (pmflFrom sH) = PH at *
  generalize pmflFrom steps = FS at *
  generalize pmflFrom sH = FH at *
  generalize pmflFrom accel = FA at *
  have c1 : 2 * ((C : ℝ) - a.pmfTicksPerS) - 1 ≤ PH - (300 + FA) := by exact_mod_cast hcub.1
  have c2 : (PH : ℝ) - (300 + FA) ≤ 2 * ((C : ℝ) - a.pmfTicksPerS) + 1 := by exact_mod_cast hcub.2
  have s1 : (FS : ℝ) - 5 ≤ 3 * PS := by exact_mod_cast pS.1
  have s2 : 3 * (PS : ℝ) ≤ FS + 1 := by exact_mod_cast pS.2
  have t1 : (FH : ℝ) - 5 ≤ 3 * PH := by exact_mod_cast pH.1
  have t2 : 3 * (PH : ℝ) ≤ FH + 1 := by exact_mod_cast pH.2
  refine to_close (d1 := 6) (d2 := 6) (idealCubicPeriod_pos a ha hs0 h0) hv rpow_101
    (by norm_num) (by norm_num) ?_ ?_
  · rw [hI]; push_cast; linarith
  · rw [hI]; push_cast; linarith

/-! ### Ramp steps -/

theorem idealRampSteps_pos (a : ArchId) {accel ticks : Nat} (ha : 0 < accel) (hs : 0 < ticks) :
    0 < idealRampSteps a accel ticks := by
  have h1 : (0 : ℝ) < accel := by exact_mod_cast ha
  have h2 : (0 : ℝ) < ticks := by exact_mod_cast hs
  have h3 : (0 : ℝ) < a.ticksPerS := by cases a <;> simp [ArchId.ticksPerS]
  unfold idealRampSteps
  positivity

theorem idealRampSteps_log (a : ArchId) {accel ticks : Nat} (ha : 0 < accel) (hs : 0 < ticks) :
    Real.logb 2 (idealRampSteps a accel ticks) =
      2 * (Real.logb 2 a.ticksPerS - Real.logb 2 ticks) - (1 + Real.logb 2 accel) := by
  have h1 : (0 : ℝ) < accel := by exact_mod_cast ha
  have h2 : (0 : ℝ) < ticks := by exact_mod_cast hs
  have h3 : (0 : ℝ) < a.ticksPerS := by cases a <;> simp [ArchId.ticksPerS]
  unfold idealRampSteps
  rw [Real.logb_div (by positivity) (by positivity), Real.logb_pow,
    Real.logb_div (by positivity) (by positivity), Real.logb_mul (by positivity) (by positivity),
    Real.logb_self_eq_one (by norm_num)]
  push_cast
  ring

theorem accelFactor_pow : ∀ a : ArchId,
    2 ^ (2 * a.pmfAccelFactor.toNat + 1024) ≤ 2 ^ 1 * a.ticksPerS ^ 2048 ∧
    a.ticksPerS ^ 2048 ≤ 2 ^ (2 * a.pmfAccelFactor.toNat + 1024) := by
  intro a; cases a <;> decide +kernel

/-- The constant for `TICKS_PER_S^2 / 2` is accurate to half a unit. -/
theorem accelFactor_log (a : ArchId) :
    (a.pmfAccelFactor : ℝ) - 1 / 2 ≤ 1024 * Real.logb 2 a.ticksPerS - 512 ∧
    1024 * Real.logb 2 a.ticksPerS - 512 ≤ (a.pmfAccelFactor : ℝ) := by
  have hp : 0 < a.ticksPerS := by cases a <;> simp [ArchId.ticksPerS]
  obtain ⟨h1, h2⟩ := accelFactor_pow a
  have b1 := le_logb_of_pow hp h1
  have b2 := logb_le_of_pow hp h2
  have hc : ((a.pmfAccelFactor.toNat : Nat) : ℝ) = (a.pmfAccelFactor : ℝ) := by
    cases a <;> simp [ArchId.pmfAccelFactor]
  push_cast at b1 b2
  rw [hc] at b1 b2
  constructor <;> linarith

theorem pmflToU32_lt (v : Int) : pmflToU32 v < 2 ^ 32 := by
  have := C31_monotone.2 v (max v 16384) (le_max_left _ _)
  rw [pmflToU32_sat (le_max_right _ _)] at this
  omega

/-- **C61**. Without linear acceleration, the number of ramp steps to reach a period (which is also
the number of steps to stop from it) is `(TICKS_PER_S / ticks)^2 / (2 * accel)` up to one percent
and one step, if this number fits in 32 bit. -/
theorem C61_ramp_steps_law {a : ArchId} {accel : Nat} {c : RampConfig} (h : Configured a accel 0 c)
    (ha : 0 < accel) (ha2 : accel < 2 ^ 31) {ticks : Nat} (h0 : 0 < ticks) (h1 : ticks < 2 ^ 32)
    (hfit : idealRampSteps a accel ticks < 2 ^ 32) :
    (c.calculateRampSteps a ticks : ℝ) ≤ 101 / 100 * idealRampSteps a accel ticks + 1 ∧
    idealRampSteps a accel ticks ≤ 101 / 100 * (c.calculateRampSteps a ticks + 1) := by
  have hA := pmflFrom_accel ha (by omega)
  have hS := pmflFrom_range h0 (by omega)
  have hH : pmflFrom ticks ≤ Unbounded.ticksH a accel 0 := by
    unfold Unbounded.ticksH pmfMax
    rw [if_neg (by omega)]; omega
  have lA := pmflFrom_log ha (by omega)
  have lS := pmflFrom_log h0 (by omega)
  have lF := accelFactor_log a
  have hI := idealRampSteps_log a ha h0
  have hpos := idealRampSteps_pos a ha h0
  have hU : Unbounded.rampSteps a accel 0 ticks =
      pmflToU32 (a.pmfAccelFactor - pmflFrom accel - 2 * pmflFrom ticks) := by
    unfold Unbounded.rampSteps
    rw [if_pos hH]
    omega
  have hlt := pmflToU32_lt (a.pmfAccelFactor - pmflFrom accel - 2 * pmflFrom ticks)
  rw [C32_ramp_steps_no_overflow_partial h ha ha2 (by omega) h0 h1 (by rw [hU]; exact hlt), hU]
  have b1 : 512 * Real.logb 2 (idealRampSteps a accel ticks) ≤
      ((a.pmfAccelFactor - pmflFrom accel - 2 * pmflFrom ticks : Int) : ℝ) + 6 := by
    rw [hI]; push_cast; linarith
  have b2 : ((a.pmfAccelFactor - pmflFrom accel - 2 * pmflFrom ticks : Int) : ℝ) ≤
      512 * Real.logb 2 (idealRampSteps a accel ticks) + 6 := by
    rw [hI]; push_cast; linarith
  by_cases hv : a.pmfAccelFactor - pmflFrom accel - 2 * pmflFrom ticks < 16384
  · exact to_close hpos hv rpow_101 (by norm_num) (by norm_num) b1 b2
  · rw [pmflToU32_sat (by omega)]
    have hvr : (16384 : ℝ) ≤
        ((a.pmfAccelFactor - pmflFrom accel - 2 * pmflFrom ticks : Int) : ℝ) := by
      exact_mod_cast (not_lt.1 hv)
    have hw : (4294967296 : ℝ) ≤ 2 ^ ((6 : ℝ) / 512) * idealRampSteps a accel ticks := by
      refine le_of_log (by norm_num) hpos ?_
      have : Real.logb 2 (4294967296 : ℝ) = 32 := by
        rw [show (4294967296 : ℝ) = 2 ^ (32 : ℝ) by norm_num, Real.logb_rpow] <;> norm_num
      rw [this]; linarith
    have hq := mul_le_mul_of_nonneg_right (rpow_mono (d := 6) rpow_101 (by norm_num)) hpos.le
    norm_num at hfit ⊢
    constructor <;> linarith

/-- The hypotheses are met: 2000 ticks with an acceleration of 1000 steps/s² need 32000 steps. -/
example : idealRampSteps .avr328 1000 2000 = 32000 ∧
    (rampConfig .avr328 1000 0 2000).calculateRampSteps .avr328 2000 = 32064 := by
  constructor
  · unfold idealRampSteps; norm_num [ArchId.ticksPerS]
  · decide +kernel

/-- **C61** for the ramp to the set speed, with which the ramp generator plans: it is at least one step long, and
follows the same law. -/
theorem C61_planned_ramp_steps {a : ArchId} {accel : Nat} {c : RampConfig} (h : Configured a accel 0 c)
    (ha : 0 < accel) (ha2 : accel < 2 ^ 31) (h0 : 0 < c.parameters.minTravelTicks) (h1 : c.parameters.minTravelTicks < 2 ^ 32)
    (hfit : idealRampSteps a accel c.parameters.minTravelTicks < 2 ^ 32) :
    1 ≤ c.maxRampUpSteps ∧
    (c.maxRampUpSteps : ℝ) ≤ 101 / 100 * idealRampSteps a accel c.parameters.minTravelTicks + 1 ∧
    idealRampSteps a accel c.parameters.minTravelTicks ≤ 101 / 100 * (c.maxRampUpSteps + 1) := by
  obtain ⟨l1, l2⟩ := C61_ramp_steps_law h ha ha2 h0 h1 hfit
  have hpos := idealRampSteps_pos a ha h0
  have hm : c.maxRampUpSteps = if c.calculateRampSteps a c.parameters.minTravelTicks = 0 then 1
      else c.calculateRampSteps a c.parameters.minTravelTicks := by
    obtain ⟨c0, -, -, rfl⟩ := h
    rfl
  rw [hm]
  by_cases hz : c.calculateRampSteps a c.parameters.minTravelTicks = 0
  · rw [if_pos hz]
    rw [hz] at l1 l2
    push_cast at l1 l2 ⊢
    exact ⟨trivial, by linarith, by linarith⟩
  · rw [if_neg hz]
    exact ⟨Nat.one_le_iff_ne_zero.mpr hz, l1, l2⟩

/-- The hypotheses are met, also with less than one step. -/
example : (rampConfig .avr328 1000 0 2000).maxRampUpSteps = 32064 ∧ (rampConfig .avr328 1000 0 4000000).maxRampUpSteps = 1 ∧
    (rampConfig .avr328 1000 0 4000000).calculateRampSteps .avr328 4000000 = 0 := by
  decide +kernel

/-- **C60**. Without linear acceleration, more ramp steps never give a longer period. -/
theorem C60_period_monotone_partial {a : ArchId} {accel : Nat} {c : RampConfig}
    (h : Configured a accel 0 c) (ha : 0 < accel) (ha2 : accel < 2 ^ 31) {s t : Nat} (h0 : 0 < s)
    (hst : s ≤ t) (h1 : t < 2 ^ 32) : c.calculateTicks a t ≤ c.calculateTicks a s := by
  rw [C32_period_no_overflow h ha ha2 (by omega) h0 (by omega),
    C32_period_no_overflow h ha ha2 (by omega) (by omega) h1]
  unfold Unbounded.ticks
  rw [if_pos (by omega), if_pos (by omega)]
  rw [show s - (0 + 2) / 4 = s by omega, show t - (0 + 2) / 4 = t by omega]
  have hA := pmflFrom_accel ha (by omega)
  have hS := pmflFrom_range h0 (by omega)
  have hm := C31_monotone.1 s t hst h1
  have d1 : (pmflFrom s + pmflFrom accel).tdiv 2 =
    (pmflFrom s + pmflFrom accel) / 2 := Int.tdiv_eq_ediv_of_nonneg (by omega)
  have d2 : (pmflFrom t + pmflFrom accel).tdiv 2 =
    (pmflFrom t + pmflFrom accel) / 2 := Int.tdiv_eq_ediv_of_nonneg (by omega)
  rw [d1, d2]
  apply C31_monotone.2
  omega

/-- **C60** is not true with linear acceleration: the 496th step is slower than the 495th. -/
theorem C60_linear_acceleration_refuted :
    Configured .avr328 1000 5000 (rampConfig .avr328 1000 5000 80) ∧
    (rampConfig .avr328 1000 5000 80).calculateTicks .avr328 495 = 27232 ∧
    (rampConfig .avr328 1000 5000 80).calculateTicks .avr328 496 = 27264 := by
  refine ⟨rampConfig_configured _ _ _ _, by decide +kernel, by decide +kernel⟩

end FAS
