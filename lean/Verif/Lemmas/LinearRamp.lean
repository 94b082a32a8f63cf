import Verif.Lemmas.Steady
import Verif.Props.Arrive
import Mathlib.Tactic.Ring

/-!
# The ramp with linear acceleration is nearly monotone
-/

namespace FAS

open Spec

theorem linearRamp_configured (a : ArchId) (A H : Nat) : ∃ c : RampConfig, Configured a A H c ∧ c.calculateTicks a = linearRamp a A H :=
  ⟨_, ⟨{ RampConfig.init with parameters := { RampParams.init with pmflAccel := pmflFrom A, sH := H } }, rfl, rfl, rfl⟩, rfl⟩

/-- The physical period after `n` steps with `H` steps of linear acceleration. -/
noncomputable def linearPeriod (a : ArchId) (A H n : Nat) : ℝ :=
  if n < H then idealCubicPeriod a A H n else idealPeriod a A (n - (H + 2) / 4)

theorem linearPeriod_pos (a : ArchId) {A H n : Nat} (hA : 0 < A) (hn : 1 ≤ n) : 0 < linearPeriod a A H n := by
  unfold linearPeriod
  split
  · exact idealCubicPeriod_pos a hA (by omega) hn
  · exact idealPeriod_pos a hA (by omega)

theorem linearRamp_law {a : ArchId} {A H n : Nat} (hA : 0 < A) (hA2 : A < 2 ^ 31) (hH : H < 4294967294) (h1 : 1 ≤ n) (h2 : n < 4294967296) :
    (linearRamp a A H n : ℝ) ≤ 101 / 100 * linearPeriod a A H n + 1 ∧ linearPeriod a A H n ≤ 101 / 100 * (linearRamp a A H n + 1) := by
  obtain ⟨c, hc, he⟩ := linearRamp_configured a A H
  rw [← he]
  have h0 := linearPeriod_pos a (H := H) hA h1
  have hF : (0 : ℝ) ≤ (c.calculateTicks a n : ℝ) := Nat.cast_nonneg _
  unfold linearPeriod at h0 ⊢
  by_cases c1 : n < H
  · rw [if_pos c1]
    exact C33_cubic_law hc hA hA2 (by omega) (by omega) c1
  · rw [if_neg c1] at h0 ⊢
    have := C33_sqrt_law hc hA hA2 (by omega) (steps := n) (by omega) (by omega) (by omega)
    constructor <;> linarith [this.1, this.2]

/-- The sixth power of the speed, up to a factor. -/
def speed6 (H n : Nat) : Nat := if n < H then 27 * n ^ 4 else 64 * H * (n - (H + 2) / 4) ^ 3

theorem idealCubicPeriod_six (a : ArchId) {A H n : Nat} (hA : 0 < A) (hH : 0 < H) (hn : 1 ≤ n) :
    idealCubicPeriod a A H n ^ 6 * ((A : ℝ) ^ 3 * (27 * n ^ 4)) = 8 * H * (a.ticksPerS : ℝ) ^ 6 := by
  have hAr : (0 : ℝ) < A := by exact_mod_cast hA
  have hHr : (0 : ℝ) < H := by exact_mod_cast hH
  have hnr : (0 : ℝ) < n := by exact_mod_cast hn
  unfold idealCubicPeriod
  rw [div_pow, mul_pow, mul_pow]
  have e1 : Real.sqrt (3 / 2 * A) ^ 6 = (3 / 2 * (A : ℝ)) ^ 3 := by
    rw [show (6 : ℕ) = 2 * 3 from rfl, pow_mul, Real.sq_sqrt (by positivity)]
  have e2 : ((H : ℝ) ^ (-(1 / 6) : ℝ)) ^ 6 = (H : ℝ)⁻¹ := by
    rw [← Real.rpow_natCast, ← Real.rpow_mul hHr.le]
    norm_num [Real.rpow_neg_one]
  have e3 : ((n : ℝ) ^ (2 / 3 : ℝ)) ^ 6 = (n : ℝ) ^ 4 := by
    rw [← Real.rpow_natCast, ← Real.rpow_mul hnr.le, ← Real.rpow_natCast]
    norm_num
  rw [e1, e2, e3]
  field_simp
  ring

theorem idealPeriod_six (a : ArchId) {A H n : Nat} (hA : 0 < A) (hn : 1 ≤ n) :
    idealPeriod a A n ^ 6 * ((A : ℝ) ^ 3 * (64 * H * n ^ 3)) = 8 * H * (a.ticksPerS : ℝ) ^ 6 := by
  have hAr : (0 : ℝ) < A := by exact_mod_cast hA
  have hnr : (0 : ℝ) < n := by exact_mod_cast hn
  unfold idealPeriod
  rw [div_pow]
  have e1 : Real.sqrt (2 * A * n) ^ 6 = (2 * (A : ℝ) * n) ^ 3 := by
    rw [show (6 : ℕ) = 2 * 3 from rfl, pow_mul, Real.sq_sqrt (by positivity)]
  rw [e1]
  field_simp
  ring

theorem linearPeriod_six (a : ArchId) {A H n : Nat} (hA : 0 < A) (hH : 0 < H) (hn : 1 ≤ n) :
    linearPeriod a A H n ^ 6 * ((A : ℝ) ^ 3 * (speed6 H n : Nat)) = 8 * H * (a.ticksPerS : ℝ) ^ 6 := by
  unfold linearPeriod speed6
  split
  · push_cast
    exact idealCubicPeriod_six a hA hH hn
  · have := idealPeriod_six a (H := H) (n := n - (H + 2) / 4) hA (by omega)
    push_cast
    exact this

theorem speed6_pos {H n : Nat} (hH : 0 < H) (hn : 1 ≤ n) : 0 < speed6 H n := by
  unfold speed6
  split
  · positivity
  · have : 0 < n - (H + 2) / 4 := by omega
    positivity

/-- A bound for the speeds gives one for the periods. -/
theorem linearPeriod_ratio (a : ArchId) {A H s t : Nat} (hA : 0 < A) (hH : 0 < H) (hs : 1 ≤ s) (ht : 1 ≤ t) {c : ℝ} (hc : 0 < c)
    (h : (speed6 H t : ℝ) ≤ c ^ 6 * speed6 H s) : linearPeriod a A H s ≤ c * linearPeriod a A H t := by
  have q1 := linearPeriod_six a hA hH hs
  have q2 := linearPeriod_six a hA hH ht
  have p1 := linearPeriod_pos a (H := H) hA hs
  have p2 := linearPeriod_pos a (H := H) hA ht
  have g1 : (0 : ℝ) < speed6 H s := by exact_mod_cast speed6_pos hH hs
  have hAr : (0 : ℝ) < (A : ℝ) ^ 3 := by
    have : (0 : ℝ) < A := by exact_mod_cast hA
    positivity
  generalize linearPeriod a A H s = I at *
  generalize linearPeriod a A H t = J at *
  have hcJ : 0 ≤ c * J := by positivity
  refine (pow_le_pow_iff_left₀ p1.le hcJ (n := 6) (by norm_num)).mp ?_
  rw [mul_pow]
  have e : I ^ 6 * speed6 H s = J ^ 6 * speed6 H t := by
    have : (A : ℝ) ^ 3 * (I ^ 6 * speed6 H s) = (A : ℝ) ^ 3 * (J ^ 6 * speed6 H t) := by
      rw [show (A : ℝ) ^ 3 * (I ^ 6 * speed6 H s) = I ^ 6 * ((A : ℝ) ^ 3 * speed6 H s) by ring, q1, ← q2]; ring
    exact mul_left_cancel₀ hAr.ne' this
  have h2 : I ^ 6 * speed6 H s ≤ (c ^ 6 * J ^ 6) * speed6 H s := by
    rw [e]
    calc J ^ 6 * (speed6 H t : ℝ) ≤ J ^ 6 * (c ^ 6 * speed6 H s) := mul_le_mul_of_nonneg_left h (by positivity)
      _ = _ := by ring
  exact le_of_mul_le_mul_right h2 g1

theorem speed6_mono {H s t : Nat} (hst : s ≤ t) : speed6 H s ≤ speed6 H t := by
  unfold speed6
  by_cases h1 : t < H
  · rw [if_pos h1, if_pos (by omega)]
    exact Nat.mul_le_mul_left _ (Nat.pow_le_pow_left hst 4)
  · rw [if_neg h1]
    by_cases h2 : s < H
    · rw [if_pos h2]
      have h3 : 3 * s ≤ 4 * (t - (H + 2) / 4) := by omega
      calc 27 * s ^ 4 = s * (3 * s) ^ 3 := by ring
        _ ≤ H * (4 * (t - (H + 2) / 4)) ^ 3 := Nat.mul_le_mul (by omega) (Nat.pow_le_pow_left h3 3)
        _ = _ := by ring
    · rw [if_neg h2]
      exact Nat.mul_le_mul_left _ (Nat.pow_le_pow_left (by omega) 3)

theorem linearPeriod_anti (a : ArchId) {A H s t : Nat} (hA : 0 < A) (hH : 0 < H) (hs : 1 ≤ s) (hst : s ≤ t) :
    linearPeriod a A H t ≤ linearPeriod a A H s := by
  have q1 := linearPeriod_six a hA hH hs
  have q2 := linearPeriod_six a (n := t) hA hH (by omega)
  have p1 := linearPeriod_pos a (H := H) hA hs
  have p2 := linearPeriod_pos a (H := H) (n := t) hA (by omega)
  have g1 : (0 : ℝ) < speed6 H s := by exact_mod_cast speed6_pos hH hs
  have hm : (speed6 H s : ℝ) ≤ speed6 H t := by exact_mod_cast speed6_mono hst
  have hAr : (0 : ℝ) < (A : ℝ) ^ 3 := by
    have : (0 : ℝ) < A := by exact_mod_cast hA
    positivity
  generalize linearPeriod a A H s = I at *
  generalize linearPeriod a A H t = J at *
  refine (pow_le_pow_iff_left₀ p2.le p1.le (n := 6) (by norm_num)).mp ?_
  have h2 : J ^ 6 * ((A : ℝ) ^ 3 * speed6 H s) ≤ I ^ 6 * ((A : ℝ) ^ 3 * speed6 H s) := by
    rw [q1, ← q2]
    exact mul_le_mul_of_nonneg_left (mul_le_mul_of_nonneg_left hm hAr.le) (by positivity)
  exact le_of_mul_le_mul_right h2 (by positivity)

theorem speed6_smooth {H n k : Nat} (hn : 1 ≤ n) (hk : k ≤ 50) : (speed6 H (n + k) : ℝ) ≤ 14 ^ 6 * speed6 H n := by
  unfold speed6
  by_cases h1 : n + k < H
  · rw [if_pos h1, if_pos (by omega)]
    have h3 : 27 * (n + k) ^ 4 ≤ 14 ^ 6 * (27 * n ^ 4) := by
      calc 27 * (n + k) ^ 4 ≤ 27 * (51 * n) ^ 4 := Nat.mul_le_mul_left _ (Nat.pow_le_pow_left (by omega) 4)
        _ = 27 * 51 ^ 4 * n ^ 4 := by ring
        _ ≤ 14 ^ 6 * 27 * n ^ 4 := Nat.mul_le_mul_right _ (by norm_num)
        _ = _ := by ring
    exact_mod_cast h3
  · rw [if_neg h1]
    by_cases h2 : n < H
    · rw [if_pos h2]
      have e1 : 4 * (n + k - (H + 2) / 4) + H ≤ 4 * (n + k) + 1 := by omega
      have e2 : (4 * ((n + k - (H + 2) / 4 : Nat) : ℝ) + H) ≤ 4 * (n + k) + 1 := by exact_mod_cast e1
      have hnr : (1 : ℝ) ≤ n := by exact_mod_cast hn
      have hkr : (k : ℝ) ≤ 50 := by exact_mod_cast hk
      push_cast
      have hx : (0 : ℝ) ≤ ((n + k - (H + 2) / 4 : Nat) : ℝ) := Nat.cast_nonneg _
      have hH0 : (0 : ℝ) ≤ H := Nat.cast_nonneg _
      generalize ((n + k - (H + 2) / 4 : Nat) : ℝ) = x at *
      generalize (H : ℝ) = h at *
      have hM : x + h / 4 ≤ 205 / 4 * n := by linarith
      have am : 64 * h * x ^ 3 ≤ 27 * (x + h / 4) ^ 4 := by
        have : 27 * (x + h / 4) ^ 4 - 64 * h * x ^ 3 = (3 * (x + h / 4) - 4 * x) ^ 2 * (3 * (x + h / 4) ^ 2 + 8 * (x + h / 4) * x + 16 * x ^ 2) := by ring
        have h5 : 0 ≤ (3 * (x + h / 4) - 4 * x) ^ 2 * (3 * (x + h / 4) ^ 2 + 8 * (x + h / 4) * x + 16 * x ^ 2) := by positivity
        linarith
      have h6 : (x + h / 4) ^ 4 ≤ (205 / 4 * (n : ℝ)) ^ 4 := pow_le_pow_left₀ (by positivity) hM 4
      have h7 : (205 / 4 * (n : ℝ)) ^ 4 ≤ 14 ^ 6 * (n : ℝ) ^ 4 := by
        rw [mul_pow]
        exact mul_le_mul_of_nonneg_right (by norm_num) (by positivity)
      linarith
    · rw [if_neg h2]
      have h3 : 64 * H * (n + k - (H + 2) / 4) ^ 3 ≤ 14 ^ 6 * (64 * H * (n - (H + 2) / 4) ^ 3) := by
        by_cases hH : H = 0
        · subst hH; simp
        · have : n + k - (H + 2) / 4 ≤ 51 * (n - (H + 2) / 4) := by omega
          calc 64 * H * (n + k - (H + 2) / 4) ^ 3 ≤ 64 * H * (51 * (n - (H + 2) / 4)) ^ 3 := Nat.mul_le_mul_left _ (Nat.pow_le_pow_left this 3)
            _ = 51 ^ 3 * (64 * H * (n - (H + 2) / 4) ^ 3) := by ring
            _ ≤ _ := Nat.mul_le_mul_right _ (by norm_num)
      exact_mod_cast h3

/-- The ramp is monotone up to two percent. -/
theorem linearRamp_near {a : ArchId} {A H s t : Nat} (hA : 0 < A) (hA2 : A < 2 ^ 31) (hH0 : 0 < H) (hH : H < 4294967294) (hs : 1 ≤ s) (hst : s ≤ t)
    (ht : t < 4294967296) : (linearRamp a A H t : ℝ) ≤ 10201 / 10000 * linearRamp a A H s + 20201 / 10000 := by
  have l1 := (linearRamp_law (a := a) hA hA2 hH (n := t) (by omega) ht).1
  have l2 := (linearRamp_law (a := a) hA hA2 hH hs (by omega)).2
  have := linearPeriod_anti a hA hH0 hs hst
  linarith

theorem linearRamp_smooth {a : ArchId} {A H n m k : Nat} (hA : 0 < A) (hA2 : A < 2 ^ 31) (hH0 : 0 < H) (hH : H < 4294967294) (hn : 1 ≤ n) (hm : 1 ≤ m)
    (hmk : m ≤ n + k) (hlt : n + k < 4294967296) (hk : k ≤ 50) (h : 65535 < linearRamp a A H n) : 4200 ≤ linearRamp a A H m := by
  have l1 := (linearRamp_law (a := a) hA hA2 hH hn (by omega)).1
  have l2 := (linearRamp_law (a := a) hA hA2 hH hm (by omega)).2
  have k1 := linearPeriod_anti a hA hH0 hm hmk
  have k2 := linearPeriod_ratio a hA hH0 hn (t := n + k) (by omega) (c := 14) (by norm_num) (speed6_smooth hn hk)
  have h5 : (65536 : ℝ) ≤ linearRamp a A H n := by exact_mod_cast h
  have h6 : (4200 : ℝ) ≤ linearRamp a A H m := by linarith
  exact_mod_cast h6

/-- The steps the planner looks ahead change slowly. -/
theorem horizon_near {a : ArchId} {P Q : Nat} (hP : 23 * a.minCmdTicks ≤ 20 * P) (hPQ : P < Q) (hQ : 10000 * Q ≤ 10201 * P + 20201) :
    Planner.horizon a P ≤ Planner.horizon a Q + 1 := by
  have h736 : 736 ≤ P := by
    have : 640 ≤ a.minCmdTicks := by cases a <;> decide
    omega
  have hK : a.ticksPerS / 500 < 44 * P := by
    have : a.ticksPerS / 500 ≤ 10 * a.minCmdTicks ∨ a.ticksPerS / 500 = 32000 := by cases a <;> decide
    omega
  have hM : a.ticksPerS / 500 = 2 * (a.ticksPerS / 1000) ∧ 16000 ≤ a.ticksPerS / 1000 := by cases a <;> decide
  have hp := Planner.horizon_pos (a := a) (P := Q) (by omega)
  by_cases c1 : P < a.ticksPerS / 1000
  · by_cases c2 : Q < a.ticksPerS / 1000
    · unfold Planner.horizon
      rw [if_pos c1, if_pos c2]
      generalize a.ticksPerS / 500 = K at *
      have hy := Nat.lt_div_mul_add (a := K) (b := Q) (by omega)
      generalize K / Q = y at *
      by_contra hcon
      have h1 : y + 2 ≤ K / P := by omega
      have h2 : (y + 2) * P ≤ K := (Nat.le_div_iff_mul_le (by omega)).mp h1
      have h3 : y ≤ 41 := by
        have : (y + 2) * P < 44 * P := by omega
        have := Nat.lt_of_mul_lt_mul_right this
        omega
      have h4 : (y + 2) * P < (y + 1) * Q := by
        have : (y + 1) * Q = y * Q + Q := by ring
        omega
      have h5 : (y + 1) * (10000 * Q) ≤ (y + 1) * (10201 * P + 20201) := Nat.mul_le_mul_left _ hQ
      have h6 : (y + 1) * (201 * P + 20201) ≤ 42 * (201 * P + 20201) := Nat.mul_le_mul_right _ (by omega)
      have e1 : (y + 1) * (10201 * P + 20201) = 10000 * ((y + 1) * P) + (y + 1) * (201 * P + 20201) := by ring
      have e2 : (y + 1) * (10000 * Q) = 10000 * ((y + 1) * Q) := by ring
      have e3 : (y + 2) * P = (y + 1) * P + P := by ring
      generalize (y + 1) * P = u at *
      generalize (y + 1) * Q = v at *
      omega
    · have e : Planner.horizon a P = a.ticksPerS / 500 / P := by unfold Planner.horizon; rw [if_pos c1]
      rw [e]
      have : a.ticksPerS / 500 / P < 3 := by
        rw [Nat.div_lt_iff_lt_mul (by omega)]
        omega
      omega
  · have e : Planner.horizon a P = 1 := by unfold Planner.horizon; rw [if_neg c1]
    omega

/-- The ramp with linear acceleration: the shortest period up to a number of steps takes the place of the ramp. -/
theorem linearRamp_good {a : ArchId} {T A H : Nat} (hA : 0 < A) (hA2 : A < 2 ^ 31) (hH0 : 0 < H) (hH : H < 4294967294)
    (hT : 23 * a.minCmdTicks ≤ 20 * T) : Planner.GoodRamp a T (lowest (linearRamp a A H)) (linearRamp a A H) := by
  have hmc : a.minCmdTicks ≤ 4200 ∧ 640 ≤ a.minCmdTicks := by cases a <;> decide
  have near : ∀ m n, 1 ≤ m → m ≤ n → n < 4294967296 → 10000 * linearRamp a A H n ≤ 10201 * linearRamp a A H m + 20201 := by
    intro m n h1 h2 h3
    have h4 := linearRamp_near (a := a) hA hA2 hH0 hH h1 h2 h3
    have h5 : (10000 : ℝ) * linearRamp a A H n ≤ 10201 * linearRamp a A H m + 20201 := by linarith
    exact_mod_cast h5
  refine ⟨fun s t h1 h2 _ => lowest_anti _ h1 h2, fun n h1 _ => lowest_le _ h1, fun n h1 h2 => ?_, fun n k h1 h2 h3 h4 => ?_, fun n h1 h2 h3 => ?_,
    fun P h1 h2 h3 h4 => ?_⟩
  · obtain ⟨c, hc, he⟩ := linearRamp_configured a A H
    rw [← he]
    exact ticks_lively hc hA hA2 hH n h1 h2
  · obtain ⟨m, m1, m2, m3⟩ := lowest_spec (linearRamp a A H) (n := n + k) (by omega)
    rw [m3]
    have := linearRamp_smooth (a := a) hA hA2 hH0 hH h1 m1 m2 h2 h3 h4
    omega
  · obtain ⟨m, m1, m2, m3⟩ := lowest_spec (linearRamp a A H) h1
    rw [m3]
    have := near m n m1 m2 h2
    omega
  · have hp := Planner.horizon_pos (a := a) (P := P) (by omega)
    have hsm := Planner.horizon_small (a := a) (P := P) (by omega)
    obtain ⟨m, m1, m2, m3⟩ := lowest_spec (linearRamp a A H) hp
    rw [m3] at h3
    have hn := near m _ m1 m2 (by omega)
    have hne : m ≠ Planner.horizon a P := by intro e; rw [e] at h3; omega
    have hh := horizon_near (a := a) (P := P) (Q := linearRamp a A H (Planner.horizon a P)) (by omega) h4 (by omega)
    refine ⟨?_, by omega⟩
    exact Nat.le_trans (lowest_le_of _ m1 (by omega)) (by omega)

theorem steadyRamp_configured (a : ArchId) (A : Nat) : ∃ c : RampConfig, Configured a A 0 c ∧ c.calculateTicks a = steadyRamp a A := by
  rw [← linearRamp_zero]; exact linearRamp_configured a A 0

end FAS
