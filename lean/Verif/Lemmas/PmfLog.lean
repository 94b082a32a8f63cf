import Verif.Lemmas.Pmf
import Mathlib.Analysis.SpecialFunctions.Log.Base

/-!
# Accuracy of the logarithmic number format

The error of the tables is decided on their whole domain in the form of inequalities between powers
of natural numbers, which are then read as bounds of the binary logarithm.
-/

namespace FAS

theorem from_pow_small : ∀ x < 256, 0 < x →
    2 ^ (4 * (pmflFrom x).toNat) ≤ 2 ^ 3 * x ^ 2048 ∧
    x ^ 2048 ≤ 2 ^ (4 * (pmflFrom x).toNat + 6) ∧ 0 ≤ pmflFrom x := by decide +kernel

theorem mant_pow : ∀ m < 2048, 2 ^ (4 * mant m + 22528) ≤ 2 ^ 3 * (2048 + m) ^ 2048 ∧
    (2049 + m) ^ 2048 ≤ 2 ^ (4 * mant m + 22534) := by decide +kernel

theorem powm_pow : ∀ r < 512, 2 ^ (4 * r + 20480) ≤ 2 ^ 2 * powm r ^ 2048 ∧
    powm r ^ 2048 ≤ 2 ^ (4 * r + 20483) := by decide +kernel

theorem to_pow_small : ∀ e < 10, ∀ r < 512,
    (pmflToU32 ((512 * e + r : Nat) : Int) - 1) ^ 512 ≤ 2 ^ (512 * e + r) ∧
    2 ^ (512 * e + r) ≤ (pmflToU32 ((512 * e + r : Nat) : Int) + 1) ^ 512 := by decide +kernel

/-- From powers to the binary logarithm. -/
theorem logb_le_of_pow {x n k : Nat} (h0 : 0 < x) (h : x ^ n ≤ 2 ^ k) :
    n * Real.logb 2 x ≤ k := by
  rw [← Real.logb_pow]
  rw [Real.logb_le_iff_le_rpow (by norm_num) (by positivity)]
  rw [Real.rpow_natCast]
  exact_mod_cast h

/-- From powers to the binary logarithm. -/
theorem le_logb_of_pow {x n k c : Nat} (h0 : 0 < x) (h : 2 ^ k ≤ 2 ^ c * x ^ n) :
    k ≤ c + n * Real.logb 2 x := by
  have hx : (0 : ℝ) < x := by exact_mod_cast h0
  have : (2 : ℝ) ^ k ≤ 2 ^ c * (x : ℝ) ^ n := by exact_mod_cast h
  have := Real.logb_le_logb_of_le (b := 2) (by norm_num) (by positivity) this
  rw [Real.logb_mul (by positivity) (by positivity), Real.logb_pow, Real.logb_pow, Real.logb_pow,
    Real.logb_self_eq_one (by norm_num)] at this
  linarith

theorem logb_two_pow_mul {e y : Nat} (hy : 0 < y) :
    Real.logb 2 ((2 ^ e * y : Nat) : ℝ) = e + Real.logb 2 y := by
  have hyr : (0 : ℝ) < y := by exact_mod_cast hy
  push_cast
  rw [Real.logb_mul (by positivity) (by positivity), Real.logb_pow,
    Real.logb_self_eq_one (by norm_num)]
  ring

theorem logb_mono {x y : Nat} (h0 : 0 < x) (h : x ≤ y) : Real.logb 2 x ≤ Real.logb 2 y := by
  have hx : (0 : ℝ) < x := by exact_mod_cast h0
  exact Real.logb_le_logb_of_le (b := 2) (by norm_num) hx (by exact_mod_cast h)

theorem logb_2048_mul {x : Nat} (h0 : 0 < x) :
    Real.logb 2 ((2048 * x : Nat) : ℝ) = 11 + Real.logb 2 x := by
  have := logb_two_pow_mul (e := 11) h0
  push_cast at this ⊢
  exact this

/-- `pmfl_from` is 512 times the binary logarithm, with an error between -3/2 and 3/4. -/
theorem pmflFrom_log {x : Nat} (h0 : 0 < x) (h : x < 4294967296) :
    (pmflFrom x : ℝ) - 3 / 4 ≤ 512 * Real.logb 2 x ∧
      512 * Real.logb 2 x ≤ (pmflFrom x : ℝ) + 3 / 2 := by
  by_cases hs : x < 256
  · obtain ⟨h1, h2, h3⟩ := from_pow_small x hs h0
    have b1 := le_logb_of_pow h0 h1
    have b2 := logb_le_of_pow h0 h2
    have hc : (((pmflFrom x).toNat : Nat) : ℝ) = (pmflFrom x : ℝ) := by
      have : (((pmflFrom x).toNat : Nat) : Int) = pmflFrom x := Int.toNat_of_nonneg h3
      exact_mod_cast this
    push_cast at b1 b2
    rw [hc] at b1 b2
    constructor <;> linarith
  obtain ⟨e, he2, h1, h2⟩ := exists_exponent (x := x) (by omega) (by omega)
  have he : 8 ≤ e := by
    by_contra hc
    have : 2 ^ (e + 1) ≤ 2 ^ 8 := Nat.pow_le_pow_right (by omega) (by omega)
    omega
  have hf := pmflFrom_shape he he2 h1 h2
  obtain ⟨m, hml, hm, hl, hu⟩ := cell h1 h2
  rw [hm] at hf
  obtain ⟨t1, t2⟩ := mant_pow m hml
  have b1 := le_logb_of_pow (show 0 < 2048 + m by omega) t1
  have b2 := logb_le_of_pow (show 0 < 2049 + m by omega) t2
  have l1 := logb_mono (Nat.mul_pos (Nat.two_pow_pos e) (show 0 < 2048 + m by omega)) hl
  have l2 := logb_mono (show 0 < 2048 * x by omega) hu.le
  rw [logb_two_pow_mul (by omega), logb_2048_mul h0] at l1
  rw [logb_two_pow_mul (by omega), logb_2048_mul h0] at l2
  rw [hf]
  generalize Real.logb 2 ((2048 + m : Nat) : ℝ) = A at *
  generalize Real.logb 2 ((2049 + m : Nat) : ℝ) = B at *
  push_cast at b1 b2 ⊢
  constructor <;> linarith

/-- `pmfl_to_u32` for exponents of at least ten. -/
theorem pmflToU32_log {v : Nat} (h1 : 5120 ≤ v) (h2 : v < 16384) :
    0 < pmflToU32 v ∧ (v : ℝ) - 1 / 2 ≤ 512 * Real.logb 2 (pmflToU32 v) ∧
      512 * Real.logb 2 (pmflToU32 v) ≤ (v : ℝ) + 3 / 4 := by
  have hs := pmflToU32_shape (e := v / 512) (r := v % 512) (by omega) (by omega) (by omega)
  rw [show 512 * (v / 512) + v % 512 = v by omega] at hs
  obtain ⟨t1, t2⟩ := powm_pow (v % 512) (by omega)
  have hp : 0 < powm (v % 512) := by
    have := powm_range (v % 512) (by omega); omega
  have b1 := le_logb_of_pow hp t1
  have b2 := logb_le_of_pow hp t2
  have hT := logb_two_pow_mul (e := v / 512 - 10) hp
  rw [Nat.mul_comm, ← hs] at hT
  have hv : (v : ℝ) = 512 * ((v / 512 - 10 : Nat) : ℝ) + ((v % 512 : Nat) : ℝ) + 5120 := by
    have : v = 512 * (v / 512 - 10) + v % 512 + 5120 := by omega
    exact_mod_cast this
  generalize Real.logb 2 (powm (v % 512)) = A at *
  refine ⟨?_, ?_, ?_⟩
  · rw [hs]; exact Nat.mul_pos hp (Nat.two_pow_pos _)
  · rw [hT, hv]; push_cast at b1 ⊢; linarith
  · rw [hT, hv]; push_cast at b2 ⊢; linarith

theorem rpow_div_pow {v n : Nat} (hn : 0 < n) : ((2 : ℝ) ^ ((v : ℝ) / n)) ^ n = 2 ^ v := by
  have : (n : ℝ) ≠ 0 := by exact_mod_cast hn.ne'
  rw [← Real.rpow_natCast, ← Real.rpow_mul (by norm_num), ← Real.rpow_natCast]
  congr 1
  field_simp

theorem cast_le_rpow {x v n : Nat} (hn : 0 < n) (h : x ^ n ≤ 2 ^ v) :
    (x : ℝ) ≤ 2 ^ ((v : ℝ) / n) := by
  refine le_of_pow_le_pow_left₀ (n := n) (by omega) (by positivity) ?_
  rw [rpow_div_pow hn]
  exact_mod_cast h

theorem rpow_le_cast {x v n : Nat} (hn : 0 < n) (h : 2 ^ v ≤ x ^ n) :
    (2 : ℝ) ^ ((v : ℝ) / n) ≤ x := by
  refine le_of_pow_le_pow_left₀ (n := n) (by omega) (by positivity) ?_
  rw [rpow_div_pow hn]
  exact_mod_cast h

/-- `pmfl_to_u32` for exponents below ten is the power of two with an error of at most one. -/
theorem pmflToU32_small_log {v : Nat} (h2 : v < 5120) :
    ((pmflToU32 v - 1 : Nat) : ℝ) ≤ 2 ^ ((v : ℝ) / (512 : Nat)) ∧
      (2 : ℝ) ^ ((v : ℝ) / (512 : Nat)) ≤ ((pmflToU32 v + 1 : Nat) : ℝ) := by
  obtain ⟨t1, t2⟩ := to_pow_small (v / 512) (by omega) (v % 512) (by omega)
  rw [show 512 * (v / 512) + v % 512 = v by omega] at t1 t2
  exact ⟨cast_le_rpow (by omega) t1, rpow_le_cast (by omega) t2⟩

end FAS
