import Verif.Model.RampCalc
import Mathlib.Tactic.IntervalCases
import Mathlib.Tactic.Linarith
import Mathlib.Tactic.Positivity

/-!
# Shape of the logarithmic number format

For `x` with `2^e ≤ x < 2^(e+1)` and `8 ≤ e`, `pmflFrom x` is `512*e` plus a function `mant` of the
eleven bits following the leading one. For a value `512*e + r` with `10 ≤ e`, `pmflToU32` is
`pow r * 2^(e-10)`. The facts about `mant` and `pow` are decided on their whole (finite) domain.
-/

namespace FAS

/-- Offset as used in `pmfl_from(uint16_t)`. -/
def mantOff (m : Nat) : Nat :=
  if m % 8 > 2 then u8 (u8 (logTable.getD (m / 8) 0 + logTable.getD (u8 (m / 8 + 1)) 0) + 1)
  else u8 (logTable.getD (m / 8) 0 * 2)

/-- Mantissa part of the logarithm, for the eleven bits following the leading one. -/
def mant (m : Nat) : Nat := (m + mantOff m) / 4

/-- Mantissa part of the power, scaled to 1024 … 2047. -/
def powm (r : Nat) : Nat :=
  (r + 512) * 2 - (if r % 2 ≠ 0 then u8 (powTable.getD (r / 2) 0 +
    powTable.getD (u8 (r / 2 + 1)) 0) / 2 else powTable.getD (r / 2) 0)

theorem leadingZeros_shape : ∀ y < 256, ∀ k < 8, 2 ^ k ≤ y → y < 2 ^ (k + 1) →
    leadingZeros y = 7 - k := by decide +kernel

theorem mant_le : ∀ m < 2048, mant m ≤ 512 := by decide +kernel

theorem mantOff_le : ∀ m < 2048, mantOff m ≤ 200 := by decide +kernel

theorem pmflFromU16_shape {x e : Nat} (he : 8 ≤ e) (he2 : e ≤ 15) (h1 : 2 ^ e ≤ x)
    (h2 : x < 2 ^ (e + 1)) : pmflFromU16 x = 512 * e + mant (x * 2048 / 2 ^ e - 2048) := by
  have hlz : leadingZeros (x / 256) = 15 - e := by
    rw [leadingZeros_shape (x / 256) (by interval_cases e <;> omega) (e - 8) (by omega)
      (by interval_cases e <;> omega) (by interval_cases e <;> omega)]
    omega
  have hne : ¬ (15 - e == 8) = true := by
    simp only [beq_iff_eq]; omega
  have hm : u16 (x * 2 ^ (15 - e + 1)) / 32 = x * 2048 / 2 ^ e - 2048 := by
    unfold u16
    interval_cases e <;> simp only [Nat.reducePow, Nat.reduceSub, Nat.reduceAdd] at * <;> omega
  have hlt : x * 2048 / 2 ^ e - 2048 < 2048 := by
    interval_cases e <;> omega
  unfold pmflFromU16
  simp only [hlz, hne, hm]
  generalize x * 2048 / 2 ^ e - 2048 = m at hlt ⊢
  have ho := mantOff_le m hlt
  have hidx : u8 (m / 8) = m / 8 := by unfold u8; omega
  rw [hidx]
  have : (if m % 8 > 2 then
        u8 (u8 (logTable.getD (m / 8) 0 + logTable.getD (u8 (m / 8 + 1)) 0) + 1)
      else u8 (logTable.getD (m / 8) 0 * 2)) = mantOff m := rfl
  rw [if_neg (by decide), this]
  unfold mant i16 u16
  omega

/-- The shape of `pmfl_from(uint32_t)` for values of at least 256. -/
theorem pmflFrom_shape {x e : Nat} (he : 8 ≤ e) (he2 : e ≤ 31) (h1 : 2 ^ e ≤ x)
    (h2 : x < 2 ^ (e + 1)) : pmflFrom x = 512 * e + mant (x * 2048 / 2 ^ e - 2048) := by
  have hlt : x * 2048 / 2 ^ e - 2048 < 2048 := by
    interval_cases e <;> omega
  have hml := mant_le _ hlt
  by_cases c1 : e ≤ 15
  · have := pmflFromU16_shape he c1 h1 h2
    unfold pmflFrom
    have q1 : (x / 16777216 % 256 == 0) = true := by
      simp only [beq_iff_eq]; interval_cases e <;> omega
    have q2 : (x / 65536 % 256 == 0) = true := by
      simp only [beq_iff_eq]; interval_cases e <;> omega
    have q3 : u16 x = x := by unfold u16; interval_cases e <;> omega
    simp only [q1, q2, if_true, q3, this]
    unfold i16; omega
  by_cases c2 : e ≤ 19
  · have hx : x / 16 * 2048 / 2 ^ (e - 4) - 2048 = x * 2048 / 2 ^ e - 2048 := by
      interval_cases e <;> simp only [Nat.reducePow, Nat.reduceSub] <;> omega
    have := pmflFromU16_shape (x := x / 16) (e := e - 4) (by omega) (by omega)
      (by interval_cases e <;> omega) (by interval_cases e <;> omega)
    rw [hx] at this
    unfold pmflFrom
    have q1 : (x / 16777216 % 256 == 0) = true := by
      simp only [beq_iff_eq]; interval_cases e <;> omega
    have q2 : (x / 65536 % 256 == 0) = false := by
      simp only [beq_eq_false_iff_ne, ne_eq]; interval_cases e <;> omega
    have q3 : (x / 1048576 % 16 == 0) = true := by
      simp only [beq_iff_eq]; interval_cases e <;> omega
    have q4 : u16 (x / 16) = x / 16 := by unfold u16; interval_cases e <;> omega
    simp only [q1, q2, q3, if_true, q4]
    unfold i16
    simp only [Bool.false_eq_true, if_false]
    omega
  by_cases c3 : e ≤ 23
  · have hx : x / 256 * 2048 / 2 ^ (e - 8) - 2048 = x * 2048 / 2 ^ e - 2048 := by
      interval_cases e <;> simp only [Nat.reducePow, Nat.reduceSub] <;> omega
    have := pmflFromU16_shape (x := x / 256) (e := e - 8) (by omega) (by omega)
      (by interval_cases e <;> omega) (by interval_cases e <;> omega)
    rw [hx] at this
    unfold pmflFrom
    have q1 : (x / 16777216 % 256 == 0) = true := by
      simp only [beq_iff_eq]; interval_cases e <;> omega
    have q2 : (x / 65536 % 256 == 0) = false := by
      simp only [beq_eq_false_iff_ne, ne_eq]; interval_cases e <;> omega
    have q3 : (x / 1048576 % 16 == 0) = false := by
      simp only [beq_eq_false_iff_ne, ne_eq]; interval_cases e <;> omega
    have q4 : u16 (x / 256) = x / 256 := by unfold u16; interval_cases e <;> omega
    simp only [q1, q2, q3, if_true, q4]
    unfold i16
    simp only [Bool.false_eq_true, if_false]
    omega
  by_cases c4 : e ≤ 27
  · have hx : x / 4096 * 2048 / 2 ^ (e - 12) - 2048 = x * 2048 / 2 ^ e - 2048 := by
      interval_cases e <;> simp only [Nat.reducePow, Nat.reduceSub] <;> omega
    have := pmflFromU16_shape (x := x / 4096) (e := e - 12) (by omega) (by omega)
      (by interval_cases e <;> omega) (by interval_cases e <;> omega)
    rw [hx] at this
    unfold pmflFrom
    have q1 : (x / 16777216 % 256 == 0) = false := by
      simp only [beq_eq_false_iff_ne, ne_eq]; interval_cases e <;> omega
    have q2 : (x / 268435456 % 16 == 0) = true := by
      simp only [beq_iff_eq]; interval_cases e <;> omega
    have q4 : u16 (x / 4096) = x / 4096 := by unfold u16; interval_cases e <;> omega
    simp only [q1, q2, if_true, q4]
    unfold i16
    simp only [Bool.false_eq_true, if_false]
    omega
  · have hx : x / 65536 * 2048 / 2 ^ (e - 16) - 2048 = x * 2048 / 2 ^ e - 2048 := by
      interval_cases e <;> simp only [Nat.reducePow, Nat.reduceSub] <;> omega
    have := pmflFromU16_shape (x := x / 65536) (e := e - 16) (by omega) (by omega)
      (by interval_cases e <;> omega) (by interval_cases e <;> omega)
    rw [hx] at this
    unfold pmflFrom
    have q1 : (x / 16777216 % 256 == 0) = false := by
      simp only [beq_eq_false_iff_ne, ne_eq]; interval_cases e <;> omega
    have q2 : (x / 268435456 % 16 == 0) = false := by
      simp only [beq_eq_false_iff_ne, ne_eq]; interval_cases e <;> omega
    have q4 : u16 (x / 65536) = x / 65536 := by unfold u16; interval_cases e <;> omega
    simp only [q1, q2, q4]
    unfold i16
    simp only [Bool.false_eq_true, if_false]
    omega

theorem powm_range : ∀ r < 512, 1024 ≤ powm r ∧ powm r < 2048 := by decide +kernel

theorem toU16_offset : ∀ r < 512,
    (if (r + 0x200) * 2 / 2 % 2 ≠ 0 then
        u8 (powTable.getD (u8 ((r + 0x200) / 2)) 0 +
          powTable.getD (u8 (u8 ((r + 0x200) / 2) + 1)) 0) / 2
      else powTable.getD (u8 ((r + 0x200) / 2)) 0) =
    (if r % 2 ≠ 0 then u8 (powTable.getD (r / 2) 0 +
      powTable.getD (u8 (r / 2 + 1)) 0) / 2 else powTable.getD (r / 2) 0) := by decide +kernel

/-- The shape of `pmfl_to_u16`. -/
theorem pmflToU16_shape {e r : Nat} (he : e < 16) (hr : r < 512) :
    pmflToU16 ((512 * e + r : Nat) : Int) =
      if e > 10 then powm r * 2 ^ (e - 10)
      else if e < 10 then (powm r + (if e ≠ 9 then 2 else 1)) / 2 ^ (10 - e)
      else powm r := by
  have hp := powm_range r hr
  have h1 : ¬ ((512 * e + r : Nat) : Int) < 0 := by omega
  have h2 : ¬ ((512 * e + r : Nat) : Int) ≥ pmfUint16Max := by unfold pmfUint16Max; omega
  have h3 : ((512 * e + r : Nat) : Int).toNat = 512 * e + r := by omega
  have h4 : u8 ((512 * e + r) / 512) = e := by unfold u8; omega
  have h5 : (512 * e + r) % 512 = r := by omega
  unfold pmflToU16
  simp only [if_neg h1, if_neg h2, h3, h4, h5]
  rw [toU16_offset r hr]
  have h6 : (r + 512) * 2 - (if r % 2 ≠ 0 then u8 (powTable.getD (r / 2) 0 +
      powTable.getD (u8 (r / 2 + 1)) 0) / 2 else powTable.getD (r / 2) 0) = powm r := rfl
  rw [h6]
  by_cases c : e > 10
  · rw [if_pos c, if_pos c]
    unfold u16
    interval_cases e <;> simp only [Nat.reducePow, Nat.reduceSub] at * <;> omega
  · rw [if_neg c, if_neg c]

/-- The shape of `pmfl_to_u32` for exponents of at least ten. -/
theorem pmflToU32_shape {e r : Nat} (he : 10 ≤ e) (he2 : e < 32) (hr : r < 512) :
    pmflToU32 ((512 * e + r : Nat) : Int) = powm r * 2 ^ (e - 10) := by
  have hp := powm_range r hr
  have h1 : ¬ ((512 * e + r : Nat) : Int) < 0 := by omega
  have h2 : ¬ ((512 * e + r : Nat) : Int) ≥ pmfUint32Max := by unfold pmfUint32Max; omega
  have h3 : ((512 * e + r : Nat) : Int).toNat = 512 * e + r := by omega
  have h4 : u8 ((512 * e + r) / 512) = e := by unfold u8; omega
  unfold pmflToU32
  simp only [if_neg h1, if_neg h2, h3, h4]
  by_cases c : e < 16
  · rw [if_pos c, pmflToU16_shape c hr]
    by_cases c2 : e > 10
    · rw [if_pos c2]
    · have : e = 10 := by omega
      subst this
      simp
  · rw [if_neg c]
    have h5 : i16 (((512 * e + r : Nat) : Int) - ((e - 15 : Nat) : Int) * 512) =
        ((512 * 15 + r : Nat) : Int) := by unfold i16; omega
    rw [h5, pmflToU16_shape (by omega) hr, if_pos (by omega)]
    unfold u32
    interval_cases e <;> simp only [Nat.reducePow, Nat.reduceSub] at * <;> omega

/-- The shape of `pmfl_to_u32` for smaller exponents. -/
theorem pmflToU32_small {e r : Nat} (he : e < 10) (hr : r < 512) :
    pmflToU32 ((512 * e + r : Nat) : Int) =
      (powm r + (if e ≠ 9 then 2 else 1)) / 2 ^ (10 - e) := by
  have h1 : ¬ ((512 * e + r : Nat) : Int) < 0 := by omega
  have h2 : ¬ ((512 * e + r : Nat) : Int) ≥ pmfUint32Max := by unfold pmfUint32Max; omega
  have h3 : ((512 * e + r : Nat) : Int).toNat = 512 * e + r := by omega
  have h4 : u8 ((512 * e + r) / 512) = e := by unfold u8; omega
  unfold pmflToU32
  simp only [if_neg h1, if_neg h2, h3, h4]
  rw [if_pos (by omega), pmflToU16_shape (by omega) hr, if_neg (by omega), if_pos he]

theorem mant_mono : ∀ m < 2047, mant m ≤ mant (m + 1) := by decide +kernel
theorem powm_mono : ∀ r < 511, powm r ≤ powm (r + 1) := by decide +kernel

/-- Every positive number has a leading one. -/
theorem exists_exponent {x : Nat} (h0 : 0 < x) (h : x < 4294967296) :
    ∃ e, e ≤ 31 ∧ 2 ^ e ≤ x ∧ x < 2 ^ (e + 1) := by
  refine ⟨x.log2, ?_, Nat.log2_self_le (by omega), Nat.lt_log2_self⟩
  have := (Nat.log2_lt (n := x) (k := 32) (by omega)).2 (by omega)
  omega

/-- The cell of the eleven bits after the leading one. -/
theorem cell {x e : Nat} (h1 : 2 ^ e ≤ x) (h2 : x < 2 ^ (e + 1)) :
    ∃ m, m < 2048 ∧ x * 2048 / 2 ^ e - 2048 = m ∧ 2 ^ e * (2048 + m) ≤ 2048 * x ∧
      2048 * x < 2 ^ e * (2049 + m) := by
  have hp : 0 < 2 ^ e := Nat.pos_of_ne_zero (by positivity)
  have ha : 2048 ≤ x * 2048 / 2 ^ e := (Nat.le_div_iff_mul_le hp).2 (by nlinarith)
  have hb : x * 2048 / 2 ^ e < 4096 := (Nat.div_lt_iff_lt_mul hp).2 (by
    rw [Nat.pow_succ] at h2; nlinarith)
  have hc := Nat.div_mul_le_self (x * 2048) (2 ^ e)
  have hd := Nat.lt_div_mul_add (a := x * 2048) hp
  refine ⟨x * 2048 / 2 ^ e - 2048, by omega, rfl, ?_, ?_⟩
  · rw [show 2048 + (x * 2048 / 2 ^ e - 2048) = x * 2048 / 2 ^ e by omega]; linarith
  · rw [show 2049 + (x * 2048 / 2 ^ e - 2048) = x * 2048 / 2 ^ e + 1 by omega]; nlinarith

end FAS
