import Verif.Lemmas.Pmf

/-!
# C30, C31: the logarithmic number format

`pmflFrom` and `pmflToU32` are the conversions `pmfl_from(uint32_t)` and `pmfl_to_u32()` of
src/PoorManFloat.h.
-/

namespace FAS

theorem roundTrip_small : ∀ i < 4, ∀ j < 256, 0 < 256 * i + j →
    pmflToU32 (pmflFrom (256 * i + j)) ≤ 256 * i + j + (256 * i + j) / 512 + 1 ∧
    256 * i + j ≤ pmflToU32 (pmflFrom (256 * i + j)) + (256 * i + j) / 512 + 1 := by
  decide +kernel

theorem roundTrip_table : ∀ m < 2048,
    1024 * (if mant m < 512 then powm (mant m) else 2048) ≤ (2048 + m) * 513 ∧
    (2049 + m) * 511 ≤ 1024 * (if mant m < 512 then powm (mant m) else 2048) := by
  decide +kernel

theorem mant_lt_or : ∀ m < 2048, mant m < 512 ∨ mant m = 512 := by
  intro m hm
  have := mant_le m hm
  omega

theorem powm_zero : powm 0 = 1024 := by decide +kernel

/-- The round trip for values of at least 1024, saturated at the largest value. -/
theorem roundTrip_shape {x e m : Nat} (he : 10 ≤ e) (he2 : e ≤ 31) (h1 : 2 ^ e ≤ x)
    (h2 : x < 2 ^ (e + 1)) (hm : x * 2048 / 2 ^ e - 2048 = m) (hml : m < 2048) :
    pmflToU32 (pmflFrom x) =
      min 4294967295 ((if mant m < 512 then powm (mant m) else 2048) * 2 ^ (e - 10)) := by
  have hf := pmflFrom_shape (by omega) he2 h1 h2
  rw [hm] at hf
  rcases mant_lt_or m hml with h | h
  · rw [if_pos h, hf]
    have := pmflToU32_shape he (by omega) h
    have hp := powm_range _ h
    rw [show (512 : Int) * (e : Int) + (mant m : Int) = ((512 * e + mant m : Nat) : Int) by omega,
      this, Nat.min_eq_right]
    have : powm (mant m) * 2 ^ (e - 10) ≤ 2047 * 2 ^ 21 :=
      Nat.mul_le_mul (by omega) (Nat.pow_le_pow_right (by omega) (by omega))
    omega
  · rw [if_neg (by omega), hf, h]
    by_cases c : e = 31
    · subst c; decide +kernel
    · have := pmflToU32_shape (e := e + 1) (r := 0) (by omega) (by omega) (by omega)
      rw [powm_zero] at this
      rw [show (512 : Int) * (e : Int) + ((512 : Nat) : Int) = ((512 * (e + 1) + 0 : Nat) : Int) by
        omega, this, show e + 1 - 10 = (e - 10) + 1 by omega, Nat.pow_succ, Nat.min_eq_right]
      · omega
      · have : 2048 * 2 ^ (e - 10) ≤ 2048 * 2 ^ 20 :=
          Nat.mul_le_mul (by omega) (Nat.pow_le_pow_right (by omega) (by omega))
        omega

/-- **C30**. For every non zero 32 bit value, the conversion to the logarithmic representation and
back gives the value up to 1/512 of it, plus a rounding error of one. -/
theorem C30_round_trip (x : Nat) (h0 : 0 < x) (h : x < 2 ^ 32) :
    pmflToU32 (pmflFrom x) ≤ x + x / 512 + 1 ∧ x ≤ pmflToU32 (pmflFrom x) + x / 512 + 1 := by
  by_cases hs : x < 1024
  · have := roundTrip_small (x / 256) (by omega) (x % 256) (by omega)
    rw [show 256 * (x / 256) + x % 256 = x by omega] at this
    exact this h0
  obtain ⟨e, he2, h1, h2⟩ := exists_exponent h0 (by omega)
  have he : 10 ≤ e := by
    by_contra hc
    have : 2 ^ (e + 1) ≤ 2 ^ 10 := Nat.pow_le_pow_right (by omega) (by omega)
    omega
  obtain ⟨m, hml, hm, hl, hu⟩ := cell h1 h2
  rw [roundTrip_shape he he2 h1 h2 hm hml]
  have ht := roundTrip_table m hml
  generalize (if mant m < 512 then powm (mant m) else 2048) = Q at ht ⊢
  interval_cases e <;> simp only [Nat.reducePow, Nat.reduceSub] at * <;> omega

/-- The bounds are not void: there is a value which is not reproduced exactly. -/
example : pmflToU32 (pmflFrom 1000003) ≠ 1000003 := by decide +kernel

/-- A value is reproduced exactly if it is a power of two. -/
example : pmflToU32 (pmflFrom 65536) = 65536 := by decide +kernel

theorem pmflFrom_small_mono : ∀ j < 256, pmflFrom j ≤ pmflFrom (j + 1) := by decide +kernel

theorem pmflFrom_zero : pmflFrom 0 = -32768 := by decide +kernel

theorem mant_mono_le {m n : Nat} (h : m ≤ n) (hn : n < 2048) : mant m ≤ mant n := by
  induction n with
  | zero => have : m = 0 := by omega
            subst this; exact Nat.le_refl _
  | succ k ih =>
    by_cases c : m ≤ k
    · exact Nat.le_trans (ih c (by omega)) (mant_mono k (by omega))
    · have : m = k + 1 := by omega
      subst this; exact Nat.le_refl _

theorem powm_mono_le {m n : Nat} (h : m ≤ n) (hn : n < 512) : powm m ≤ powm n := by
  induction n with
  | zero => have : m = 0 := by omega
            subst this; exact Nat.le_refl _
  | succ k ih =>
    by_cases c : m ≤ k
    · exact Nat.le_trans (ih c (by omega)) (powm_mono k (by omega))
    · have : m = k + 1 := by omega
      subst this; exact Nat.le_refl _

theorem pmflFrom_succ {x : Nat} (h : x + 1 < 4294967296) : pmflFrom x ≤ pmflFrom (x + 1) := by
  by_cases hs : x < 256
  · exact pmflFrom_small_mono x hs
  obtain ⟨e, he2, h1, h2⟩ := exists_exponent (x := x) (by omega) (by omega)
  have he : 8 ≤ e := by
    by_contra hc
    have : 2 ^ (e + 1) ≤ 2 ^ 8 := Nat.pow_le_pow_right (by omega) (by omega)
    omega
  have hf := pmflFrom_shape he he2 h1 h2
  by_cases c : x + 1 < 2 ^ (e + 1)
  · have hg := pmflFrom_shape he he2 (x := x + 1) (by omega) c
    obtain ⟨m, hml, hm, -, -⟩ := cell (x := x + 1) (e := e) (by omega) c
    have hle : x * 2048 / 2 ^ e ≤ (x + 1) * 2048 / 2 ^ e := Nat.div_le_div_right (by omega)
    have := mant_mono_le (m := x * 2048 / 2 ^ e - 2048) (n := (x + 1) * 2048 / 2 ^ e - 2048)
      (by omega) (by omega)
    omega
  · have hx : x + 1 = 2 ^ (e + 1) := by omega
    have he3 : e ≠ 31 := by rintro rfl; omega
    have hg := pmflFrom_shape (e := e + 1) (by omega) (by omega) (x := x + 1) (by omega)
      (by rw [hx, Nat.pow_succ (n := 2) (m := e + 1)]; have : 0 < 2 ^ (e + 1) := by omega
          omega)
    obtain ⟨m, hml, hm, -, -⟩ := cell (x := x) (e := e) h1 h2
    have := mant_le _ hml
    rw [hm] at hf
    omega

theorem pmflFrom_mono_aux {x : Nat} (d : Nat) (h : x + d < 4294967296) :
    pmflFrom x ≤ pmflFrom (x + d) := by
  induction d with
  | zero => exact Int.le_refl _
  | succ k ih =>
    exact Int.le_trans (ih (by omega)) (pmflFrom_succ (x := x + k) (by omega))

theorem pmflToU32_zero_of_neg {v : Int} (h : v < 0) : pmflToU32 v = 0 := by
  unfold pmflToU32
  rw [if_pos h]

theorem pmflToU32_sat {v : Int} (h : 16384 ≤ v) : pmflToU32 v = 4294967295 := by
  unfold pmflToU32 pmfUint32Max
  rw [if_neg (by omega), if_pos (by omega)]

theorem pmflToU32_small_mono : ∀ e < 10, ∀ r < 512,
    pmflToU32 ((512 * e + r : Nat) : Int) ≤ pmflToU32 ((512 * e + r : Nat) + 1 : Int) := by
  decide +kernel

theorem pmflToU32_succ {v : Int} : pmflToU32 v ≤ pmflToU32 (v + 1) := by
  by_cases h0 : v < 0
  · rw [pmflToU32_zero_of_neg h0]; exact Nat.zero_le _
  by_cases h1 : 16384 ≤ v
  · rw [pmflToU32_sat h1, pmflToU32_sat (by omega)]
  obtain ⟨n, rfl⟩ := Int.eq_ofNat_of_zero_le (a := v) (by omega)
  by_cases h2 : n < 5120
  · have := pmflToU32_small_mono (n / 512) (by omega) (n % 512) (by omega)
    rw [show 512 * (n / 512) + n % 512 = n by omega] at this
    exact this
  · have ha := pmflToU32_shape (e := n / 512) (r := n % 512) (by omega) (by omega) (by omega)
    rw [show 512 * (n / 512) + n % 512 = n by omega] at ha
    have hr := powm_range (n % 512) (by omega)
    rw [ha]
    by_cases c : n % 512 = 511
    · by_cases c2 : n = 16383
      · subst c2; decide +kernel
      · have hb := pmflToU32_shape (e := n / 512 + 1) (r := 0) (by omega) (by omega) (by omega)
        rw [show 512 * (n / 512 + 1) + 0 = n + 1 by omega] at hb
        rw [show (n : Int) + 1 = ((n + 1 : Nat) : Int) by omega, hb, powm_zero,
          show n / 512 + 1 - 10 = (n / 512 - 10) + 1 by omega, Nat.pow_succ]
        generalize 2 ^ (n / 512 - 10) = k
        nlinarith [Nat.mul_le_mul_right k (show powm (n % 512) ≤ 2048 by omega)]
    · have hb := pmflToU32_shape (e := n / 512) (r := n % 512 + 1) (by omega) (by omega) (by omega)
      rw [show 512 * (n / 512) + (n % 512 + 1) = n + 1 by omega] at hb
      rw [show (n : Int) + 1 = ((n + 1 : Nat) : Int) by omega, hb]
      exact Nat.mul_le_mul_right _ (powm_mono_le (by omega) (by omega))

theorem pmflToU32_mono_aux {v : Int} (d : Nat) : pmflToU32 v ≤ pmflToU32 (v + d) := by
  induction d with
  | zero => simp
  | succ k ih =>
    refine Nat.le_trans ih ?_
    have := pmflToU32_succ (v := v + k)
    rw [show v + ((k + 1 : Nat) : Int) = v + k + 1 by omega]
    exact this

/-- **C31**. Both conversions are monotone on their whole domain. -/
theorem C31_monotone :
    (∀ x y : Nat, x ≤ y → y < 2 ^ 32 → pmflFrom x ≤ pmflFrom y) ∧
    (∀ v w : Int, v ≤ w → pmflToU32 v ≤ pmflToU32 w) := by
  constructor
  · intro x y hxy hy
    have := pmflFrom_mono_aux (x := x) (y - x) (by omega)
    rwa [show x + (y - x) = y by omega] at this
  · intro v w hvw
    have := pmflToU32_mono_aux (v := v) (w - v).toNat
    rwa [show v + ((w - v).toNat : Int) = w by omega] at this

/-- The conversions are not constant. -/
example : pmflFrom 1000 < pmflFrom 1010 ∧ pmflToU32 5000 < pmflToU32 5010 := by decide +kernel

end FAS
