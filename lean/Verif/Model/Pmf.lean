import Verif.Model.Basic

/-!
# Logarithmic number format (`pmf_logarithmic`)

Models src/PoorManFloat.h and src/PoorManFloat.cpp. A `pmf_logarithmic` is an `int16_t`
(src/PoorManFloat.h:7); the model uses `Int` and applies `i16` wherever the C++ code stores into an
`int16_t`. Unsigned intermediate results are `Nat` with explicit truncation.
-/

namespace FAS

/-- PROGMEM table `log2_minus_x_plus_one_shifted_by_2`, src/PoorManFloat.cpp:99-113. -/
def logTable : List Nat :=
  [
   0, 2, 3, 5, 7, 9, 10, 12, 13, 15, 17, 18, 20, 21, 23, 24,
   26, 27, 28, 30, 31, 32, 34, 35, 36, 38, 39, 40, 41, 43, 44, 45,
   46, 47, 48, 49, 50, 51, 52, 53, 54, 55, 56, 57, 58, 59, 60, 61,
   62, 63, 64, 64, 65, 66, 67, 68, 68, 69, 70, 70, 71, 72, 72, 73,
   74, 74, 75, 75, 76, 77, 77, 78, 78, 79, 79, 80, 80, 80, 81, 81,
   82, 82, 83, 83, 83, 84, 84, 84, 84, 85, 85, 85, 86, 86, 86, 86,
   86, 87, 87, 87, 87, 87, 87, 88, 88, 88, 88, 88, 88, 88, 88, 88,
   88, 88, 88, 88, 88, 88, 88, 88, 88, 88, 88, 88, 88, 87, 87, 87,
   87, 87, 87, 86, 86, 86, 86, 86, 85, 85, 85, 85, 84, 84, 84, 84,
   83, 83, 83, 82, 82, 82, 81, 81, 81, 80, 80, 79, 79, 79, 78, 78,
   77, 77, 76, 76, 75, 75, 74, 74, 73, 73, 72, 72, 71, 71, 70, 70,
   69, 68, 68, 67, 67, 66, 65, 65, 64, 63, 63, 62, 61, 61, 60, 59,
   59, 58, 57, 57, 56, 55, 54, 54, 53, 52, 51, 51, 50, 49, 48, 47,
   47, 46, 45, 44, 43, 42, 42, 41, 40, 39, 38, 37, 36, 35, 34, 34,
   33, 32, 31, 30, 29, 28, 27, 26, 25, 24, 23, 22, 21, 20, 19, 18,
   17, 16, 15, 14, 13, 12, 11, 10, 9, 8, 7, 6, 4, 3, 2, 1]

/-- PROGMEM table `x_minus_pow2_of_x_minus_one_shifted_by_2`, src/PoorManFloat.cpp:131-145. -/
def powTable : List Nat :=
  [
   0, 1, 2, 4, 5, 6, 7, 8, 10, 11, 12, 13, 14, 15, 16, 18,
   19, 20, 21, 22, 23, 24, 25, 26, 27, 28, 29, 30, 31, 32, 33, 34,
   35, 36, 37, 38, 39, 40, 41, 42, 43, 44, 45, 46, 46, 47, 48, 49,
   50, 51, 52, 52, 53, 54, 55, 56, 56, 57, 58, 59, 59, 60, 61, 62,
   62, 63, 64, 64, 65, 66, 66, 67, 68, 68, 69, 69, 70, 71, 71, 72,
   72, 73, 73, 74, 74, 75, 76, 76, 76, 77, 77, 78, 78, 79, 79, 80,
   80, 80, 81, 81, 82, 82, 82, 83, 83, 83, 84, 84, 84, 84, 85, 85,
   85, 85, 86, 86, 86, 86, 87, 87, 87, 87, 87, 87, 87, 88, 88, 88,
   88, 88, 88, 88, 88, 88, 88, 88, 88, 88, 88, 88, 88, 88, 88, 88,
   88, 88, 88, 87, 87, 87, 87, 87, 87, 86, 86, 86, 86, 86, 85, 85,
   85, 84, 84, 84, 84, 83, 83, 83, 82, 82, 81, 81, 81, 80, 80, 79,
   79, 78, 78, 77, 77, 76, 76, 75, 75, 74, 74, 73, 72, 72, 71, 71,
   70, 69, 68, 68, 67, 66, 66, 65, 64, 63, 63, 62, 61, 60, 59, 58,
   58, 57, 56, 55, 54, 53, 52, 51, 50, 49, 48, 47, 46, 45, 44, 43,
   42, 41, 40, 39, 38, 36, 35, 34, 33, 32, 30, 29, 28, 27, 25, 24,
   23, 22, 20, 19, 17, 16, 15, 13, 12, 10, 9, 8, 6, 5, 3, 2]

/-- PMF_CONST_INVALID, src/PoorManFloat.h:9. -/
def pmfInvalid : Int := -0x8000
/-- PMF_CONST_MAX, src/PoorManFloat.h:10. -/
def pmfMax : Int := 0x7fff
/-- PMF_CONST_MIN, src/PoorManFloat.h:11. -/
def pmfMin : Int := -0x7fff
/-- PMF_CONST_UINT16_MAX, src/PoorManFloatConst.h:65. -/
def pmfUint16Max : Int := 0x2000
/-- PMF_CONST_UINT32_MAX, src/PoorManFloatConst.h:61. -/
def pmfUint32Max : Int := 0x4000
/-- PMF_CONST_3_DIV_2, src/PoorManFloatConst.h:13. -/
def pmfThreeHalves : Int := 0x012c

/-- `leading_zeros(uint8_t)`, src/PoorManFloat.cpp:147-167. -/
def leadingZeros (x : Nat) : Nat :=
  let (x, res) := if x / 16 % 16 == 0 then (u8 (x * 16), 4) else (x, 0)
  let (x, res) := if x / 64 % 4 == 0 then (u8 (x * 4), res + 2) else (x, res)
  if x / 128 % 2 == 0 then
    if x == 0 then res + 2 else res + 1
  else res

/-- `pmfl_from(uint8_t)`, src/PoorManFloat.cpp:168-198. `(e << 8) | x` is a sum as `x < 256`. -/
def pmflFromU8 (x : Nat) : Int :=
  let leading := leadingZeros x
  if leading == 8 then pmfInvalid
  else
    let x := u8 (x * 2 ^ (leading + 1))
    let e := 7 - leading
    let offset := logTable.getD x 0
    let res := u16 ((e * 256 + x) * 2)
    let offset := u8 (offset + 1)
    i16 (u16 (res + offset / 2))

/-- `pmfl_from(uint16_t)`, src/PoorManFloat.cpp:199-224. -/
def pmflFromU16 (x : Nat) : Int :=
  let leading := leadingZeros (x / 256)
  if leading == 8 then pmflFromU8 (u8 x)
  else
    let x := u16 (x * 2 ^ (leading + 1))
    let exponent := 15 - leading
    let x := x / 32
    let index := u8 (x / 8)
    let offset := logTable.getD index 0
    let offset :=
      if x % 8 > 2 then u8 (u8 (offset + logTable.getD (u8 (index + 1)) 0) + 1)
      else u8 (offset * 2)
    let x := u16 (x + offset)
    let x := x / 4
    let x := u16 (x + exponent * 512)
    i16 x

/-- `pmfl_from(uint32_t)`, src/PoorManFloat.cpp:225-247. -/
def pmflFrom (x : Nat) : Int :=
  let (w, expOffset) : Nat × Int :=
    if x / 16777216 % 256 == 0 then
      if x / 65536 % 256 == 0 then (u16 x, 0)
      else if x / 1048576 % 16 == 0 then (u16 (x / 16), 0x0800)
      else (u16 (x / 256), 0x1000)
    else if x / 268435456 % 16 == 0 then (u16 (x / 4096), 0x1800)
    else (u16 (x / 65536), 0x2000)
  i16 (pmflFromU16 w + expOffset)

/-- `pmfl_to_u16`, src/PoorManFloat.cpp:248-276. The local `x` is an `int16_t` which is non negative
up to the last shift; that shift may set the sign bit, which the conversion of the result to
`uint16_t` undoes (`u16`). -/
def pmflToU16 (x : Int) : Nat :=
  if x < 0 then 0
  else if x ≥ pmfUint16Max then 65535
  else
    let exponent := u8 (x.toNat / 512)
    let x := x.toNat % 512
    let x := x + 0x200
    let index := u8 (x / 2)
    let x := x * 2
    let offset := powTable.getD index 0
    let offset :=
      if x / 2 % 2 ≠ 0 then u8 (offset + powTable.getD (u8 (index + 1)) 0) / 2 else offset
    let x := x - offset
    if exponent > 10 then u16 (x * 2 ^ (exponent - 10))
    else if exponent < 10 then
      let x := x + (if exponent ≠ 9 then 2 else 1)
      x / 2 ^ (10 - exponent)
    else x

/-- `pmfl_to_u32`, src/PoorManFloat.cpp:277-293. `pmfl_shr` is src/PoorManFloat.h:21. -/
def pmflToU32 (x : Int) : Nat :=
  if x < 0 then 0
  else if x ≥ pmfUint32Max then 4294967295
  else
    let exponent := u8 (x.toNat / 512)
    if exponent < 0x10 then pmflToU16 x
    else
      let shift := exponent - 0x0f
      let x := i16 (x - shift * 512)
      u32 (pmflToU16 x * 2 ^ shift)

/-- `pmfl_square`, src/PoorManFloat.cpp:294-302. -/
def pmflSquare (x : Int) : Int :=
  if x > 0x4000 then pmfMax
  else if x ≤ -0x4000 then pmfMin
  else i16 (x + x)

/-- `pmfl_pow_div_3`, src/PoorManFloat.h:30-38. C++ division truncates towards zero (`Int.tdiv`). -/
def pmflPowDiv3 (x : Int) : Int :=
  let x := i16 (x.tdiv 2)
  let x := i16 (x + x.tdiv 4)
  let x := i16 (x + x.tdiv 16)
  let x := i16 (x + x.tdiv 256)
  let x := i16 (x + 1)
  i16 (x.tdiv 2)

end FAS
