import Mathlib.Data.Nat.Bitwise
import Mathlib.Data.List.Basic

/-!
HEALPix (`HealpixC/chealpix.c`): tables and the NESTED numbering, 32 and 64 bit versions, as compiled
without `__BMI2__`.

Face coordinates and pixel numbers are natural numbers here: a negative one would index the tables
out of bounds.  `none` is undefined behaviour: an index outside of a table, a division by zero or a signed
overflow.
-/

namespace SatSky.Healpix

/-- Result of an `int` computation on non-negative operands. -/
def i32 (x : ℕ) : Option ℕ := if x < 2 ^ 31 then some x else none

/-- Result of an `int64_t` computation on non-negative operands. -/
def i64 (x : ℕ) : Option ℕ := if x < 2 ^ 63 then some x else none

/-- `chealpix.c` 80 (the macros of `ctab`). -/
def cZ (a : ℕ) : List ℕ := [a, a + 1, a + 256, a + 257]
/-- `chealpix.c` 81. -/
def cY (a : ℕ) : List ℕ := cZ a ++ cZ (a + 2) ++ cZ (a + 512) ++ cZ (a + 514)
/-- `chealpix.c` 82. -/
def cX (a : ℕ) : List ℕ := cY a ++ cY (a + 4) ++ cY (a + 1024) ++ cY (a + 1028)
/-- `chealpix.c` 79-87 `ctab`. -/
def ctab : List ℕ := cX 0 ++ cX 8 ++ cX 2048 ++ cX 2056

/-- `chealpix.c` 92: the macro pastes hexadecimal digits, so `0x##a##4` is `16 a + 4`. -/
def uZ (a : ℕ) : List ℕ := [16 * a, 16 * a + 1, 16 * a + 4, 16 * a + 5]
/-- `chealpix.c` 93. -/
def uY (a : ℕ) : List ℕ := uZ (16 * a) ++ uZ (16 * a + 1) ++ uZ (16 * a + 4) ++ uZ (16 * a + 5)
/-- `chealpix.c` 94. -/
def uX (a : ℕ) : List ℕ := uY (16 * a) ++ uY (16 * a + 1) ++ uY (16 * a + 4) ++ uY (16 * a + 5)
/-- `chealpix.c` 91-99 `utab`. -/
def utab : List ℕ := uX 0 ++ uX 1 ++ uX 4 ++ uX 5

/-- `chealpix.c` 106-111 `xyf2nest`. -/
def xyf2nest (nside ix iy face : ℕ) : Option ℕ := do
  let a ← utab[ix &&& 0xff]?
  let b ← utab[ix >>> 8]?
  let b ← i32 (b <<< 16)
  let c ← utab[iy &&& 0xff]?
  let c ← i32 (c <<< 1)
  let d ← utab[iy >>> 8]?
  let d ← i32 (d <<< 17)
  let base ← i32 (face * nside * nside)
  i32 (base + (a ||| b ||| c ||| d))

/-- The lines 117-118 and 120-121: every second bit of `pix`. -/
def everySecond (pix : ℕ) : Option ℕ := do
  let raw := (pix &&& 0x5555) ||| ((pix &&& 0x55550000) >>> 15)
  let a ← ctab[raw &&& 0xff]?
  let b ← ctab[raw >>> 8]?
  let b ← i32 (b <<< 4)
  return a ||| b

/-- `chealpix.c` 112-122 `nest2xyf`: `(ix, iy, face_num)`. -/
def nest2xyf (nside pix : ℕ) : Option (ℕ × ℕ × ℕ) := do
  let npface ← i32 (nside * nside)
  if npface = 0 then none
  let face := pix / npface
  let p := pix &&& (npface - 1)
  let ix ← everySecond p
  let iy ← everySecond (p >>> 1)
  return (ix, iy, face)

/-- `chealpix.c` 499-505 `spread_bits64`. -/
def spreadBits64 (v : ℕ) : Option ℕ := do
  let a ← utab[v &&& 0xff]?
  let b ← utab[(v >>> 8) &&& 0xff]?
  let b ← i64 (b <<< 16)
  let c ← utab[(v >>> 16) &&& 0xff]?
  let c ← i64 (c <<< 32)
  let d ← utab[(v >>> 24) &&& 0xff]?
  let d ← i64 (d <<< 48)
  return a ||| b ||| c ||| d

/-- `chealpix.c` 507-513 `compress_bits64`: the entries of `ctab` are shifted as `int`. -/
def compressBits64 (v : ℕ) : Option ℕ := do
  let raw := v &&& 0x5555555555555555
  let raw := raw ||| (raw >>> 15)
  let a ← ctab[raw &&& 0xff]?
  let b ← ctab[(raw >>> 8) &&& 0xff]?
  let b ← i32 (b <<< 4)
  let c ← ctab[(raw >>> 32) &&& 0xff]?
  let c ← i32 (c <<< 16)
  let d ← ctab[(raw >>> 40) &&& 0xff]?
  let d ← i32 (d <<< 20)
  return a ||| b ||| c ||| d

/-- `chealpix.c` 515-518 `xyf2nest64`. -/
def xyf2nest64 (nside ix iy face : ℕ) : Option ℕ := do
  let base ← i64 (face * nside * nside)
  let a ← spreadBits64 ix
  let b ← spreadBits64 iy
  let b ← i64 (b <<< 1)
  let s ← i64 (base + a)
  i64 (s + b)

/-- `chealpix.c` 520-528 `nest2xyf64`. -/
def nest2xyf64 (nside pix : ℕ) : Option (ℕ × ℕ × ℕ) := do
  let npface ← i64 (nside * nside)
  if npface = 0 then none
  let face := pix / npface
  let p := pix &&& (npface - 1)
  let ix ← compressBits64 p
  let iy ← compressBits64 (p >>> 1)
  return (ix, iy, face)

end SatSky.Healpix
