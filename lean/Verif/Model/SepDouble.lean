import Mathlib.Analysis.SpecialFunctions.Trigonometric.Inverse
import Verif.Model.Float

/-! The separation of two directions in `double` arithmetic. -/

namespace SatSky.Geo

open SatSky

/-- Functions of the C library: each within two units of rounding of the exact value (`sqrt` within one), or within `2 ^ -200` near zero; the
cosine and the root have the right sign.  `asin` says nothing about arguments outside `[-1, 1]`, for which it returns NaN. -/
structure Libm where
  sin : ℚ → ℚ
  cos : ℚ → ℚ
  asin : ℚ → ℚ
  sqrt : ℚ → ℚ
  sin_err : ∀ x, |(sin x : ℝ) - Real.sin x| ≤ 2 / 2 ^ 53 * |Real.sin x| + 1 / 2 ^ 200
  cos_err : ∀ x, |(cos x : ℝ) - Real.cos x| ≤ 2 / 2 ^ 53 * |Real.cos x| + 1 / 2 ^ 200
  cos_sign : ∀ x : ℚ, 0 ≤ Real.cos x → 0 ≤ cos x
  asin_err : ∀ x, |x| ≤ 1 → |(asin x : ℝ) - Real.arcsin x| ≤ 2 / 2 ^ 53 * |Real.arcsin x| + 1 / 2 ^ 200
  sqrt_err : ∀ x, 0 ≤ x → |(sqrt x : ℝ) - √x| ≤ 1 / 2 ^ 53 * √x + 1 / 2 ^ 200
  sqrt_sign : ∀ x, 0 ≤ x → 0 ≤ sqrt x

/-- `const_def.h` 26: the `double` nearest to the decimal fraction. -/
def piD : ℚ := 884279719003555 / 2 ^ 48
/-- `const_def.h` 27. -/
def twopiD : ℚ := 884279719003555 / 2 ^ 47
/-- `const_def.h` 19. -/
def r2dD : ℚ := 1007958012753983 / 2 ^ 44

/-- `skysep_h.c` 15-19 in `double`: the difference of the longitudes, folded. -/
def radifD (F : Fl64) (theta1 theta2 : ℚ) : ℚ :=
  let t1 := if theta1 < 0 then F.rnd (theta1 + twopiD) else theta1
  let t2 := if theta2 < 0 then F.rnd (theta2 + twopiD) else theta2
  let radif := |F.rnd (t2 - t1)|
  if radif > piD then F.rnd (twopiD - radif) else radif

/-- `skysep_h.c` 20-23 in `double`: the argument of `sqrt`. -/
def haversineD (F : Fl64) (M : Libm) (radif phi1 phi2 : ℚ) : ℚ :=
  let sin2a := M.sin (F.rnd (radif / 2))
  let sin2a := F.rnd (sin2a * sin2a)
  let sin2d := M.sin (F.rnd (F.rnd (phi2 - phi1) / 2))
  let sin2d := F.rnd (sin2d * sin2d)
  F.rnd (sin2d + F.rnd (F.rnd (M.cos phi1 * M.cos phi2) * sin2a))

/-- `skysep_h.c` 24 in `double`.  `none`: NaN, since the argument of `asin` is greater than 1. -/
def halfangleD (F : Fl64) (M : Libm) (h : ℚ) : Option ℚ :=
  if M.sqrt h ≤ 1 then some (F.rnd (F.rnd (2 * M.asin (M.sqrt h)) * r2dD)) else none

/-- `skysep_h.c` 10-25 `skysep_h` in `double`: radians in, degrees out. -/
def skysepD (F : Fl64) (M : Libm) (theta1 phi1 theta2 phi2 : ℚ) : Option ℚ :=
  halfangleD F M (haversineD F M (radifD F theta1 theta2) phi1 phi2)

end SatSky.Geo
