import Mathlib.Analysis.SpecialFunctions.Complex.Arg
import Verif.Model.SepDouble

/-! The direction from the observer to the satellite in `double` arithmetic. -/

namespace SatSky.Geo

open SatSky

/-- Functions of the C library: `sqrt` rounded correctly, as IEEE 754 demands (stated by squares: it is not below the rounding of any smaller
number nor above that of any greater one); `asin` and `atan2` within two units of rounding.  `asin` says nothing about arguments outside
`[-1, 1]`, for which it returns NaN. -/
structure DirLib (F : Fl64) where
  sqrt : ℚ → ℚ
  asin : ℚ → ℚ
  atan2 : ℚ → ℚ → ℚ
  sqrt_low : ∀ x q, 0 ≤ q → q * q ≤ x → F.rnd q ≤ sqrt x
  sqrt_up : ∀ x q, 0 ≤ x → 0 ≤ q → x ≤ q * q → sqrt x ≤ F.rnd q
  asin_err : ∀ x, |x| ≤ 1 → |(asin x : ℝ) - Real.arcsin x| ≤ 2 / 2 ^ 53 * |Real.arcsin x|
  atan2_err : ∀ y x : ℚ, |(atan2 y x : ℝ) - Complex.arg ⟨x, y⟩| ≤ 2 / 2 ^ 53 * |Complex.arg ⟨x, y⟩|

/-- `observe.c` 92-99 in `double`: the three components and the square of the distance. -/
def dist2D (F : Fl64) (v0 v1 v2 : ℚ) : ℚ :=
  F.rnd (F.rnd (F.rnd (0 + F.rnd (v0 * v0)) + F.rnd (v1 * v1)) + F.rnd (v2 * v2))

/-- `observe.c` 88-105 `get_satellite_ra_dec_delta` in `double`: `(ra, dec, delta)`.  `none`: NaN in the declination (0 divided by 0, or an
argument of `asin` outside `[-1, 1]`). -/
def raDecDeltaD (F : Fl64) (M : DirLib F) (o0 o1 o2 s0 s1 s2 : ℚ) : Option (ℚ × ℚ × ℚ) :=
  let v0 := F.rnd (s0 - o0)
  let v1 := F.rnd (s1 - o1)
  let v2 := F.rnd (s2 - o2)
  let delta := M.sqrt (dist2D F v0 v1 v2)
  let ra := M.atan2 v1 v0
  let ra := if ra < 0 then F.rnd (ra + twopiD) else ra
  if delta ≠ 0 ∧ |F.rnd (v2 / delta)| ≤ 1 then some (ra, M.asin (F.rnd (v2 / delta)), delta) else none

end SatSky.Geo
