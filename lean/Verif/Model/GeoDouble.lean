import Mathlib.Analysis.SpecialFunctions.Complex.Arg
import Verif.Model.SepDouble

/-! The point below a satellite in `double` arithmetic. -/

namespace SatSky.Geo

open SatSky

/-- The library with `atan2`, within two units of rounding. -/
structure GeoLib extends Libm where
  atan2 : ℚ → ℚ → ℚ
  atan2_err : ∀ y x : ℚ, |(atan2 y x : ℝ) - Complex.arg ⟨x, y⟩| ≤ 2 / 2 ^ 53 * |Complex.arg ⟨x, y⟩| + 1 / 2 ^ 200

/-- `sat_skymap_def.h` 11 and 14: the `double`s nearest to the decimal fractions. -/
def eradD (F : Fl64) : ℚ := F.rnd (63781366 / 10000)
def flatD (F : Fl64) : ℚ := F.rnd (3352819697896193 / 10 ^ 18)

/-- `sat_skymap.c` 329 in `double`. -/
def e2D (F : Fl64) : ℚ := F.rnd (flatD F * F.rnd (2 - flatD F))

/-- `sat_skymap.c` 335 in `double`, for the sine of the latitude.  The root is never 0 (`curv_root_near`). -/
def curvD (F : Fl64) (M : GeoLib) (s : ℚ) : ℚ := F.rnd (1 / M.sqrt (F.rnd (1 - F.rnd (F.rnd (e2D F * s) * s))))

/-- `sat_skymap.c` 336 in `double`: the term added to `z`. -/
def shiftD (F : Fl64) (M : GeoLib) (phi : ℚ) : ℚ :=
  F.rnd (F.rnd (F.rnd (eradD F * curvD F M (M.sin phi)) * e2D F) * M.sin phi)

/-- `sat_skymap.c` 333-336 in `double`: the next latitude. -/
def nextLatD (F : Fl64) (M : GeoLib) (r z phi : ℚ) : ℚ := M.atan2 (F.rnd (z + shiftD F M phi)) r

/-- `sat_skymap.c` 332-337 in `double`, at most `n` times: the last latitude and `c`; `none`: not ended. -/
def latLoopD (F : Fl64) (M : GeoLib) (r z : ℚ) : ℕ → ℚ → Option (ℚ × ℚ)
  | 0, _ => none
  | n + 1, phi =>
    let lat := nextLatD F M r z phi
    if |F.rnd (lat - phi)| ≥ F.rnd (1 / 10 ^ 10) then latLoopD F M r z n lat else some (lat, curvD F M (M.sin phi))

/-- `sat_skymap.c` 328 in `double`: the distance from the axis. -/
def axisD (F : Fl64) (M : GeoLib) (x y : ℚ) : ℚ := M.sqrt (F.rnd (F.rnd (x * x) + F.rnd (y * y)))

/-- `sat_skymap.c` 321-326 in `double`: the longitude in degrees; `gmst` in hours. -/
def geoLonD (F : Fl64) (M : GeoLib) (gmst x y : ℚ) : ℚ :=
  let lon := F.rnd (F.rnd (M.atan2 y x * r2dD) - F.rnd (gmst * 15))
  if lon > 180 then F.rnd (lon - 360) else if lon < -180 then F.rnd (lon + 360) else lon

/-- `sat_skymap.c` 318-344 `sat_geoLocation` in `double` (`sat_visibility.c` 457-485 the same), with at most `n` passes of the loop: latitude and
longitude in degrees, altitude in km.  `none`: the loop has not ended, or a division by 0 in the altitude. -/
def geoD (F : Fl64) (M : GeoLib) (n : ℕ) (gmst x y z : ℚ) : Option (ℚ × ℚ × ℚ) :=
  let r := axisD F M x y
  (latLoopD F M r z n (M.atan2 z r)).bind fun (lat, c) =>
    if M.cos lat = 0 then none
    else
      let alt := F.rnd (F.rnd (r / M.cos lat) - F.rnd (eradD F * c))
      let deg := F.rnd (lat * r2dD)
      let deg := if deg > 90 then F.rnd (deg - 360) else deg
      some (deg, geoLonD F M gmst x y, alt)

end SatSky.Geo
