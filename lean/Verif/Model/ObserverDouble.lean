import Mathlib.Analysis.SpecialFunctions.Trigonometric.Arctan
import Verif.Model.SepDouble

/-! The position of the observer in `double` arithmetic. -/

namespace SatSky.Geo

open SatSky

/-- The library with `atan`, within two units of rounding. -/
structure ObsLib extends Libm where
  atan : ℚ → ℚ
  atan_err : ∀ x : ℚ, |(atan x : ℝ) - Real.arctan x| ≤ 2 / 2 ^ 53 * |Real.arctan x| + 1 / 2 ^ 200

/-- `fmod`, which is exact in IEEE arithmetic. -/
def fmodD (x m : ℚ) : ℚ := x - m * truncQ (x / m)

/-- `observe.c` 47 in `double`: seconds, `t` centuries from 2000.  The decimal constants are rounded. -/
def gmstSecD (F : Fl64) (t : ℚ) : ℚ :=
  F.rnd (F.rnd (2411054841 / 10 ^ 5) + F.rnd (t * F.rnd (F.rnd (8640184812866 / 10 ^ 6) +
    F.rnd (t * F.rnd (F.rnd (93104 / 10 ^ 6) - F.rnd (t * F.rnd (62 / 10 ^ 7)))))))

/-- `observe.c` 43-54 in `double`: seconds. -/
def thetaSecD (F : Fl64) (jd : ℚ) : ℚ :=
  let ut := fmodD (F.rnd (jd + 1 / 2)) 1
  let t := F.rnd (F.rnd (F.rnd (jd - ut) - 2451545) / 36525)
  let g := fmodD (F.rnd (gmstSecD F t + F.rnd (F.rnd (86400 * F.rnd (100273790934 / 10 ^ 11)) * ut))) 86400
  if g < 0 then F.rnd (g + 86400) else g

/-- `observe.c` 39-62 `ThetaG` in `double`, radians. -/
def thetaGD (F : Fl64) (jd : ℚ) : ℚ := F.rnd (F.rnd (twopiD * thetaSecD F jd) / 86400)

/-- `observe.c` 33-35: the ratio of the axes. -/
def ratioD (F : Fl64) : ℚ := F.rnd (6356755 / 6378140)

/-- `observe.c` 77-85 `earth_lat_alt_to_parallax` in `double`: `(rho_cos_phi, rho_sin_phi)`. -/
def parallaxD (F : Fl64) (M : ObsLib) (lat ht : ℚ) : ℚ × ℚ :=
  let u := M.atan (F.rnd (F.rnd (M.sin lat * ratioD F) / M.cos lat))
  let h := F.rnd (ht / 6378140)
  (F.rnd (M.cos u + F.rnd (h * M.cos lat)), F.rnd (F.rnd (ratioD F * M.sin u) + F.rnd (h * M.sin lat)))

/-- `observe.c` 65-74 `observer_cartesian_coords` in `double`, km. -/
def observerD (F : Fl64) (M : ObsLib) (jd lon rc rs : ℚ) : ℚ × ℚ × ℚ :=
  let lmst := F.rnd (lon + thetaGD F jd)
  (F.rnd (F.rnd (F.rnd (M.cos lmst * rc) * 6378140) / 1000), F.rnd (F.rnd (F.rnd (M.sin lmst * rc) * 6378140) / 1000),
    F.rnd (F.rnd (rs * 6378140) / 1000))

end SatSky.Geo
