import Verif.Model.SunDouble
import Verif.Model.SiderealDouble
import Verif.Model.AltDouble
import Verif.Model.ObserverDouble

/-!
What the programs report of the Sun, in `double` arithmetic: the longitude of the place that has it in the zenith and its altitude at the site.

Simplification: `fmod` is exact (so it is in IEEE arithmetic).
-/

namespace SatSky.Geo

/-- `const_def.h` 22 `RAD2HRS`: the `double` nearest to the decimal fraction. -/
def r2hD : ℚ := 2150310427208497 / 2 ^ 49

/-- `sat_skymap.c` 631 and 653-654 in `double`: right ascension in radians, Greenwich time in hours; degrees, East positive. -/
def sunLonD (F : Fl64) (ra gmst : ℚ) : ℚ :=
  let x := fmodD (F.rnd (F.rnd (F.rnd (ra * r2dD) - F.rnd (gmst * 15)) + 360)) 360
  if x > 180 then F.rnd (x - 360) else x

/-- `sat_skymap.c` 634 (as `sat_visibility.c` 495, 841) in `double`: the hour angle in hours. -/
def sunHaD (F : Fl64) (ra lmst : ℚ) : ℚ := F.rnd (lmst - F.rnd (ra * r2hD))

/-- `sat_skymap.c` 631-635 and 653-654 in `double`, from the Julian date and the place in degrees: longitude of the Sun and its altitude.
`n` bounds the passes of the loop in `lmst_hr`.  `none`: NaN or a loop not ended. -/
def sunSkyD (F : Fl64) (M : SunLib) (n : ℕ) (jd lon lat : ℚ) : Option (ℚ × ℚ) :=
  (lmstD F n jd lon).bind fun t =>
    (sunD F M jd).bind fun s =>
      (altD F M.toLibm s.2 (sunHaD F s.1 t.1) lat).map fun a => (sunLonD F s.1 t.2, a)

end SatSky.Geo
