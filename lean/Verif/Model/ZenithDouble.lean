import Verif.Model.SunSkyDouble
import Verif.Model.SepDouble

/-! Zenith distance and altitude of a satellite as `sat_visibility.c` computes them, in `double` arithmetic. -/

namespace SatSky.Geo

/-- `sat_visibility.c` 856 (as 1000, 1036) in `double`: the right ascension of the zenith, from the local sidereal time in hours. -/
def zenithRaD (F : Fl64) (lmst : ℚ) : ℚ := F.rnd (lmst / r2hD)

/-- `sat_visibility.c` 823, 856 and 883 (as 1018, 1054) in `double`: `sat.ang_sep`, the distance from the zenith in degrees; the latitude in degrees.
`none`: NaN. -/
def zenithSepD (F : Fl64) (M : Libm) (lmst lat ra dec : ℚ) : Option ℚ := skysepD F M (zenithRaD F lmst) (F.rnd (lat * d2rD)) ra dec

/-- `sat_visibility.c` 966-967 (as 932-933, 987-988, 1024-1025, 1060-1061) in `double`: `sat.alt` in degrees.  `none`: NaN. -/
def satAltD (F : Fl64) (M : Libm) (lmst lat ra dec : ℚ) : Option ℚ := altD F M dec (sunHaD F ra lmst) lat

end SatSky.Geo
