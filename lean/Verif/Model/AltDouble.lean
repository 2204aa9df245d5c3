import Verif.Model.SepDouble

/-! The altitude in `double` arithmetic. -/

namespace SatSky.Geo

open SatSky

/-- `const_def.h` 15: the `double` nearest to the decimal fraction. -/
def d2rD : ℚ := 5030569068109113 / 2 ^ 58

/-- `dechalat2alt.c` 19-49 in `double`: `lat` in radians and `(cosha, coslat, sinlat)`. -/
def altFactorsD (F : Fl64) (M : Libm) (ha lat : ℚ) : ℚ × ℚ × ℚ :=
  if ha = 0 then (1, M.cos lat, M.sin lat)
  else
    let h := F.rnd (F.rnd (ha * 15) * d2rD)
    if M.cos lat < F.rnd (1 / 10 ^ 6) then (M.cos h, 0, if lat < 0 then -1 else 1) else (M.cos h, M.cos lat, M.sin lat)

/-- `dechalat2alt.c` 80 in `double`: the argument of `asin`. -/
def sinAltD (F : Fl64) (M : Libm) (dec ha lat : ℚ) : ℚ :=
  let f := altFactorsD F M ha lat
  F.rnd (F.rnd (F.rnd (M.cos dec * f.1) * f.2.1) + F.rnd (M.sin dec * f.2.2))

/-- `dechalat2alt.c` 13-81 in `double`, the altitude; declination in radians, hour angle in hours, latitude in degrees, result in degrees.
`none`: NaN, since the argument of `asin` is outside `[-1, 1]`. -/
def altD (F : Fl64) (M : Libm) (dec ha latDeg : ℚ) : Option ℚ :=
  let lat := F.rnd (latDeg * d2rD)
  if |F.rnd (dec - lat)| < F.rnd (1 / 10 ^ 6) then some 90
  else if |sinAltD F M dec ha lat| ≤ 1 then some (F.rnd (r2dD * M.asin (sinAltD F M dec ha lat))) else none

end SatSky.Geo
