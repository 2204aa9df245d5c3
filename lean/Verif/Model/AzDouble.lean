import Verif.Model.AltDouble
import Verif.Model.GeoDouble

/-! The azimuth in `double` arithmetic. -/

namespace SatSky.Geo

open SatSky

/-- `dechalat2alt.c` 57-58 in `double`: into `[0, 360)`. -/
def fold360D (F : Fl64) (a : ℚ) : ℚ :=
  let b := if a < 0 then F.rnd (a + 360) else a
  if b ≥ 360 then F.rnd (b - 360) else b

/-- `dechalat2alt.c` 51 in `double`: the azimuth in radians; `h` and `lat` in radians. -/
def azRadD (F : Fl64) (M : GeoLib) (dec h lat : ℚ) : ℚ :=
  let y := F.rnd (F.rnd (-1 * M.cos dec) * M.sin h)
  let x := F.rnd (F.rnd (M.sin dec * M.cos lat) - F.rnd (F.rnd (M.cos dec * M.cos h) * M.sin lat))
  M.atan2 y x

/-- `dechalat2alt.c` 13-58 in `double`, the azimuth; declination in radians, hour angle in hours, latitude in degrees.  The result is in degrees,
except at the poles (line 43), where it is the hour angle in radians. -/
def azD (F : Fl64) (M : GeoLib) (dec ha latDeg : ℚ) : ℚ :=
  let lat := F.rnd (latDeg * d2rD)
  if ha = 0 then 0
  else
    let h := F.rnd (F.rnd (ha * 15) * d2rD)
    if M.cos lat < F.rnd (1 / 10 ^ 6) then h else fold360D F (F.rnd (azRadD F M dec h lat * r2dD))

/-- `dechalat2alt.c` 53-54 and 60-61 in `double`: `(sinp, cosp)`, given the azimuth `a`; all angles in radians. -/
def parSinCosD (F : Fl64) (M : GeoLib) (a dec h lat : ℚ) : ℚ × ℚ :=
  (F.rnd (F.rnd (F.rnd (-1 * M.sin a) * M.cos lat) / M.cos dec),
    F.rnd (F.rnd (F.rnd (-1 * M.cos a) * M.cos h) - F.rnd (F.rnd (M.sin a * M.sin h) * M.sin lat)))

/-- `dechalat2alt.c` 13-74 in `double`, the parallactic angle in degrees. -/
def parangD (F : Fl64) (M : GeoLib) (dec ha latDeg : ℚ) : ℚ :=
  let lat := F.rnd (latDeg * d2rD)
  if M.cos dec = 0 then (if lat ≥ 0 then 180 else 0)
  else
    let h := F.rnd (F.rnd (ha * 15) * d2rD)
    let p :=
      if ha = 0 then (0, -1)
      else if M.cos lat < F.rnd (1 / 10 ^ 6) then (0, F.rnd (F.rnd (F.rnd (-1 * M.cos h) * M.cos h) - F.rnd (M.sin h * M.sin h)))
      else parSinCosD F M (azRadD F M dec h lat) dec h lat
    F.rnd (M.atan2 p.1 p.2 * r2dD)

end SatSky.Geo
