import Verif.Model.RateDouble

/-! The density parameters of `sxpx_common_init` in `double` arithmetic. -/

namespace SatSky.Geo

open SatSky

/-- `norad_in.h` 79 in `double`. -/
def radiusD (F : Fl64) : ℚ := F.rnd (6378135 / 1000)

/-- `common.c` 66 in `double`: the height of the perigee in km. -/
def perigeD (F : Fl64) (aodp eo : ℚ) : ℚ := F.rnd (F.rnd (F.rnd (aodp * F.rnd (1 - eo)) - 1) * radiusD F)

/-- `common.c` 71-74 in `double`: `s4` in km for a perigee below 156 km. -/
def sKmD (F : Fl64) (h : ℚ) : ℚ := if h ≤ 98 then 20 else F.rnd (h - 78)

/-- `common.c` 64, 78 and `norad_in.h` 96 in `double` (the factors `ae` are 1). -/
def s4D (F : Fl64) (h : ℚ) : ℚ :=
  if h < 156 then F.rnd (F.rnd (sKmD F h / radiusD F) + 1) else F.rnd (1 + F.rnd (78 / radiusD F))

/-- `common.c` 65, 75-77 and `norad_in.h` 97 in `double`. -/
def qoms24D (F : Fl64) (h : ℚ) : ℚ :=
  if h < 156 then
    let t := F.rnd (F.rnd (120 - sKmD F h) / radiusD F)
    let v := F.rnd (t * t)
    F.rnd (v * v)
  else F.rnd (1880279159015270643865 / 10 ^ 30)

end SatSky.Geo
