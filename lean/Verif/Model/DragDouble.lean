import Verif.Model.DensDouble
import Verif.Model.SelectDouble

/-! The drag coefficient of `sxpx_common_init` in `double` arithmetic. -/

namespace SatSky.Geo

open SatSky SatSky.Sxp

/-- `common.c` 83 in `double`. -/
def tsiD (F : Fl64) (aodp eo : ℚ) : ℚ := F.rnd (1 / F.rnd (aodp - s4D F (perigeD F aodp eo)))

/-- `common.c` 84 in `double`. -/
def etaD (F : Fl64) (aodp eo : ℚ) : ℚ := F.rnd (F.rnd (aodp * eo) * tsiD F aodp eo)

/-- `common.c` 85, 87 in `double` (`fabs` is exact). -/
def psisqD (F : Fl64) (aodp eo : ℚ) : ℚ := |F.rnd (1 - F.rnd (etaD F aodp eo * etaD F aodp eo))|

/-- `common.c` 88-89 in `double`. -/
def coefD (F : Fl64) (aodp eo : ℚ) : ℚ :=
  let tsi2 := F.rnd (tsiD F aodp eo * tsiD F aodp eo)
  F.rnd (F.rnd (qoms24D F (perigeD F aodp eo) * tsi2) * tsi2)

/-- `common.c` 90 in `double` (3.5 is a double). -/
def coef1D (F : Fl64) (M : PowLib) (aodp eo : ℚ) : ℚ := F.rnd (coefD F aodp eo / M.pow (psisqD F aodp eo) (7 / 2))

end SatSky.Geo
