import Verif.Model.GetEl
import Verif.Model.DateText

/-!
The time since the epoch of the elements in `double`: from the field of the element set and the date of the request to the argument of
the propagator.
-/

namespace SatSky.Dates

open SatSky GetEl

/-- `get_el.c` 258-261, 267-268, 314-315 in `double`: `sat->epoch` from the two characters of the year, the day of the year and the fraction
in 1e-8 day.  `1e-8` is the `double` nearest to it; `J1900` (2415019.5) and the integers are exact. -/
def epochD (F : Fl64) (c18 c19 : CChar) (day frac : ℤ) : ℚ :=
  let e := F.rnd ((day : ℚ) + F.rnd ((frac : ℚ) * F.rnd (1 / 10 ^ 8)))
  let e := F.rnd (e + 4830039 / 2)
  F.rnd (e + (yearDays (epochYear c18 c19) : ℤ))

/-- `sat_skymap.c` 530: the Julian date. -/
def jdD (F : Fl64) (mjd : ℚ) : ℚ := F.rnd (4800001 / 2 + mjd)

/-- `sat_skymap.c` 771: minutes since the epoch. -/
def sinceD (F : Fl64) (jd epoch : ℚ) : ℚ := F.rnd (F.rnd (jd - epoch) * 1440)

/-- `sat_skymap.c` 809: minutes since the epoch, `delta` seconds later. -/
def laterD (F : Fl64) (since delta : ℚ) : ℚ := F.rnd (since + F.rnd (F.rnd (delta * 1440) / 86400))

end SatSky.Dates
