import Mathlib.Data.Real.Basic

/-! Greenwich mean sidereal time, independent of the program. -/

namespace SatSky.Spec

/-- The mean sidereal time at Greenwich in degrees at any instant, as a polynomial of the Julian date in UT (Meeus, Astronomical Algorithms, 12.4; from
the expression of the IAU of 1982). -/
noncomputable def siderealDeg (jd : ℝ) : ℝ :=
  let d := jd - 2451545
  let T := d / 36525
  280.46061837 + 360.98564736629 * d + 0.000387933 * T ^ 2 - T ^ 3 / 38710000

end SatSky.Spec
