import Mathlib.Analysis.SpecialFunctions.Trigonometric.Basic

/-! Geodetic coordinates on an ellipsoid of rotation with major axis `a` and flattening `f`. -/

namespace SatSky.Spec

open Real

/-- Radius of curvature in the prime vertical at latitude `lat` (radians). -/
noncomputable def primeVertical (a f lat : ℝ) : ℝ := a / sqrt (1 - f * (2 - f) * sin lat ^ 2)

/-- Distance from the axis and height above the equator of the point at latitude `lat` and altitude `h`. -/
noncomputable def geodetic (a f lat h : ℝ) : ℝ × ℝ :=
  ((primeVertical a f lat + h) * cos lat, (primeVertical a f lat * (1 - f) ^ 2 + h) * sin lat)

end SatSky.Spec
