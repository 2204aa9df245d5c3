import Verif.Spec.Sphere

/-! The low-precision formulas for the Sun of the Astronomical Almanac (page C24), independent of the program. -/

namespace SatSky.Spec

/-- Mean anomaly of the Sun in degrees, `n` days after JD 2451545.0. -/
noncomputable def almanacAnomaly (n : ℝ) : ℝ := 357.528 + 0.9856003 * n

/-- Ecliptic longitude in degrees: the mean longitude and the equation of centre. -/
noncomputable def almanacLongitude (n : ℝ) : ℝ :=
  280.460 + 0.9856474 * n + 1.915 * Real.sin (almanacAnomaly n * (Real.pi / 180)) + 0.020 * Real.sin (2 * (almanacAnomaly n * (Real.pi / 180)))

/-- Obliquity of the ecliptic in degrees. -/
noncomputable def almanacObliquity (n : ℝ) : ℝ := 23.439 - 0.0000004 * n

/-- The direction (equatorial coordinates) of the point of the ecliptic with the longitude `lon` (degrees), for the obliquity `obl`: the
vector `(cos lon, sin lon, 0)` turned about the first axis. -/
noncomputable def eclipticDir (lon obl : ℝ) : V3 :=
  ⟨Real.cos (lon * (Real.pi / 180)), Real.cos (obl * (Real.pi / 180)) * Real.sin (lon * (Real.pi / 180)),
   Real.sin (obl * (Real.pi / 180)) * Real.sin (lon * (Real.pi / 180))⟩

/-- The direction of the Sun at the Julian date `jd`. -/
noncomputable def sunDir (jd : ℝ) : V3 := eclipticDir (almanacLongitude (jd - 2451545)) (almanacObliquity (jd - 2451545))

end SatSky.Spec
