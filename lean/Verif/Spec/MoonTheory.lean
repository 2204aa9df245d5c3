import Verif.Spec.Sphere

/-! Leading terms of the theory of the Moon (ELP as abridged in Meeus, Astronomical Algorithms, chapter 47), independent of the program. -/

namespace SatSky.Spec

/-- A periodic term: multiples of the elongation, of the anomalies of Sun and Moon and of the argument of latitude, and the coefficient (millionths of a
degree, or metres). -/
structure MoonTerm where
  d : ℤ
  m : ℤ
  m' : ℤ
  f : ℤ
  coeff : ℝ

/-- Mean longitude (47.1), degrees, `t` centuries after 2000; the terms linear in the time. -/
noncomputable def moonL (t : ℝ) : ℝ := 218.3164477 + 481267.88123421 * t
/-- Mean elongation (47.2). -/
noncomputable def moonD (t : ℝ) : ℝ := 297.8501921 + 445267.1114034 * t
/-- Mean anomaly of the Sun (47.3). -/
noncomputable def moonM (t : ℝ) : ℝ := 357.5291092 + 35999.0502909 * t
/-- Mean anomaly of the Moon (47.4). -/
noncomputable def moonM' (t : ℝ) : ℝ := 134.9633964 + 477198.8675055 * t
/-- Argument of latitude (47.5). -/
noncomputable def moonF (t : ℝ) : ℝ := 93.2720950 + 483202.0175233 * t

/-- The argument of a term, radians. -/
noncomputable def MoonTerm.arg (x : MoonTerm) (t : ℝ) : ℝ := (x.d * moonD t + x.m * moonM t + x.m' * moonM' t + x.f * moonF t) * (Real.pi / 180)

/-- The six largest terms of the longitude (table 47.A). -/
noncomputable def moonLonTerms : List MoonTerm :=
  [⟨0, 0, 1, 0, 6288774⟩, ⟨2, 0, -1, 0, 1274027⟩, ⟨2, 0, 0, 0, 658314⟩, ⟨0, 0, 2, 0, 213618⟩, ⟨0, 1, 0, 0, -185116⟩, ⟨0, 0, 0, 2, -114332⟩]

/-- The four largest terms of the latitude (table 47.B). -/
noncomputable def moonLatTerms : List MoonTerm :=
  [⟨0, 0, 0, 1, 5128122⟩, ⟨0, 0, 1, 1, 280602⟩, ⟨0, 0, 1, -1, 277693⟩, ⟨2, 0, 0, -1, 173237⟩]

/-- The four largest terms of the distance (table 47.A). -/
noncomputable def moonDistTerms : List MoonTerm :=
  [⟨0, 0, 1, 0, -20905355⟩, ⟨2, 0, -1, 0, -3699111⟩, ⟨2, 0, 0, 0, -2955968⟩, ⟨0, 0, 2, 0, -569925⟩]

/-- Longitude, degrees. -/
noncomputable def moonLon (t : ℝ) : ℝ := moonL t + (moonLonTerms.map fun x => x.coeff * Real.sin (x.arg t)).sum / 1000000
/-- Latitude, degrees. -/
noncomputable def moonLat (t : ℝ) : ℝ := (moonLatTerms.map fun x => x.coeff * Real.sin (x.arg t)).sum / 1000000
/-- Distance, metres. -/
noncomputable def moonDist (t : ℝ) : ℝ := 385000560 + (moonDistTerms.map fun x => x.coeff * Real.cos (x.arg t)).sum

end SatSky.Spec
