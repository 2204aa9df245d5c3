import Mathlib.Analysis.SpecialFunctions.Trigonometric.Basic
import Mathlib.Analysis.SpecialFunctions.Integrals.Basic

/-! Drag on an elliptic orbit, independent of the program: the classical variation of axis and eccentricity by a force against the velocity. -/

namespace SatSky.Spec

/-- An orbit in the field of a point mass: the strength of the field, the semimajor axis and the eccentricity. -/
structure Ellipse where
  μ : ℝ
  a : ℝ
  e : ℝ

/-- The distance for the eccentric anomaly `E`. -/
noncomputable def Ellipse.radius (o : Ellipse) (E : ℝ) : ℝ := o.a * (1 - o.e * Real.cos E)

/-- The cosine of the true anomaly. -/
noncomputable def Ellipse.cosTrue (o : Ellipse) (E : ℝ) : ℝ := (Real.cos E - o.e) / (1 - o.e * Real.cos E)

/-- The speed, from the energy integral. -/
noncomputable def Ellipse.speed (o : Ellipse) (E : ℝ) : ℝ := √(o.μ * (2 / o.radius E - 1 / o.a))

/-- The mean over time: by Kepler's equation the mean anomaly changes with the eccentric anomaly at the rate `1 - e cos E`. -/
noncomputable def Ellipse.timeMean (o : Ellipse) (f : ℝ → ℝ) : ℝ :=
  (∫ E in (0)..(2 * Real.pi), f E * (1 - o.e * Real.cos E)) / (2 * Real.pi)

/-- The rate of the axis when a force slows the satellite down at the rate `δ v ^ 2`, `v` the speed (Gauss's equation for a tangential force; the
energy `-μ / (2 a)` changes at the rate `-δ v ^ 3`). -/
noncomputable def Ellipse.axisRate (o : Ellipse) (δ : ℝ → ℝ) (E : ℝ) : ℝ := -(2 * o.a ^ 2 / o.μ * (δ E * o.speed E ^ 3))

/-- The rate of the eccentricity for the same force (Gauss's equation). -/
noncomputable def Ellipse.eccRate (o : Ellipse) (δ : ℝ → ℝ) (E : ℝ) : ℝ := -(2 * (o.e + o.cosTrue E) * (δ E * o.speed E))

/-- The drag of an atmosphere whose density falls with the fourth power of the distance from the level `s`; `b` is its value where
`(r - s) ^ 4 = q`. -/
noncomputable def Ellipse.powerLaw (o : Ellipse) (b q s : ℝ) (E : ℝ) : ℝ := b * (q / (o.radius E - s) ^ 4)

end SatSky.Spec
