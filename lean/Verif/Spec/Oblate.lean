import Verif.Spec.ThirdBody
import Mathlib.Analysis.Calculus.Deriv.Basic

/-! The field of the oblate Earth, independent of the program. -/

namespace SatSky.Spec

/-- The derivative of a curve in space, by components. -/
def HasVel (f : ℝ → V3) (v : V3) (t : ℝ) : Prop :=
  HasDerivAt (fun s => (f s).x) v.x t ∧ HasDerivAt (fun s => (f s).y) v.y t ∧ HasDerivAt (fun s => (f s).z) v.z t

/-- The gradient of a function of the position. -/
noncomputable def gradient (U : V3 → ℝ) (p : V3) : V3 :=
  ⟨deriv (fun x => U ⟨x, p.y, p.z⟩) p.x, deriv (fun y => U ⟨p.x, y, p.z⟩) p.y, deriv (fun z => U ⟨p.x, p.y, z⟩) p.z⟩

/-- The gravitational potential of an oblate body of equatorial radius `R`: the point mass and the second zonal harmonic; `2 * k` is `J2`. -/
noncomputable def oblate (μ R k : ℝ) (p : V3) : ℝ := μ / p.len - μ * k * R ^ 2 / p.len ^ 3 * (3 * (p.z / p.len) ^ 2 - 1)

/-- The part of the potential that the second and the fourth zonal harmonic add to the point mass, lengths in units of the equatorial radius. -/
noncomputable def zonal (μ J2 J4 : ℝ) (p : V3) : ℝ :=
  -(μ / p.len ^ 3 * J2 * ((3 * (p.z / p.len) ^ 2 - 1) / 2)) - μ / p.len ^ 5 * J4 * ((35 * (p.z / p.len) ^ 4 - 30 * (p.z / p.len) ^ 2 + 3) / 8)

/-- The distance on an orbit for the true anomaly `v`. -/
noncomputable def conicRadius (a e v : ℝ) : ℝ := a * (1 - e ^ 2) / (1 + e * Real.cos v)

/-- The position for the true anomaly `v`. -/
noncomputable def conicPos (a e i h g v : ℝ) : V3 :=
  ((apse i h g).smul (conicRadius a e v * Real.cos v)).add ((latus i h g).smul (conicRadius a e v * Real.sin v))

/-- The mean of a function of the position over the directions of the perigee in the plane of the orbit and over time: by the law of areas the mean
anomaly changes with the true anomaly at the rate `r ^ 2 / (a ^ 2 √(1 - e ^ 2))`. -/
noncomputable def secularMean (a e i h : ℝ) (F : V3 → ℝ) : ℝ :=
  (∫ v in (0)..(2 * Real.pi), (∫ g in (0)..(2 * Real.pi), F (conicPos a e i h g v)) / (2 * Real.pi) *
    (conicRadius a e v ^ 2 / (a ^ 2 * √(1 - e ^ 2)))) / (2 * Real.pi)

end SatSky.Spec
