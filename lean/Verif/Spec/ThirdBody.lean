import Verif.Spec.Sphere
import Mathlib.Analysis.SpecialFunctions.Integrals.Basic

/-! The perturbation of an orbit by a distant body, independent of the program. -/

namespace SatSky.Spec

open Real

/-- Direction of the perigee of an orbit with node `h`, inclination `i` and argument of perigee `g`. -/
noncomputable def apse (i h g : ℝ) : V3 :=
  ⟨cos h * cos g - sin h * sin g * cos i, sin h * cos g + cos h * sin g * cos i, sin g * sin i⟩

/-- The direction a quarter of a turn further in the plane of the orbit. -/
noncomputable def latus (i h g : ℝ) : V3 :=
  ⟨-(cos h * sin g) - sin h * cos g * cos i, -(sin h * sin g) + cos h * cos g * cos i, cos g * sin i⟩

/-- The position on an orbit for the eccentric anomaly `E`. -/
noncomputable def orbitPos (a e i h g E : ℝ) : V3 :=
  ((apse i h g).smul (a * (cos E - e))).add ((latus i h g).smul (a * √(1 - e ^ 2) * sin E))

/-- The tidal potential at `r` of a body in the direction `n`; `k` is its mass divided by the cube of its distance, times the gravitational
constant. -/
noncomputable def tide (k : ℝ) (n r : V3) : ℝ := k * (3 * n.dot r ^ 2 - r.dot r) / 2

/-- The mean over time of a function of the position of the satellite: the mean anomaly moves uniformly, and it changes with the eccentric
anomaly at the rate `1 - e cos E`. -/
noncomputable def meanOverOrbit (a e i h g : ℝ) (F : V3 → ℝ) : ℝ := (∫ E in (0)..(2 * π), F (orbitPos a e i h g E) * (1 - e * cos E)) / (2 * π)

/-- The mean over the directions of a body that moves uniformly on a circle in the plane of `p` and `q`. -/
noncomputable def meanOverCircle (p q : V3) (F : V3 → ℝ) : ℝ := (∫ f in (0)..(2 * π), F ((p.smul (cos f)).add (q.smul (sin f)))) / (2 * π)

/-- The potential of a body in the direction `n`, averaged over the orbit of the satellite. -/
noncomputable def potential (k : ℝ) (n : V3) (a e i h g : ℝ) : ℝ := meanOverOrbit a e i h g (tide k n)

/-- The potential averaged over both orbits. -/
noncomputable def meanPotential (k : ℝ) (p q : V3) (a e i h g : ℝ) : ℝ := meanOverCircle p q fun n => potential k n a e i h g

/-- Lagrange's planetary equations: the rates of eccentricity, inclination, node, argument of perigee and mean anomaly (without the mean motion
`n` itself) caused by a potential `R a e i h g`. -/
structure Lagrange (R : ℝ → ℝ → ℝ → ℝ → ℝ → ℝ) (n a e i h g edot idot hdot gdot ldot : ℝ) : Prop where
  differentiable : (DifferentiableAt ℝ (fun x => R x e i h g) a ∧ DifferentiableAt ℝ (fun x => R a x i h g) e ∧
    DifferentiableAt ℝ (fun x => R a e x h g) i ∧ DifferentiableAt ℝ (fun x => R a e i x g) h ∧ DifferentiableAt ℝ (fun x => R a e i h x) g)
  ecc : edot = -(√(1 - e ^ 2) / (n * a ^ 2 * e)) * deriv (fun x => R a e i h x) g
  inc : idot = 1 / (n * a ^ 2 * √(1 - e ^ 2) * sin i) * (cos i * deriv (fun x => R a e i h x) g - deriv (fun x => R a e i x g) h)
  node : hdot = 1 / (n * a ^ 2 * √(1 - e ^ 2) * sin i) * deriv (fun x => R a e x h g) i
  arg : gdot = √(1 - e ^ 2) / (n * a ^ 2 * e) * deriv (fun x => R a x i h g) e - cos i * hdot
  anomaly : ldot = -(2 / (n * a)) * deriv (fun x => R x e i h g) a - (1 - e ^ 2) / (n * a ^ 2 * e) * deriv (fun x => R a x i h g) e

/-- Equatorial coordinates of a vector given in ecliptic coordinates, for the obliquity `ε`. -/
noncomputable def ecliptic (ε : ℝ) (v : V3) : V3 := ⟨v.x, cos ε * v.y - sin ε * v.z, sin ε * v.y + cos ε * v.z⟩

/-- The components differ by at most `d`. -/
def Close (d : ℝ) (v w : V3) : Prop := |v.x - w.x| ≤ d ∧ |v.y - w.y| ≤ d ∧ |v.z - w.z| ≤ d

/-- Degrees. -/
noncomputable def deg (x : ℝ) : ℝ := x * π / 180

end SatSky.Spec
