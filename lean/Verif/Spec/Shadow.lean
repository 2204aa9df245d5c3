import Verif.Spec.Sphere

/-! The shadow of a spherical Earth. -/

namespace SatSky.Spec

/-- The half line from `p` through `q` meets the closed ball of radius `R` around the origin. -/
def RayMeets (R : ℝ) (p q : V3) : Prop := ∃ t : ℝ, 0 ≤ t ∧ (p.add (V3.smul t (q.sub p))).len ≤ R

/-- The segment from `p` to `q` meets the ball. -/
def SegmentMeets (R : ℝ) (p q : V3) : Prop := ∃ t : ℝ, 0 ≤ t ∧ t ≤ 1 ∧ (p.add (V3.smul t (q.sub p))).len ≤ R

end SatSky.Spec
