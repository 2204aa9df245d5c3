import Verif.Spec.Sphere

/-! Motion on the sky. -/

namespace SatSky.Spec

open Real

/-- `pa` is the position angle (from north through east, in `[0, 2π)`) of the motion from `(ra, dec)` to `(ra1, dec1)` in the tangent plane:
the right ascension is taken round the circle. -/
def PositionAngle (pa ra dec ra1 dec1 : ℝ) : Prop :=
  (0 ≤ pa ∧ pa < 2 * π) ∧
    ∃ w rho : ℝ, Wrapped w (ra1 - ra) ∧ 0 ≤ rho ∧ rho * cos pa = dec1 - dec ∧ rho * sin pa = w * cos dec

/-- Within `radius` degrees of each other on the sphere. -/
def Within (radius : ℝ) (a b : V3) : Prop := angle a b * (180 / π) ≤ radius

end SatSky.Spec
