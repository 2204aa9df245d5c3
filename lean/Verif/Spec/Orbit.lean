import Mathlib.Analysis.SpecialFunctions.Trigonometric.Basic
import Mathlib.Analysis.Real.Sqrt

/-! Facts of orbital mechanics, independent of the program. -/

namespace SatSky.Spec

/-- Spacetrack Report No. 3, section 6: the original mean motion `n` (radians per minute) and semimajor axis `a` (Earth radii) recovered from
the mean motion `n0`, eccentricity `e` and inclination `i` of a two-line element set; `ke` is the root of the gravitational parameter, `k2`
half of J2. -/
structure Recovered (ke k2 n0 e i n a : ℝ) : Prop where
  ex : ∃ a1 d1 a0 d0 : ℝ, 0 < a1 ∧ a1 ^ 3 * n0 ^ 2 = ke ^ 2 ∧
    d1 * a1 ^ 2 = 3 / 2 * k2 * (3 * Real.cos i ^ 2 - 1) / Real.sqrt (1 - e ^ 2) ^ 3 ∧
    a0 = a1 * (1 - 1 / 3 * d1 - d1 ^ 2 - 134 / 81 * d1 ^ 3) ∧
    d0 * a0 ^ 2 = 3 / 2 * k2 * (3 * Real.cos i ^ 2 - 1) / Real.sqrt (1 - e ^ 2) ^ 3 ∧
    n * (1 + d0) = n0 ∧ a * (1 - d0) = a0

/-- Kepler's equation for the eccentric longitude `E` of an orbit with the eccentricity vector `(x, y)` and the mean longitude `l`, both
measured from the node. -/
def KeplerEq (x y l E : ℝ) : Prop := E - x * Real.sin E + y * Real.cos E = l

end SatSky.Spec
