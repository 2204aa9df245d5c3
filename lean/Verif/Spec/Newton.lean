import Mathlib.Data.Real.Sqrt
import Mathlib.Analysis.SpecialFunctions.Trigonometric.Basic
import Mathlib.Data.Fin.VecNotation
import Mathlib.Algebra.BigOperators.Fin
import Mathlib.Algebra.Module.Pi

/-! Newton's law for a satellite of the Earth under the attraction of Earth, Moon and Sun, in a frame moving with the Earth; independent of the
program.  Metres and seconds. -/

namespace SatSky.Spec

/-- Length of a vector. -/
noncomputable def norm3 (x : Fin 3 → ℝ) : ℝ := √(∑ i, x i ^ 2)

/-- The attraction at `x` of a mass at `c` with the gravitational parameter `gm`. -/
noncomputable def pull (gm : ℝ) (c x : Fin 3 → ℝ) : Fin 3 → ℝ := (gm / norm3 (c - x) ^ 3) • (c - x)

/-- The acceleration relative to the Earth: the attraction of the Earth, and for Moon and Sun the attraction of the satellite less that of the Earth. -/
noncomputable def newton (moon sun x : Fin 3 → ℝ) : Fin 3 → ℝ :=
  pull 3.9860044e14 0 x + (pull 4.902798e12 moon x - pull 4.902798e12 moon 0) + (pull 1.3271243994e20 sun x - pull 1.3271243994e20 sun 0)

/-- The vector with the length `r` and the direction with longitude and latitude in radians. -/
noncomputable def polar (r lon lat : ℝ) : Fin 3 → ℝ := ![r * (Real.cos lat * Real.cos lon), r * (Real.cos lat * Real.sin lon), r * Real.sin lat]

end SatSky.Spec
