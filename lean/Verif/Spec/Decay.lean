import Mathlib.Analysis.SpecialFunctions.Pow.Real
import Mathlib.Analysis.Calculus.Deriv.Basic

/-! An orbit that decays, independent of the program. -/

namespace SatSky.Spec

/-- Kepler's third law: the axis that belongs to the mean motion `n` in the field of strength `μ`. -/
noncomputable def axisFor (μ n : ℝ) : ℝ := (μ / n ^ 2) ^ (1 / 3 : ℝ)

/-- At the time `t` the mean motion, the eccentricity and the perigee change by the given rates, functions of axis, mean motion, eccentricity and
perigee. -/
structure DecaysBy (μ : ℝ) (rn re rg : ℝ → ℝ → ℝ → ℝ → ℝ) (n e g : ℝ → ℝ) (t : ℝ) : Prop where
  dn : HasDerivAt n (rn (axisFor μ (n t)) (n t) (e t) (g t)) t
  de : HasDerivAt e (re (axisFor μ (n t)) (n t) (e t) (g t)) t
  dg : HasDerivAt g (rg (axisFor μ (n t)) (n t) (e t) (g t)) t

end SatSky.Spec
