import Mathlib.Analysis.SpecialFunctions.Trigonometric.Deriv

/-! The resonance of a satellite with the rotation of the Earth, independent of the program. -/

namespace SatSky.Spec

/-- A term `sin (n·l + k - phase)` of the acceleration, the phase given by its cosine and sine. -/
structure Wave where
  amp : ℝ
  n : ℕ
  k : ℝ
  cosPhase : ℝ
  sinPhase : ℝ

/-- The value of a term at the longitude `l`. -/
noncomputable def Wave.at (w : Wave) (l : ℝ) : ℝ := w.amp * (Real.sin (w.n * l + w.k) * w.cosPhase - Real.cos (w.n * l + w.k) * w.sinPhase)

/-- A sum of terms. -/
noncomputable def waves (ws : List Wave) (l : ℝ) : ℝ := (ws.map (·.at l)).sum

/-- The equations of motion near a resonance: `l` the resonance longitude, `n` the mean motion. -/
structure ResonantMotion (acc : ℝ → ℝ) (fact : ℝ) (l n : ℝ → ℝ) : Prop where
  dl : ∀ t, HasDerivAt l (n t + fact) t
  dn : ∀ t, HasDerivAt n (acc (l t)) t

/-- The same with an acceleration that depends on the time, between the times `-R` and `R`. -/
structure ResonantPath (acc : ℝ → ℝ → ℝ) (fact R : ℝ) (l n : ℝ → ℝ) : Prop where
  dl : ∀ t, |t| ≤ R → HasDerivAt l (n t + fact) t
  dn : ∀ t, |t| ≤ R → HasDerivAt n (acc t (l t)) t

end SatSky.Spec
