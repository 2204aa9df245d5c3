import Verif.Spec.Sphere
import Mathlib.Analysis.SpecialFunctions.Integrals.Basic
import Mathlib.Algebra.Polynomial.Derivative
import Mathlib.Algebra.Polynomial.Eval.Degree

/-! The part of the Earth's gravity that turns with the Earth, along the orbit of a satellite (Kaula, Theory of Satellite Geodesy, chapter 3);
independent of the program. -/

namespace SatSky.Spec

open Polynomial

/-- The Legendre polynomial of degree `l` (formula of Rodrigues). -/
noncomputable def legendre (l : ℕ) : ℝ[X] := C (1 / (2 ^ l * (l.factorial : ℝ))) * derivative^[l] ((X ^ 2 - 1) ^ l)

/-- The spherical harmonic of degree `l` and order `m` with the coefficients `C`, `S` in the direction of the unit vector `v` of a frame fixed to
the Earth: `P_lm(sin φ) (C cos mλ + S sin mλ)`, where `cos^m φ e^(imλ)` is the power of `x + iy`. -/
noncomputable def harmonic (l m : ℕ) (C S : ℝ) (v : V3) : ℝ :=
  (derivative^[m] (legendre l)).eval v.z * (C * ((⟨v.x, v.y⟩ : ℂ) ^ m).re + S * ((⟨v.x, v.y⟩ : ℂ) ^ m).im)

/-- The direction to a satellite whose argument of latitude has the cosine and sine `z.re`, `z.im`, on an orbit of inclination `i` whose node has
the geographic longitude `h`. -/
noncomputable def towards (z : ℂ) (h i : ℝ) : V3 :=
  ⟨Real.cos h * z.re - Real.sin h * Real.cos i * z.im, Real.sin h * z.re + Real.cos h * Real.cos i * z.im, Real.sin i * z.im⟩

/-- Kaula's inclination functions `F_lmp` (his formula 3.62). -/
noncomputable def inclination (l m p : ℕ) (i : ℝ) : ℝ :=
  ∑ t ∈ Finset.range (min p ((l - m) / 2) + 1),
    ((2 * l - 2 * t).factorial : ℝ) / (t.factorial * (l - t).factorial * (l - m - 2 * t).factorial * 2 ^ (2 * l - 2 * t)) *
      Real.sin i ^ (l - m - 2 * t) *
      ∑ s ∈ Finset.range (m + 1), (m.choose s : ℝ) * Real.cos i ^ s *
        ∑ c ∈ Finset.range (p - t + 1), ((l - m - 2 * t + s).choose c : ℝ) * ((m - s).choose (p - t - c) : ℝ) * (-1) ^ (c + (l - m) / 2)

/-- How the coefficients go with the angle of a term (Kaula's formula 3.71). -/
noncomputable def wave (l m : ℕ) (C S ψ : ℝ) : ℝ :=
  if Even (l - m) then C * Real.cos ψ + S * Real.sin ψ else C * Real.sin ψ - S * Real.cos ψ

/-! The ellipse -/

/-- Cosine and sine of the true anomaly as a complex number, for the eccentric anomaly `E`. -/
noncomputable def trueAnomaly (e E : ℝ) : ℂ :=
  ⟨(Real.cos E - e) / (1 - e * Real.cos E), Real.sqrt (1 - e ^ 2) * Real.sin E / (1 - e * Real.cos E)⟩

/-- Mean over a revolution, with respect to the mean anomaly `M = E - e sin E`. -/
noncomputable def overRevolution (e : ℝ) (g : ℝ → ℝ) : ℝ := (∫ E in -Real.pi..Real.pi, g E * (1 - e * Real.cos E)) / (2 * Real.pi)

/-- The eccentricity functions (Hansen's coefficients): mean of `(a/r)^(l+1) cos (k f - j M)`. -/
noncomputable def hansen (l : ℕ) (k j : ℤ) (e : ℝ) : ℝ :=
  overRevolution e fun E => 1 / (1 - e * Real.cos E) ^ (l + 1) *
    (trueAnomaly e E ^ k * Complex.exp (-(j * (E - e * Real.sin E)) * Complex.I)).re

/-- The part `l`, `m` of the potential, averaged over a revolution on the ellipse with semimajor axis `a` (in Earth radii; gravitational
parameter 1); `h M` the longitude of the node when the mean anomaly is `M`, `ω` the argument of perigee. -/
noncomputable def meanTesseral (l m : ℕ) (C S a e i ω : ℝ) (h : ℝ → ℝ) : ℝ :=
  overRevolution e fun E => 1 / (a * (1 - e * Real.cos E)) ^ (l + 1) *
    harmonic l m C S (towards (Complex.exp (ω * Complex.I) * trueAnomaly e E) (h (E - e * Real.sin E)) i)

end SatSky.Spec
