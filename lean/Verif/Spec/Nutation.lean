import Mathlib.Analysis.SpecialFunctions.Trigonometric.Basic

/-! The nutation theory of the IAU of 1980 (Wahr; table of Seidelmann 1982), independent of the program. -/

namespace SatSky.Spec

/-- One term: the multiples of the mean anomaly of the Moon, the mean anomaly of the Sun, the argument of latitude of the Moon, its elongation from the
Sun and the longitude of its node; the coefficient of the sine in longitude and its change per century, that of the cosine in obliquity and its
change (0.0001 arcsecond; the changes 0.00001). -/
structure NutTerm where
  k : Fin 5 → ℤ
  lon : ℤ
  lonT : ℤ
  obl : ℤ
  oblT : ℤ

/-- The 106 terms. -/
def iau1980 : List NutTerm := [
  ⟨![0, 0, 0, 0, 1], -171996, -1742, 92025, 89⟩,
  ⟨![0, 0, 0, 0, 2], 2062, 2, -895, 5⟩,
  ⟨![-2, 0, 2, 0, 1], 46, 0, -24, 0⟩,
  ⟨![2, 0, -2, 0, 0], 11, 0, 0, 0⟩,
  ⟨![-2, 0, 2, 0, 2], -3, 0, 1, 0⟩,
  ⟨![1, -1, 0, -1, 0], -3, 0, 0, 0⟩,
  ⟨![0, -2, 2, -2, 1], -2, 0, 1, 0⟩,
  ⟨![2, 0, -2, 0, 1], 1, 0, 0, 0⟩,
  ⟨![0, 0, 2, -2, 2], -13187, -16, 5736, -31⟩,
  ⟨![0, 1, 0, 0, 0], 1426, -34, 54, -1⟩,
  ⟨![0, 1, 2, -2, 2], -517, 12, 224, -6⟩,
  ⟨![0, -1, 2, -2, 2], 217, -5, -95, 3⟩,
  ⟨![0, 0, 2, -2, 1], 129, 1, -70, 0⟩,
  ⟨![2, 0, 0, -2, 0], 48, 0, 1, 0⟩,
  ⟨![0, 0, 2, -2, 0], -22, 0, 0, 0⟩,
  ⟨![0, 2, 0, 0, 0], 17, -1, 0, 0⟩,
  ⟨![0, 1, 0, 0, 1], -15, 0, 9, 0⟩,
  ⟨![0, 2, 2, -2, 2], -16, 1, 7, 0⟩,
  ⟨![0, -1, 0, 0, 1], -12, 0, 6, 0⟩,
  ⟨![-2, 0, 0, 2, 1], -6, 0, 3, 0⟩,
  ⟨![0, -1, 2, -2, 1], -5, 0, 3, 0⟩,
  ⟨![2, 0, 0, -2, 1], 4, 0, -2, 0⟩,
  ⟨![0, 1, 2, -2, 1], 4, 0, -2, 0⟩,
  ⟨![1, 0, 0, -1, 0], -4, 0, 0, 0⟩,
  ⟨![2, 1, 0, -2, 0], 1, 0, 0, 0⟩,
  ⟨![0, 0, -2, 2, 1], 1, 0, 0, 0⟩,
  ⟨![0, 1, -2, 2, 0], -1, 0, 0, 0⟩,
  ⟨![0, 1, 0, 0, 2], 1, 0, 0, 0⟩,
  ⟨![-1, 0, 0, 1, 1], 1, 0, 0, 0⟩,
  ⟨![0, 1, 2, -2, 0], -1, 0, 0, 0⟩,
  ⟨![0, 0, 2, 0, 2], -2274, -2, 977, -5⟩,
  ⟨![1, 0, 0, 0, 0], 712, 1, -7, 0⟩,
  ⟨![0, 0, 2, 0, 1], -386, -4, 200, 0⟩,
  ⟨![1, 0, 2, 0, 2], -301, 0, 129, -1⟩,
  ⟨![1, 0, 0, -2, 0], -158, 0, -1, 0⟩,
  ⟨![-1, 0, 2, 0, 2], 123, 0, -53, 0⟩,
  ⟨![0, 0, 0, 2, 0], 63, 0, -2, 0⟩,
  ⟨![1, 0, 0, 0, 1], 63, 1, -33, 0⟩,
  ⟨![-1, 0, 0, 0, 1], -58, -1, 32, 0⟩,
  ⟨![-1, 0, 2, 2, 2], -59, 0, 26, 0⟩,
  ⟨![1, 0, 2, 0, 1], -51, 0, 27, 0⟩,
  ⟨![0, 0, 2, 2, 2], -38, 0, 16, 0⟩,
  ⟨![2, 0, 0, 0, 0], 29, 0, -1, 0⟩,
  ⟨![1, 0, 2, -2, 2], 29, 0, -12, 0⟩,
  ⟨![2, 0, 2, 0, 2], -31, 0, 13, 0⟩,
  ⟨![0, 0, 2, 0, 0], 26, 0, -1, 0⟩,
  ⟨![-1, 0, 2, 0, 1], 21, 0, -10, 0⟩,
  ⟨![-1, 0, 0, 2, 1], 16, 0, -8, 0⟩,
  ⟨![1, 0, 0, -2, 1], -13, 0, 7, 0⟩,
  ⟨![-1, 0, 2, 2, 1], -10, 0, 5, 0⟩,
  ⟨![1, 1, 0, -2, 0], -7, 0, 0, 0⟩,
  ⟨![0, 1, 2, 0, 2], 7, 0, -3, 0⟩,
  ⟨![0, -1, 2, 0, 2], -7, 0, 3, 0⟩,
  ⟨![1, 0, 2, 2, 2], -8, 0, 3, 0⟩,
  ⟨![1, 0, 0, 2, 0], 6, 0, 0, 0⟩,
  ⟨![2, 0, 2, -2, 2], 6, 0, -3, 0⟩,
  ⟨![0, 0, 0, 2, 1], -6, 0, 3, 0⟩,
  ⟨![0, 0, 2, 2, 1], -7, 0, 3, 0⟩,
  ⟨![1, 0, 2, -2, 1], 6, 0, -3, 0⟩,
  ⟨![0, 0, 0, -2, 1], -5, 0, 3, 0⟩,
  ⟨![1, -1, 0, 0, 0], 5, 0, 0, 0⟩,
  ⟨![2, 0, 2, 0, 1], -5, 0, 3, 0⟩,
  ⟨![0, 1, 0, -2, 0], -4, 0, 0, 0⟩,
  ⟨![1, 0, -2, 0, 0], 4, 0, 0, 0⟩,
  ⟨![0, 0, 0, 1, 0], -4, 0, 0, 0⟩,
  ⟨![1, 1, 0, 0, 0], -3, 0, 0, 0⟩,
  ⟨![1, 0, 2, 0, 0], 3, 0, 0, 0⟩,
  ⟨![1, -1, 2, 0, 2], -3, 0, 1, 0⟩,
  ⟨![-1, -1, 2, 2, 2], -3, 0, 1, 0⟩,
  ⟨![-2, 0, 0, 0, 1], -2, 0, 1, 0⟩,
  ⟨![3, 0, 2, 0, 2], -3, 0, 1, 0⟩,
  ⟨![0, -1, 2, 2, 2], -3, 0, 1, 0⟩,
  ⟨![1, 1, 2, 0, 2], 2, 0, -1, 0⟩,
  ⟨![-1, 0, 2, -2, 1], -2, 0, 1, 0⟩,
  ⟨![2, 0, 0, 0, 1], 2, 0, -1, 0⟩,
  ⟨![1, 0, 0, 0, 2], -2, 0, 1, 0⟩,
  ⟨![3, 0, 0, 0, 0], 2, 0, 0, 0⟩,
  ⟨![0, 0, 2, 1, 2], 2, 0, -1, 0⟩,
  ⟨![-1, 0, 0, 0, 2], 1, 0, -1, 0⟩,
  ⟨![1, 0, 0, -4, 0], -1, 0, 0, 0⟩,
  ⟨![-2, 0, 2, 2, 2], 1, 0, -1, 0⟩,
  ⟨![-1, 0, 2, 4, 2], -2, 0, 1, 0⟩,
  ⟨![2, 0, 0, -4, 0], -1, 0, 0, 0⟩,
  ⟨![1, 1, 2, -2, 2], 1, 0, -1, 0⟩,
  ⟨![1, 0, 2, 2, 1], -1, 0, 1, 0⟩,
  ⟨![-2, 0, 2, 4, 2], -1, 0, 1, 0⟩,
  ⟨![-1, 0, 4, 0, 2], 1, 0, 0, 0⟩,
  ⟨![1, -1, 0, -2, 0], 1, 0, 0, 0⟩,
  ⟨![2, 0, 2, -2, 1], 1, 0, -1, 0⟩,
  ⟨![2, 0, 2, 2, 2], -1, 0, 0, 0⟩,
  ⟨![1, 0, 0, 2, 1], -1, 0, 0, 0⟩,
  ⟨![0, 0, 4, -2, 2], 1, 0, 0, 0⟩,
  ⟨![3, 0, 2, -2, 2], 1, 0, 0, 0⟩,
  ⟨![1, 0, 2, -2, 0], -1, 0, 0, 0⟩,
  ⟨![0, 1, 2, 0, 1], 1, 0, 0, 0⟩,
  ⟨![-1, -1, 0, 2, 1], 1, 0, 0, 0⟩,
  ⟨![0, 0, -2, 0, 1], -1, 0, 0, 0⟩,
  ⟨![0, 0, 2, -1, 2], -1, 0, 0, 0⟩,
  ⟨![0, 1, 0, 2, 0], -1, 0, 0, 0⟩,
  ⟨![1, 0, -2, -2, 0], -1, 0, 0, 0⟩,
  ⟨![0, -1, 2, 0, 1], -1, 0, 0, 0⟩,
  ⟨![1, 1, 0, -2, 1], -1, 0, 0, 0⟩,
  ⟨![1, 0, -2, 2, 0], -1, 0, 0, 0⟩,
  ⟨![2, 0, 0, 2, 0], 1, 0, 0, 0⟩,
  ⟨![0, 0, 2, 4, 2], -1, 0, 0, 0⟩,
  ⟨![0, 1, 0, 1, 0], 1, 0, 0, 0⟩]

/-- The angle of a combination. -/
def combo (k : Fin 5 → ℤ) (a : Fin 5 → ℝ) : ℝ := k 0 * a 0 + k 1 * a 1 + k 2 * a 2 + k 3 * a 3 + k 4 * a 4

/-- Nutation in longitude, in arcseconds, for the five arguments `a` and the time `t` in centuries. -/
noncomputable def nutLon (a : Fin 5 → ℝ) (t : ℝ) : ℝ := (iau1980.map fun x => (x.lon + x.lonT / 10 * t) * Real.sin (combo x.k a)).sum / 10 ^ 4

/-- Nutation in obliquity. -/
noncomputable def nutObl (a : Fin 5 → ℝ) (t : ℝ) : ℝ := (iau1980.map fun x => (x.obl + x.oblT / 10 * t) * Real.cos (combo x.k a)).sum / 10 ^ 4

/-- An arcsecond in radians. -/
noncomputable def arcsec : ℝ := Real.pi / 648000

/-- The five arguments of the theory: arcseconds and whole turns (1296000 arcseconds) per century. -/
noncomputable def delaunay (t : ℝ) : Fin 5 → ℝ :=
  ![(485866.733 + (1325 * 1296000 + 715922.633) * t + 31.310 * t ^ 2 + 0.064 * t ^ 3) * arcsec,
    (1287099.804 + (99 * 1296000 + 1292581.224) * t - 0.577 * t ^ 2 - 0.012 * t ^ 3) * arcsec,
    (335778.877 + (1342 * 1296000 + 295263.137) * t - 13.257 * t ^ 2 + 0.011 * t ^ 3) * arcsec,
    (1072261.307 + (1236 * 1296000 + 1105601.328) * t - 6.891 * t ^ 2 + 0.019 * t ^ 3) * arcsec,
    (450160.280 - (5 * 1296000 + 482890.539) * t + 7.455 * t ^ 2 + 0.008 * t ^ 3) * arcsec]

end SatSky.Spec
