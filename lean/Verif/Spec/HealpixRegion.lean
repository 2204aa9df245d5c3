import Mathlib.Analysis.SpecialFunctions.Trigonometric.Basic

/-!
The pixels of HEALPix as regions of the sphere: the projection of the sphere to the plane (Calabretta and Roukema 2007, `H = 4`, `K = 3`), the twelve
faces as squares standing on a corner, and the division of a face into equal squares.  Lengths in the plane are in quarter turns at the equator.
-/

namespace SatSky.Spec.Healpix

/-- Of the direction with height `z` and longitude `t` (in quarter turns, `0 ≤ t < 4`): the coordinate along the equator.  In the caps each quarter shrinks
towards its middle. -/
noncomputable def planeX (z t : ℝ) : ℝ :=
  if |z| ≤ 2 / 3 then t else ⌊t⌋ + 1 / 2 + (t - ⌊t⌋ - 1 / 2) * Real.sqrt (3 * (1 - |z|))

/-- The coordinate towards the north pole, which is at 1. -/
noncomputable def planeY (z : ℝ) : ℝ :=
  if |z| ≤ 2 / 3 then 3 / 4 * z else if 0 ≤ z then 1 - Real.sqrt (3 * (1 - |z|)) / 2 else -(1 - Real.sqrt (3 * (1 - |z|)) / 2)

/-- Centre of a face: four in the north, four on the equator, four in the south. -/
noncomputable def faceX (f : ℕ) : ℝ := if f < 4 then f + 1 / 2 else if f < 8 then f - 4 else f - 8 + 1 / 2
/-- The same, towards the north. -/
noncomputable def faceY (f : ℕ) : ℝ := if f < 4 then 1 / 2 else if f < 8 then 0 else -(1 / 2)

/-- The point `(X, Y)` of the plane is in the square `(x, y)` of the `n × n` squares of face `f`, or on its boundary: `x` counts to the north-east, `y` to
the north-west, and the face has the diagonal 1. -/
def InSquare (n x y f : ℕ) (X Y : ℝ) : Prop :=
  (x ≤ n * ((X - faceX f) + (Y - faceY f) + 1 / 2) ∧ n * ((X - faceX f) + (Y - faceY f) + 1 / 2) ≤ x + 1) ∧
  (y ≤ n * ((Y - faceY f) - (X - faceX f) + 1 / 2) ∧ n * ((Y - faceY f) - (X - faceX f) + 1 / 2) ≤ y + 1)

/-- The direction is in the pixel, or on its boundary; the plane is rolled up, four quarter turns round. -/
def InPixel (n x y f : ℕ) (z t : ℝ) : Prop := InSquare n x y f (planeX z t) (planeY z) ∨ InSquare n x y f (planeX z t - 4) (planeY z)

end SatSky.Spec.Healpix
