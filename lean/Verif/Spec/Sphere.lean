import Mathlib.Analysis.SpecialFunctions.Trigonometric.Basic
import Mathlib.Geometry.Euclidean.Angle.Unoriented.Basic
import Mathlib.Analysis.InnerProductSpace.PiL2

/-! Directions and positions in space, independent of the program. -/

namespace SatSky.Spec

/-- A position or direction in rectangular coordinates. -/
@[ext] structure V3 where
  x : ℝ
  y : ℝ
  z : ℝ

namespace V3

/-- Sum. -/
def add (a b : V3) : V3 := ⟨a.x + b.x, a.y + b.y, a.z + b.z⟩
/-- Difference. -/
def sub (a b : V3) : V3 := ⟨a.x - b.x, a.y - b.y, a.z - b.z⟩
/-- Multiple. -/
def smul (k : ℝ) (a : V3) : V3 := ⟨k * a.x, k * a.y, k * a.z⟩
/-- Scalar product. -/
def dot (a b : V3) : ℝ := a.x * b.x + a.y * b.y + a.z * b.z
/-- Length. -/
noncomputable def len (a : V3) : ℝ := Real.sqrt (a.dot a)

/-- The vector of the Euclidean space. -/
noncomputable def toE (a : V3) : EuclideanSpace ℝ (Fin 3) := !₂[a.x, a.y, a.z]

end V3

/-- The unit vector with longitude (right ascension) `lon` and latitude (declination) `lat`, in radians. -/
noncomputable def dir (lon lat : ℝ) : V3 :=
  ⟨Real.cos lat * Real.cos lon, Real.cos lat * Real.sin lon, Real.sin lat⟩

/-- The angle between two directions, in radians. -/
noncomputable def angle (a b : V3) : ℝ := InnerProductGeometry.angle a.toE b.toE

/-- Equal up to whole turns of length `m`. -/
def Turns (m a b : ℝ) : Prop := ∃ k : ℤ, a = b + m * k

/-- `w` is the representative of the angle `x` in `(-π, π]`. -/
def Wrapped (w x : ℝ) : Prop := -Real.pi < w ∧ w ≤ Real.pi ∧ Turns (2 * Real.pi) w x

/-- The separation in the (right ascension, declination) plane with the right ascension taken round the circle, in
degrees. -/
def FlatSep (sep ra dec ra0 dec0 : ℝ) : Prop :=
  ∃ w, Wrapped w (ra - ra0) ∧ sep = Real.sqrt (w ^ 2 + (dec - dec0) ^ 2) * (180 / Real.pi)

end SatSky.Spec
