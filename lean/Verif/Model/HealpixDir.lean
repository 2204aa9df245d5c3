import Verif.Model.HealpixAng
import Verif.Model.HealpixNest
import Mathlib.Analysis.SpecialFunctions.Trigonometric.Inverse
import Mathlib.Analysis.SpecialFunctions.Complex.Arg

/-!
HEALPix (`HealpixC/chealpix.c`): the exported functions from directions to pixels and back, in exact arithmetic.
-/

namespace SatSky.Healpix

open SatSky

/-- Exact arithmetic: no rounding, exact constants. -/
noncomputable def exact : Arith ℝ where
  rnd := id
  sqrt := Real.sqrt
  pi := Real.pi
  twopi := 2 * Real.pi
  halfpi := Real.pi / 2
  invHalfpi := 2 / Real.pi
  twothird := 2 / 3

/-- `chealpix.c` 423-427 `ang2pix_nest`.  A colatitude outside `[0, π]` ends the program (`UTIL_ASSERT`): `none`. -/
noncomputable def ang2pix_nest (n : ℤ) (theta phi : ℝ) : Option ℤ :=
  if 0 ≤ theta ∧ theta ≤ Real.pi then ang2pixNest exact n (Real.cos theta) phi else none

/-- `chealpix.c` 418-422 `ang2pix_ring`. -/
noncomputable def ang2pix_ring (n : ℤ) (theta phi : ℝ) : Option ℤ :=
  if 0 ≤ theta ∧ theta ≤ Real.pi then ang2pixRing exact (signed 31) n (Real.cos theta) (-5) phi else none

/-- `chealpix.c` 833, 839: the sine is used near the poles. -/
noncomputable def sth (theta : ℝ) : ℝ := if |Real.cos theta| > 99 / 100 then Real.sin theta else -5

/-- `chealpix.c` 836-841 `ang2pix_nest64`. -/
noncomputable def ang2pix_nest64 (n : ℤ) (theta phi : ℝ) : Option ℤ :=
  if 0 ≤ theta ∧ theta ≤ Real.pi then ang2pixNest64 exact n (Real.cos theta) (sth theta) phi else none

/-- `chealpix.c` 830-835 `ang2pix_ring64`. -/
noncomputable def ang2pix_ring64 (n : ℤ) (theta phi : ℝ) : Option ℤ :=
  if 0 ≤ theta ∧ theta ≤ Real.pi then ang2pixRing exact (signed 63) n (Real.cos theta) (sth theta) phi else none

/-- `chealpix.c` 438-443 `pix2ang_ring`. -/
noncomputable def pix2ang_ring (F : Fl64) (R : Root) (n p : ℤ) : Option (ℝ × ℝ) := do
  let (z, phi) ← pix2angRing exact (signed 31) (isqrt F R) n p
  return (Real.arccos z, phi)

/-- `chealpix.c` 444-449 `pix2ang_nest`. -/
noncomputable def pix2ang_nest (n p : ℤ) : Option (ℝ × ℝ) := do
  if p < 0 then none
  let (x, y, f) ← nest2xyf n.toNat p.toNat
  let (z, phi) ← xyf2ang exact (signed 31) n x y f
  return (Real.arccos z, phi)

/-- `chealpix.c` 746, 770, 794, 803 and 860, 866: near the poles `atan2` of the sine `sqrt(tmp*(2-tmp))`, where `tmp` is
`1-|z|`; only heights of the caps exceed 0.99. -/
noncomputable def theta64 (z : ℝ) : ℝ :=
  if |z| > 99 / 100 then Complex.arg ⟨z, Real.sqrt ((1 - |z|) * (2 - (1 - |z|)))⟩ else Real.arccos z

/-- `chealpix.c` 856-861 `pix2ang_ring64`. -/
noncomputable def pix2ang_ring64 (F : Fl64) (R : Root) (n p : ℤ) : Option (ℝ × ℝ) := do
  let (z, phi) ← pix2angRing exact (signed 63) (isqrt64 F R) n p
  return (theta64 z, phi)

/-- `chealpix.c` 862-867 `pix2ang_nest64`. -/
noncomputable def pix2ang_nest64 (n p : ℤ) : Option (ℝ × ℝ) := do
  if p < 0 then none
  let (x, y, f) ← nest2xyf64 n.toNat p.toNat
  let (z, phi) ← xyf2ang exact (signed 63) n x y f
  return (theta64 z, phi)

end SatSky.Healpix
