import Verif.Model.HealpixDir
import Verif.Model.Geometry

/-!
HEALPix (`HealpixC/chealpix.c`): the functions with vectors, in exact arithmetic.  A `V3` is the `double[3]` of the C code; no caller checks its
length, which is 3 in all signatures.  Division by the length of the zero vector gives a NaN, which is converted to an integer: `none`.
-/

namespace SatSky.Healpix

open SatSky SatSky.Spec

/-- `chealpix.c` 394-400 `ang2vec`. -/
noncomputable def ang2vec (theta phi : ℝ) : V3 :=
  let sz := Real.sin theta
  ⟨sz * Real.cos phi, sz * Real.sin phi, Real.cos theta⟩

/-- `chealpix.c` 402-407 `vec2ang`. -/
noncomputable def vec2ang (v : V3) : ℝ × ℝ :=
  let theta := Geo.atan2 (Real.sqrt (v.x * v.x + v.y * v.y)) v.z
  let phi := Geo.atan2 v.y v.x
  (theta, if phi < 0 then phi + 2 * Real.pi else phi)

/-- `chealpix.c` 430, 435, 844, 851: the length. -/
noncomputable def vlen (v : V3) : ℝ := Real.sqrt (v.x * v.x + v.y * v.y + v.z * v.z)

/-- `chealpix.c` 428-432 `vec2pix_ring`. -/
noncomputable def vec2pix_ring (n : ℤ) (v : V3) : Option ℤ :=
  if vlen v = 0 then none else ang2pixRing exact (signed 31) n (v.z / vlen v) (-5) (Geo.atan2 v.y v.x)

/-- `chealpix.c` 433-437 `vec2pix_nest`. -/
noncomputable def vec2pix_nest (n : ℤ) (v : V3) : Option ℤ :=
  if vlen v = 0 then none else ang2pixNest exact n (v.z / vlen v) (Geo.atan2 v.y v.x)

/-- `chealpix.c` 845-846, 852-853: the sine near the poles. -/
noncomputable def vecSth (v : V3) : ℝ :=
  if |v.z / vlen v| > 99 / 100 then Real.sqrt (v.x * v.x + v.y * v.y) / vlen v else -5

/-- `chealpix.c` 842-848 `vec2pix_ring64`. -/
noncomputable def vec2pix_ring64 (n : ℤ) (v : V3) : Option ℤ :=
  if vlen v = 0 then none else ang2pixRing exact (signed 63) n (v.z / vlen v) (vecSth v) (Geo.atan2 v.y v.x)

/-- `chealpix.c` 849-855 `vec2pix_nest64`. -/
noncomputable def vec2pix_nest64 (n : ℤ) (v : V3) : Option ℤ :=
  if vlen v = 0 then none else ang2pixNest64 exact n (v.z / vlen v) (vecSth v) (Geo.atan2 v.y v.x)

/-- `chealpix.c` 454-457, 463-466, 873-875, 882-884: vector of a height, a distance from the axis and a longitude. -/
noncomputable def cylinder (z stheta phi : ℝ) : V3 := ⟨stheta * Real.cos phi, stheta * Real.sin phi, z⟩

/-- `chealpix.c` 450-458 `pix2vec_ring`. -/
noncomputable def pix2vec_ring (F : Fl64) (R : Root) (n p : ℤ) : Option V3 := do
  let (z, phi) ← pix2angRing exact (signed 31) (isqrt F R) n p
  return cylinder z (Real.sqrt ((1 - z) * (1 + z))) phi

/-- `chealpix.c` 459-467 `pix2vec_nest`. -/
noncomputable def pix2vec_nest (n p : ℤ) : Option V3 := do
  if p < 0 then none
  let (x, y, f) ← nest2xyf n.toNat p.toNat
  let (z, phi) ← xyf2ang exact (signed 31) n x y f
  return cylinder z (Real.sqrt ((1 - z) * (1 + z))) phi

/-- `chealpix.c` 746, 770, 794, 803 and 872, 881: the distance from the axis; as in `theta64` only heights of the caps exceed 0.99. -/
noncomputable def stheta64 (z : ℝ) : ℝ :=
  if |z| > 99 / 100 then Real.sqrt ((1 - |z|) * (2 - (1 - |z|))) else Real.sqrt ((1 - z) * (1 + z))

/-- `chealpix.c` 868-876 `pix2vec_ring64`. -/
noncomputable def pix2vec_ring64 (F : Fl64) (R : Root) (n p : ℤ) : Option V3 := do
  let (z, phi) ← pix2angRing exact (signed 63) (isqrt64 F R) n p
  return cylinder z (stheta64 z) phi

/-- `chealpix.c` 877-885 `pix2vec_nest64`. -/
noncomputable def pix2vec_nest64 (n p : ℤ) : Option V3 := do
  if p < 0 then none
  let (x, y, f) ← nest2xyf64 n.toNat p.toNat
  let (z, phi) ← xyf2ang exact (signed 63) n x y f
  return cylinder z (stheta64 z) phi

end SatSky.Healpix
