import Verif.Model.PipeDouble

/-! The separation used without `-H`, in `double` arithmetic. -/

namespace SatSky.Geo

/-- `sat_skymap.c` 828-832, 833-837 in `double`: degrees. -/
def flatSepD (F : Fl64) (M : Libm) (ra dec ra0 dec0 : ℚ) : ℚ :=
  let d := deltaRaD F ra ra0
  let e := F.rnd (dec - dec0)
  F.rnd (M.sqrt (F.rnd (F.rnd (d * d) + F.rnd (e * e))) * r2dD)

/-- `sat_skymap.c` 827-837 and 852 in `double` (without `-H`): whether one of the two directions is within the radius of the target. -/
def inFlatD (F : Fl64) (M : Libm) (tra tdec radius ra dec ra1 dec1 : ℚ) : Bool :=
  decide (flatSepD F M ra dec tra tdec ≤ radius ∨ flatSepD F M ra1 dec1 tra tdec ≤ radius)

end SatSky.Geo
