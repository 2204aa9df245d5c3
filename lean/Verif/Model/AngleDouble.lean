import Verif.Model.Float

/-! Angle normalisation in `double` arithmetic. -/

namespace SatSky.Geo

open SatSky

/-- `basics.c` 25-32 `FMod2p` in `double`: `fmod` is exact, the sum rounds; `twopi` is the `double` nearest to 2π. -/
def FMod2pD (F : Fl64) (x : ℚ) : ℚ :=
  let twopi : ℚ := 884279719003555 / 2 ^ 47
  let r := x - twopi * truncQ (x / twopi)
  if r < 0 then F.rnd (r + twopi) else r

end SatSky.Geo
