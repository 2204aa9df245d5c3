import Verif.Model.ObserverDouble

/-! The sidereal angle of the deep-space propagator in `double` arithmetic. -/

namespace SatSky.Geo

open SatSky

/-- `deep.c` 68-79 in `double`: turns.  The polynomial of lines 75-76 is written as in `observe.c` 47; `omega_E` (line 23) is rounded. -/
def deepTurnD (F : Fl64) (jd : ℚ) : ℚ :=
  let ut := fmodD (F.rnd (jd + 1 / 2)) 1
  let t := F.rnd (F.rnd (F.rnd (jd - ut) - 2451545) / 36525)
  let g := fmodD (F.rnd (F.rnd (gmstSecD F t / 86400) + F.rnd (F.rnd (100273790934 / 10 ^ 11) * ut))) 1
  if g < 0 then F.rnd (g + 1) else g

/-- `deep.c` 65-83 `ThetaG` in `double`, radians. -/
def deepThetaD (F : Fl64) (jd : ℚ) : ℚ := F.rnd (twopiD * deepTurnD F jd)

end SatSky.Geo
