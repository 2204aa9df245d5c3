import Verif.Model.ObserverDouble
import Verif.Model.TopoDouble
import Verif.Model.PrecDouble

/-! From the place of the observer and the position of the satellite to the printed direction, in `double` arithmetic. -/

namespace SatSky.Geo

open SatSky

/-- `sat_skymap.c` 542-546, 780, 800 (with `jdo = jd`) and 816-817 (with `jdo` the end of the interval) in `double`: the observer at `jdo`, the
direction and distance of the satellite at `s`, the precession at `jd`.  Latitude and longitude in radians, height in metres.  `none`: NaN. -/
def positionD (MO : ObsLib) (MD : DirLib Fl64.ieee) (MP : PrecLib) (jdo jd lon lat ht s0 s1 s2 : ℚ) : Option (ℚ × ℚ × ℚ) :=
  let p := parallaxD Fl64.ieee MO lat ht
  let o := observerD Fl64.ieee MO jdo lon p.1 p.2
  (raDecDeltaD Fl64.ieee MD o.1 o.2.1 o.2.2 s0 s1 s2).map fun r =>
    ((precD Fl64.ieee MP jd r.1 r.2.1).1, (precD Fl64.ieee MP jd r.1 r.2.1).2, r.2.2)

/-- `sat_skymap.c` 878 in `double`: the speed, in arcminutes per second.  `none`: NaN, or a division by zero. -/
def speedD (F : Fl64) (M : Libm) (ra dec ra1 dec1 : ℚ) (dt : ℤ) : Option ℚ :=
  if dt = 0 then none else (skysepD F M ra dec ra1 dec1).map fun y => F.rnd (F.rnd (y * 60) / dt)

/-- `sat_skymap.c` 844-845 and 852 in `double` (option `-H`): whether one of the two directions is within the radius of the target.  `none`:
NaN. -/
def inRegionD (F : Fl64) (M : Libm) (tra tdec radius ra dec ra1 dec1 : ℚ) : Option Bool :=
  (skysepD F M tra tdec ra dec).bind fun s => (skysepD F M tra tdec ra1 dec1).map fun s1 => decide (s ≤ radius ∨ s1 ≤ radius)

/-- `sat_skymap.c` 869-871 in `double`: the difference of right ascensions. -/
def deltaRaD (F : Fl64) (ra1 ra : ℚ) : ℚ :=
  let d := F.rnd (F.rnd (ra1 - ra) + twopiD)
  if d > piD then F.rnd (d - twopiD) else d

/-- `sat_skymap.c` 869-876 in `double`: the position angle of the motion, in radians. -/
def motionAngleD (F : Fl64) (M : Libm) (MD : DirLib F) (ra dec ra1 dec1 : ℚ) : ℚ :=
  let y := F.rnd (deltaRaD F ra1 ra * M.cos dec)
  let x := F.rnd (dec1 - dec)
  let pa := MD.atan2 y x
  if pa < 0 then F.rnd (pa + twopiD) else pa

end SatSky.Geo
