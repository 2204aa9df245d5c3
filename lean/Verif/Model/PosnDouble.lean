import Verif.Model.KeplerDouble
import Verif.Model.GeoDouble

/-! The position of `sxpx_posn_vel` in `double` arithmetic. -/

namespace SatSky.Geo

open SatSky

/-- `norad_in.h` 84-85 in `double` (`ae` is 1). -/
def ck2D (F : Fl64) : ℚ := F.rnd (1 / 2 * F.rnd (1082616 / 10 ^ 9))

/-- `common.c` 145, 226 in `double`: `1 - elsq`. -/
def oneElsqD (F : Fl64) (x y : ℚ) : ℚ := F.rnd (1 - F.rnd (F.rnd (x * x) + F.rnd (y * y)))

/-- `common.c` 227 in `double`. -/
def plD (F : Fl64) (a x y : ℚ) : ℚ := F.rnd (a * oneElsqD F x y)

/-- `common.c` 228 in `double`: `r`. -/
def distD (F : Fl64) (M : Libm) (a x y E : ℚ) : ℚ := F.rnd (a * F.rnd (1 - ecosED F M x y E))

/-- `common.c` 231 in `double`: the second use of `temp`. -/
def tempuD (F : Fl64) (M : Libm) (x y E : ℚ) : ℚ := F.rnd (esinED F M x y E / F.rnd (1 + M.sqrt (oneElsqD F x y)))

/-- `common.c` 229, 232 in `double`. -/
def cosuD (F : Fl64) (M : Libm) (a x y E : ℚ) : ℚ :=
  F.rnd (F.rnd (a / distD F M a x y E) * F.rnd (F.rnd (M.cos E - x) + F.rnd (y * tempuD F M x y E)))

/-- `common.c` 229, 233 in `double`. -/
def sinuD (F : Fl64) (M : Libm) (a x y E : ℚ) : ℚ :=
  F.rnd (F.rnd (a / distD F M a x y E) * F.rnd (F.rnd (M.sin E - y) - F.rnd (x * tempuD F M x y E)))

/-- `common.c` 235-236 in `double`: `sin2u` and `cos2u`. -/
def sin2uD (F : Fl64) (s c : ℚ) : ℚ := F.rnd (F.rnd (2 * s) * c)
def cos2uD (F : Fl64) (c : ℚ) : ℚ := F.rnd (F.rnd (F.rnd (2 * c) * c) - 1)

/-- `common.c` 237-238 in `double`: `temp1` and `temp2`. -/
def temp1D (F : Fl64) (pl : ℚ) : ℚ := F.rnd (ck2D F / pl)
def temp2D (F : Fl64) (pl : ℚ) : ℚ := F.rnd (temp1D F pl / pl)

/-- `common.c` 160-163, 241 in `double`: `rk`. -/
def rkD (F : Fl64) (r pl betal cosio cos2u : ℚ) : ℚ :=
  let q := F.rnd (cosio * cosio)
  let x3thm1 := F.rnd (F.rnd (3 * q) - 1)
  let sinio2 := F.rnd (1 - q)
  F.rnd (F.rnd (r * F.rnd (1 - F.rnd (F.rnd (F.rnd (3 / 2 * temp2D F pl) * betal) * x3thm1)))
    + F.rnd (F.rnd (F.rnd (1 / 2 * temp1D F pl) * sinio2) * cos2u))

/-- `common.c` 160-163, 242 in `double`: `uk`. -/
def ukD (F : Fl64) (u pl cosio sin2u : ℚ) : ℚ :=
  F.rnd (u - F.rnd (F.rnd (F.rnd (1 / 4 * temp2D F pl) * F.rnd (F.rnd (7 * F.rnd (cosio * cosio)) - 1)) * sin2u))

/-- `common.c` 243 in `double`: `xnodek`. -/
def nodekD (F : Fl64) (xnode pl cosio sin2u : ℚ) : ℚ := F.rnd (xnode + F.rnd (F.rnd (F.rnd (3 / 2 * temp2D F pl) * cosio) * sin2u))

/-- `common.c` 244 in `double`: `xinck`. -/
def inckD (F : Fl64) (xincl pl cosio sinio cos2u : ℚ) : ℚ :=
  F.rnd (xincl + F.rnd (F.rnd (F.rnd (F.rnd (3 / 2 * temp2D F pl) * cosio) * sinio) * cos2u))

/-- `common.c` 247-262 in `double`: `pos`, km. -/
def orientD (F : Fl64) (M : Libm) (rk uk xnodek xinck : ℚ) : ℚ × ℚ × ℚ :=
  let xmx := F.rnd (-M.sin xnodek * M.cos xinck)
  let xmy := F.rnd (M.cos xnodek * M.cos xinck)
  let ux := F.rnd (F.rnd (xmx * M.sin uk) + F.rnd (M.cos xnodek * M.cos uk))
  let uy := F.rnd (F.rnd (xmy * M.sin uk) + F.rnd (M.sin xnodek * M.cos uk))
  let uz := F.rnd (M.sin xinck * M.sin uk)
  (F.rnd (F.rnd (rk * ux) * F.rnd (6378135 / 1000)), F.rnd (F.rnd (rk * uy) * F.rnd (6378135 / 1000)),
    F.rnd (F.rnd (rk * uz) * F.rnd (6378135 / 1000)))

/-- `common.c` 225-262 in `double`: the position for the eccentric longitude `E` and the eccentricity vector `(x, y)`. -/
def shortPosD (F : Fl64) (M : GeoLib) (a x y xnode xincl cosio sinio E : ℚ) : ℚ × ℚ × ℚ :=
  let pl := plD F a x y
  let c := cosuD F M.toLibm a x y E
  let s := sinuD F M.toLibm a x y E
  let s2 := sin2uD F s c
  let c2 := cos2uD F c
  orientD F M.toLibm (rkD F (distD F M.toLibm a x y E) pl (M.sqrt (oneElsqD F x y)) cosio c2) (ukD F (M.atan2 s c) pl cosio s2)
    (nodekD F xnode pl cosio s2) (inckD F xincl pl cosio sinio c2)

/-- `common.c` 190-262 in `double`: Kepler's equation for the argument `w` of line 146, and the position; `none`: the convergence code. -/
def posnD (F : Fl64) (M : GeoLib) (a x y w ecc xnode xincl cosio sinio : ℚ) : Option (ℚ × ℚ × ℚ) :=
  (keplerD F M.toLibm x y w ecc).map (shortPosD F M a x y xnode xincl cosio sinio)

end SatSky.Geo
