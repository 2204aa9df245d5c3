import Verif.Model.PosnDouble

/-! The long-period terms of `sxpx_posn_vel` in `double` arithmetic. -/

namespace SatSky.Geo

open SatSky

/-- `norad_in.h` 78, 83-85, 101 in `double` (`ae` is 1). -/
def a3ovk2D (F : Fl64) : ℚ := F.rnd (F.rnd (253881 / 10 ^ 11) / ck2D F)

/-- `common.c` 137 in `double`. -/
def axnD (F : Fl64) (M : Libm) (ecc omega : ℚ) : ℚ := F.rnd (ecc * M.cos omega)

/-- `common.c` 138 in `double`: the first use of `temp`. -/
def ltempD (F : Fl64) (a ecc : ℚ) : ℚ := F.rnd (1 / F.rnd (a * F.rnd (1 - F.rnd (ecc * ecc))))

/-- `common.c` 139 in `double`. -/
def xlcofD (F : Fl64) (cosio sinio : ℚ) : ℚ :=
  F.rnd (F.rnd (F.rnd (F.rnd (1 / 8 * a3ovk2D F) * sinio) * F.rnd (3 + F.rnd (5 * cosio))) / F.rnd (1 + cosio))

/-- `common.c` 140, 142, 144 in `double`. -/
def aynD (F : Fl64) (M : Libm) (a ecc sinio omega : ℚ) : ℚ :=
  F.rnd (F.rnd (ecc * M.sin omega) + F.rnd (ltempD F a ecc * F.rnd (F.rnd (1 / 4 * a3ovk2D F) * sinio)))

/-- `common.c` 141, 143, 146 in `double`: the argument of `centralize_angle`. -/
def longD (F : Fl64) (M : Libm) (xnode a ecc cosio sinio omega xl : ℚ) : ℚ :=
  F.rnd (F.rnd (xl + F.rnd (F.rnd (ltempD F a ecc * xlcofD F cosio sinio) * axnD F M ecc omega)) - xnode)

/-- `common.c` 131-262 `sxpx_posn_vel` in `double`: the position from its arguments; `none`: the convergence code.  The refusals of lines 173-184
and the velocity are not in this definition. -/
def sxpxPosD (F : Fl64) (M : GeoLib) (xnode a ecc cosio sinio xincl omega xl : ℚ) : Option (ℚ × ℚ × ℚ) :=
  posnD F M a (axnD F M.toLibm ecc omega) (aynD F M.toLibm a ecc sinio omega) (longD F M.toLibm xnode a ecc cosio sinio omega xl) ecc xnode xincl cosio sinio

end SatSky.Geo
