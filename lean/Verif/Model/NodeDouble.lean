import Verif.Model.CoefDouble

/-! The quadratic drag terms of `sxpx_common_init` in `double` arithmetic. -/

namespace SatSky.Geo

open SatSky SatSky.Sxp

/-- `common.c` 114 in `double`: `3.5*betao2*xhdot1*c1`. -/
def xnodcfD (F : Fl64) (M : PowLib) (p : RatePar) (eo bstar : ℚ) : ℚ :=
  F.rnd (F.rnd (F.rnd (7 / 2 * p.betao2) * xhdot1D F p) * c1D F M p eo bstar)

/-- `common.c` 115 in `double`: `1.5*c1`. -/
def t2cofD (F : Fl64) (M : PowLib) (p : RatePar) (eo bstar : ℚ) : ℚ := F.rnd (3 / 2 * c1D F M p eo bstar)

end SatSky.Geo
