import Verif.Model.DragDouble

/-! The coefficients `c2` and `c1` of `sxpx_common_init` in `double` arithmetic. -/

namespace SatSky.Geo

open SatSky SatSky.Sxp

/-- `common.c` 85 in `double`. -/
def etasqD (F : Fl64) (aodp eo : ℚ) : ℚ := F.rnd (etaD F aodp eo * etaD F aodp eo)

/-- `common.c` 91 in `double`: `aodp*(1+1.5*etasq+eeta*(4+etasq))` with `eeta` of line 86. -/
def c2FirstD (F : Fl64) (p : RatePar) (eo : ℚ) : ℚ :=
  let etasq := etasqD F p.aodp eo
  let eeta := F.rnd (eo * etaD F p.aodp eo)
  F.rnd (p.aodp * F.rnd (F.rnd (1 + F.rnd (3 / 2 * etasq)) + F.rnd (eeta * F.rnd (4 + etasq))))

/-- `common.c` 92 in `double`: `0.75*ck2*tsi/psisq*x3thm1*(8+3*etasq*(8+etasq))`. -/
def c2SecondD (F : Fl64) (p : RatePar) (eo : ℚ) : ℚ :=
  let etasq := etasqD F p.aodp eo
  F.rnd (F.rnd (F.rnd (F.rnd (F.rnd (3 / 4 * ck2D F) * tsiD F p.aodp eo) / psisqD F p.aodp eo) * x3thm1D F p) *
    F.rnd (8 + F.rnd (F.rnd (3 * etasq) * F.rnd (8 + etasq))))

/-- `common.c` 91-92 in `double`. -/
def c2D (F : Fl64) (M : PowLib) (p : RatePar) (eo : ℚ) : ℚ :=
  F.rnd (F.rnd (coef1D F M p.aodp eo * p.xnodp) * F.rnd (c2FirstD F p eo + c2SecondD F p eo))

/-- `common.c` 93 in `double`. -/
def c1D (F : Fl64) (M : PowLib) (p : RatePar) (eo bstar : ℚ) : ℚ := F.rnd (bstar * c2D F M p eo)

end SatSky.Geo
