import Verif.Model.CoefDouble

/-! The coefficient `c4` of `sxpx_common_init` in `double` arithmetic. -/

namespace SatSky.Geo

open SatSky SatSky.Sxp

/-- `common.c` 86 in `double`. -/
def eetaD (F : Fl64) (aodp eo : ℚ) : ℚ := F.rnd (eo * etaD F aodp eo)

/-- `common.c` 96 in `double`: `eta*(2+0.5*etasq)+eo*(0.5+2*etasq)`. -/
def c4FirstD (F : Fl64) (p : RatePar) (eo : ℚ) : ℚ :=
  let etasq := etasqD F p.aodp eo
  F.rnd (F.rnd (etaD F p.aodp eo * F.rnd (2 + F.rnd (1 / 2 * etasq))) + F.rnd (eo * F.rnd (1 / 2 + F.rnd (2 * etasq))))

/-- `common.c` 97-98 in `double`: `-3*x3thm1*(1-2*eeta+etasq*(1.5-0.5*eeta))`. -/
def c4ZonalD (F : Fl64) (p : RatePar) (eo : ℚ) : ℚ :=
  let etasq := etasqD F p.aodp eo
  let eeta := eetaD F p.aodp eo
  F.rnd (F.rnd (-3 * x3thm1D F p) * F.rnd (F.rnd (1 - F.rnd (2 * eeta)) + F.rnd (etasq * F.rnd (3 / 2 - F.rnd (1 / 2 * eeta)))))

/-- `common.c` 98-99 in `double`: `0.75*(1. - cosio2)*(2*etasq-eeta*(1+etasq))*cos(2*omegao)`. -/
def c4PerigeeD (F : Fl64) (M : PowLib) (p : RatePar) (eo omegao : ℚ) : ℚ :=
  let etasq := etasqD F p.aodp eo
  let eeta := eetaD F p.aodp eo
  F.rnd (F.rnd (F.rnd (3 / 4 * F.rnd (1 - p.cosio2)) * F.rnd (F.rnd (2 * etasq) - F.rnd (eeta * F.rnd (1 + etasq)))) * M.cos (F.rnd (2 * omegao)))

/-- `common.c` 96-97 in `double`: `2*ck2*tsi/(aodp*psisq)`. -/
def c4RatioD (F : Fl64) (p : RatePar) (eo : ℚ) : ℚ :=
  F.rnd (F.rnd (F.rnd (2 * ck2D F) * tsiD F p.aodp eo) / F.rnd (p.aodp * psisqD F p.aodp eo))

/-- `common.c` 95 in `double`: `2*xnodp*coef1*aodp*betao2`. -/
def c4UnitD (F : Fl64) (M : PowLib) (p : RatePar) (eo : ℚ) : ℚ :=
  F.rnd (F.rnd (F.rnd (F.rnd (2 * p.xnodp) * coef1D F M p.aodp eo) * p.aodp) * p.betao2)

/-- `common.c` 95-99 in `double`. -/
def c4D (F : Fl64) (M : PowLib) (p : RatePar) (eo omegao : ℚ) : ℚ :=
  F.rnd (c4UnitD F M p eo * F.rnd (c4FirstD F p eo - F.rnd (c4RatioD F p eo * F.rnd (c4ZonalD F p eo + c4PerigeeD F M p eo omegao))))

end SatSky.Geo
