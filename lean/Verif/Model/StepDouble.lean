import Verif.Model.LongDouble

/-! The time step of `SGP4` in `double` arithmetic. -/

namespace SatSky.Geo

open SatSky

/-- What `SGP4` reads (`sgp4.c` 104-149): the fields of `tle` and the stored values of `params` (`sgp4.c` 23-46), as doubles. -/
structure StepPar where
  xmo : ℚ
  omegao : ℚ
  xnodeo : ℚ
  eo : ℚ
  bstar : ℚ
  xmdot : ℚ
  omgdot : ℚ
  xnodot : ℚ
  xnodcf : ℚ
  c1 : ℚ
  c4 : ℚ
  c5 : ℚ
  t2cof : ℚ
  t3cof : ℚ
  t4cof : ℚ
  t5cof : ℚ
  d2 : ℚ
  d3 : ℚ
  d4 : ℚ
  eta : ℚ
  xmcof : ℚ
  delmo : ℚ
  omgcof : ℚ
  sinmo : ℚ
  aodp : ℚ
  xnodp : ℚ
  simple : Bool

/-- `sgp4.c` 113-114, 118 in `double`. -/
def xmdfD (F : Fl64) (p : StepPar) (t : ℚ) : ℚ := F.rnd (p.xmo + F.rnd (p.xmdot * t))
def omgadfD (F : Fl64) (p : StepPar) (t : ℚ) : ℚ := F.rnd (p.omegao + F.rnd (p.omgdot * t))
def tsqD (F : Fl64) (t : ℚ) : ℚ := F.rnd (t * t)

/-- `sgp4.c` 115, 119 in `double`. -/
def xnodeD (F : Fl64) (p : StepPar) (t : ℚ) : ℚ := F.rnd (F.rnd (p.xnodeo + F.rnd (p.xnodot * t)) + F.rnd (p.xnodcf * tsqD F t))

/-- `sgp4.c` 133-134 in `double`. -/
def tcubeD (F : Fl64) (t : ℚ) : ℚ := F.rnd (tsqD F t * t)
def tfourD (F : Fl64) (t : ℚ) : ℚ := F.rnd (t * tcubeD F t)

/-- `sgp4.c` 125-130 in `double`: `temp` of the drag on the mean anomaly and the perigee. -/
def dragD (F : Fl64) (M : Libm) (p : StepPar) (t : ℚ) : ℚ :=
  let delm := F.rnd (1 + F.rnd (p.eta * M.cos (xmdfD F p t)))
  F.rnd (F.rnd (p.omgcof * t) + F.rnd (p.xmcof * F.rnd (F.rnd (F.rnd (delm * delm) * delm) - p.delmo)))

/-- `sgp4.c` 117, 131 in `double`. -/
def xmpD (F : Fl64) (M : Libm) (p : StepPar) (t : ℚ) : ℚ := if p.simple then xmdfD F p t else F.rnd (xmdfD F p t + dragD F M p t)

/-- `sgp4.c` 116, 132 in `double`. -/
def omegaD (F : Fl64) (M : Libm) (p : StepPar) (t : ℚ) : ℚ := if p.simple then omgadfD F p t else F.rnd (omgadfD F p t - dragD F M p t)

/-- `sgp4.c` 120, 135 in `double`. -/
def tempaD (F : Fl64) (p : StepPar) (t : ℚ) : ℚ :=
  let t0 := F.rnd (1 - F.rnd (p.c1 * t))
  if p.simple then t0
  else F.rnd (F.rnd (F.rnd (t0 - F.rnd (p.d2 * tsqD F t)) - F.rnd (p.d3 * tcubeD F t)) - F.rnd (p.d4 * tfourD F t))

/-- `sgp4.c` 121, 136 in `double`. -/
def tempeD (F : Fl64) (M : Libm) (p : StepPar) (t : ℚ) : ℚ :=
  let t0 := F.rnd (F.rnd (p.bstar * p.c4) * t)
  if p.simple then t0
  else F.rnd (t0 + F.rnd (F.rnd (p.bstar * p.c5) * F.rnd (M.sin (xmpD F M p t) - p.sinmo)))

/-- `sgp4.c` 122, 137 in `double`. -/
def templD (F : Fl64) (p : StepPar) (t : ℚ) : ℚ :=
  let t0 := F.rnd (p.t2cof * tsqD F t)
  if p.simple then t0
  else F.rnd (F.rnd (t0 + F.rnd (p.t3cof * tcubeD F t)) + F.rnd (tfourD F t * F.rnd (p.t4cof + F.rnd (t * p.t5cof))))

/-- `sgp4.c` 140, 146-147 in `double`. -/
def sgpAxisD (F : Fl64) (p : StepPar) (t : ℚ) : ℚ :=
  let a := F.rnd (F.rnd (p.aodp * tempaD F p t) * tempaD F p t)
  if tempaD F p t < 0 then -a else a

/-- `sgp4.c` 141-144 in `double` (`ECC_EPS` is 1.e-6). -/
def eccD (F : Fl64) (M : Libm) (p : StepPar) (t : ℚ) : ℚ :=
  let e := F.rnd (p.eo - tempeD F M p t)
  if e < F.rnd (1 / 10 ^ 6) then F.rnd (1 / 10 ^ 6) else e

/-- `sgp4.c` 145 in `double`. -/
def xlD (F : Fl64) (M : Libm) (p : StepPar) (t : ℚ) : ℚ :=
  F.rnd (F.rnd (F.rnd (xmpD F M p t + omegaD F M p t) + xnodeD F p t) + F.rnd (p.xnodp * templD F p t))

end SatSky.Geo
