import Verif.Model.Propagate

/-!
The propagator SGP (`src/sgp.c`), in exact arithmetic.  It belongs to the library; the two programs do not call it.

Simplifications: those of `Model/Propagate.lean`; the literals `.33333333333333331` and `1.654320987654321` are read as 1/3 and 134/81 (the
`double` values that the compiler stores are those of the fractions).
-/

namespace SatSky.Sgp

open SatSky.Spec SatSky.Geo SatSky.Sxp

/-- `norad.h` 30-42 `tle_t`: the elements with half the rate of the mean motion and a sixth of its second derivative. -/
structure ElemN extends Elem where
  xndt2o : ℝ
  xndd6o : ℝ

/-- `norad_in.h` 78 `xj3`. -/
noncomputable def xj3 : ℝ := -(253881 / 10 ^ 11)

/-- `sgp.c` 22-32: what `SGP_init` stores. -/
structure SgpPar where
  ao : ℝ
  qo : ℝ
  xlo : ℝ
  d1o : ℝ
  d2o : ℝ
  d3o : ℝ
  d4o : ℝ
  omgdt : ℝ
  xnodot : ℝ
  c5 : ℝ
  c6 : ℝ

/-- `sgp.c` 45-48: the semimajor axis of the orbit whose mean motion is `xno`. -/
noncomputable def aoOf (k2 : ℝ) (e : Elem) : ℝ :=
  let cosio := Real.cos e.xincl
  let a1 := (xke / e.xno) ^ (2 / 3 : ℝ)
  let d1 := k2 * (3 / 2) / a1 / a1 * (cosio * 3 * cosio - 1) / (1 - e.eo * e.eo) ^ (3 / 2 : ℝ)
  a1 * (1 - d1 * (1 / 3) - d1 * d1 - d1 * (134 / 81) * d1 * d1)

/-- `sgp.c` 34-61 `SGP_init` for the field coefficients `k2` and `j3`; the program has the constants `ck2` and `xj3` there. -/
noncomputable def SGP_initOf (k2 j3 : ℝ) (e : Elem) : SgpPar :=
  let c1 := k2 * (3 / 2)
  let c2 := k2 / 4
  let c3 := k2 / 2
  let c4 := j3 / (k2 * 4)
  let cosio := Real.cos e.xincl
  let sinio := Real.sin e.xincl
  let ao := aoOf k2 e
  let po := ao * (1 - e.eo * e.eo)
  let d3o := c1 * cosio
  let po2no := e.xno / (po * po)
  { ao
    qo := ao * (1 - e.eo)
    xlo := e.xmo + e.omegao + e.xnodeo
    d1o := c3 * sinio * sinio
    d2o := c2 * (cosio * 7 * cosio - 1)
    d3o
    d4o := d3o * sinio
    omgdt := c1 * po2no * (cosio * 5 * cosio - 1)
    xnodot := d3o * (-2) * po2no
    c5 := c4 * (1 / 2) * sinio * (cosio * 5 + 3) / (cosio + 1)
    c6 := c4 * sinio }

/-- `sgp.c` 34-61 `SGP_init`. -/
noncomputable def SGP_init (e : Elem) : SgpPar := SGP_initOf ck2 xj3 e

/-- `sgp.c` 80: the mean motion at `t`. -/
noncomputable def motionAt (e : ElemN) (t : ℝ) : ℝ := e.xno + (e.xndt2o * 2 + e.xndd6o * 3 * t) * t

/-- `sgp.c` 96: the semimajor axis at `t`. -/
noncomputable def axisAt (p : SgpPar) (e : ElemN) (t : ℝ) : ℝ := p.ao * (e.xno / motionAt e t) ^ (2 / 3 : ℝ)

/-- `sgp.c` 83, 101: the eccentricity for the semimajor axis `a`. -/
noncomputable def eccOf (p : SgpPar) (a : ℝ) : ℝ := if a > p.qo then 1 - p.qo / a else 1 / 10 ^ 6

/-- `sgp.c` 105-106: the mean longitude at `t`. -/
noncomputable def longitudeAt (p : SgpPar) (e : ElemN) (t : ℝ) : ℝ :=
  p.xlo + (e.xno + p.omgdt + p.xnodot + (e.xndt2o + e.xndd6o * t) * t) * t

/-- `sgp.c` 127-130: the correction of the eccentric longitude `eo1`. -/
noncomputable def tem5Of (axn ayn u eo1 : ℝ) : ℝ :=
  let d := 1 - Real.cos eo1 * axn - Real.sin eo1 * ayn
  let tem5 := (u - ayn * Real.cos eo1 + axn * Real.sin eo1 - eo1) / d
  let tem2 := |tem5|
  if tem2 > 1 then tem2 / tem5 else tem5

/-- `sgp.c` 121-133: at most `n + 1` passes; the eccentric longitude whose sine and cosine are used afterwards (after the last pass `eo1` itself
has been corrected once more), and whether the loop was left by `break`. -/
noncomputable def sgpLoop (axn ayn u : ℝ) : ℕ → ℝ → ℝ → ℝ × Bool
  | n, eo1, tem5 =>
    if |tem5| < 1 / 10 ^ 6 then (eo1, true)
    else match n with
      | 0 => (eo1, false)
      | n + 1 => sgpLoop axn ayn u n (eo1 + tem5Of axn ayn u eo1) (tem5Of axn ayn u eo1)

/-- `sgp.c` 118-133. -/
noncomputable def sgpKepler (axn ayn u : ℝ) : ℝ × Bool := sgpLoop axn ayn u 10 u 1

/-- `sgp.c` 136-181: position (km) and velocity (km/min) for the semimajor axis `a`, the components of the eccentricity and the eccentric longitude
`eo1`. -/
noncomputable def sgpPosVel (p : SgpPar) (xincl xnodes a axn ayn eo1 : ℝ) : V3 × V3 :=
  let sineo1 := Real.sin eo1
  let coseo1 := Real.cos eo1
  let ecose := axn * coseo1 + ayn * sineo1
  let esine := axn * sineo1 - ayn * coseo1
  let el2 := axn * axn + ayn * ayn
  let pl := a * (1 - el2)
  let pl2 := pl * pl
  let rr := a * (1 - ecose)
  let rdot := xke * Real.sqrt a / rr * esine
  let rvdot := xke * Real.sqrt pl / rr
  let temp := esine / (Real.sqrt (1 - el2) + 1)
  let sinu := a / rr * (sineo1 - ayn - axn * temp)
  let cosu := a / rr * (coseo1 - axn + ayn * temp)
  let su := atan2 sinu cosu
  let sin2u := (cosu + cosu) * sinu
  let cos2u := 1 - 2 * sinu * sinu
  let rk := rr + p.d1o / pl * cos2u
  let uk := su - p.d2o / pl2 * sin2u
  let xnodek := xnodes + p.d3o * sin2u / pl2
  let xinck := xincl + p.d4o / pl2 * cos2u
  let xmx := -Real.sin xnodek * Real.cos xinck
  let xmy := Real.cos xnodek * Real.cos xinck
  let ux := xmx * Real.sin uk + Real.cos xnodek * Real.cos uk
  let uy := xmy * Real.sin uk + Real.sin xnodek * Real.cos uk
  let uz := Real.sin xinck * Real.sin uk
  let vx := xmx * Real.cos uk - Real.cos xnodek * Real.sin uk
  let vy := xmy * Real.cos uk - Real.sin xnodek * Real.sin uk
  let vz := Real.sin xinck * Real.cos uk
  (⟨rk * ux * earthRadius, rk * uy * earthRadius, rk * uz * earthRadius⟩,
   ⟨(rdot * ux + rvdot * vx) * earthRadius, (rdot * uy + rvdot * vy) * earthRadius, (rdot * uz + rvdot * vz) * earthRadius⟩)

/-- `sgp.c` 102-117: the components of the eccentricity, the argument of latitude of the mean longitude, the node. -/
structure SgpMean where
  a : ℝ
  axn : ℝ
  ayn : ℝ
  u : ℝ
  xnodes : ℝ

/-- `sgp.c` 96-117. -/
noncomputable def sgpMean (p : SgpPar) (e : ElemN) (t : ℝ) : SgpMean :=
  let a := axisAt p e t
  let ecc := eccOf p a
  let pp := a * (1 - ecc * ecc)
  let xnodes := e.xnodeo + p.xnodot * t
  let omgas := e.omegao + p.omgdt * t
  let xls := FMod2p (longitudeAt p e t)
  let axn := ecc * Real.cos omgas
  { a, axn, xnodes
    ayn := ecc * Real.sin omgas - p.c6 / pp
    u := FMod2p (FMod2p (xls - p.c5 / pp * axn) - xnodes) }

/-- `sgp.c` 64-184 `SGP`: the returned code, `pos` and `vel` (not stored when the caller passes `NULL`). -/
noncomputable def SGP (p : SgpPar) (e : ElemN) (t : ℝ) : ℤ × V3 × V3 :=
  let ecc : ℝ := 1 / 10 ^ 6
  let rval : ℤ := if motionAt e t < 0 then -2 else 0
  let rval := if ecc > 1 - 1 / 10 ^ 6 then -1 else rval
  if rval ≠ 0 then (rval, zero3, zero3)
  else
    let m := sgpMean p e t
    let rval := if m.a * (1 - ecc) < 1 ∧ m.a * (1 + ecc) < 1 then -3 else rval
    let rval := if m.a * (1 - ecc) < 1 ∨ m.a * (1 + ecc) < 1 then -4 else rval
    let pv := sgpPosVel p e.xincl m.xnodes m.a m.axn m.ayn (sgpKepler m.axn m.ayn m.u).1
    (rval, pv.1, pv.2)

end SatSky.Sgp
