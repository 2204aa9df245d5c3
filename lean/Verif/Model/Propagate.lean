import Verif.Model.Geometry
import Mathlib.Analysis.SpecialFunctions.Pow.Real

/-!
The propagators: the choice of the model, the common initialisation, the near-Earth model SGP4 and the step from mean elements to position
and velocity (`src/basics.c`, `src/common.c`, `src/sgp4.c`), in exact arithmetic.

Simplifications: `double` is read as the real numbers, `pi` as π.  Where the C program would get an infinity or a NaN (division by zero, root
or power of a negative number) the model has the value that Lean gives to the expression; the theorems have hypotheses that exclude this.
-/

namespace SatSky.Sxp

open SatSky.Spec SatSky.Geo

/-- `norad.h` 30-42 `tle_t`: the elements used by the propagators (angles in radians, `xno` in radians per minute). -/
structure Elem where
  epoch : ℝ
  bstar : ℝ
  xincl : ℝ
  xnodeo : ℝ
  eo : ℝ
  omegao : ℝ
  xmo : ℝ
  xno : ℝ
  ephType : ℤ

/-! Constants, `norad_in.h` 73-104. -/

noncomputable def earthRadius : ℝ := 6378135 / 1000
noncomputable def xke : ℝ := 743669161331734132 / 10 ^ 19
noncomputable def xj2 : ℝ := 1082616 / 10 ^ 9
noncomputable def xj4 : ℝ := -(165597 / 10 ^ 11)
noncomputable def ck2 : ℝ := 1 / 2 * xj2
noncomputable def ck4 : ℝ := -(375 / 1000) * xj4
noncomputable def sConst : ℝ := 1 + 78 / earthRadius
noncomputable def qoms2t : ℝ := 1880279159015270643865 / 10 ^ 30
noncomputable def a3ovk2 : ℝ := 253881 / 10 ^ 11 / ck2

/-- `common.c` 32-50 `sxpall_common_init`: the members of `deep_arg_t` that it sets. -/
structure Recov where
  cosio : ℝ
  cosio2 : ℝ
  eosq : ℝ
  betao2 : ℝ
  betao : ℝ
  xnodp : ℝ
  aodp : ℝ

/-- `common.c` 34: the semimajor axis of the given mean motion. -/
noncomputable def a1 (e : Elem) : ℝ := (xke / e.xno) ^ (2 / 3 : ℝ)

/-- `common.c` 44. -/
noncomputable def tval (e : Elem) : ℝ :=
  3 / 2 * ck2 * (3 * (Real.cos e.xincl * Real.cos e.xincl) - 1) / (Real.sqrt (1 - e.eo * e.eo) * (1 - e.eo * e.eo))

/-- `common.c` 45. -/
noncomputable def del1 (e : Elem) : ℝ := tval e / (a1 e * a1 e)

/-- `common.c` 46. -/
noncomputable def ao (e : Elem) : ℝ := a1 e * (1 - del1 e * (1 / 3 + del1 e * (1 + 134 / 81 * del1 e)))

/-- `common.c` 47. -/
noncomputable def delo (e : Elem) : ℝ := tval e / (ao e * ao e)

/-- `common.c` 32-50 `sxpall_common_init`. -/
noncomputable def sxpall_common_init (e : Elem) : Recov where
  cosio := Real.cos e.xincl
  cosio2 := Real.cos e.xincl * Real.cos e.xincl
  eosq := e.eo * e.eo
  betao2 := 1 - e.eo * e.eo
  betao := Real.sqrt (1 - e.eo * e.eo)
  xnodp := e.xno / (1 + delo e)
  aodp := ao e / (1 - delo e)

/-- `basics.c` 48-75 `select_ephemeris`. -/
noncomputable def select_ephemeris (e : Elem) : ℤ :=
  if e.ephType = 104 then 1                                             -- 'h'
  else if e.xno ≤ 0 ∨ e.eo > 1 ∨ e.eo < 0 then -1
  else if e.ephType = 50 ∨ e.ephType = 52 then 0                        -- '2', '4'
  else if e.ephType = 51 ∨ e.ephType = 53 then 1                        -- '3', '5'
  else if 2 * Real.pi / (sxpall_common_init e).xnodp ≥ 225 then 1 else 0

/-- What the callers do with the answer: `if (is_deep) SDP4 else SGP4` (`sat_skymap.c` 771, `sat_visibility.c` 811-818). -/
inductive Propagator where
  | sgp4
  | sdp4
deriving DecidableEq

/-- `sat_skymap.c` 763, 771-777. -/
noncomputable def chosen (e : Elem) : Propagator := if select_ephemeris e ≠ 0 then .sdp4 else .sgp4

/-- `init_t` (`norad_in.h` 66-69) and what `sxpx_common_init` puts into `params` and `deep_arg_t`. -/
structure Init extends Recov where
  s4 : ℝ
  qoms24 : ℝ
  tsi : ℝ
  eta : ℝ
  coef : ℝ
  coef1 : ℝ
  c1 : ℝ
  c4 : ℝ
  sinio : ℝ
  xmdot : ℝ
  omgdot : ℝ
  xnodot : ℝ
  xnodcf : ℝ
  t2cof : ℝ

/-- `common.c` 66: perigee height in km. -/
noncomputable def perige (r : Recov) (eo : ℝ) : ℝ := (r.aodp * (1 - eo) - 1) * earthRadius

/-- `common.c` 64-79: `s4` and `qoms24` as functions of the perigee height. -/
noncomputable def s4Of (h : ℝ) : ℝ :=
  if h < 156 then (if h ≤ 98 then 20 else h - 78) / earthRadius + 1 else sConst
noncomputable def qoms24Of (h : ℝ) : ℝ :=
  if h < 156 then
    let t := (120 - (if h ≤ 98 then 20 else h - 78)) / earthRadius
    t * t * (t * t)
  else qoms2t

/-- `common.c` 101-115: the secular rates of the mean anomaly, the perigee and the node for the field coefficients `k2` and `k4`; the program has
the constants `ck2` and `ck4` there. -/
noncomputable def xmdotOf (k2 : ℝ) (r : Recov) : ℝ :=
  let pinv := 1 / (r.aodp * r.betao2)
  let pinvsq := pinv * pinv
  let temp1 := 3 * k2 * pinvsq * r.xnodp
  let temp2 := temp1 * k2 * pinvsq
  r.xnodp + temp1 * r.betao * (3 * r.cosio2 - 1) / 2 + temp2 * r.betao * (13 - 78 * r.cosio2 + 137 * (r.cosio2 * r.cosio2)) / 16
noncomputable def omgdotOf (k2 k4 : ℝ) (r : Recov) : ℝ :=
  let pinv := 1 / (r.aodp * r.betao2)
  let pinvsq := pinv * pinv
  let temp1 := 3 * k2 * pinvsq * r.xnodp
  let temp2 := temp1 * k2 * pinvsq
  let temp3 := 5 / 4 * k4 * pinvsq * pinvsq * r.xnodp
  let first := -temp1 * (1 - 5 * r.cosio2) / 2
  first + temp2 * (7 - 114 * r.cosio2 + 395 * (r.cosio2 * r.cosio2)) / 16
    + temp3 * (3 - 36 * r.cosio2 + 49 * (r.cosio2 * r.cosio2))
noncomputable def xhdot1Of (k2 : ℝ) (r : Recov) : ℝ :=
  let pinv := 1 / (r.aodp * r.betao2)
  let pinvsq := pinv * pinv
  let temp1 := 3 * k2 * pinvsq * r.xnodp
  let xhdot1 := -temp1 * r.cosio
  xhdot1
noncomputable def xnodotOf (k2 k4 : ℝ) (r : Recov) : ℝ :=
  let pinv := 1 / (r.aodp * r.betao2)
  let pinvsq := pinv * pinv
  let temp2 := 3 * k2 * pinvsq * r.xnodp * k2 * pinvsq
  let temp3 := 5 / 4 * k4 * pinvsq * pinvsq * r.xnodp
  xhdot1Of k2 r + (temp2 * (4 - 19 * r.cosio2) / 2 + 2 * temp3 * (3 - 7 * r.cosio2)) * r.cosio

/-- `common.c` 91-92: the coefficient `c2` of the drag for the field coefficient `k2`; the program has the constant `ck2` there. -/
noncomputable def c2Of (k2 : ℝ) (r : Recov) (eo tsi coef1 : ℝ) : ℝ :=
  let x3thm1 := 3 * r.cosio2 - 1
  let eta := r.aodp * eo * tsi
  let etasq := eta * eta
  let eeta := eo * eta
  let psisq := |1 - etasq|
  coef1 * r.xnodp * (r.aodp * (1 + 3 / 2 * etasq + eeta * (4 + etasq))
    + 3 / 4 * k2 * tsi / psisq * x3thm1 * (8 + 3 * etasq * (8 + etasq)))

/-- `common.c` 95-99: the coefficient `c4` of the drag, likewise. -/
noncomputable def c4Of (k2 : ℝ) (r : Recov) (eo omegao tsi coef1 : ℝ) : ℝ :=
  let x3thm1 := 3 * r.cosio2 - 1
  let eta := r.aodp * eo * tsi
  let etasq := eta * eta
  let eeta := eo * eta
  let psisq := |1 - etasq|
  2 * r.xnodp * coef1 * r.aodp * r.betao2 *
    (eta * (2 + 1 / 2 * etasq) + eo * (1 / 2 + 2 * etasq) - 2 * k2 * tsi / (r.aodp * psisq) *
      (-3 * x3thm1 * (1 - 2 * eeta + etasq * (3 / 2 - 1 / 2 * eeta))
        + 3 / 4 * (1 - r.cosio2) * (2 * etasq - eeta * (1 + etasq)) * Real.cos (2 * omegao)))

/-- `common.c` 52-116 `sxpx_common_init`. -/
noncomputable def sxpx_common_init (e : Elem) : Init :=
  let r := sxpall_common_init e
  let h := perige r e.eo
  let s4 := s4Of h
  let qoms24 := qoms24Of h
  let tsi := 1 / (r.aodp - s4)
  let eta := r.aodp * e.eo * tsi
  let etasq := eta * eta
  let psisq := |1 - etasq|
  let coef := qoms24 * (tsi * tsi) * (tsi * tsi)
  let coef1 := coef / psisq ^ (7 / 2 : ℝ)
  let c1 := e.bstar * c2Of ck2 r e.eo tsi coef1
  let c4 := c4Of ck2 r e.eo e.omegao tsi coef1
  { r with
    s4, qoms24, tsi, eta, coef, coef1, c1, c4
    sinio := Real.sin e.xincl
    xmdot := xmdotOf ck2 r
    omgdot := omgdotOf ck2 ck4 r
    xnodot := xnodotOf ck2 ck4 r
    xnodcf := 7 / 2 * r.betao2 * xhdot1Of ck2 r * c1
    t2cof := 3 / 2 * c1 }

/-- `common.c` 190-221: one correction of the eccentric longitude.  `first`: `i == 0`. -/
noncomputable def keplerStep (axn ayn capu ecc : ℝ) (first : Bool) (epw : ℝ) : ℝ :=
  let ecosE := axn * Real.cos epw + ayn * Real.sin epw
  let esinE := axn * Real.sin epw - ayn * Real.cos epw
  let f := capu - epw + esinE
  let fdot := 1 - ecosE
  let d := f / fdot
  let m := 5 / 4 * |ecc|
  if first = true ∧ d > m then epw + m
  else if first = true ∧ d < -m then epw + -m
  else epw + f / (fdot + 1 / 2 * esinE * d)

/-- `common.c` 200: the residual. -/
noncomputable def keplerRes (axn ayn capu epw : ℝ) : ℝ := capu - epw + (axn * Real.sin epw - ayn * Real.cos epw)

/-- `common.c` 190-223: at most `n` passes; `none`: the loop ends with `i == MAX_KEPLER_ITER`. -/
noncomputable def keplerLoop (axn ayn capu ecc : ℝ) : ℕ → Bool → ℝ → Option ℝ
  | 0, _, _ => none
  | n + 1, first, epw =>
    if |keplerRes axn ayn capu epw| < 1 / 10 ^ 12 then some epw
    else keplerLoop axn ayn capu ecc n false (keplerStep axn ayn capu ecc first epw)

/-- `common.c` 129, 148, 190-223. -/
noncomputable def kepler (axn ayn capu ecc : ℝ) : Option ℝ := keplerLoop axn ayn capu ecc 10 true capu

/-- `common.c` 225-235: distance, and cosine and sine of the argument of latitude, for the eccentric longitude `epw`. -/
noncomputable def shortPrelim (a axn ayn epw : ℝ) : ℝ × ℝ × ℝ :=
  let elsq := axn * axn + ayn * ayn
  let ecosE := axn * Real.cos epw + ayn * Real.sin epw
  let esinE := axn * Real.sin epw - ayn * Real.cos epw
  let r := a * (1 - ecosE)
  let temp2 := a / r
  let betal := Real.sqrt (1 - elsq)
  let temp := esinE / (1 + betal)
  (r, temp2 * (Real.cos epw - axn + ayn * temp), temp2 * (Real.sin epw - ayn - axn * temp))

/-- `common.c` 265-266: `rdot` and `rfdot`, the radial and the transverse velocity on the unperturbed orbit. -/
noncomputable def shortRates (a axn ayn epw : ℝ) : ℝ × ℝ :=
  let esinE := axn * Real.sin epw - ayn * Real.cos epw
  let r := (shortPrelim a axn ayn epw).1
  (xke * Real.sqrt a * esinE / r, xke * Real.sqrt (a * (1 - (axn * axn + ayn * ayn))) / r)

/-- `common.c` 247-259: the unit vector toward the satellite and the one in the direction of motion, for argument of latitude, node and
inclination. -/
noncomputable def orientU (uk xnodek xinck : ℝ) : V3 :=
  ⟨-Real.sin xnodek * Real.cos xinck * Real.sin uk + Real.cos xnodek * Real.cos uk,
   Real.cos xnodek * Real.cos xinck * Real.sin uk + Real.sin xnodek * Real.cos uk,
   Real.sin xinck * Real.sin uk⟩
noncomputable def orientV (uk xnodek xinck : ℝ) : V3 :=
  ⟨-Real.sin xnodek * Real.cos xinck * Real.cos uk - Real.cos xnodek * Real.sin uk,
   Real.cos xnodek * Real.cos xinck * Real.cos uk - Real.sin xnodek * Real.sin uk,
   Real.sin xinck * Real.cos uk⟩

/-- The arguments of `sxpx_posn_vel`. -/
structure Mean where
  xnode : ℝ
  a : ℝ
  ecc : ℝ
  cosio : ℝ
  sinio : ℝ
  xincl : ℝ
  omega : ℝ
  xl : ℝ

/-- `common.c` 137-146: `axn`, `ayn` and `capu`. -/
noncomputable def Mean.axn (m : Mean) : ℝ := m.ecc * Real.cos m.omega
noncomputable def Mean.temp (m : Mean) : ℝ := 1 / (m.a * (1 - m.ecc * m.ecc))
noncomputable def Mean.ayn (m : Mean) : ℝ := m.ecc * Real.sin m.omega + m.temp * (1 / 4 * a3ovk2 * m.sinio)
noncomputable def Mean.capu (m : Mean) : ℝ :=
  centralize_angle (m.xl + m.temp * (1 / 8 * a3ovk2 * m.sinio * (3 + 5 * m.cosio) / (1 + m.cosio)) * m.axn - m.xnode)

/-- `common.c` 225-279: position (km) and velocity (km/min) for the eccentric longitude `epw`, with the field coefficient
`k2` (the program has the constant `ck2` there) and the components `axn`, `ayn` of the eccentricity. -/
noncomputable def posVelOf (k2 axn ayn : ℝ) (m : Mean) (epw : ℝ) : V3 × V3 :=
  let cosio2 := m.cosio * m.cosio
  let x3thm1 := 3 * cosio2 - 1
  let sinio2 := 1 - cosio2
  let x7thm1 := 7 * cosio2 - 1
  let elsq := axn * axn + ayn * ayn
  let pl := m.a * (1 - elsq)
  let betal := Real.sqrt (1 - elsq)
  let (r, cosu, sinu) := shortPrelim m.a axn ayn epw
  let u := atan2 sinu cosu
  let sin2u := 2 * sinu * cosu
  let cos2u := 2 * cosu * cosu - 1
  let temp1 := k2 / pl
  let temp2 := temp1 / pl
  let rk := r * (1 - 3 / 2 * temp2 * betal * x3thm1) + 1 / 2 * temp1 * sinio2 * cos2u
  let uk := u - 1 / 4 * temp2 * x7thm1 * sin2u
  let xnodek := m.xnode + 3 / 2 * temp2 * m.cosio * sin2u
  let xinck := m.xincl + 3 / 2 * temp2 * m.cosio * m.sinio * cos2u
  let U := orientU uk xnodek xinck
  let V := orientV uk xnodek xinck
  let (rdot, rfdot) := shortRates m.a axn ayn epw
  let xn := xke / (m.a * Real.sqrt m.a)
  let rdotk := rdot - xn * temp1 * sinio2 * sin2u
  let rfdotk := rfdot + xn * temp1 * (sinio2 * cos2u + 3 / 2 * x3thm1)
  (⟨rk * U.x * earthRadius, rk * U.y * earthRadius, rk * U.z * earthRadius⟩,
   ⟨(rdotk * U.x + rfdotk * V.x) * earthRadius, (rdotk * U.y + rfdotk * V.y) * earthRadius,
    (rdotk * U.z + rfdotk * V.z) * earthRadius⟩)

/-- `common.c` 225-279. -/
noncomputable def posVel (m : Mean) (epw : ℝ) : V3 × V3 := posVelOf ck2 m.axn m.ayn m epw

/-- The zero vector. -/
def zero3 : V3 := ⟨0, 0, 0⟩

/-- `common.c` 131-279 `sxpx_posn_vel`: the returned code, `pos` and `vel` (not stored when the caller passes `NULL`). -/
noncomputable def sxpx_posn_vel (m : Mean) : ℤ × V3 × V3 :=
  let elsq := m.axn * m.axn + m.ayn * m.ayn
  let rval : ℤ := if m.a < 0 then -2 else 0
  let rval := if elsq > 1 - 1 / 10 ^ 6 then -1 else rval
  if rval ≠ 0 then (rval, zero3, zero3)
  else
    let rval := if m.a * (1 - m.ecc) < 1 ∧ m.a * (1 + m.ecc) < 1 then -3 else rval
    let rval := if m.a * (1 - m.ecc) < 1 ∨ m.a * (1 + m.ecc) < 1 then -4 else rval
    match kepler m.axn m.ayn m.capu m.ecc with
    | none => (-6, zero3, zero3)
    | some epw => (rval, (posVel m epw).1, (posVel m epw).2)

/-- What `SGP4_init` stores (`sgp4.c` 50-102). -/
structure Sgp4 where
  i : Init
  simple : Prop
  delmo : ℝ
  d2 : ℝ
  d3 : ℝ
  d4 : ℝ
  t3cof : ℝ
  t4cof : ℝ
  t5cof : ℝ
  sinmo : ℝ
  xmcof : ℝ
  omgcof : ℝ
  c5 : ℝ

/-- `sgp4.c` 50-102 `SGP4_init` (the values of the block 73-99 are not used when `simple`). -/
noncomputable def SGP4_init (e : Elem) : Sgp4 :=
  let i := sxpx_common_init e
  let eta := i.aodp * e.eo * i.tsi
  let eeta := e.eo * eta
  let c1sq := i.c1 * i.c1
  let delmo := 1 + eta * Real.cos e.xmo
  let d2 := 4 * i.aodp * i.tsi * c1sq
  let temp := d2 * i.tsi * i.c1 / 3
  let d3 := (17 * i.aodp + i.s4) * temp
  let d4 := 1 / 2 * temp * i.aodp * i.tsi * (221 * i.aodp + 31 * i.s4) * i.c1
  let etasq := eta * eta
  { i
    simple := i.aodp * (1 - e.eo) < 220 / earthRadius + 1
    delmo := delmo * (delmo * delmo)
    d2, d3, d4
    t3cof := d2 + 2 * c1sq
    t4cof := 1 / 4 * (3 * d3 + i.c1 * (12 * d2 + 10 * c1sq))
    t5cof := 1 / 5 * (3 * d4 + 12 * i.c1 * d3 + 6 * d2 * d2 + 15 * c1sq * (2 * d2 + c1sq))
    sinmo := Real.sin e.xmo
    xmcof := if e.eo < 1 / 10 ^ 4 then 0 else -(2 / 3) * i.coef * e.bstar / eeta
    omgcof := if e.eo < 1 / 10 ^ 4 then 0
      else e.bstar * (i.coef * i.tsi * a3ovk2 * i.xnodp * i.sinio / e.eo) * Real.cos e.omegao
    c5 := 2 * i.coef1 * i.aodp * i.betao2 * (1 + 11 / 4 * (etasq + eeta) + eeta * etasq) }

open Classical in
/-- `sgp4.c` 104-147: the mean elements at `tsince` that `SGP4` hands to `sxpx_posn_vel`. -/
noncomputable def sgp4Mean (p : Sgp4) (e : Elem) (tsince : ℝ) : Mean :=
  let eta := p.i.aodp * e.eo * p.i.tsi
  let xmdf := e.xmo + p.i.xmdot * tsince
  let omgadf := e.omegao + p.i.omgdot * tsince
  let xnoddf := e.xnodeo + p.i.xnodot * tsince
  let tsq := tsince * tsince
  let xnode := xnoddf + p.i.xnodcf * tsq
  let tempa := 1 - p.i.c1 * tsince
  let tempe := e.bstar * p.i.c4 * tsince
  let templ := p.i.t2cof * tsq
  let delomg := p.omgcof * tsince
  let delm := 1 + eta * Real.cos xmdf
  let delm := p.xmcof * (delm * delm * delm - p.delmo)
  let temp := delomg + delm
  let tcube := tsq * tsince
  let tfour := tsince * tcube
  let xmp := if p.simple then xmdf else xmdf + temp
  let omega := if p.simple then omgadf else omgadf - temp
  let tempa := if p.simple then tempa else tempa - p.d2 * tsq - p.d3 * tcube - p.d4 * tfour
  let tempe := if p.simple then tempe else tempe + e.bstar * p.c5 * (Real.sin xmp - p.sinmo)
  let templ := if p.simple then templ else templ + p.t3cof * tcube + tfour * (p.t4cof + tsince * p.t5cof)
  let a := p.i.aodp * tempa * tempa
  let ecc := e.eo - tempe
  let ecc := if ecc < 1 / 10 ^ 6 then 1 / 10 ^ 6 else ecc
  { xnode
    a := if tempa < 0 then -a else a
    ecc
    cosio := p.i.cosio
    sinio := p.i.sinio
    xincl := e.xincl
    omega
    xl := xmp + omega + xnode + p.i.xnodp * templ }

/-- `sgp4.c` 104-150 `SGP4`. -/
noncomputable def SGP4 (p : Sgp4) (e : Elem) (tsince : ℝ) : ℤ × V3 × V3 := sxpx_posn_vel (sgp4Mean p e tsince)

end SatSky.Sxp
