import Verif.Model.Propagate

/-!
The deep-space model: `src/deep.c` (initialisation, resonance integration, periodic terms of Sun and Moon) and `SDP4` of `src/sdp4.c`, in exact
arithmetic and with everything that is kept from one call to the next.

Simplifications: as in `Verif/Model/Propagate.lean`.  The compile-time variants (`USE_ACCURATE_ANOMALISTICS`, `SPACETRACK_3`,
`RETAIN_PERTURBATION_VALUES_AT_EPOCH`, `KEEP_INCLINATION_POSITIVE`) are off, as in the Makefile.  The members `sinio` and `cosio` of `deep_arg_t`,
which `SDP4` overwrites (`sdp4.c` 331-332), are not read by later calls and not part of the state.
-/

namespace SatSky.Sxp

open SatSky.Spec SatSky.Geo

/-! ### Settings and constants -/

/-- `deep.c` 96-98: `dpsec_integration_step`, `dpsec_integration_order`, `is_dundee_compliant`; they can be set by 100-117. -/
structure Cfg where
  step : ℝ
  order : ℤ
  dundee : Bool

/-- The values they have in the programs, which never set them. -/
noncomputable def Cfg.initial : Cfg := ⟨720, 2, false⟩

/-! `deep.c` 23, 51-60. -/

noncomputable def omegaE : ℝ := 100273790934 / 10 ^ 11
noncomputable def znsMin : ℝ := 119459 / 10 ^ 10
noncomputable def znsDay : ℝ := 17201977 / 10 ^ 9
noncomputable def znlDay : ℝ := 228027132 / 10 ^ 9
noncomputable def znlMin : ℝ := 15835218 / 10 ^ 11
noncomputable def thdt : ℝ := 437526908801129966 / 10 ^ 20
noncomputable def zes : ℝ := 1675 / 10 ^ 5
noncomputable def zel : ℝ := 5490 / 10 ^ 5

/-- `deep.c` 65-83 `ThetaG`: Greenwich sidereal time in radians. -/
noncomputable def ThetaG (jd : ℝ) : ℝ :=
  let ut := fmod (jd + 1 / 2) 1
  let t := (jd - ut - 2451545) / 36525
  let g := 2411054841 / 10 ^ 5 + t * (8640184812866 / 10 ^ 6 + t * (93104 / 10 ^ 6 - t * (62 / 10 ^ 7)))
  let g := fmod (g / 86400 + omegaE * ut) 1
  2 * Real.pi * (if g < 0 then g + 1 else g)

/-- `basics.c` 25-32 `FMod2p`. -/
noncomputable def FMod2p (x : ℝ) : ℝ :=
  let r := fmod x (2 * Real.pi)
  if r < 0 then r + 2 * Real.pi else r

/-! ### Deep_dpinit -/

/-- The orientation of the orbit of Sun or Moon: cosine and sine of the argument of perigee `g`, the inclination `i` and the node `h` (the last
relative to the node of the satellite). -/
structure Orient where
  cosg : ℝ
  sing : ℝ
  cosi : ℝ
  sini : ℝ
  cosh : ℝ
  sinh : ℝ

noncomputable def zcosi0 : ℝ := 91744867 / 10 ^ 8
noncomputable def zsini0 : ℝ := 39785416 / 10 ^ 8

/-- `deep.c` 129-130, 138-146, 150: the Sun. -/
noncomputable def solarOrient (xnodeo : ℝ) : Orient where
  cosg := 1945905 / 10 ^ 7
  sing := -(98088458 / 10 ^ 8)
  cosi := zcosi0
  sini := zsini0
  cosh := Real.cos xnodeo
  sinh := Real.sin xnodeo

/-- `deep.c` 160: the node of the Moon's orbit on the ecliptic, `days` after 1900. -/
noncomputable def lunarNode (days : ℝ) : ℝ := 45236020 / 10 ^ 7 - 92422029 / 10 ^ 11 * days

/-- `deep.c` 169: cosine of the inclination of the Moon's orbit to the equator. -/
noncomputable def zcosil (days : ℝ) : ℝ := 91375164 / 10 ^ 8 - 3568096 / 10 ^ 8 * Real.cos (lunarNode days)
/-- `deep.c` 170. -/
noncomputable def zsinil (days : ℝ) : ℝ := Real.sqrt (1 - zcosil days * zcosil days)
/-- `deep.c` 171: sine of the right ascension of the node on the equator. -/
noncomputable def zsinhl (days : ℝ) : ℝ := 89683511 / 10 ^ 9 * Real.sin (lunarNode days) / zsinil days
/-- `deep.c` 172. -/
noncomputable def zcoshl (days : ℝ) : ℝ := Real.sqrt (1 - zsinhl days * zsinhl days)

/-- `deep.c` 165, 174-176: the argument of the Moon's perigee, counted from the equator. -/
noncomputable def lunarPerigee (days : ℝ) : ℝ :=
  atan2 (zsini0 * Real.sin (lunarNode days) / zsinil days)
      (zcoshl days * Real.cos (lunarNode days) + zcosi0 * zsinhl days * Real.sin (lunarNode days))
    + (58351514 / 10 ^ 7 + 19443680 / 10 ^ 10 * days) - lunarNode days

/-- `deep.c` 169-178, 276-281: the Moon. -/
noncomputable def lunarOrient (days xnodeo : ℝ) : Orient where
  cosg := Real.cos (lunarPerigee days)
  sing := Real.sin (lunarPerigee days)
  cosi := zcosil days
  sini := zsinil days
  cosh := zcoshl days * Real.cos xnodeo + zsinhl days * Real.sin xnodeo
  sinh := Real.sin xnodeo * zcoshl days - Real.cos xnodeo * zsinhl days

/-- What one pass of the loop of `deep.c` 190-286 computes for Sun or Moon: secular rates and coefficients of the periodic terms. -/
structure Body where
  se : ℝ
  si : ℝ
  sl : ℝ
  sgh : ℝ
  sh : ℝ
  e2 : ℝ
  e3 : ℝ
  i2 : ℝ
  i3 : ℝ
  l2 : ℝ
  l3 : ℝ
  l4 : ℝ
  gh2 : ℝ
  gh3 : ℝ
  gh4 : ℝ
  h2 : ℝ
  h3 : ℝ

/-- `deep.c` 193-255: one pass; `o` the orientation, `cc`, `zn`, `ze` strength, mean motion and eccentricity of the body. -/
noncomputable def bodyTerms (o : Orient) (cc zn ze : ℝ) (e : Elem) (i : Init) : Body :=
  let sing := Real.sin e.omegao
  let cosg := Real.cos e.omegao
  let a1 := o.cosg * o.cosh + o.sing * o.cosi * o.sinh
  let a3 := -o.sing * o.cosh + o.cosg * o.cosi * o.sinh
  let a7 := -o.cosg * o.sinh + o.sing * o.cosi * o.cosh
  let a8 := o.sing * o.sini
  let a9 := o.sing * o.sinh + o.cosg * o.cosi * o.cosh
  let a10 := o.cosg * o.sini
  let a2 := i.cosio * a7 + i.sinio * a8
  let a4 := i.cosio * a9 + i.sinio * a10
  let a5 := -i.sinio * a7 + i.cosio * a8
  let a6 := -i.sinio * a9 + i.cosio * a10
  let x1 := a1 * cosg + a2 * sing
  let x2 := a3 * cosg + a4 * sing
  let x3 := -a1 * sing + a2 * cosg
  let x4 := -a3 * sing + a4 * cosg
  let x5 := a5 * sing
  let x6 := a6 * sing
  let x7 := a5 * cosg
  let x8 := a6 * cosg
  let z31 := 12 * x1 * x1 - 3 * x3 * x3
  let z32 := 24 * x1 * x2 - 6 * x3 * x4
  let z33 := 12 * x2 * x2 - 3 * x4 * x4
  let z11 := -6 * a1 * a5 + i.eosq * (-24 * x1 * x7 - 6 * x3 * x5)
  let z12 := -6 * (a1 * a6 + a3 * a5) + i.eosq * (-24 * (x2 * x7 + x1 * x8) - 6 * (x3 * x6 + x4 * x5))
  let z13 := -6 * a3 * a6 + i.eosq * (-24 * x2 * x8 - 6 * x4 * x6)
  let z21 := 6 * a2 * a5 + i.eosq * (24 * x1 * x5 - 6 * x3 * x7)
  let z22 := 6 * (a4 * a5 + a2 * a6) + i.eosq * (24 * (x2 * x5 + x1 * x6) - 6 * (x4 * x7 + x3 * x8))
  let z23 := 6 * a4 * a6 + i.eosq * (24 * x2 * x6 - 6 * x4 * x8)
  let s3 := cc / i.xnodp
  let s2 := -(1 / 2) * s3 / i.betao
  let s4 := s3 * i.betao
  let s1 := -15 * e.eo * s4
  let s5 := x1 * x3 + x2 * x4
  let s6 := x2 * x3 + x1 * x4
  let s7 := x2 * x4 - x1 * x3
  let z1 := 3 * (a1 * a1 + a2 * a2) + z31 * i.eosq
  let z2 := 6 * (a1 * a3 + a2 * a4) + z32 * i.eosq
  let z3 := 3 * (a3 * a3 + a4 * a4) + z33 * i.eosq
  let z1 := z1 + z1 + i.betao2 * z31
  let z2 := z2 + z2 + i.betao2 * z32
  let z3 := z3 + z3 + i.betao2 * z33
  { se := s1 * zn * s5
    si := s2 * zn * (z11 + z13)
    sl := -zn * s3 * (z1 + z3 - 14 - 6 * i.eosq)
    sgh := s4 * zn * (z31 + z33 - 6)
    sh := if e.xincl < Real.pi / 60 then 0 else -zn * s2 * (z21 + z23)
    e2 := 2 * s1 * s6
    e3 := 2 * s1 * s7
    i2 := 2 * s2 * z12
    i3 := 2 * s2 * (z13 - z11)
    l2 := -2 * s3 * z2
    l3 := -2 * s3 * (z3 - z1)
    l4 := -2 * s3 * (-21 - 9 * i.eosq) * ze
    gh2 := 2 * s4 * z32
    gh3 := 2 * s4 * (z33 - z31)
    gh4 := -18 * s4 * ze
    h2 := -2 * s2 * z22
    h3 := -2 * s2 * (z23 - z21) }

/-- `deep.c` 119-124 `eval_cubic_poly`. -/
noncomputable def cubic (x c l q k : ℝ) : ℝ := c + x * (l + x * (q + x * k))

/-- Coefficients of the resonance with a 12-hour orbit. -/
structure Half where
  d2201 : ℝ
  d2211 : ℝ
  d3210 : ℝ
  d3222 : ℝ
  d4410 : ℝ
  d4422 : ℝ
  d5220 : ℝ
  d5232 : ℝ
  d5421 : ℝ
  d5433 : ℝ

/-- Inclination functions of the resonance with a 12-hour orbit. -/
structure HalfIncl where
  f220 : ℝ
  f221 : ℝ
  f321 : ℝ
  f322 : ℝ
  f441 : ℝ
  f442 : ℝ
  f522 : ℝ
  f523 : ℝ
  f542 : ℝ
  f543 : ℝ

/-- Eccentricity functions of the resonance with a 12-hour orbit. -/
structure HalfEcc where
  g201 : ℝ
  g211 : ℝ
  g310 : ℝ
  g322 : ℝ
  g410 : ℝ
  g422 : ℝ
  g520 : ℝ
  g521 : ℝ
  g532 : ℝ
  g533 : ℝ

/-- `deep.c` 310-330. -/
noncomputable def halfIncl (i : Init) : HalfIncl :=
  let sini2 := i.sinio * i.sinio
  let f220 := 3 / 4 * (1 + 2 * i.cosio + i.cosio2)
  let f221 := 3 / 2 * sini2
  let f321 := 15 / 8 * i.sinio * (1 - 2 * i.cosio - 3 * i.cosio2)
  let f322 := -(15 / 8) * i.sinio * (1 + 2 * i.cosio - 3 * i.cosio2)
  let f441 := 35 * sini2 * f220
  let f442 := 393750 / 10 ^ 4 * sini2 * sini2
  let f522 := 984375 / 10 ^ 5 * i.sinio * (sini2 * (1 - 2 * i.cosio - 5 * i.cosio2)
    + 33333333 / 10 ^ 8 * (-2 + 4 * i.cosio + 6 * i.cosio2))
  let f523 := i.sinio * (492187512 / 10 ^ 8 * sini2 * (-2 - 4 * i.cosio + 10 * i.cosio2)
    + 656250012 / 10 ^ 8 * (1 + 2 * i.cosio - 3 * i.cosio2))
  let f542 := 2953125 / 10 ^ 5 * i.sinio * (2 - 8 * i.cosio + i.cosio2 * (-12 + 8 * i.cosio + 10 * i.cosio2))
  let f543 := 2953125 / 10 ^ 5 * i.sinio * (-2 - 8 * i.cosio + i.cosio2 * (12 + 8 * i.cosio - 10 * i.cosio2))
  { f220, f221, f321, f322, f441, f442, f522, f523, f542, f543 }

/-- `deep.c` 309, 338-372. -/
noncomputable def halfEcc (e : Elem) (i : Init) : HalfEcc :=
  let eo := e.eo
  let g201 := -(306 / 10 ^ 3) - (eo - 64 / 100) * (440 / 10 ^ 3)
  let lo : Bool := decide (eo ≤ 65 / 100)
  let g211 := if lo then 3616 / 10 ^ 3 - 13247 / 10 ^ 3 * eo + 16290 / 10 ^ 3 * i.eosq
    else cubic eo (-72099 / 10 ^ 3) (331819 / 10 ^ 3) (-508738 / 10 ^ 3) (266724 / 10 ^ 3)
  let g310 := if lo then cubic eo (-19302 / 10 ^ 3) (117390 / 10 ^ 3) (-228419 / 10 ^ 3) (156591 / 10 ^ 3)
    else cubic eo (-346844 / 10 ^ 3) (1582851 / 10 ^ 3) (-2415925 / 10 ^ 3) (1246113 / 10 ^ 3)
  let g322 := if lo then cubic eo (-189068 / 10 ^ 4) (1097927 / 10 ^ 4) (-2146334 / 10 ^ 4) (1465816 / 10 ^ 4)
    else cubic eo (-342585 / 10 ^ 3) (1554908 / 10 ^ 3) (-2366899 / 10 ^ 3) (1215972 / 10 ^ 3)
  let g410 := if lo then cubic eo (-41122 / 10 ^ 3) (242694 / 10 ^ 3) (-471094 / 10 ^ 3) (313953 / 10 ^ 3)
    else cubic eo (-1052797 / 10 ^ 3) (4758686 / 10 ^ 3) (-7193992 / 10 ^ 3) (3651957 / 10 ^ 3)
  let g422 := if lo then cubic eo (-146407 / 10 ^ 3) (841880 / 10 ^ 3) (-1629014 / 10 ^ 3) (1083435 / 10 ^ 3)
    else cubic eo (-358169 / 10 ^ 2) (1617811 / 10 ^ 2) (-2446277 / 10 ^ 2) (1242252 / 10 ^ 2)
  let g520 := if lo then cubic eo (-532114 / 10 ^ 3) (3017977 / 10 ^ 3) (-5740032 / 10 ^ 3) (3708276 / 10 ^ 3)
    else if eo ≤ 715 / 10 ^ 3 then cubic eo (146474 / 10 ^ 2) (-466475 / 10 ^ 2) (376364 / 10 ^ 2) 0
    else cubic eo (-514966 / 10 ^ 2) (2993692 / 10 ^ 2) (-5408736 / 10 ^ 2) (3132456 / 10 ^ 2)
  let g533 := if eo < 7 / 10 then cubic eo (-9192277 / 10 ^ 4) (498861 / 10 ^ 2) (-906477 / 10 ^ 2) (554221 / 10 ^ 2)
    else cubic eo (-3799578 / 10 ^ 2) (16161652 / 10 ^ 2) (-2298382 / 10) (10937794 / 10 ^ 2)
  let g521 := if eo < 7 / 10 then cubic eo (-82271072 / 10 ^ 5) (45686173 / 10 ^ 4) (-84914146 / 10 ^ 4) (5337524 / 10 ^ 3)
    else cubic eo (-51752104 / 10 ^ 3) (21891395 / 10 ^ 2) (-30946816 / 10 ^ 2) (14634942 / 10 ^ 2)
  let g532 := if eo < 7 / 10 then cubic eo (-853666 / 10 ^ 3) (469025 / 10 ^ 2) (-862477 / 10 ^ 2) (53414 / 10)
    else cubic eo (-4002388 / 10 ^ 2) (17047089 / 10 ^ 2) (-24269948 / 10 ^ 2) (11560582 / 10 ^ 2)
  { g201, g211, g310, g322, g410, g422, g520, g521, g532, g533 }

/-- `deep.c` 131, 304-308, 374-392: the coefficients for 12-hour orbits from the two sets of functions. -/
noncomputable def halfDayOf (f : HalfIncl) (g : HalfEcc) (i : Init) : Half :=
  let aqnv := 1 / i.aodp
  let t2 := 3 * i.xnodp * i.xnodp * aqnv * aqnv
  let t3 := t2 * aqnv
  let t4 := t3 * aqnv
  let t5 := t4 * aqnv
  { d2201 := t2 * (17891679 / 10 ^ 13) * f.f220 * g.g201
    d2211 := t2 * (17891679 / 10 ^ 13) * f.f221 * g.g211
    d3210 := t3 * (37393792 / 10 ^ 14) * f.f321 * g.g310
    d3222 := t3 * (37393792 / 10 ^ 14) * f.f322 * g.g322
    d4410 := 2 * t4 * (73636953 / 10 ^ 16) * f.f441 * g.g410
    d4422 := 2 * t4 * (73636953 / 10 ^ 16) * f.f442 * g.g422
    d5220 := t5 * (11428639 / 10 ^ 14) * f.f522 * g.g520
    d5232 := t5 * (11428639 / 10 ^ 14) * f.f523 * g.g532
    d5421 := 2 * t5 * (21765803 / 10 ^ 16) * f.f542 * g.g521
    d5433 := 2 * t5 * (21765803 / 10 ^ 16) * f.f543 * g.g533 }

/-- `deep.c` 299-392: the coefficients for 12-hour orbits. -/
noncomputable def halfDay (e : Elem) (i : Init) : Half := halfDayOf (halfIncl i) (halfEcc e i) i

/-- `deep.c` 404, 407-411: `f311`, `f220`, `f330` for synchronous orbits. -/
noncomputable def fullIncl (i : Init) : ℝ × ℝ × ℝ :=
  let c1 := 1 + i.cosio
  let f311 := 9375 / 10 ^ 4 * i.sinio * i.sinio * (1 + 3 * i.cosio) - 3 / 4 * c1
  let f220 := 3 / 4 * c1 * c1
  let f330 := 5 / 2 * f220 * c1
  (f311, f220, f330)

/-- `deep.c` 405-409: `g310`, `g200`, `g300`, functions of the square of the eccentricity. -/
noncomputable def fullEcc (eosq : ℝ) : ℝ × ℝ × ℝ :=
  let g200 := 1 + eosq * (-(5 / 2) + 8125 / 10 ^ 4 * eosq)
  let g300 := 1 + eosq * (-6 + 660937 / 10 ^ 5 * eosq)
  let g310 := 1 + 2 * eosq
  (g310, g200, g300)

/-- `deep.c` 131, 401-403, 415-418: `del1`, `del2`, `del3` for synchronous orbits from the two sets of functions. -/
noncomputable def fullDayOf (f g : ℝ × ℝ × ℝ) (i : Init) : ℝ × ℝ × ℝ :=
  let aqnv := 1 / i.aodp
  let d := 3 * i.xnodp * i.xnodp * aqnv * aqnv
  (d * (f.1 * g.1 * (21460748 / 10 ^ 13) * aqnv), 2 * d * f.2.1 * g.2.1 * (17891679 / 10 ^ 13),
    3 * d * f.2.2 * g.2.2 * (22123015 / 10 ^ 14) * aqnv)

/-- `deep.c` 401-418: `del1`, `del2`, `del3` for synchronous orbits. -/
noncomputable def fullDay (i : Init) : ℝ × ℝ × ℝ := fullDayOf (fullIncl i) (fullEcc i.eosq) i

/-- `resonance_flag` and `synchronous_flag`. -/
inductive Resonance where
  | none
  | half
  | full
deriving DecidableEq

/-- The members of `deep_arg_t` that do not change after `Deep_dpinit`. -/
structure Deep where
  i : Init
  res : Resonance
  thgr : ℝ
  xnq : ℝ
  omegaq : ℝ
  zmol : ℝ
  zmos : ℝ
  sse : ℝ
  ssi : ℝ
  ssl : ℝ
  ssg : ℝ
  ssh : ℝ
  sun : Body
  moon : Body
  d : Half
  del1 : ℝ
  del2 : ℝ
  del3 : ℝ
  xlamo : ℝ
  xfact : ℝ

open Classical in
/-- `deep.c` 299, 398-399: which resonance. -/
noncomputable def resonanceOf (e : Elem) (i : Init) : Resonance :=
  if i.xnodp ≥ 826 / 10 ^ 5 ∧ i.xnodp ≤ 924 / 10 ^ 5 ∧ e.eo ≥ 1 / 2 then .half
  else if i.xnodp < 12 / 10 * (2 * Real.pi) / 1440 ∧ i.xnodp > 8 / 10 * (2 * Real.pi) / 1440 then .full
  else .none

open Classical in
/-- `deep.c` 127-436 `Deep_dpinit` (with `sdp4.c` 154-159).  The members that one of the resonances does not set are not read for it; they are
set here all the same. -/
noncomputable def Deep_dpinit (e : Elem) (i : Init) : Deep :=
  let days := e.epoch - 2415020
  let sun := bodyTerms (solarOrient e.xnodeo) (29864797 / 10 ^ 13) znsMin zes e i
  let moon := bodyTerms (lunarOrient days e.xnodeo) (47968065 / 10 ^ 14) znlMin zel e i
  let thgr := ThetaG e.epoch
  let ssh0 := if i.sinio ≠ 0 then sun.sh / i.sinio else 0
  let ssg0 := sun.sgh - i.cosio * ssh0
  let ssl := sun.sl + moon.sl
  let ssg := if i.sinio ≠ 0 then ssg0 + moon.sgh - moon.sh * i.cosio / i.sinio else ssg0 + moon.sgh
  let ssh := if i.sinio ≠ 0 then ssh0 + moon.sh / i.sinio else ssh0
  let res := resonanceOf e i
  let bfact := match res with
    | .half => i.xmdot + i.xnodot + i.xnodot - thdt - thdt + (ssl + ssh + ssh)
    | _ => i.xmdot + i.omgdot + i.xnodot - thdt + ssl + ssg + ssh
  { i, res, thgr
    xnq := i.xnodp
    omegaq := e.omegao
    zmol := FMod2p (znlDay * days - 11151842 / 10 ^ 7)
    zmos := FMod2p (62565837 / 10 ^ 7 + znsDay * days)
    sse := sun.se + moon.se
    ssi := sun.si + moon.si
    ssl, ssg, ssh, sun, moon
    d := halfDay e i
    del1 := (fullDay i).1
    del2 := (fullDay i).2.1
    del3 := (fullDay i).2.2
    xlamo := match res with
      | .half => e.xmo + e.xnodeo + e.xnodeo - thgr - thgr
      | _ => e.xmo + e.xnodeo + e.omegao - thgr
    xfact := bfact - i.xnodp }

/-! ### The state -/

/-- The periodic terms of Sun and Moon. -/
structure Periodic where
  pe : ℝ
  pinc : ℝ
  pl : ℝ
  pgh : ℝ
  ph : ℝ

/-- The members of `deep_arg_t` that are kept from one call of `SDP4` to the next. -/
structure State where
  atime : ℝ
  xni : ℝ
  xli : ℝ
  savtsn : ℝ
  per : Periodic

/-- `deep.c` 184, 426-434: the state after `Deep_dpinit`; `per` stands for what was in the uninitialised members. -/
noncomputable def Deep.start (c : Deep) (per : Periodic) : State := ⟨0, c.xnq, c.xlamo, 10 ^ 20, per⟩

/-! ### Deep_dpsec -/

/-- One harmonic in the sums of `compute_dpsec_derivs`: `n2` the square of its multiple of `xli`, `a` the sine and `b` the cosine term. -/
structure Term where
  n2 : ℝ
  a : ℝ
  b : ℝ

noncomputable def c_fasx2 : ℝ := 99139134268488593 / 10 ^ 17
noncomputable def s_fasx2 : ℝ := 13093206501640101 / 10 ^ 17
noncomputable def c_2fasx4 : ℝ := 87051638752972937 / 10 ^ 17
noncomputable def s_2fasx4 : ℝ := -(49213943048915526 / 10 ^ 17)
noncomputable def c_3fasx6 : ℝ := 43258117585763334 / 10 ^ 17
noncomputable def s_3fasx6 : ℝ := 90159499016666422 / 10 ^ 17
noncomputable def c_g22 : ℝ := 87051638752972937 / 10 ^ 17
noncomputable def s_g22 : ℝ := -(49213943048915526 / 10 ^ 17)
noncomputable def c_g32 : ℝ := 57972190187001149 / 10 ^ 17
noncomputable def s_g32 : ℝ := 81481440616389245 / 10 ^ 17
noncomputable def c_g44 : ℝ := -(22866241528815548 / 10 ^ 17)
noncomputable def s_g44 : ℝ := 97350577801807991 / 10 ^ 17
noncomputable def c_g52 : ℝ := 49684831179884198 / 10 ^ 17
noncomputable def s_g52 : ℝ := 86783740128127729 / 10 ^ 17
noncomputable def c_g54 : ℝ := -(29695209575316894 / 10 ^ 17)
noncomputable def s_g54 : ℝ := -(95489237761529999 / 10 ^ 17)

/-- `deep.c` 444-447, 455-472: the terms for synchronous orbits. -/
noncomputable def fullTerms (c : Deep) (xli : ℝ) : List Term :=
  let sl := Real.sin xli
  let cl := Real.cos xli
  let s2 := 2 * sl * cl
  let c2 := 2 * cl * cl - 1
  let s3 := s2 * cl + c2 * sl
  let c3 := c2 * cl - s2 * sl
  [⟨1, c.del1 * (sl * c_fasx2 - cl * s_fasx2), c.del1 * (cl * c_fasx2 + sl * s_fasx2)⟩,
   ⟨4, c.del2 * (s2 * c_2fasx4 - c2 * s_2fasx4), 2 * c.del2 * (c2 * c_2fasx4 + s2 * s_2fasx4)⟩,
   ⟨9, c.del3 * (s3 * c_3fasx6 - c3 * s_3fasx6), 3 * c.del3 * (c3 * c_3fasx6 + s3 * s_3fasx6)⟩]

/-- `deep.c` 444-447, 490-546: the terms for 12-hour orbits. -/
noncomputable def halfTerms (c : Deep) (atime xli : ℝ) : List Term :=
  let sl := Real.sin xli
  let cl := Real.cos xli
  let s2l := 2 * sl * cl
  let c2l := 2 * cl * cl - 1
  let xomi := c.omegaq + c.i.omgdot * atime
  let so := Real.sin xomi
  let co := Real.cos xomi
  let s_lmo := sl * co - so * cl
  let s_lpo := sl * co + so * cl
  let c_lmo := cl * co + so * sl
  let c_lpo := cl * co - so * sl
  let s2o := 2 * so * co
  let c2o := 2 * co * co - 1
  let s_2lmo := s2l * co - so * c2l
  let s_2lpo := s2l * co + so * c2l
  let c_2lmo := c2l * co + so * s2l
  let c_2lpo := c2l * co - so * s2l
  let s_2lp2o := s2l * c2o + s2o * c2l
  let c_2lp2o := c2l * c2o - s2o * s2l
  let s_2opl := sl * c2o + s2o * cl
  let c_2opl := cl * c2o - s2o * sl
  [⟨1, c.d.d2201 * (s_2opl * c_g22 - c_2opl * s_g22) + c.d.d2211 * (sl * c_g22 - cl * s_g22)
      + c.d.d3210 * (s_lpo * c_g32 - c_lpo * s_g32) + c.d.d3222 * (s_lmo * c_g32 - c_lmo * s_g32)
      + c.d.d5220 * (s_lpo * c_g52 - c_lpo * s_g52) + c.d.d5232 * (s_lmo * c_g52 - c_lmo * s_g52),
    c.d.d2201 * (c_2opl * c_g22 + s_2opl * s_g22) + c.d.d2211 * (cl * c_g22 + sl * s_g22)
      + c.d.d3210 * (c_lpo * c_g32 + s_lpo * s_g32) + c.d.d3222 * (c_lmo * c_g32 + s_lmo * s_g32)
      + c.d.d5220 * (c_lpo * c_g52 + s_lpo * s_g52) + c.d.d5232 * (c_lmo * c_g52 + s_lmo * s_g52)⟩,
   ⟨4, c.d.d4410 * (s_2lp2o * c_g44 - c_2lp2o * s_g44) + c.d.d4422 * (s2l * c_g44 - c2l * s_g44)
      + c.d.d5421 * (s_2lpo * c_g54 - c_2lpo * s_g54) + c.d.d5433 * (s_2lmo * c_g54 - c_2lmo * s_g54),
    2 * (c.d.d4410 * (c_2lp2o * c_g44 + s_2lp2o * s_g44) + c.d.d4422 * (c2l * c_g44 + s2l * s_g44)
      + c.d.d5421 * (c_2lpo * c_g54 + s_2lpo * s_g54) + c.d.d5433 * (c_2lmo * c_g54 + s_2lmo * s_g54))⟩]

/-- `deep.c` 474-486, 548-559: what `n` passes of the loop write. -/
noncomputable def derivLoop : ℕ → List Term → List ℝ
  | 0, _ => []
  | n + 1, ts => (ts.map (·.a)).sum :: (ts.map (·.b)).sum :: derivLoop n (ts.map fun t => ⟨t.n2, -t.n2 * t.a, -t.n2 * t.b⟩)

/-- `for( i = 0; i < order; i += 2)`: the number of passes. -/
def passes (order : ℤ) : ℕ := ((order + 1) / 2).toNat

/-- `deep.c` 441-561 `compute_dpsec_derivs`: the contents of the array `derivs` of 20 numbers.  `none`: a number is written after its end. -/
noncomputable def compute_dpsec_derivs (cfg : Cfg) (c : Deep) (atime xli : ℝ) : Option (List ℝ) :=
  let ts := if c.res = .full then fullTerms c xli else halfTerms c atime xli
  if 2 * passes cfg.order ≤ 20 then some (if passes cfg.order = 0 then [0] else derivLoop (passes cfg.order) ts) else none

/-- `deep.c` 616-623: the loop on `i`; the list holds `derivs[i-1]` and the following, `prev` is `derivs[i-2]`. -/
noncomputable def taylorLoop (xldot delt : ℝ) : List ℝ → ℕ → ℝ → ℝ → ℝ → ℝ → ℝ → ℝ × ℝ
  | [], _, _, _, _, xli, xni => (xli, xni)
  | d :: ds, i, xlpow, fac, prev, xli, xni =>
    let xlpow := xlpow * xldot
    let d := d * xlpow
    let fac := fac * (delt / i)
    taylorLoop xldot delt ds (i + 1) xlpow fac d (xli + fac * prev) (xni + fac * d)

/-- `deep.c` 597, 603, 611-623: one step of the integration over `delt` from `atime`: the new `xli`, `xni`. -/
noncomputable def dpsecStep (cfg : Cfg) (c : Deep) (atime xli xni delt : ℝ) : Option (ℝ × ℝ) :=
  (compute_dpsec_derivs cfg c atime xli).map fun derivs =>
    let xldot := xni + c.xfact
    let d0 := derivs.headD 0
    taylorLoop xldot delt ((derivs.take cfg.order.toNat).tail) 2 1 delt d0 (xli + delt * xldot) (xni + delt * d0)

/-- `deep.c` 595-630: the loop.  Result: `xli`, `xni` and the stored `atime`, `xli`, `xni`.  `none`: not ended after `fuel` passes, or an error
in a step. -/
noncomputable def dpsecLoop (cfg : Cfg) (c : Deep) (t : ℝ) : ℕ → ℝ → ℝ → ℝ → Option ((ℝ × ℝ) × ℝ × ℝ × ℝ)
  | 0, _, _, _ => none
  | fuel + 1, atime, xli, xni =>
    let delt := t - atime
    if delt > cfg.step then
      (dpsecStep cfg c atime xli xni cfg.step).bind fun (l, n) => dpsecLoop cfg c t fuel (atime + cfg.step) l n
    else if delt < -cfg.step then
      (dpsecStep cfg c atime xli xni (-cfg.step)).bind fun (l, n) => dpsecLoop cfg c t fuel (atime + -cfg.step) l n
    else
      (dpsecStep cfg c atime xli xni delt).map fun (l, n) =>
        ((l, n), if cfg.dundee then (atime, xli, xni) else (atime + delt, l, n))

/-- The members of `deep_arg_t` on which `Deep_dpsec` and `Deep_dpper` work. -/
structure Work where
  xll : ℝ
  omgadf : ℝ
  xnode : ℝ
  em : ℝ
  xinc : ℝ
  xn : ℝ

open Classical in
/-- `deep.c` 582-593: where the integration starts: `atime`, `xli`, `xni`. -/
noncomputable def restart (cfg : Cfg) (c : Deep) (s : State) (t : ℝ) : ℝ × ℝ × ℝ :=
  if |t| < |t - s.atime| ∨ (cfg.dundee = true ∧ |t| < |s.atime|) then (0, c.xlamo, c.xnq) else (s.atime, s.xli, s.xni)

/-- `deep.c` 563-639 `Deep_dpsec`. -/
noncomputable def Deep_dpsec (fuel : ℕ) (cfg : Cfg) (c : Deep) (e : Elem) (s : State) (t : ℝ) (w : Work) : Option (State × Work) :=
  let w := { w with
    xll := w.xll + c.ssl * t
    omgadf := w.omgadf + c.ssg * t
    xnode := w.xnode + c.ssh * t
    em := e.eo + c.sse * t
    xinc := e.xincl + c.ssi * t }
  if c.res = .none then some (s, w)
  else
    let (atime, xli, xni) := restart cfg c s t
    (dpsecLoop cfg c t fuel atime xli xni).map fun ((l, n), at', l', n') =>
      let temp := -w.xnode + c.thgr + t * thdt
      ({ s with atime := at', xli := l', xni := n' },
        { w with xn := n, xll := l + temp + (if c.res = .full then -w.omgadf else temp) })

/-! ### Deep_dpper -/

/-- `deep.c` 660-663, 672-675: `f2`, `f3` and `sinzf` for the mean anomaly `zm`. -/
noncomputable def anomalies (zm ze : ℝ) : ℝ × ℝ × ℝ :=
  let zf := zm + 2 * ze * Real.sin zm
  let s := Real.sin zf
  (1 / 2 * s * s - 1 / 4, -(1 / 2) * s * Real.cos zf, s)

/-- `deep.c` 659-687: the periodic terms for time `t`. -/
noncomputable def periodic (c : Deep) (t : ℝ) : Periodic :=
  let (f2, f3, s) := anomalies (c.zmos + znsMin * t) zes
  let (g2, g3, z) := anomalies (c.zmol + znlMin * t) zel
  { pe := c.sun.e2 * f2 + c.sun.e3 * f3 + (c.moon.e2 * g2 + c.moon.e3 * g3)
    pinc := c.sun.i2 * f2 + c.sun.i3 * f3 + (c.moon.i2 * g2 + c.moon.i3 * g3)
    pl := c.sun.l2 * f2 + c.sun.l3 * f3 + c.sun.l4 * s + (c.moon.l2 * g2 + c.moon.l3 * g3 + c.moon.l4 * z)
    pgh := c.sun.gh2 * f2 + c.sun.gh3 * f3 + c.sun.gh4 * s + (c.moon.gh2 * g2 + c.moon.gh3 * g3 + c.moon.gh4 * z)
    ph := c.sun.h2 * f2 + c.sun.h3 * f3 + (c.moon.h2 * g2 + c.moon.h3 * g3) }

open Classical in
/-- `deep.c` 651-705: the terms that are applied and the time for which they were computed. -/
noncomputable def refresh (cfg : Cfg) (c : Deep) (s : State) (t : ℝ) : State :=
  if |s.savtsn - t| ≥ 30 ∨ cfg.dundee = true then { s with savtsn := t, per := periodic c t } else s

/-- `deep.c` 725-731: applied directly. -/
noncomputable def applyDirect (p : Periodic) (w : Work) : Work :=
  { w with
    omgadf := w.omgadf - Real.cos w.xinc * (p.ph / Real.sin w.xinc)
    xnode := w.xnode + p.ph / Real.sin w.xinc }

/-- `deep.c` 751-754: the patch of `delta_xnode`. -/
noncomputable def deltaNode (d : ℝ) : ℝ := if d < -Real.pi then d + 2 * Real.pi else if d > Real.pi then d - 2 * Real.pi else d

/-- `deep.c` 713-714, 735-764: with the modification of Lyddane. -/
noncomputable def applyLyddane (p : Periodic) (w : Work) : Work :=
  let sinis := Real.sin w.xinc
  let cosis := Real.cos w.xinc
  let sinok := Real.sin w.xnode
  let cosok := Real.cos w.xnode
  let alfdp := p.ph * cosok + (p.pinc * cosis + sinis) * sinok
  let betdp := -p.ph * sinok + (p.pinc * cosis + sinis) * cosok
  let delta := deltaNode (atan2 alfdp betdp - w.xnode)
  { w with
    omgadf := w.omgadf + (-w.xnode * sinis * p.pinc - cosis * delta)
    xnode := w.xnode + delta }

/-- `deep.c` 711-723: added to inclination, eccentricity, mean anomaly and argument of perigee; then the node. -/
noncomputable def applyPeriodic (e : Elem) (p : Periodic) (w : Work) : Work :=
  let w := { w with
    xinc := w.xinc + p.pinc
    em := w.em + p.pe
    xll := w.xll + p.pl
    omgadf := w.omgadf + p.pgh }
  if e.xincl ≥ 2 / 10 then applyDirect p w else applyLyddane p w

/-- `deep.c` 641-766 `Deep_dpper`. -/
noncomputable def Deep_dpper (cfg : Cfg) (c : Deep) (e : Elem) (s : State) (t : ℝ) (w : Work) : State × Work :=
  let s := refresh cfg c s t
  (s, applyPeriodic e s.per w)

/-! ### SDP4 -/

/-- `sdp4.c` 294-302: the elements before the perturbations. -/
noncomputable def secular (c : Deep) (e : Elem) (t : ℝ) : Work where
  omgadf := e.omegao + c.i.omgdot * t
  xnode := e.xnodeo + c.i.xnodot * t + c.i.xnodcf * (t * t)
  xn := c.i.xnodp
  xll := e.xmo + c.i.xmdot * t
  em := 0
  xinc := 0

/-- `sdp4.c` 329-336: the arguments of `sxpx_posn_vel`. -/
noncomputable def Work.mean (w : Work) (a : ℝ) : Mean where
  xnode := w.xnode
  a := a
  ecc := w.em
  cosio := Real.cos w.xinc
  sinio := Real.sin w.xinc
  xincl := w.xinc
  omega := w.omgadf
  xl := w.xll + w.omgadf + w.xnode

/-- `sdp4.c` 280-337 `SDP4` for elements that are not of type 'H'.  Result: the new state, the code and what is written to `pos` and `vel`
(`none`: nothing). -/
noncomputable def SDP4 (fuel : ℕ) (cfg : Cfg) (c : Deep) (e : Elem) (s : State) (t : ℝ) : Option (State × ℤ × Option (V3 × V3)) :=
  (Deep_dpsec fuel cfg c e s t (secular c e t)).map fun (s, w) =>
    if w.xn < 0 then (s, -5, none)
    else
      let tempa := 1 - c.i.c1 * t
      let a := (xke / w.xn) ^ (2 / 3 : ℝ) * tempa * tempa
      let w := { w with em := w.em - e.bstar * c.i.c4 * t, xll := w.xll + c.i.xnodp * c.i.t2cof * (t * t) }
      let (s, w) := Deep_dpper cfg c e s t w
      let (code, p, v) := sxpx_posn_vel (w.mean a)
      (s, code, some (p, v))

/-- `sdp4.c` 145-167 `SDP4_init` for elements that are not of type 'H'. -/
noncomputable def SDP4_init (e : Elem) : Deep := Deep_dpinit e (sxpx_common_init e)

end SatSky.Sxp
