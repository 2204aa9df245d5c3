import Verif.Model.Propagate

/-!
The near-Earth model SGP8 (`src/sgp8.c`) in exact arithmetic; library code that the two programs do not call.

Simplifications: as in `Model/Propagate.lean`; but where the program divides by zero or takes a root or a power of a negative number in a way that
reaches the position, the result of `SGP8_init` or `SGP8` is `none` (the program computes with a NaN or an infinity and returns 0 all the same).
-/

namespace SatSky.Sgp8

open SatSky.Sxp SatSky.Spec SatSky.Geo

/-- `sgp8.c` 50-78 `sxp8_common_init`: what it stores; `sing`, `cosg`, `xmdot`, `omgdot`, `xnodot` go into `deep_arg`. -/
structure Common8 where
  tthmun : ℝ
  sini2 : ℝ
  cosi2 : ℝ
  unm5th : ℝ
  unmth2 : ℝ
  xmdt1 : ℝ
  xgdt1 : ℝ
  xhdt1 : ℝ
  xmdot : ℝ
  omgdot : ℝ
  xnodot : ℝ

/-- `sgp8.c` 50-78 `sxp8_common_init`. -/
noncomputable def sxp8_common_init (e : Elem) (r : Recov) : Common8 :=
  let half_inclination := e.xincl * (1 / 2)
  let cosio4 := r.cosio2 * r.cosio2
  let tthmun := r.cosio2 * 3 - 1
  let unm5th := 1 - r.cosio2 * 5
  let unmth2 := 1 - r.cosio2
  let po := r.aodp * r.betao2
  let pom2 := 1 / (po * po)
  let pardt1 := 3 * ck2 * pom2 * r.xnodp
  let pardt2 := pardt1 * ck2 * pom2
  let pardt4 := ck4 * (5 / 4) * pom2 * pom2 * r.xnodp
  let xmdt1 := 1 / 2 * pardt1 * r.betao * tthmun
  let xgdt1 := -(1 / 2) * pardt1 * unm5th
  let xhdt1 := -pardt1 * r.cosio
  { tthmun, unm5th, unmth2, xmdt1, xgdt1, xhdt1
    sini2 := Real.sin half_inclination
    cosi2 := Real.cos half_inclination
    xmdot := r.xnodp + xmdt1 + pardt2 * (625 / 10000) * r.betao * (13 - r.cosio2 * 78 + cosio4 * 137)
    omgdot := xgdt1 + pardt2 * (625 / 10000) * (7 - r.cosio2 * 114 + cosio4 * 395) + pardt4 * (3 - r.cosio2 * 36 + cosio4 * 49)
    xnodot := xhdt1 + (pardt2 * (1 / 2) * (4 - r.cosio2 * 19) + pardt4 * 2 * (3 - r.cosio2 * 7)) * r.cosio }

/-- What does not change while the orbit decays: the drag coefficient and the inclination (through its functions). -/
structure Fixed where
  bstar : ℝ
  tthmun : ℝ
  unm5th : ℝ
  unmth2 : ℝ
  sini : ℝ

/-- What changes: semimajor axis, mean motion, eccentricity, argument of the perigee. -/
structure Orb where
  a : ℝ
  n : ℝ
  e : ℝ
  g : ℝ

section
variable (k : Fixed) (x : Orb)

/-! `sgp8.c` 82-83, 102-127: the rate of the mean motion, quantity by quantity. -/

/-- `sgp8.c` 82. -/
noncomputable def rho : ℝ := 15696615 / 10 ^ 8
/-- `sgp8.c` 83: `b`. -/
noncomputable def bOf : ℝ := k.bstar * 2 / rho
/-- `sgp8.c` 125: `deep_arg.eosq` (set in `common.c` 42). -/
noncomputable def eosq : ℝ := x.e * x.e
/-- `sgp8.c` 102: `deep_arg.betao2` (set in `common.c` 43). -/
noncomputable def betao2 : ℝ := 1 - eosq x
/-- `sgp8.c` 102. -/
noncomputable def po : ℝ := x.a * betao2 x
/-- `sgp8.c` 103. -/
noncomputable def tsi : ℝ := 1 / (po x - sConst)
/-- `sgp8.c` 104. -/
noncomputable def eta : ℝ := x.e * sConst * tsi x
/-- `sgp8.c` 105. -/
noncomputable def eta2 : ℝ := eta x * eta x
/-- `sgp8.c` 106. -/
noncomputable def psim2 : ℝ := |1 / (1 - eta2 x)|
/-- `sgp8.c` 107. -/
noncomputable def alpha2 : ℝ := eosq x + 1
/-- `sgp8.c` 108. -/
noncomputable def eeta : ℝ := x.e * eta x
/-- `sgp8.c` 109. -/
noncomputable def cos2g : ℝ := Real.cos x.g * Real.cos x.g * 2 - 1
/-- `sgp8.c` 110. -/
noncomputable def d5 : ℝ := tsi x * psim2 x
/-- `sgp8.c` 111. -/
noncomputable def d1 : ℝ := d5 x / po x
/-- `sgp8.c` 112. -/
noncomputable def d2 : ℝ := eta2 x * (eta2 x * (9 / 2) + 36) + 12
/-- `sgp8.c` 113. -/
noncomputable def d3 : ℝ := eta2 x * (eta2 x * (5 / 2) + 15)
/-- `sgp8.c` 114. -/
noncomputable def d4 : ℝ := eta x * (eta2 x * (15 / 4) + 5)
/-- `sgp8.c` 115. -/
noncomputable def b1 : ℝ := ck2 * k.tthmun
/-- `sgp8.c` 116. -/
noncomputable def b2 : ℝ := -ck2 * k.unmth2
/-- `sgp8.c` 117. -/
noncomputable def b3 : ℝ := a3ovk2 * k.sini
/-- `sgp8.c` 118-120. -/
noncomputable def c0 : ℝ :=
  bOf k * (1 / 2) * rho * qoms2t * x.n * x.a * (tsi x * tsi x * (tsi x * tsi x)) * psim2 x ^ (7 / 2 : ℝ) / Real.sqrt (alpha2 x)
/-- `sgp8.c` 121-122. -/
noncomputable def c1 : ℝ := x.n * (3 / 2) * (alpha2 x * alpha2 x) * c0 k x
/-- `sgp8.c` 123. -/
noncomputable def c4 : ℝ := d1 x * d3 x * b2 k
/-- `sgp8.c` 124. -/
noncomputable def c5 : ℝ := d5 x * d4 x * b3 k
/-- `sgp8.c` 125-126. -/
noncomputable def xndt : ℝ :=
  c1 k x * (eta2 x * (eosq x * 34 + 3) + 2 + eeta x * 5 * (eta2 x + 4) + eosq x * (17 / 2) + d1 x * d2 x * b1 k + c4 k x * cos2g x
    + c5 k x * Real.sin x.g)
/-- `sgp8.c` 127. -/
noncomputable def xndtn : ℝ := xndt k x / x.n

/-! `sgp8.c` 69, 135-208: the rate of the eccentricity and the higher derivatives. -/

/-- `sgp8.c` 135. -/
noncomputable def d6 : ℝ := eta x * (eta2 x * (45 / 2) + 30)
/-- `sgp8.c` 136. -/
noncomputable def d7 : ℝ := eta x * (eta2 x * (25 / 2) + 5)
/-- `sgp8.c` 137. -/
noncomputable def d8 : ℝ := eta2 x * (eta2 x + 27 / 4) + 1
/-- `sgp8.c` 138. -/
noncomputable def d9 : ℝ := eta x * (eosq x * 68 + 6) + x.e * (eta2 x * 15 + 20)
/-- `sgp8.c` 139. -/
noncomputable def d10 : ℝ := eta x * 5 * (eta2 x + 4) + x.e * (eta2 x * 68 + 17)
/-- `sgp8.c` 140. -/
noncomputable def d11 : ℝ := eta x * (eta2 x * 18 + 72)
/-- `sgp8.c` 141. -/
noncomputable def d12 : ℝ := eta x * (eta2 x * 10 + 30)
/-- `sgp8.c` 142. -/
noncomputable def d13 : ℝ := eta2 x * (45 / 4) + 5
/-- `sgp8.c` 143. -/
noncomputable def d20 : ℝ := 2 / 3 * (1 / 2) * xndtn k x
/-- `sgp8.c` 144. -/
noncomputable def c8 : ℝ := d1 x * d7 x * b2 k
/-- `sgp8.c` 145. -/
noncomputable def c9 : ℝ := d5 x * d8 x * b3 k
/-- `sgp8.c` 146. -/
noncomputable def sin2g : ℝ := Real.sin x.g * 2 * Real.cos x.g
/-- `sgp8.c` 63-65, 69. -/
noncomputable def xgdt1 : ℝ := -(1 / 2) * (3 * ck2 * (1 / (po x * po x)) * x.n) * k.unm5th
/-- `sgp8.c` 153-154. -/
noncomputable def edot : ℝ :=
  -c0 k x * (eta x * (eta2 x + 4 + eosq x * (eta2 x * 7 + 31 / 2)) + x.e * (eta2 x * 15 + 5) + d1 x * d6 x * b1 k + c8 k x * cos2g x
    + c9 k x * Real.sin x.g)
/-- `sgp8.c` 155. -/
noncomputable def tsdtts : ℝ := x.a * 2 * tsi x * (d20 k x * betao2 x + x.e * edot k x)
/-- `sgp8.c` 156. -/
noncomputable def aldtal : ℝ := x.e * edot k x / alpha2 x
/-- `sgp8.c` 157. -/
noncomputable def etdt : ℝ := (edot k x + x.e * tsdtts k x) * tsi x * sConst
/-- `sgp8.c` 158. -/
noncomputable def psdtps : ℝ := -eta x * etdt k x * psim2 x
/-- `sgp8.c` 159. -/
noncomputable def c0dtc0 : ℝ := d20 k x + tsdtts k x * 4 - aldtal k x - psdtps k x * 7
/-- `sgp8.c` 160. -/
noncomputable def c1dtc1 : ℝ := xndtn k x + aldtal k x * 4 + c0dtc0 k x
/-- `sgp8.c` 161. -/
noncomputable def d14 : ℝ := tsdtts k x - psdtps k x * 2
/-- `sgp8.c` 162. -/
noncomputable def d15 : ℝ := (d20 k x + x.e * edot k x / betao2 x) * 2
/-- `sgp8.c` 163. -/
noncomputable def d1dt : ℝ := d1 x * (d14 k x + d15 k x)
/-- `sgp8.c` 164. -/
noncomputable def d2dt : ℝ := etdt k x * d11 x
/-- `sgp8.c` 165. -/
noncomputable def d3dt : ℝ := etdt k x * d12 x
/-- `sgp8.c` 166. -/
noncomputable def d4dt : ℝ := etdt k x * d13 x
/-- `sgp8.c` 167. -/
noncomputable def d5dt : ℝ := d5 x * d14 k x
/-- `sgp8.c` 168. -/
noncomputable def c4dt : ℝ := b2 k * (d1dt k x * d3 x + d1 x * d3dt k x)
/-- `sgp8.c` 169. -/
noncomputable def c5dt : ℝ := b3 k * (d5dt k x * d4 x + d5 x * d4dt k x)
/-- `sgp8.c` 170-171. -/
noncomputable def d16 : ℝ :=
  d9 x * etdt k x + d10 x * edot k x + b1 k * (d1dt k x * d2 x + d1 x * d2dt k x) + c4dt k x * cos2g x + c5dt k x * Real.sin x.g
    + xgdt1 k x * (c5 k x * Real.cos x.g - c4 k x * 2 * sin2g x)
/-- `sgp8.c` 172. -/
noncomputable def xnddt : ℝ := c1dtc1 k x * xndt k x + c1 k x * d16 k x
/-- `sgp8.c` 173-178. -/
noncomputable def eddot : ℝ :=
  c0dtc0 k x * edot k x - c0 k x * ((eta2 x * 3 + 4 + eeta x * 30 + eosq x * (eta2 x * 21 + 31 / 2)) * etdt k x
    + (eta2 x * 15 + 5 + eeta x * (eta2 x * 14 + 31)) * edot k x + b1 k * (d1dt k x * d6 x + d1 x * etdt k x * (eta2 x * (135 / 2) + 30))
    + b2 k * (d1dt k x * d7 x + d1 x * etdt k x * (eta2 x * (75 / 2) + 5)) * cos2g x
    + b3 k * (d5dt k x * d8 x + d5 x * etdt k x * eta x * (eta2 x * 4 + 27 / 2)) * Real.sin x.g
    + xgdt1 k x * (c9 k x * Real.cos x.g - c8 k x * 2 * sin2g x))
/-- `sgp8.c` 179-180. -/
noncomputable def d25 : ℝ := edot k x * edot k x
/-- `sgp8.c` 181-182. -/
noncomputable def d17 : ℝ := xnddt k x / x.n - xndtn k x * xndtn k x
/-- `sgp8.c` 183-185. -/
noncomputable def tsddts : ℝ :=
  tsdtts k x * 2 * (tsdtts k x - d20 k x) + x.a * tsi x * (2 / 3 * betao2 x * d17 k x - d20 k x * 4 * x.e * edot k x
    + (d25 k x + x.e * eddot k x) * 2)
/-- `sgp8.c` 186. -/
noncomputable def etddt : ℝ := (eddot k x + edot k x * 2 * tsdtts k x) * tsi x * sConst + tsddts k x * eta x
/-- `sgp8.c` 187-188. -/
noncomputable def d18 : ℝ := tsddts k x - tsdtts k x * tsdtts k x
/-- `sgp8.c` 189-191. -/
noncomputable def d19 : ℝ := -(psdtps k x * psdtps k x) / eta2 x - eta x * etddt k x * psim2 x - psdtps k x * psdtps k x
/-- `sgp8.c` 192. -/
noncomputable def d23 : ℝ := etdt k x * etdt k x
/-- `sgp8.c` 193-194. -/
noncomputable def d1ddt : ℝ :=
  d1dt k x * (d14 k x + d15 k x) + d1 x * (d18 k x - d19 k x * 2 + 2 / 3 * d17 k x
    + (alpha2 x * d25 k x / betao2 x + x.e * eddot k x) * 2 / betao2 x)
/-- `sgp8.c` 195-208. -/
noncomputable def xntrdt : ℝ :=
  xndt k x * (2 / 3 * 2 * d17 k x + (d25 k x + x.e * eddot k x) * 3 / alpha2 x - aldtal k x * aldtal k x * 6 + d18 k x * 4 - d19 k x * 7)
    + c1dtc1 k x * xnddt k x + c1 k x * (c1dtc1 k x * d16 k x + d9 x * etddt k x + d10 x * eddot k x
    + d23 k x * (eeta x * 30 + 6 + eosq x * 68) + etdt k x * edot k x * (eta2 x * 30 + 40 + eeta x * 272) + d25 k x * (eta2 x * 68 + 17)
    + b1 k * (d1ddt k x * d2 x + d1dt k x * 2 * d2dt k x + d1 x * (etddt k x * d11 x + d23 k x * (eta2 x * 54 + 72)))
    + b2 k * (d1ddt k x * d3 x + d1dt k x * 2 * d3dt k x + d1 x * (etddt k x * d12 x + d23 k x * (eta2 x * 30 + 30))) * cos2g x
    + b3 k * ((d5dt k x * d14 k x + d5 x * (d18 k x - d19 k x * 2)) * d4 x + d4dt k x * 2 * d5dt k x
      + d5 x * (etddt k x * d13 x + eta x * (45 / 2) * d23 k x)) * Real.sin x.g
    + xgdt1 k x * ((d20 k x * 7 + x.e * 4 * edot k x / betao2 x) * (c5 k x * Real.cos x.g - c4 k x * 2 * sin2g x)
      + (c5dt k x * 2 * Real.cos x.g - c4dt k x * 4 * sin2g x - xgdt1 k x * (c5 k x * Real.sin x.g + c4 k x * 4 * cos2g x))))

end

/-- `sgp8.c` 209-218: the laws for the mean motion and the eccentricity with the given values and derivatives; `none`: a division by zero. -/
structure Law where
  pp : ℝ
  gamma : ℝ
  xnd : ℝ
  qq : ℝ
  ed : ℝ
  ovgpp : ℝ

/-- `sgp8.c` 209-218. -/
noncomputable def lawOf (xndt xnddt xntrdt edot eddot : ℝ) : Option Law :=
  let tmnddt := xnddt * 10 ^ 9
  let temp := tmnddt * tmnddt - xndt * 10 ^ 18 * xntrdt
  let pp := (temp + tmnddt * tmnddt) / temp
  let gamma := -xntrdt / (xnddt * (pp - 2))
  let qq := 1 - eddot / (edot * gamma)
  if temp = 0 ∨ xnddt * (pp - 2) = 0 ∨ pp * gamma = 0 ∨ edot * gamma = 0 ∨ qq * gamma = 0 ∨ gamma * (pp + 1) = 0 then none
  else some { pp, gamma, qq, xnd := xndt / (pp * gamma), ed := edot / (qq * gamma), ovgpp := 1 / (gamma * (pp + 1)) }

/-- What `SGP8_init` stores (`sgp8.c` 23-46). `law` is `none` when `simple_flag` is set. -/
structure Par8 where
  c : Common8
  xnodp : ℝ
  sini : ℝ
  cosi : ℝ
  cosio2 : ℝ
  xndt : ℝ
  edot : ℝ
  law : Option Law

/-- The arguments of the quantities above for an element set (`sgp8.c` 83, 91-95). -/
noncomputable def fixedOf (e : Elem) : Fixed :=
  let c := sxp8_common_init e (sxpall_common_init e)
  ⟨e.bstar, c.tthmun, c.unm5th, c.unmth2, Real.sin e.xincl⟩
/-- Likewise (`sgp8.c` 91, 98). -/
noncomputable def orbOf (e : Elem) : Orb := ⟨(sxpall_common_init e).aodp, (sxpall_common_init e).xnodp, e.eo, e.omegao⟩

open Classical in
/-- `sgp8.c` 80-225 `SGP8_init`. -/
noncomputable def SGP8_init (e : Elem) : Option Par8 :=
  let r := sxpall_common_init e
  let k := fixedOf e
  let x := orbOf e
  let par (edot : ℝ) (law : Option Law) : Par8 :=
    { c := sxp8_common_init e r, xnodp := r.xnodp, sini := Real.sin e.xincl, cosi := r.cosio, cosio2 := r.cosio2, xndt := xndt k x, edot, law }
  if |xndtn k x * 1440| > 216 / 10 ^ 5 then
    if eta2 x = 0 then none
    else (lawOf (xndt k x) (xnddt k x) (xntrdt k x) (edot k x) (eddot k x)).map fun l => par (edot k x) (some l)
  else some (par (-(2 / 3) * xndtn k x * (1 - e.eo)) none)

/-- `sgp8.c` 247-262: mean motion, eccentricity and the integral of the change of the mean motion at `t`; `none`: the power of a negative number (or of
zero, which the program can raise to a positive power). -/
noncomputable def decay8 (p : Par8) (eo t : ℝ) : Option (ℝ × ℝ × ℝ) :=
  match p.law with
  | some l =>
    let temp := 1 - l.gamma * t
    let temp1 := temp ^ l.pp
    if temp ≤ 0 then none
    else some (p.xnodp + l.xnd * (1 - temp1), eo + l.ed * (1 - temp ^ l.qq), l.xnd * (t + l.ovgpp * (temp * temp1 - 1)))
  | none => some (p.xnodp + p.xndt * t, eo + p.edot * t, p.xndt * (1 / 2) * t * t)

/-- `sgp8.c` 273-286: at most `n + 1` passes from `zc2`; the eccentric anomaly whose sine and cosine are used afterwards. -/
noncomputable def kepler8 (em xmam : ℝ) : ℕ → ℝ → ℝ
  | n, zc2 =>
    let cape := (xmam + em * Real.sin zc2 - zc2) * (1 / (1 - em * Real.cos zc2)) + zc2
    if |cape - zc2| ≤ 1 / 10 ^ 6 then zc2
    else match n with
      | 0 => zc2
      | n + 1 => kepler8 em xmam n cape

/-- `sgp8.c` 271-286. -/
noncomputable def anomaly8 (em xmam : ℝ) : ℝ := kepler8 em xmam 10 (xmam + em * Real.sin xmam * (em * Real.cos xmam + 1))

/-- The mean elements at the time asked for: mean motion, eccentricity, mean anomaly, perigee, node. -/
structure Mean8 where
  xn : ℝ
  em : ℝ
  xmam : ℝ
  omgasm : ℝ
  xnodes : ℝ

/-- `sgp8.c` 243-268. -/
noncomputable def mean8 (p : Par8) (e : Elem) (t : ℝ) : Option Mean8 :=
  (decay8 p e.eo t).map fun (xn, em, z1) =>
    let z7 := 2 / 3 * (7 / 2) * z1 / p.xnodp
    { xn, em
      xmam := FMod2p (FMod2p (e.xmo + p.c.xmdot * t) + z1 + z7 * p.c.xmdt1)
      omgasm := e.omegao + p.c.omgdot * t + z7 * p.c.xgdt1
      xnodes := e.xnodeo + p.c.xnodot * t + z7 * p.c.xhdt1 }

/-- `sgp8.c` 336-347: the vector toward the satellite from the longitude and the two components `y4`, `y5`. -/
noncomputable def orient8U (xlamb y4 y5 : ℝ) : V3 :=
  let snlamb := Real.sin xlamb
  let cslamb := Real.cos xlamb
  ⟨y4 * ((y5 * snlamb - y4 * cslamb) * 2) + cslamb, -y4 * ((y5 * cslamb + y4 * snlamb) * 2) + snlamb, y4 * (Real.sqrt (1 - y4 * y4 - y5 * y5) * 2)⟩
/-- Likewise, in the direction of motion (`sgp8.c` 336-347). -/
noncomputable def orient8V (xlamb y4 y5 : ℝ) : V3 :=
  let snlamb := Real.sin xlamb
  let cslamb := Real.cos xlamb
  ⟨y5 * ((y5 * snlamb - y4 * cslamb) * 2) - snlamb, -y5 * ((y5 * cslamb + y4 * snlamb) * 2) + cslamb, y5 * (Real.sqrt (1 - y4 * y4 - y5 * y5) * 2)⟩

/-- `sgp8.c` 280, 290, 299, 302-306: the true anomaly, in `[0, 2π)`. -/
noncomputable def fm8 (em E : ℝ) : ℝ :=
  let zc5 := 1 / (1 - em * Real.cos E)
  let fm := atan2 (Real.sqrt (1 - em * em) * Real.sin E * zc5) ((Real.cos E - em) * zc5)
  if fm < 0 then fm + (Real.pi + Real.pi) else fm

/-- `sgp8.c` 288-334: distance, its rate, the transverse velocity, longitude, and the two components of the orientation. -/
structure Short8 where
  rr : ℝ
  rdot : ℝ
  rvdot : ℝ
  xlamb : ℝ
  y4 : ℝ
  y5 : ℝ

/-- `sgp8.c` 288-334 for the field coefficients `k2` and `a3` (the program has the constants `ck2` and `a3ovk2` there) and the eccentric anomaly `E`. -/
noncomputable def short8 (k2 a3 : ℝ) (p : Par8) (m : Mean8) (E : ℝ) : Short8 :=
  let sine := Real.sin E
  let cose := Real.cos E
  let zc5 := 1 / (1 - m.em * cose)
  let am := (xke / m.xn) ^ (2 / 3 : ℝ)
  let beta2m := 1 - m.em * m.em
  let sinos := Real.sin m.omgasm
  let cosos := Real.cos m.omgasm
  let axnm := m.em * cosos
  let aynm := m.em * sinos
  let pm := am * beta2m
  let g1 := 1 / pm
  let g2 := k2 * (1 / 2) * g1
  let g3 := g2 * g1
  let beta := Real.sqrt beta2m
  let g4 := a3 * (1 / 4) * p.sini
  let g5 := a3 * (1 / 4) * g1
  let snf := beta * sine * zc5
  let csf := (cose - m.em) * zc5
  let fm := fm8 m.em E
  let snfg := snf * cosos + csf * sinos
  let csfg := csf * cosos - snf * sinos
  let sn2f2g := snfg * 2 * csfg
  let cs2f2g := csfg * csfg * 2 - 1
  let ecosf := m.em * csf
  let g10 := fm - m.xmam + m.em * snf
  let rm := pm / (ecosf + 1)
  let aovr := am / rm
  let g13 := m.xn * aovr
  let g14 := -g13 * aovr
  let dr := g2 * (p.c.unmth2 * cs2f2g - p.c.tthmun * 3) - g4 * snfg
  let diwc := g3 * 3 * p.sini * cs2f2g - g5 * aynm
  let di := diwc * p.cosi
  let sni2du := p.c.sini2 * (g3 * ((1 - p.cosio2 * 7) * (1 / 2) * sn2f2g - p.c.unm5th * 3 * g10) - g5 * p.sini * csfg * (ecosf + 2))
    - g5 * (1 / 2) * p.cosio2 * axnm / p.c.cosi2
  { rr := rm + dr
    rdot := m.xn * am * m.em * snf / beta + g14 * (g2 * 2 * p.c.unmth2 * sn2f2g + g4 * csfg)
    rvdot := m.xn * (am * am) * beta / rm + g14 * dr + am * g13 * p.sini * diwc
    xlamb := fm + m.omgasm + m.xnodes + g3 * ((p.cosi * 6 + 1 - p.cosio2 * 7) * (1 / 2) * sn2f2g - (p.c.unm5th + p.cosi * 2) * 3 * g10)
      + g5 * p.sini * (p.cosi * axnm / (p.cosi + 1) - (ecosf + 2) * csfg)
    y4 := p.c.sini2 * snfg + csfg * sni2du + snfg * (1 / 2) * p.c.cosi2 * di
    y5 := p.c.sini2 * csfg - snfg * sni2du + csfg * (1 / 2) * p.c.cosi2 * di }

/-- `sgp8.c` 349-358: position (km) and velocity (km/min). -/
noncomputable def posVel8 (s : Short8) : V3 × V3 :=
  let U := orient8U s.xlamb s.y4 s.y5
  let V := orient8V s.xlamb s.y4 s.y5
  (⟨s.rr * U.x * earthRadius, s.rr * U.y * earthRadius, s.rr * U.z * earthRadius⟩,
   ⟨(s.rdot * U.x + s.rvdot * V.x) * earthRadius, (s.rdot * U.y + s.rvdot * V.y) * earthRadius, (s.rdot * U.z + s.rvdot * V.z) * earthRadius⟩)

open Classical in
/-- `sgp8.c` 227-360 `SGP8`: the returned code is always 0; `pos` and `vel` are not numbers where the second component is `none`. -/
noncomputable def SGP8 (p : Par8) (e : Elem) (t : ℝ) : ℤ × Option (V3 × V3) :=
  (0, (mean8 p e t).bind fun m =>
    let s := short8 ck2 a3ovk2 p m (anomaly8 m.em m.xmam)
    if m.xn ≤ 0 ∨ m.em * m.em ≥ 1 ∨ p.c.cosi2 = 0 ∨ p.cosi + 1 = 0 ∨ 1 - s.y4 * s.y4 - s.y5 * s.y5 < 0 then none else some (posVel8 s))

end SatSky.Sgp8
