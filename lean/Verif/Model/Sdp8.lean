import Verif.Model.Deep
import Verif.Model.Sgp8

/-!
The deep-space model SDP8 (`src/sdp8.c`) in exact arithmetic; library code that the two programs do not call.  The perturbations of Sun, Moon and
resonance are those of `src/deep.c` (`Model/Deep.lean`), with what they keep from one call to the next.

Simplifications: as in `Model/Deep.lean` and `Model/Sgp8.lean`; where the program takes a root or a power of a negative number in a way that reaches the
position, or divides there by zero, the position is `none` (the program computes with a NaN or an infinity and returns 0 all the same).
-/

namespace SatSky.Sdp8

open SatSky.Sxp SatSky.Sgp8 SatSky.Spec SatSky.Geo

/-- What `sxpall_common_init` and `sxp8_common_init` leave in `deep_arg` for `Deep_dpinit` (`sdp8.c` 48-50).  The other members of `Init` belong to
`SGP4` and `SDP4`; the functions of `deep.c` do not read them. -/
noncomputable def init8 (e : Elem) : Init :=
  let r := sxpall_common_init e
  let c := sxp8_common_init e r
  { r with
    s4 := 0, qoms24 := 0, tsi := 0, eta := 0, coef := 0, coef1 := 0, c1 := 0, c4 := 0, xnodcf := 0, t2cof := 0
    sinio := Real.sin e.xincl
    xmdot := c.xmdot
    omgdot := c.omgdot
    xnodot := c.xnodot }

/-- What `SDP8_init` stores (`sdp8.c` 22-31, 46). -/
structure Par8d where
  c : Common8
  xndt : ℝ
  edot : ℝ
  deep : Deep

/-- `sdp8.c` 36-89 `SDP8_init`; lines 52-77 are lines 102-127 of `sgp8.c`, and line 78 is the rate of the eccentricity on line 223 there. -/
noncomputable def SDP8_init (e : Elem) : Par8d where
  c := sxp8_common_init e (sxpall_common_init e)
  xndt := xndt (fixedOf e) (orbOf e)
  edot := -(2 / 3) * xndtn (fixedOf e) (orbOf e) * (1 - e.eo)
  deep := Deep_dpinit e (init8 e)

/-- `sdp8.c` 106: the integral of the change of the mean motion. -/
noncomputable def z1Of (p : Par8d) (t : ℝ) : ℝ := p.xndt * (1 / 2) * t * t
/-- `sdp8.c` 107. -/
noncomputable def z7Of (p : Par8d) (t : ℝ) : ℝ := 2 / 3 * (7 / 2) * z1Of p t / p.deep.i.xnodp

/-- `sdp8.c` 106-115: the elements before the perturbations. -/
noncomputable def secular8 (p : Par8d) (e : Elem) (t : ℝ) : Work where
  omgadf := e.omegao + p.deep.i.omgdot * t + z7Of p t * p.c.xgdt1
  xnode := e.xnodeo + p.deep.i.xnodot * t + z7Of p t * p.c.xhdt1
  xn := p.deep.i.xnodp
  xll := e.xmo + p.deep.i.xmdot * t
  em := 0
  xinc := 0

/-- `sdp8.c` 117-123: the drag, after the secular perturbations. -/
noncomputable def drag8 (p : Par8d) (t : ℝ) (w : Work) : Work :=
  { w with
    xn := w.xn + p.xndt * t
    em := w.em + p.edot * t
    xll := w.xll + z1Of p t + z7Of p t * p.c.xmdt1 }

/-- `sdp8.c` 106-125: the state and the elements for the time `t`. -/
noncomputable def elements8 (fuel : ℕ) (cfg : Cfg) (p : Par8d) (e : Elem) (s : State) (t : ℝ) : Option (State × Work) :=
  (Deep_dpsec fuel cfg p.deep e s t (secular8 p e t)).map fun (s, w) => Deep_dpper cfg p.deep e s t (drag8 p t w)

/-- `sdp8.c` 146-194 for the field coefficients `k2` and `a3` (the program has the constants `ck2` and `a3ovk2` there), the mean anomaly `xmam` and the
eccentric anomaly `E`. -/
noncomputable def shortD (k2 a3 : ℝ) (p : Par8d) (w : Work) (xmam E : ℝ) : Short8 :=
  let sine := Real.sin E
  let cose := Real.cos E
  let zc5 := 1 / (1 - w.em * cose)
  let am := (xke / w.xn) ^ (2 / 3 : ℝ)
  let beta2m := 1 - w.em * w.em
  let sinos := Real.sin w.omgadf
  let cosos := Real.cos w.omgadf
  let axnm := w.em * cosos
  let aynm := w.em * sinos
  let pm := am * beta2m
  let g1 := 1 / pm
  let g2 := k2 * (1 / 2) * g1
  let g3 := g2 * g1
  let beta := Real.sqrt beta2m
  let g4 := a3 * (1 / 4) * p.deep.i.sinio
  let g5 := a3 * (1 / 4) * g1
  let snf := beta * sine * zc5
  let csf := (cose - w.em) * zc5
  let fm := fm8 w.em E
  let snfg := snf * cosos + csf * sinos
  let csfg := csf * cosos - snf * sinos
  let sn2f2g := snfg * 2 * csfg
  let cs2f2g := csfg * csfg * 2 - 1
  let ecosf := w.em * csf
  let g10 := fm - xmam + w.em * snf
  let rm := pm / (ecosf + 1)
  let aovr := am / rm
  let g13 := w.xn * aovr
  let g14 := -g13 * aovr
  let dr := g2 * (p.c.unmth2 * cs2f2g - p.c.tthmun * 3) - g4 * snfg
  let diwc := g3 * 3 * p.deep.i.sinio * cs2f2g - g5 * aynm
  let di := diwc * p.deep.i.cosio
  let sinio2 := Real.sin (w.xinc * (1 / 2))
  let sni2du := p.c.sini2 * (g3 * ((1 - p.deep.i.cosio2 * 7) * (1 / 2) * sn2f2g - p.c.unm5th * 3 * g10)
    - g5 * p.deep.i.sinio * csfg * (ecosf + 2)) - g5 * (1 / 2) * p.deep.i.cosio2 * axnm / p.c.cosi2
  { rr := rm + dr
    rdot := w.xn * am * w.em * snf / beta + g14 * (g2 * 2 * p.c.unmth2 * sn2f2g + g4 * csfg)
    rvdot := w.xn * (am * am) * beta / rm + g14 * dr + am * g13 * p.deep.i.sinio * diwc
    xlamb := fm + w.omgadf + w.xnode
      + g3 * ((p.deep.i.cosio * 6 + 1 - p.deep.i.cosio2 * 7) * (1 / 2) * sn2f2g - (p.c.unm5th + p.deep.i.cosio * 2) * 3 * g10)
      + g5 * p.deep.i.sinio * (p.deep.i.cosio * axnm / (p.deep.i.cosio + 1) - (ecosf + 2) * csfg)
    y4 := sinio2 * snfg + csfg * sni2du + snfg * (1 / 2) * p.c.cosi2 * di
    y5 := sinio2 * csfg - snfg * sni2du + csfg * (1 / 2) * p.c.cosi2 * di }

open Classical in
/-- `sdp8.c` 126-220: what is written to `pos` and `vel` for the elements `w`: lines 129-144 are lines 271-286 of `sgp8.c`, and lines 196-219 are lines
336-358. -/
noncomputable def vectors8 (p : Par8d) (w : Work) : Option (V3 × V3) :=
  let xmam := Geo.FMod2p w.xll
  let E := anomaly8 w.em xmam
  let s := shortD ck2 a3ovk2 p w xmam E
  if w.xn ≤ 0 ∨ w.em * w.em ≥ 1 ∨ p.c.cosi2 = 0 ∨ p.deep.i.cosio + 1 = 0 ∨ 1 - s.y4 * s.y4 - s.y5 * s.y5 < 0 then none else some (posVel8 s)

/-- `sdp8.c` 91-220 `SDP8`: the new state, the returned code (always 0) and what is written to `pos` and `vel` (`none`: not numbers).  The whole is `none`
when `Deep_dpsec` does not end after `fuel` steps. -/
noncomputable def SDP8 (fuel : ℕ) (cfg : Cfg) (p : Par8d) (e : Elem) (s : State) (t : ℝ) : Option (State × ℤ × Option (V3 × V3)) :=
  (elements8 fuel cfg p e s t).map fun (s, w) => (s, 0, vectors8 p w)

end SatSky.Sdp8
