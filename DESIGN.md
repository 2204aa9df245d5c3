# Design of the formal model of SatSkyMap

Source: lnicastro/SatSkyMap as found in /repo (C). Formal model: Lean 4 (`/verif/lean/Verif`).
Nothing of the C code was built or run; the model is a hand translation of the text, function by
function, each definition citing file and lines.

## How the model is built

* **Bytes and strings.** A C string is a list of signed byte values (`List Int`, notation `CString`; `char` is signed on the platforms
  the program is used on) without the terminator; an
  array is the list of all its bytes. An access beyond the terminator/array is the distinct outcome
  `none` ("undefined behaviour"), never a default value.
* **Integers.** C `int` is `Int` with an explicit range check (`none` on signed overflow) where
  overflow is possible; elsewhere a lemma shows the range.
* **Loops.** Folds or structural recursion over the input list; loops that may not terminate are
  state machines (`step : State → Option State`) and termination/non-termination is a theorem.
* **Floating point.** Two treatments, stated per theorem:
  (a) exact real arithmetic (`ℝ`) for geometry; rounding is then NOT modelled;
  (b) for dates, an arbitrary rounding function with the properties of rounding to nearest
  (structures `Fl64`, `Fl32` in `Model/Float.lean`; unbounded exponent range), of which IEEE binary64
  half-even (`Fl64.ieee`) is shown to be an instance.
* **External functions** (libm, stdio, propagators when they are not the subject) are parameters of
  the model; theorems hold for every value of the parameter.
* **Violations.** Where the code does not have the property, the negation is proved with a concrete
  witness (`..._violated`) and the strongest true part is proved as `..._partial`.

Specifications live in `Verif/Spec/*`, models in `Verif/Model/*`, property theorems in
`Verif/Props/*`, helper lemmas in `Verif/Lemmas/*` (or next to the model when tiny).

## Plan per property

(The table is kept current; see MANIFEST.json for the theorem names.)

| id | modelled | proof plan |
|----|----------|------------|
| C01 | `tle_checksum` on byte strings | spec = predicate on columns; case analysis + digit-sum arithmetic mod 10 |
| C02 | same, with out-of-bounds as `none` | induction over the string |
| C03 | `base34_to_int`, `get_norad_number` | arithmetic of mixed radix positions, case split on the six schemes |
| C04 | `parse_elements` return code | full statement refuted for 'H' elements (witness); partial for the other types |
| C05 | year/epoch lines of `parse_elements` | compare with an inductive day count; interval case split |
| C06 | `get_angle`, `get_eight_places`, atoi fields | induction on digits |
| C07 | `sci` | symbolic evaluation; runaway loop for bad exponent as separate theorem |
| C08 | `mutant_dehex`, `get_high_value` | positional notation induction |
| C09 | whole `parse_elements` on the standard layout | composition of C01, C03, C05–C07 |
| C10 | integer part of `date2mjd_nf` | next-day induction, truncating division |
| C11 | `date2mjd_nf` ∘ `mjd2date` | integer inverse + interval argument for the time of day |
| C12 | `mjd2date` with rounding arithmetic | interval and floor arithmetic |
| C13 | output length of `mjd2date` | refuted for years > 9999; partial inside |
| C14 | sscanf subset of `date2mjd_nf` | return code proved; caller ignores it: refuted |
| C15–C25 | reading loop of `sat_skymap.c` 671–931 as state machine | invariants by induction over lines; violations by witness |
| C26 | every `printf` of `sat_skymap.c` as token emission | JSON grammar (inductive) as spec; per exit path |
| C27 | `close_stat_json` | list equality; refuted for list given last |
| C28–C30 | option loop as state machine on argv | invariants, non-termination witness |
| C86, C87 | the same option loop | invariants of all accepted parameters |
| C88 | the reading loop and the end of the answer | the counters, on every exit of the reading loop |
| C31, C32 | path selection, list loop | case analysis, induction |
| C33–C41, C69–C76 | geometry functions over ℝ (`Model/Geometry.lean`) against directions, angles and rotations of `Spec/Sphere.lean`, `Spec/Shadow.lean`, `Spec/Horizon.lean` | Mathlib trigonometry; C69 by convexity; C71 over ℚ with rounding |
| C77, C78 | `sat_geoLocation` with its loop | contraction: Lipschitz bounds of the curvature term and of atan2 |
| C79–C85 | one satellite of `sat_skymap.c` 760–898 (`Model/Record.lean`), propagator arbitrary | inversion of the steps, then the geometry theorems; violations by witness |
| C42 | `xyf2nest`, `nest2xyf` and 64 bit versions with their tables and bit masks | bit by bit against an interleaving spec |
| C43, C46 | RING numbering, `isqrt`, pixel counts, with integer types as a parameter (overflow = `none`) | square root bounds, ring by ring; bijectivity by counting; overflows by witness |
| C44, C45, C68 | directions to pixels and back over ℝ (`Model/HealpixAng.lean` is generic over an ordered field with a rounding function; `exact` is no rounding) | floor arithmetic per region; centres are half-integers in the edge line coordinates |
| C67 | the same functions over ℚ with 53 bit rounding (`double`) | refuted by two witnesses; partial by monotone rounding |
| C47–C49, C89–C98 | `select_ephemeris`, `sxpall_common_init`, `sxpx_common_init`, `sxpx_posn_vel`, `SGP4_init`, `SGP4` over ℝ (`Model/Propagate.lean`) against `Spec/Orbit.lean` | case analysis; Taylor bounds of the Newton step; derivative of the root of Kepler's equation; a polynomial divided by x⁴ (C90) |
| C50, C51, C99–C103 | `deep.c` and `SDP4` over ℝ with the state kept between calls (`Model/Deep.lean`), against `Spec/Resonance.lean` | invariants over call histories; iterated derivatives of sums of sines; rational bounds of sine and cosine |
| C104–C106 | lunar and solar terms of `Deep_dpinit` and `Deep_dpper` over ℝ (`Model/Deep.lean`), against the averaged tidal potential and Lagrange's equations (`Spec/ThirdBody.lean`) | integrals of trigonometric polynomials; derivatives; polynomial identities modulo sin² + cos² = 1; error bounds for products, quotients and roots |
| C107, C108 | short-period terms and secular rates of `sxpx_posn_vel`, `sxpx_common_init` as functions of the field coefficients (`posVelOf`, `xmdotOf`, `omgdotOf`, `xnodotOf` in `Model/Propagate.lean`; the program is these with `ck2`, `ck4`), against the gradient of the oblate field and Lagrange's equations (`Spec/Oblate.lean`) | derivative with respect to the coefficient at 0; averages over the orbit |
| C109, C110 | drag terms of `SGP4_init`, `SGP4` | expansions to t⁴ (`Lemmas/Jet.lean`) |
| C135, C136 | `c2`, `c4` of `sxpx_common_init` | Gauss's equations and means over time in `Spec/Drag.lean`; the integrals by the substitution of the true anomaly (`Lemmas/Conic.lean`) |
| C137-C140 | `sgp.c`: `SGP_init`, `SGP` (`Model/Sgp.lean`; library code that the two programs do not call) | elementary; Kepler's equation with the lemmas of C91, C92 |
| C141, C142 | `Deep_dpinit` 299-418, `compute_dpsec_derivs` against the tesseral potential (`Spec/Tesseral.lean`: Legendre functions by Rodrigues' formula, Kaula's F, Hansen's coefficients as integrals over the ellipse) | polynomial identities; symmetry of the integrals; derivative of a wave |
| C143 | `SDP4` early return, `Deep_dpsec` over any sequence of calls | bounds of the resonance terms, of the secular lunar and solar terms and of the recovered axis over all inclinations and eccentricities up to 0.8; Taylor step and induction over the calls |
| C144, C145 | `dynamic.c` (`Model/Dynamic.lean`; Windows only) with the mapping of the library as part of the state, a call outside it undefined; against `Spec/Library.lean` | invariant over the requests; violations by witness |
| C146, C147 | `sgp8.c` (`Model/Sgp8.lean`): every intermediate quantity a function of the orbit, so that the quantities named as derivatives can be compared with derivatives; the decay is a differential equation (`Spec/Decay.lean`) | derivative of each quantity along a solution (`Lemmas/Sgp8Rates.lean`), Picard-Lindelöf for existence, the fundamental theorem for the anomaly |
| C148-C151 | mean elements, answers, Kepler's equation and orientation of SGP8 | derivative of the rates by the mean motion; violations by witness; the contraction of C109; algebra |
| C152-C154 | the drag rates of SGP8 against Gauss's equations and the power law of `Spec/Drag.lean` | substitution of the true anomaly, integrals of `Lemmas/Conic8.lean`, derivative under the integral; violations by witness |
| C155, C156 | SGP8 against the ellipse, and against SGP4 and the oblate Earth (`Spec/Oblate.lean`) | algebra on the orientation variables; derivatives at coefficient 0 |
| C157-C159 | `sdp8.c` (`Model/Sdp8.lean`): SDP8 against SDP4, the ellipse, and when it has a position | congruence of `deep.c` in the members of `Init`; bounds on the terms of the harmonics |
| C160, C161 | Long-period terms of the third harmonic in SGP8, SDP8, SGP4 and SGP | Lagrange's equations for the averaged third harmonic integrated along the motion of the perigee (`Spec/LongPeriod.lean`); derivative of the position with respect to the coefficient |
| C162 | SGP and SGP4 to the first order in the second harmonic | derivative of both positions with respect to the coefficient, explicit; exact roots of Kepler's equation |
| C163 | drag in SDP8 | linear law, integral of the change of the mean motion, derivatives of the rates with Kepler's third law, stationary perigee |
| C164 | direction in its pixel | HEALPix projection (Spec/HealpixRegion), closed squares on the faces, evaluated by integer parts in belt and caps |
| C165 | tree of pixels | integer part of the double, division by 4 of interleaved bits, induction over the levels |
| C166 | RING = NESTED for directions | both searches evaluated by integer parts; ring and place compared with `xyf2ring` |
| C167 | equal areas | each pixel is covered by images of its square under maps with constant Jacobian, so its area is at most 4π/(12 nside²); the pixels cover the sphere, so none is smaller |
| C168 | distance from the centre | the centre given by `pix2ang` is the centre of the square in the plane; the projection is Lipschitz in both directions of the plane, with the seam and the cap quarters unrolled |
| C169 | vectors and angles | `ang2vec`, `vec2ang` against `Spec.dir`; `atan2` is the complex argument |
| C170 | vectors and pixels | `vec2pix` through `vec2ang`, whole turns do not change the pixel; centres are never poles, so `vec2pix` of `pix2vec` leads back |
| C171 | horizon to sky | `slaDh2e` against `Spec.horizontal`; injectivity of `equatorial` for the way back from `dechalat2alt`; `sph2v` against `Spec.dir` |
| C172 | date with milliseconds | the steps of `mjd2date` plus one; table of the 60 largest doubles per second (`sec_check`) bounds the milliseconds |
| C173 | eccentricity functions | expansions in powers of e up to the fourth, uniform along the orbit (`Ser`), with coefficients that are sums of powers of e^(iE); only the constant terms survive the mean (`Lemmas/Hansen`) |
| C174 | fits for 12-hour orbits | Hansen's coefficients as a series in β = e/(1+√(1-e²)) with products of two simple coefficients (`Lemmas/HansenSeries`), a geometric bound of the tail, and the first terms minus the cubic as a polynomial of β with whole coefficients (`Lemmas/HansenTail`) that is shown positive on an interval by a change of variable in the kernel (`Lemmas/PolyCheck`, `decide +kernel`; the soundness of the check is proved) |
| C175 | `SGP_init`: the axis | equality with the axis of `sxpall_common_init`, then C90 |
| C176 | error of the resonance integration | the exact motion by Picard–Lindelöf (`Lemmas/StepMotion`); local error of one step and growth of an earlier error (`Lemmas/StepError`), summed over the steps of all requests; bounds of the acceleration from its terms |
| C177 | `skysep_h` in `double` (`Model/SepDouble.lean`) | errors that are partly relative, partly absolute (`Lemmas/Relative`), carried through each operation; Jordan's inequality for the sine, the mean value theorem for the arcsine, the triangle inequality for the folded longitudes |
| C178 | `lmst_hr` in `double` (`Model/SiderealDouble.lean`) | the split is exact by the grid of doubles; absolute errors through the polynomial in rational arithmetic; then C39, C113; 24 is attained (kernel evaluation with IEEE rounding) |
| C179 | `get_satellite_ra_dec_delta` in `double` (`Model/TopoDouble.lean`) | significands: a number that rounds to z has a square below the rounded square of z; relative errors; argument of a product of complex numbers; the inverse sine is Hölder continuous of order 1/2 |
| C180 | altitude of `dechalat2alt` in `double` (`Model/AltDouble.lean`) | errors of products; the cosine of the distance from the zenith is below a parabola; inverse sine as in C179; for the nadir, Taylor polynomials pin the rounded values and the kernel computes the rest |
| C181 | `ThetaG`, `observer_cartesian_coords`, `earth_lat_alt_to_parallax` in `double` (`Model/ObserverDouble.lean`) | the split of a date that is a multiple of 2^-31 is exact; errors of the polynomial as in C178; a relative error of the argument is an absolute error of the inverse tangent |
| C182 | the `printf` of a record (`Model/DataText.lean`), the meaning of decimal texts (`Spec/Decimal.lean`) | reading the digits back by induction over the text; a multiple of the last unit near a bound does not exceed it |
| C183 | `epoch_of_date_to_j2000` in `double` (`Model/PrecDouble.lean`) | errors of products and of the tangent where the cosine is at least 0.198 |
| C184 | observer, direction, precession and printing composed (`Model/PipeDouble.lean`) | C181, C179, C183, C182, and how the direction follows the position of the observer |
| C185 | separation, speed and selection from computed directions (`speedD`, `inRegionD` in `Model/PipeDouble.lean`) | a direction moves no more than its coordinates do, the triangle inequality for angles, C177, C182, C184 |
| C186 | the position angle in `double` (`motionAngleD` in `Model/PipeDouble.lean`) | the branch taken for the difference of right ascensions, and the argument of a perturbed complex number |
| C187 | `sat_geoLocation` in `double` (`Model/GeoDouble.lean`) | one pass is the exact one to 1.3e-15, so the contraction of C77 survives; the equations of the last pass as in C78 |
| C188 | `intersect_satsun_sphere` in `double` (`Model/ShadowDouble.lean`) | the discriminant is the exact one to 7e-4 km^2, the half chord has the sign of the exact one |
| C189 | azimuth of `dechalat2alt` in `double` (`Model/AzDouble.lean`) | both arguments of atan2 are the exact ones to 6e-15; an angle moves by at most 1.6 times the relative displacement; rounding never leaves 360 |
| C190 | parallactic angle of `dechalat2alt` in `double` (`Model/AzDouble.lean`) | sine and cosine are those of the exact angle to 5e-14 over the two cosines (C189 for the azimuth, C76 for the identities) |
| C191 | `lpsun_radec`, `atan_circ`, `sphrad2v` in `double` (`Model/SunDouble.lean`) | longitude by chained error bounds, `atan_circ` against `Complex.arg` of the rounded components, then C72 |
| C192 | from the date to the sunlit flag in `double` (`Model/SunDouble.lean`) | C188 with the rounded Sun of C191; moving the Sun by 2 m moves the ray at the Earth by less than 1 mm |
| C193 | `ang2pix_nest` and the printed pixel in `double` (`Model/PixelDouble.lean`) | distances to the lattice lines within relative error of the exact ones; the direction is moved into the square found, then the region of C164 |
| C194 | epoch, Julian date and minutes since the epoch in `double` (`Model/TimeDouble.lean`) | chained error bounds on top of C05 |
| C195 | the same from the text of the date | refuted by a witness (time of day rounded to 1e-5 day); partial from the error bound of C11 |
| C196 | longitude of the Sun in `double` from the date (`Model/SunSkyDouble.lean`) | composition of C178 and C191; range by monotone rounding |
| C197 | altitude of the Sun in `double` from date and place | composition of C178, C180, C191; Lipschitz bound of the sine of the altitude |
| C198 | the separation without `-H` in `double` (`Model/FlatDouble.lean`) | error bounds on both sides of the fold; C69 for the sky |
| C199 | zenith distance and altitude of `sat_visibility` in `double` (`Model/ZenithDouble.lean`) | refuted by a witness (declination equal to the latitude); partial from C177 and C180 |
| C200 | `ThetaG` of `deep.c` in `double` (`Model/DeepThetaDouble.lean`) at the epoch of the element set | error analysis, `sidereal_lipschitz`, C113, C181, C194 |
| C201 | `select_ephemeris` and `sxpall_common_init` in `double` (`Model/SelectDouble.lean`) | relative errors (`Rel`); the power by its base and its exponent; the quotient with a vanishing numerator (`quot_near`) |
| C202 | the fields of the element set in `double` (`Model/FieldsDouble.lean`) | C09 and relative errors of either sign (`RelS`); induction over the exponent |
| C203, C204 | Kepler's equation of `sxpx_posn_vel` in `double` (`Model/KeplerDouble.lean`) | backward error of the tested residual; the cubic step of C92 with an error of the step of 9e-15 |
| C205 | the position of `sxpx_posn_vel` in `double` (`Model/PosnDouble.lean`) | C204; errors of each operation; the angle of `atan2` compared by its sine and cosine, so its cut does not matter |
| C206 | `sxpx_posn_vel` in `double` from its arguments (`Model/LongDouble.lean`) | the estimates of C205 with room for errors of the eccentricity vector and the mean longitude; the root of Kepler's equation moves by at most the residual over 1 - e; a different number of whole turns does not change the position |
| C207 | the time step of `SGP4` in `double` (`Model/StepDouble.lean`) | relative errors with an underflow term for the powers of the time, absolute errors for the terms; the limit of the eccentricity is a maximum, which does not enlarge errors |
| C208 | the code and the position of `sxpx_posn_vel` in `double` against the exact function (`Model/CodeDouble.lean`) | both iterations end near the one root of Kepler's equation (C92, C204), the whole turns cancel (C206); relative error of the two apsides against a gap |
| C209 | the secular rates of `sxpx_common_init` in `double` (`Model/RateDouble.lean`) | absolute error of every product and sum, with one lemma each for the linear and the quadratic polynomials in `cosio2` |
| C210 | `s4` and `qoms24` of `sxpx_common_init` in `double` (`Model/DensDouble.lean`) | both are continuous functions of one clamped height, which does not enlarge errors; the constants agree with the formulas to 3e-22 |
| C211 | `tsi`, `eta`, `coef`, `coef1` of `sxpx_common_init` in `double` (`Model/DragDouble.lean`) | relative errors through quotients and products, an absolute one for `1 - etasq`; `x ^ 3.5 = x^3 * x^(1/2)` |
| C212 | `c2` and `c1` of `sxpx_common_init` in `double` (`Model/CoefDouble.lean`) | absolute errors of both terms in units of the axis, relative ones for their common factor |
| C213 | `c4` of `sxpx_common_init` in `double` (`Model/EccDouble.lean`) | absolute errors of the terms of the bracket, relative ones for the common factor and for the ratio of the oblateness |
| C214 | `xnodcf` and `t2cof` of `sxpx_common_init` in `double` (`Model/NodeDouble.lean`) | product of the bounds of C209 and C212 |
| C111, C112 | application of the periodic lunar and solar terms in `Deep_dpper` (`applyDirect`, `applyLyddane`) against the displacement of the satellite | derivative with respect to the size of the terms |
| C113 | the two `ThetaG`, `lmst_hr` against the polynomial of `Spec/Sidereal.lean` | floor arithmetic, linear bounds |
| C54, C55 | `earthtilt.c`: table program of `calcnutation` and the cache (`Model/Nutation.lean`), against the IAU 1980 table (`Spec/Nutation.lean`) | the table program is run once on integer combinations (`decide +kernel`) and lifted to all real arguments by addition theorems; invariant over call histories; Lipschitz bounds |
| C114, C115 | `zenith_site_ra.c` (`Model/Zenith.lean`) | floor arithmetic, polynomial bounds |
| C52, C53, C116–C119 | `sdp4.c` for elements of type 'H' (`Model/High.lean`): Moon and Sun with their cache, acceleration, integration loop; against `Spec/MoonTheory.lean`, `Spec/Newton.lean` | invariants over call histories; induction on the number of days; expansion of an analytic right hand side to the third order gives the order of the Runge-Kutta step |
| C56–C60, C120–C126 | time loop of `sat_visibility.c` (`Model/Visibility.lean`), the observed quantities an arbitrary function of the instant, times rounded; against `Spec/Pass.lean` | three phases (before, during, after the pass) as invariants by induction over samples; rounding bounds for the printed times |
| C61, C127, C128 (and C29) | option loop of `sat_visibility.c` (`Model/VisOptions.lean`) as a step machine over arbitrary argument vectors; conversions of text to numbers are parameters | fold over the items of a documented command line, commutation from written and read fields; invariants of the loop |
| C62, C129 | record search and output of `sat_visibility.c` (`Model/VisMain.lean`): argument vector and files to printed text and exit code; numerical results are parameters (`VWorld`) | induction over the lines of files of records; invariant of the name and designator arrays |
| C130-C134 | the same model; ends of a run in `Lemmas/VisRuns.lean`, texts as JSON tokens in `Lemmas/JsonVis.lean` | case analysis of the ends of a run; invariant of the printed groups; JSON automaton of C26 |

## Trusted base

Lean 4.33.0 kernel; Mathlib definitions used in statements (ℝ, sin, cos, arctan2 via `Complex.arg`,
floor, …); axioms `propext`, `Classical.choice`, `Quot.sound` only. Assumptions that appear as
structures in statements: `Fl64` (rounding to nearest), `Fl64G` (the same, and a result of at least `2^j` is a multiple of `2^(j-52)`; `Fl64G.ieee` is an instance), `Root` (correctly rounded `sqrt`, by squares), `Libm`, `ObsLib`, `PrecLib`, `GeoLib`, `DirLib`, `SunLib` and `PowLib` (accuracy of `sin`, `cos`, `tan`, `asin`, `atan`, `atan2`, `sqrt`, `pow`; no contraction of
products and sums). HEALPix is
modelled as compiled without BMI2 (table and mask versions of the bit operations). Geometry over ℝ: `atan2 y x` is
`Complex.arg` (no signed zeros), constants such as `PI` and `DEG2RAD` are exact, division by zero is excluded by hypotheses or
gives an explicit failure. The faithfulness of the hand
translation is not machine checked. Not modelled: floating point rounding (unless stated), libm accuracy,
stdio buffering, memory allocator, locale.
