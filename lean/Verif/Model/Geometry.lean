import Verif.Spec.Sphere
import Mathlib.Analysis.SpecialFunctions.Complex.Arg
import Mathlib.Analysis.SpecialFunctions.Trigonometric.Inverse
import Mathlib.Analysis.SpecialFunctions.Trigonometric.Arctan

/-!
The geometry of `sat_skymap`, in exact arithmetic: `double` is read as the real numbers, `PI` as π and the conversion
constants of `const_def.h` as the exact quotients.  `V3` is a `double[3]`.
-/

namespace SatSky.Geo

open SatSky.Spec

/-- `const_def.h` 18 `DEG2RAD`. -/
noncomputable def d2r : ℝ := Real.pi / 180
/-- `const_def.h` 22 `RAD2DEG`. -/
noncomputable def r2d : ℝ := 180 / Real.pi
/-- `const_def.h` 25 `RAD2HRS`. -/
noncomputable def r2h : ℝ := 12 / Real.pi

/-- `const_def.h` 14. -/
def JD2000 : ℝ := 2451545

/-- `sat_skymap_def.h` 11, 14 and 17; `sat_visibility_def.h` the same. -/
noncomputable def ERAD : ℝ := 63781366 / 10000
noncomputable def F : ℝ := 3352819697896193 / 10 ^ 18
noncomputable def AU_KM : ℝ := 1495978707 / 10

/-- `atan2` of the C library; with both arguments 0 it gives 0.  (A negative zero has no counterpart here.) -/
noncomputable def atan2 (y x : ℝ) : ℝ := Complex.arg ⟨x, y⟩

/-- Conversion to `long`: toward zero. -/
noncomputable def trunc (x : ℝ) : ℤ := if 0 ≤ x then ⌊x⌋ else ⌈x⌉

/-- `fmod`: the sign of the first argument. -/
noncomputable def fmod (x m : ℝ) : ℝ := x - m * trunc (x / m)

/-- `basics.c` 25-32 `FMod2p`. -/
noncomputable def FMod2p (x : ℝ) : ℝ :=
  let r := fmod x (2 * Real.pi)
  if r < 0 then r + 2 * Real.pi else r

/-- `common.c` 118-127 `centralize_angle`. -/
noncomputable def centralize_angle (x : ℝ) : ℝ :=
  let r := fmod x (2 * Real.pi)
  if r > Real.pi then r - 2 * Real.pi else if r < -Real.pi then r + 2 * Real.pi else r

/-- `lpsun_radec.c` 13-33 `atan_circ`. -/
noncomputable def atan_circ (x y : ℝ) : ℝ :=
  let th := if x = 0 then (if y > 0 then Real.pi / 2 else if y < 0 then 3 * (Real.pi / 2) else 0) else Real.arctan (y / x)
  let th := if x < 0 then th + Real.pi else th
  if th < 0 then th + 2 * Real.pi else th

/-- `lpsun_radec.c` 40-43: ecliptic longitude of the Sun and obliquity at `jd`, in radians. -/
noncomputable def sunLambda (jd : ℝ) : ℝ :=
  let n := jd - JD2000
  let g := (357528 / 1000 + 9856003 / 10000000 * n) * d2r
  (280460 / 1000 + 9856474 / 10000000 * n + 1915 / 1000 * Real.sin g + 20 / 1000 * Real.sin (2 * g)) * d2r
noncomputable def sunEps (jd : ℝ) : ℝ := (23439 / 1000 - 4 / 10000000 * (jd - JD2000)) * d2r

/-- `lpsun_radec.c` 36-51 `lpsun_radec`: `(ra, dec)`. -/
noncomputable def lpsun_radec (jd : ℝ) : ℝ × ℝ :=
  let la := sunLambda jd
  let e := sunEps jd
  (atan_circ (Real.cos la) (Real.cos e * Real.sin la), Real.arcsin (Real.sin e * Real.sin la))

/-- `sat_skymap.c` 132-139 `sphrad2v`. -/
noncomputable def sphrad2v (ra dec : ℝ) : V3 :=
  ⟨Real.cos ra * Real.cos dec, Real.sin ra * Real.cos dec, Real.sin dec⟩

/-- `skysep_h.c` 10-25 `skysep_h`: radians in, degrees out. -/
noncomputable def skysep_h (theta1 phi1 theta2 phi2 : ℝ) : ℝ :=
  let t1 := if theta1 < 0 then theta1 + 2 * Real.pi else theta1
  let t2 := if theta2 < 0 then theta2 + 2 * Real.pi else theta2
  let radif := |t2 - t1|
  let radif := if radif > Real.pi then 2 * Real.pi - radif else radif
  let sin2a := Real.sin (radif / 2) * Real.sin (radif / 2)
  let sin2d := Real.sin ((phi2 - phi1) / 2) * Real.sin ((phi2 - phi1) / 2)
  2 * Real.arcsin (Real.sqrt (sin2d + Real.cos phi1 * Real.cos phi2 * sin2a)) * r2d

/-- `sat_skymap.c` 828-830, 833-835, 869-871: difference of right ascensions. -/
noncomputable def deltaRa (ra ra0 : ℝ) : ℝ :=
  let d := ra - ra0 + 2 * Real.pi
  if d > Real.pi then d - 2 * Real.pi else d

/-- `sat_skymap.c` 828-832, 833-837: the separation without `-H`, in degrees. -/
noncomputable def flatSep (ra dec ra0 dec0 : ℝ) : ℝ :=
  Real.sqrt (deltaRa ra ra0 * deltaRa ra ra0 + (dec - dec0) * (dec - dec0)) * r2d

/-- `sat_skymap.c` 821-825: the separation with `-E` and without `-H`; `lon` and `lat` are the degrees of the location
structure, `lon0` and `lat0` radians. -/
noncomputable def flatGeoSep (lon lat lon0 lat0 : ℝ) : ℝ :=
  let d := lon * d2r - lon0 + 2 * Real.pi
  let d := if d > Real.pi then d - 2 * Real.pi else d
  Real.sqrt (d * d + (lat - lat0) * (lat - lat0)) * r2d

/-- `sat_skymap.c` 869-876: position angle of the motion, radians. -/
noncomputable def motionAngle (ra dec ra1 dec1 : ℝ) : ℝ :=
  let pa := atan2 (deltaRa ra1 ra * Real.cos dec) (dec1 - dec)
  if pa < 0 then pa + 2 * Real.pi else pa

/-- `sat_skymap.c` 273-311 `intersect_satsun_sphere`: the returned value and `eray`. -/
noncomputable def intersect_satsun_sphere (sat sun : V3) : ℤ × ℝ × ℝ :=
  let c := sat.dot sat - ERAD * ERAD
  let e := sun.sub sat
  let l := Real.sqrt (e.dot e)
  let mb := 2 * (e.x / l * -sat.x + e.y / l * -sat.y + e.z / l * -sat.z)
  let disc := mb * mb - 4 * c
  if disc < 0 then (0, 0, 0)
  else
    let ds := Real.sqrt disc
    let r0 := (mb - ds) / 2
    let r1 := (mb + ds) / 2
    if r1 < 0 then (0, r0, r1) else (1, r0, r1)

/-- The `Geoloc` structure: degrees, degrees, km, degrees. -/
structure Geoloc where
  lat : ℝ
  lon : ℝ
  alt : ℝ
  theta : ℝ

/-- `sat_skymap.c` 329. -/
noncomputable def e2 : ℝ := F * (2 - F)

/-- `sat_skymap.c` 333-335: `c` for a latitude. -/
noncomputable def curv (phi : ℝ) : ℝ := 1 / Real.sqrt (1 - e2 * Real.sin phi * Real.sin phi)

/-- `sat_skymap.c` 333-336: the next latitude. -/
noncomputable def nextLat (r z phi : ℝ) : ℝ := atan2 (z + ERAD * curv phi * e2 * Real.sin phi) r

/-- `sat_skymap.c` 332-337, at most `n` times: the last latitude and `c`; `none`: not ended. -/
noncomputable def latLoop (r z : ℝ) : ℕ → ℝ → Option (ℝ × ℝ)
  | 0, _ => none
  | n + 1, phi =>
    let lat := nextLat r z phi
    if |lat - phi| ≥ 1 / 10 ^ 10 then latLoop r z n lat else some (lat, curv phi)

/-- `sat_skymap.c` 318-344 `sat_geoLocation` (`sat_visibility.c` 457-485 the same), with at most `n` passes of the loop. -/
noncomputable def sat_geoLocation (n : ℕ) (gmst : ℝ) (pos : V3) : Option Geoloc := do
  let theta := atan2 pos.y pos.x * r2d
  let lon := theta - gmst * 15
  let lon := if lon > 180 then lon - 360 else if lon < -180 then lon + 360 else lon
  let r := Real.sqrt (pos.x * pos.x + pos.y * pos.y)
  let (lat, c) ← latLoop r pos.z n (atan2 pos.z r)
  let alt := r / Real.cos lat - ERAD * c
  let lat := lat * r2d
  let lat := if lat > 90 then lat - 360 else lat
  return { lat := lat, lon := lon, alt := alt, theta := theta }

/-- `observe.c` 88-105 `get_satellite_ra_dec_delta`: `(ra, dec, delta)`. -/
noncomputable def get_satellite_ra_dec_delta (obs sat : V3) : ℝ × ℝ × ℝ :=
  let v := sat.sub obs
  let delta := Real.sqrt (v.dot v)
  let ra := atan2 v.y v.x
  (if ra < 0 then ra + 2 * Real.pi else ra, Real.arcsin (v.z / delta), delta)

/-- `observe.c` 113-115: centuries from 2000 and the rates per year, in radians. -/
noncomputable def centuries (jd : ℝ) : ℝ := (jd - JD2000) / 36525
noncomputable def precM (t : ℝ) : ℝ := (307496 / 100000 + 186 / 100000 * t / 2) * d2r / 240
noncomputable def precN (t : ℝ) : ℝ := (133621 / 100000 - 57 / 100000 * t / 2) * d2r / 240

/-- `observe.c` 111-128 `epoch_of_date_to_j2000`: the new `(ra, dec)`. -/
noncomputable def epoch_of_date_to_j2000 (jd ra dec : ℝ) : ℝ × ℝ :=
  let t := centuries jd
  let raRate := precM t + precN t * Real.sin ra * Real.tan dec
  let decRate := precN t * Real.cos ra
  let ra' := ra - t * raRate * 100
  let dec' := dec - t * decRate * 100
  (if ra' < 0 then ra' + 2 * Real.pi else if ra' ≥ 2 * Real.pi then ra' - 2 * Real.pi else ra', dec')

/-- `observe.c` 34-36. -/
noncomputable def axis : ℝ := 6378140
noncomputable def ratio : ℝ := 6356755 / 6378140

/-- `observe.c` 77-85 `earth_lat_alt_to_parallax`: `(rho_cos_phi, rho_sin_phi)`. -/
noncomputable def earth_lat_alt_to_parallax (lat ht : ℝ) : ℝ × ℝ :=
  let u := Real.arctan (Real.sin lat * ratio / Real.cos lat)
  (Real.cos u + ht / axis * Real.cos lat, ratio * Real.sin u + ht / axis * Real.sin lat)

/-- `observe.c` 46-47, `lmst_hr.c` 37: sidereal time at 0h UT in seconds, `t` centuries from 2000. -/
noncomputable def gmst0 (t : ℝ) : ℝ :=
  2411054841 / 100000 + t * (8640184812866 / 1000000 + t * (93104 / 1000000 - t * (62 / 10000000)))

/-- `observe.c` 39-62 `ThetaG`, radians. -/
noncomputable def ThetaG (jd : ℝ) : ℝ :=
  let ut := fmod (jd + 1 / 2) 1
  let t := (jd - ut - JD2000) / 36525
  let g := fmod (gmst0 t + 86400 * (100273790934 / 10 ^ 11) * ut) 86400
  let g := if g < 0 then g + 86400 else g
  2 * Real.pi * g / 86400

/-- `observe.c` 65-74 `observer_cartesian_coords`, km. -/
noncomputable def observer_cartesian_coords (jd lon rc rs : ℝ) : V3 :=
  let lmst := lon + ThetaG jd
  ⟨Real.cos lmst * rc * axis / 1000, Real.sin lmst * rc * axis / 1000, rs * axis / 1000⟩

/-- `lmst_hr.c` 23-34: `(jdmid, ut)`. -/
noncomputable def splitDay (jd : ℝ) : ℝ × ℝ :=
  let i : ℝ := trunc jd
  let f := jd - i
  if f < 1 / 2 then (i - 1 / 2, f + 1 / 2) else (i + 1 / 2, f - 1 / 2)

/-- `lmst_hr.c` 44-45: `while (*gmst > 24.) *gmst -= 24.`, at most `n` passes; `none`: not ended. -/
noncomputable def below24 : ℕ → ℝ → Option ℝ
  | 0, g => if g > 24 then none else some g
  | n + 1, g => if g > 24 then below24 n (g - 24) else some g

/-- `lmst_hr.c` 18-53 `lmst_hr`, with at most `n` passes of its loop: `(lmst, gmst)`, hours. -/
noncomputable def lmst_hr (n : ℕ) (jd longit : ℝ) : Option (ℝ × ℝ) := do
  let (jdmid, ut) := splitDay jd
  let t := (jdmid - JD2000) / 36525
  let s := gmst0 t / 86400
  let s := s - trunc s
  let g := s + 100273790934 / 10 ^ 11 * ut
  let s := g + longit / 360
  let g ← below24 n (g * 24)
  let s := (s - trunc s) * 24
  return (if s < 0 then s + 24 else s, g)

/-- `dechalat2alt.c` 13-81 `dechalat2alt`: `(alt, az, parang)`; declination in radians, hour angle in hours, latitude in
degrees, results in degrees.  (In the third branch the program gives `sinp` and `cosp` values only if `cosdec` is not 0;
otherwise they are not used.) -/
noncomputable def dechalat2alt (dec ha latDeg : ℝ) : ℝ × ℝ × ℝ :=
  let lat := latDeg * d2r
  let cosdec := Real.cos dec
  let sindec := Real.sin dec
  let coslat := Real.cos lat
  let h := ha * 15 * d2r
  -- az, cosha, coslat, sinlat, sinp, cosp
  let (az, cosha, coslat', sinlat, sinp, cosp) :=
    if ha = 0 then (0, 1, coslat, Real.sin lat, 0, -1)
    else if coslat < 1 / 10 ^ 6 then
      (h, Real.cos h, 0, if lat < 0 then -1 else 1, 0, -1 * Real.cos h * Real.cos h - Real.sin h * Real.sin h)
    else
      let a := atan2 (-1 * cosdec * Real.sin h) (sindec * coslat - cosdec * Real.cos h * Real.sin lat)
      let az := a * r2d
      let az := if az < 0 then az + 360 else az
      let az := if az ≥ 360 then az - 360 else az
      (az, Real.cos h, coslat, Real.sin lat, -1 * Real.sin a * coslat / cosdec,
        -1 * Real.cos a * Real.cos h - Real.sin a * Real.sin h * Real.sin lat)
  let parang := if cosdec ≠ 0 then atan2 sinp cosp * r2d else if lat ≥ 0 then 180 else 0
  let alt := if |dec - lat| < 1 / 10 ^ 6 then 90 else r2d * Real.arcsin (cosdec * cosha * coslat' + sindec * sinlat)
  (alt, az, parang)

end SatSky.Geo
