import Verif.Model.Geometry

/-! The functions of `zenith_site_ra.c` between angles and directions which no program calls.  Arithmetic is exact. -/

namespace SatSky.Geo

open SatSky.Spec

/-- `zenith_site_ra.c` 137-147 `sph2v`: degrees to unit vector. -/
noncomputable def sph2v (ra dec : ℝ) : V3 :=
  let rarad := ra * d2r
  let decrad := dec * d2r
  let cosd := Real.cos decrad
  ⟨Real.cos rarad * cosd, Real.sin rarad * cosd, Real.sin decrad⟩

/-- `zenith_site_ra.c` 156-177 `slaDh2e`: azimuth, elevation and latitude to `(ha, dec)`, all in radians. -/
noncomputable def slaDh2e (az el phi : ℝ) : ℝ × ℝ :=
  let sa := Real.sin az
  let ca := Real.cos az
  let se := Real.sin el
  let ce := Real.cos el
  let sp := Real.sin phi
  let cp := Real.cos phi
  let x := - ca * ce * sp + se * cp
  let y := - sa * ce
  let z := ca * ce * cp + se * sp
  let r := Real.sqrt (x * x + y * y)
  (if r = 0 then 0 else atan2 y x, atan2 z r)

end SatSky.Geo
