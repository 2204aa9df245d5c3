import Verif.Model.Geometry
import Verif.Model.HealpixDir

/-!
What `sat_skymap` computes for one run (`src/sat_skymap.c` 541-546, 604-645) and for one satellite (760-898), in exact arithmetic.

The propagator is an arbitrary function from minutes since the epoch of the elements to a position.  Not modelled here: the texts, the
counters and the loop (see `Verif/Model/SkyLoop.lean`), positions that are not numbers.
-/

namespace SatSky.Geo

open SatSky.Spec

/-- What the options and the clock give: `lat`, `lon` degrees, `ht` metres, `radius` degrees. -/
structure Run where
  jd : ℝ
  gmst : ℝ
  lmst : ℝ
  lat : ℝ
  lon : ℝ
  ht : ℝ
  raDeg : ℝ
  deDeg : ℝ
  radius : ℝ
  dt : ℤ
  altMin : ℝ
  altMax : ℝ
  inRegion : Bool
  geoRef : Bool
  geoReq : Bool
  altReq : Bool
  haversine : Bool
  single : Bool
  nameFilter : Bool
  sunlitOnly : Bool

namespace Run

/-- `sat_skymap.c` 542-544: the observer. -/
noncomputable def observer (r : Run) : V3 :=
  let (rc, rs) := earth_lat_alt_to_parallax (r.lat * d2r) r.ht
  observer_cartesian_coords r.jd (r.lon * d2r) rc rs

/-- `sat_skymap.c` 545-546: the observer at the second epoch. -/
noncomputable def observer2 (r : Run) : V3 :=
  let (rc, rs) := earth_lat_alt_to_parallax (r.lat * d2r) r.ht
  observer_cartesian_coords (r.jd + r.dt / 86400) (r.lon * d2r) rc rs

/-- `sat_skymap.c` 609-621: `target_ra`, `target_dec` and the hour angle. -/
noncomputable def target (r : Run) : ℝ × ℝ × ℝ :=
  if r.geoRef || r.single || !r.inRegion then (r.lmst / r2h, r.lat * d2r, 0)
  else (r.raDeg * d2r, r.deDeg * d2r, r.lmst - r.raDeg / 15)

/-- `sat_skymap.c` 633, 639-640 and 651-655: right ascension and declination of the Sun (radians) and its longitude (degrees). -/
noncomputable def sun (r : Run) : ℝ × ℝ × ℝ :=
  let (ra, dec) := lpsun_radec r.jd
  let lon := fmod (ra * r2d - r.gmst * 15 + 360) 360
  (ra, dec, if lon > 180 then lon - 360 else lon)

/-- `sat_skymap.c` 648-651: the Sun, km. -/
noncomputable def sunKm (r : Run) : V3 :=
  let v := sphrad2v r.sun.1 r.sun.2.1
  ⟨v.x * AU_KM, v.y * AU_KM, v.z * AU_KM⟩

end Run

/-- The reported numbers (890-894), angles in radians but `sep` in degrees and `speed` in degrees per minute. -/
structure Rec where
  ra : ℝ
  dec : ℝ
  ra1 : ℝ
  dec1 : ℝ
  dist : ℝ
  sep : ℝ
  pa : ℝ
  speed : ℝ
  sunlit : Bool
  pix : ℤ
  geo : Option Geoloc

/-- `sat_skymap.c` 819-847: `ang_sep` and `ang_sep1`.  `none`: `geo` was not set. -/
noncomputable def separations (r : Run) (geo : Option Geoloc) (ra dec ra1 dec1 : ℝ) : Option (ℝ × ℝ) :=
  if r.geoRef then do
    let g ← geo
    let s := if r.haversine then skysep_h (r.lon * d2r) (r.lat * d2r) (g.lon * d2r) (g.lat * d2r)
      else flatGeoSep g.lon g.lat (r.lon * d2r) (r.lat * d2r)
    return (s, 2 * s)
  else
    let (ra0, dec0, _) := r.target
    if r.haversine then return (skysep_h ra0 dec0 ra dec, skysep_h ra0 dec0 ra1 dec1)
    else return (flatSep ra dec ra0 dec0, flatSep ra1 dec1 ra0 dec0)

/-- `sat_skymap.c` 791-792: the location, if it is computed at all. -/
noncomputable def location (fuel : ℕ) (r : Run) (pos : V3) : Option (Option Geoloc) :=
  if r.geoReq then (sat_geoLocation fuel r.gmst pos).map some else some none

/-- `sat_skymap.c` 795-797: whether the altitude filter drops the satellite.  `none`: `geo` was not set. -/
noncomputable def altSkip (r : Run) (geo : Option Geoloc) : Option Bool :=
  if r.altReq then geo.map (fun g => decide (g.alt < r.altMin ∨ g.alt > r.altMax)) else some false

/-- `sat_skymap.c` 760-898: one satellite; `since` is `(jd - tle.epoch) * 1440` and `posAt` the propagator with the elements.  `some none`:
not reported.  `none`: the loop of `sat_geoLocation` does not end within `fuel` passes, the location is used without having been computed,
`ang2pix_nest` ends the program, or the speed is divided by zero.  The position `pos` is overwritten by the second call of the propagator
(811-814) and used for the sunlight test after it (857). -/
noncomputable def satellite (fuel : ℕ) (r : Run) (posAt : ℝ → V3) (since : ℝ) : Option (Option Rec) :=
  let pos := posAt since
  let (ra, dec, dist) := get_satellite_ra_dec_delta r.observer pos
  (location fuel r pos).bind fun geo => (altSkip r geo).bind fun skip =>
  if skip then some none
  else
    let (ra, dec) := epoch_of_date_to_j2000 r.jd ra dec
    let pos := posAt (since + r.dt * 1440 / 86400)
    let (ra1, dec1, _) := get_satellite_ra_dec_delta r.observer2 pos
    let (ra1, dec1) := epoch_of_date_to_j2000 r.jd ra1 dec1
    (separations r geo ra dec ra1 dec1).bind fun (sep, sep1) =>
    if r.single || r.nameFilter || decide (sep ≤ r.radius ∨ sep1 ≤ r.radius) then
      let sunlit := (intersect_satsun_sphere pos r.sunKm).1 == 0
      if r.sunlitOnly && !sunlit then some none
      else if r.dt = 0 then none
      else
        let pa := motionAngle ra dec ra1 dec1
        let speed := skysep_h ra dec ra1 dec1 * 60 / r.dt
        (Healpix.ang2pix_nest 256 (Real.pi / 2 - dec) ra).map fun pix =>
          some { ra, dec, ra1, dec1, dist, sep, pa, speed, sunlit, pix, geo }
    else some none

end SatSky.Geo
