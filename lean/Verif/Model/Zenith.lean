import Verif.Model.Nutation

/-! Model of `zenith_site_ra.c`: sidereal time and right ascension of the zenith.  Arithmetic is exact, except that the two literals with the suffix `F`
are the `float` values the compiler makes of them. -/

namespace SatSky.Zen

/-- `zenith_site_ra.c` 37: `8640184.7942063F`; a `float` of this size has no fraction. -/
noncomputable def linear : ℝ := 8640185
/-- `zenith_site_ra.c` 38: `24110.54841F`, the multiple of 1/512 next to it. -/
noncomputable def constant : ℝ := 12344601 / 512

/-- `zenith_site_ra.c` 22-32: midnight and the seconds since. -/
noncomputable def midnight (ut1 : ℝ) : ℝ × ℝ :=
  let jd0 : ℝ := ⌊ut1⌋
  let secs := ut1 - jd0
  if secs < 1 / 2 then (jd0 - 1 / 2, (secs + 1 / 2) * 86400) else (jd0 + 1 / 2, (secs - 1 / 2) * 86400)

/-- `zenith_site_ra.c` 16-55 `ut2gmst`, hours. -/
noncomputable def ut2gmst (ut1 : ℝ) : ℝ :=
  let (jd0, secs) := midnight ut1
  let T0 := (jd0 - 2451545) / 36525
  let g := (((-2.0e-6 * T0 - 3.0e-7) * T0 + 9.27701e-2) * T0 + linear) * T0 + constant
  let msday := (((-(4 * 2.0e-6) * T0 - (3 * 3.0e-7)) * T0 + (2 * 9.27701e-2)) * T0 + linear) / (86400 * 36525) + 1
  let g := g + msday * secs
  let g := g - 86400 * ⌊g / 86400⌋
  let g := g / 3600
  if g < 0 then g + 24 else if g ≥ 24 then g - 24 else g

/-- `zenith_site_ra.c` 85-89, 109-112: into `[0, 24)` by one step. -/
noncomputable def oneTurn (x : ℝ) : ℝ := if x < 0 then x + 24 else if x ≥ 24 then x - 24 else x

/-- `zenith_site_ra.c` 58-73 `ut2gast`, hours, with the state of `earthtilt`. -/
noncomputable def ut2gast (s : Nut.TiltState) (ut1 : ℝ) : Option (Nut.TiltState × ℝ) :=
  (Nut.earthtilt s ut1).map fun s => (s, ut2gmst ut1 + s.val.eq / 3600)

/-- `zenith_site_ra.c` 76-90 `ut2last`. -/
noncomputable def ut2last (s : Nut.TiltState) (ut1 lon : ℝ) : Option (Nut.TiltState × ℝ) :=
  (ut2gast s ut1).map fun (s, g) => (s, oneTurn (g + lon / 15))

/-- `zenith_site_ra.c` 95-115 `zenith_site_ra`: Modified Julian Date and longitude (degrees) to right ascension (degrees). -/
noncomputable def zenith_site_ra (ut1 lon : ℝ) : ℝ := oneTurn (ut2gmst (ut1 + 2400000.5) + lon / 15) * 15

/-- `zenith_site_ra.c` 118-129 `zenith_site_ra_last`. -/
noncomputable def zenith_site_ra_last (s : Nut.TiltState) (ut1 lon : ℝ) : Option (Nut.TiltState × ℝ) :=
  (ut2last s (ut1 + 2400000.5) lon).map fun (s, l) => (s, l * 15)

end SatSky.Zen
