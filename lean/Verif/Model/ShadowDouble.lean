import Verif.Model.TopoDouble
import Verif.Model.GeoDouble

/-! The shadow of the Earth in `double` arithmetic. -/

namespace SatSky.Geo

open SatSky

/-- `sat_skymap.c` 289-292 in `double`: twice the distance along the ray of the point nearest to the centre; `e` the vector to the Sun, `l` its
length. -/
def minusBD (F : Fl64) (l e0 e1 e2 s0 s1 s2 : ℚ) : ℚ :=
  F.rnd (F.rnd (F.rnd (F.rnd (0 + F.rnd (F.rnd (e0 / l) * -s0)) + F.rnd (F.rnd (e1 / l) * -s1)) + F.rnd (F.rnd (e2 / l) * -s2)) * 2)

/-- `sat_skymap.c` 278-282 and 286 in `double`: `c`. -/
def sphereCD (F : Fl64) (s0 s1 s2 : ℚ) : ℚ := F.rnd (dist2D F (-s0) (-s1) (-s2) - F.rnd (eradD F * eradD F))

/-- `sat_skymap.c` 273-311 (the same text at `sat_visibility.c` 410-448) `intersect_satsun_sphere` in `double`: the returned value and `eray`.  The satellite is at `s`, the Sun at `q`. -/
def shadowD (F : Fl64) (M : Libm) (s0 s1 s2 q0 q1 q2 : ℚ) : ℤ × ℚ × ℚ :=
  let e0 := F.rnd (q0 - s0)
  let e1 := F.rnd (q1 - s1)
  let e2 := F.rnd (q2 - s2)
  let mb := minusBD F (M.sqrt (dist2D F e0 e1 e2)) e0 e1 e2 s0 s1 s2
  let disc := F.rnd (F.rnd (mb * mb) - F.rnd (4 * sphereCD F s0 s1 s2))
  if disc < 0 then (0, 0, 0)
  else
    let ds := M.sqrt disc
    let r0 := F.rnd (F.rnd (mb - ds) / 2)
    let r1 := F.rnd (F.rnd (mb + ds) / 2)
    if r1 < 0 then (0, r0, r1) else (1, r0, r1)

end SatSky.Geo
