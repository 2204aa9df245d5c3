import Verif.Model.StepDouble

/-! The whole of `sxpx_posn_vel` in `double` arithmetic, without the velocity. -/

namespace SatSky.Geo

open SatSky

/-- `common.c` 131-262 `sxpx_posn_vel` in `double`: the returned code and `pos` (`vel` is `NULL` in `sat_skymap.c` 775-814). -/
def sxpxD (F : Fl64) (M : GeoLib) (xnode a ecc cosio sinio xincl omega xl : ℚ) : ℤ × ℚ × ℚ × ℚ :=
  let rval : ℤ := if a < 0 then -2 else 0
  let rval := if ellipticD F (axnD F M.toLibm ecc omega) (aynD F M.toLibm a ecc sinio omega) = true then rval else -1
  if rval ≠ 0 then (rval, 0, 0, 0)
  else
    let per := F.rnd (a * F.rnd (1 - ecc))
    let apo := F.rnd (a * F.rnd (1 + ecc))
    let rval := if per < 1 ∧ apo < 1 then -3 else rval
    let rval := if per < 1 ∨ apo < 1 then -4 else rval
    match sxpxPosD F M xnode a ecc cosio sinio xincl omega xl with
    | none => (-6, 0, 0, 0)
    | some p => (rval, p)

end SatSky.Geo
