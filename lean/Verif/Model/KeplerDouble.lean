import Verif.Model.ObserverDouble

/-! Kepler's equation of `sxpx_posn_vel` in `double` arithmetic. -/

namespace SatSky.Geo

open SatSky

/-- `common.c` 118-127 `centralize_angle` in `double` (`pi`, `twopi`: `piD`, `twopiD`; `fmod` is exact). -/
def centralizeD (F : Fl64) (x : ℚ) : ℚ :=
  let r := fmodD x twopiD
  if r > piD then F.rnd (r - twopiD) else if r < -piD then F.rnd (r + twopiD) else r

/-- `common.c` 198 in `double`. -/
def ecosED (F : Fl64) (M : Libm) (axn ayn epw : ℚ) : ℚ := F.rnd (F.rnd (axn * M.cos epw) + F.rnd (ayn * M.sin epw))

/-- `common.c` 199 in `double`. -/
def esinED (F : Fl64) (M : Libm) (axn ayn epw : ℚ) : ℚ := F.rnd (F.rnd (axn * M.sin epw) - F.rnd (ayn * M.cos epw))

/-- `common.c` 200 in `double`: the residual. -/
def keplerResD (F : Fl64) (M : Libm) (axn ayn capu epw : ℚ) : ℚ := F.rnd (F.rnd (capu - epw) + esinED F M axn ayn epw)

/-- `common.c` 202-219 in `double`: one correction; `first`: `i == 0`.  `none`: division by zero (in C an infinity or NaN). -/
def keplerStepD (F : Fl64) (M : Libm) (axn ayn capu ecc : ℚ) (first : Bool) (epw : ℚ) : Option ℚ :=
  let f := keplerResD F M axn ayn capu epw
  let fdot := F.rnd (1 - ecosED F M axn ayn epw)
  if fdot = 0 then none else
  let d := F.rnd (f / fdot)
  let m := F.rnd (5 / 4 * |ecc|)
  if first = true ∧ d > m then some (F.rnd (epw + m))
  else if first = true ∧ d < -m then some (F.rnd (epw + -m))
  else
    let den := F.rnd (fdot + F.rnd (F.rnd (1 / 2 * esinED F M axn ayn epw) * d))
    if den = 0 then none else some (F.rnd (epw + F.rnd (f / den)))

/-- `common.c` 190-222 in `double`: at most `n` passes; `none`: the loop ends with `i == MAX_KEPLER_ITER` or divides by zero. -/
def keplerLoopD (F : Fl64) (M : Libm) (axn ayn capu ecc : ℚ) : ℕ → Bool → ℚ → Option ℚ
  | 0, _, _ => none
  | n + 1, first, epw =>
    if |keplerResD F M axn ayn capu epw| < F.rnd (1 / 10 ^ 12) then some epw
    else (keplerStepD F M axn ayn capu ecc first epw).bind (keplerLoopD F M axn ayn capu ecc n false)

/-- `common.c` 129, 146, 148, 190-222 in `double`, for the argument `x` of line 146 (`xlt - xnode`). -/
def keplerD (F : Fl64) (M : Libm) (axn ayn x ecc : ℚ) : Option ℚ :=
  keplerLoopD F M axn ayn (centralizeD F x) ecc 10 true (centralizeD F x)

/-- `common.c` 145, 147 and 175 in `double`: the orbit is not refused as nearly parabolic. -/
def ellipticD (F : Fl64) (axn ayn : ℚ) : Bool :=
  decide (F.rnd (F.rnd (axn * axn) + F.rnd (ayn * ayn)) ≤ F.rnd (1 - F.rnd (1 / 10 ^ 6)))

end SatSky.Geo
