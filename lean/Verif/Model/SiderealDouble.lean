import Verif.Model.Float

/-! The sidereal time of `lmst_hr.c` in `double` arithmetic. -/

namespace SatSky.Geo

open SatSky

/-- `lmst_hr.c` 23-34 in `double`: `(jdmid, ut)`. -/
def splitDayD (F : Fl64) (jd : ℚ) : ℚ × ℚ :=
  let jdint : ℚ := truncQ jd
  let jdfrac := F.rnd (jd - jdint)
  if jdfrac < 1 / 2 then (F.rnd (jdint - 1 / 2), F.rnd (jdfrac + 1 / 2)) else (F.rnd (jdint + 1 / 2), F.rnd (jdfrac - 1 / 2))

/-- `lmst_hr.c` 36-38 in `double`: days, before the integer part is taken off.  The decimal constants are rounded. -/
def gmst0D (F : Fl64) (jdmid : ℚ) : ℚ :=
  let t := F.rnd (F.rnd (jdmid - 2451545) / 36525)
  F.rnd (F.rnd (F.rnd (2411054841 / 10 ^ 5) + F.rnd (t * F.rnd (F.rnd (8640184812866 / 10 ^ 6) +
    F.rnd (t * F.rnd (F.rnd (93104 / 10 ^ 6) - F.rnd (t * F.rnd (62 / 10 ^ 7))))))) / 86400)

/-- `lmst_hr.c` 39-42 in `double`: the Greenwich time in days. -/
def gDayD (F : Fl64) (jd : ℚ) : ℚ :=
  let s := gmst0D F (splitDayD F jd).1
  F.rnd (F.rnd (s - truncQ s) + F.rnd (F.rnd (100273790934 / 10 ^ 11) * (splitDayD F jd).2))

/-- `lmst_hr.c` 44-45 in `double`, at most `n` passes; `none`: not ended. -/
def below24D (F : Fl64) : ℕ → ℚ → Option ℚ
  | 0, g => if g > 24 then none else some g
  | n + 1, g => if g > 24 then below24D F n (F.rnd (g - 24)) else some g

/-- `lmst_hr.c` 18-53 `lmst_hr` in `double`, with at most `n` passes of its loop: `(lmst, gmst)`, hours. -/
def lmstD (F : Fl64) (n : ℕ) (jd longit : ℚ) : Option (ℚ × ℚ) :=
  let sid := F.rnd (gDayD F jd + F.rnd (longit / 360))
  (below24D F n (F.rnd (gDayD F jd * 24))).map fun g =>
    let s := F.rnd (F.rnd (sid - truncQ sid) * 24)
    (if s < 0 then F.rnd (s + 24) else s, g)

end SatSky.Geo
