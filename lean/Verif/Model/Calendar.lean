import Verif.Spec.Calendar

/-!
Integer parts of `date2mjd_nf` and `mjd2date`.
-/

namespace SatSky.Cal

/-- `date2mjd_nf.c` 25-31 and 36, the integer part: the value of
`b + floor(365.25 * y) + floor(30.6001 * (m + 1)) + d + 1720994.5 - 2400000.5`.
`y/100` and `a/4` are C divisions (truncating).  `floor(365.25*y)` is `⌊1461 y / 4⌋` and
`floor(30.6001*(m+1))` is `⌊306001 (m+1) / 10000⌋` (exact arithmetic; see `Model/Dates.lean` for the
version with rounding). -/
def dateNum (y m d : Int) : Int :=
  let y' := if m ≤ 2 then y - 1 else y
  let m' := if m ≤ 2 then m + 12 else m
  let a := Int.tdiv y' 100
  let b := 2 - a + Int.tdiv a 4
  b + 1461 * y' / 4 + 306001 * (m' + 1) / 10000 + d + 1720994 - 2400000

/-- `mjd2date.c` 54-63 (and 108-117): year, month, day from the day number `jd`, with C's truncating
`long` divisions. -/
def toYmd (jd : Int) : Int × Int × Int :=
  let l := jd + 68569
  let n := Int.tdiv (4 * l) 146097
  let l := l - Int.tdiv (146097 * n + 3) 4
  let i := Int.tdiv (4000 * (l + 1)) 1461001
  let l := l - (Int.tdiv (1461 * i) 4 - 31)
  let k := Int.tdiv (80 * l) 2447
  let id := l - Int.tdiv (2447 * k) 80
  let l := Int.tdiv k 11
  let im := k + 2 - 12 * l
  let iy := 100 * (n - 49) + i + l
  (iy, im, id)

end SatSky.Cal
