import Verif.Model.DateText

/-! `mjd2datef`: the date with milliseconds.  No program calls it. -/

namespace SatSky.Dates

open SatSky Cal

/-- The seven numbers `mjd2datef` prints. -/
structure PrintedMs where
  y : ℤ
  m : ℤ
  d : ℤ
  h : ℤ
  mm : ℤ
  s : ℤ
  fs : ℤ
deriving DecidableEq, Repr

/-- `mjd2date.c` 118-124: hours, minutes, seconds and milliseconds of the fraction. -/
def splitTimeMs (F : Fl64) (f : ℚ) : ℤ × ℤ × ℤ × ℤ :=
  let h := truncQ (F.rnd (f * 24))
  let f := F.rnd (f - F.rnd ((h : ℚ) / 24))
  let mm := truncQ (F.rnd (f * 1440))
  let f := F.rnd (f - F.rnd ((mm : ℚ) / 1440))
  let s := truncQ (F.rnd (f * 86400))
  let f := F.rnd (f - F.rnd ((s : ℚ) / 86400))
  let fs := truncQ (F.rnd (f * 86400000))   -- 8.64e7
  (h, mm, s, fs)

/-- `mjd2date.c` 86-97: the acceptable range and the two parts "big then small"; nothing is added to the argument. -/
def mjdPartsMs (F : Fl64) (mjd : ℚ) : Option (ℚ × ℚ) :=
  let dj := F.rnd (DJ1 + mjd)
  if dj < DJMIN ∨ dj > DJMAX then none
  else if DJ1 ≥ mjd then some (DJ1, F.rnd (mjd - 1 / 2))
  else some (mjd, F.rnd (DJ1 - 1 / 2))

/-- `mjd2date.c` 77-129 `mjd2datef`, up to the `sprintf`; `none` is the NULL return.  Lines 99-117 are those of `mjd2date` (`splitDay`,
`toYmd`). -/
def mjd2datef (F : Fl64) (mjd : ℚ) : Option PrintedMs := do
  let (d1, d2) ← mjdPartsMs F mjd
  let (jd, f) := splitDay F d1 d2
  let (y, m, d) := toYmd jd
  let (h, mm, s, fs) := splitTimeMs F f
  return { y, m, d, h, mm, s, fs }

/-- `%3.3d`: at least three digits. -/
def fmt33d (n : Int) : CString :=
  let t := natText n.natAbs
  let t := List.replicate (3 - t.length) 48 ++ t
  if n < 0 then 45 :: t else t

/-- The `sprintf` of `mjd2date.c` 126 into `date[24]` (line 79). -/
def printDateMs (p : PrintedMs) : CString :=
  fmt4d p.y ++ 45 :: (fmt22d p.m ++ 45 :: (fmt22d p.d ++ 84 :: (fmt22d p.h ++ 58 ::
    (fmt22d p.mm ++ 58 :: (fmt22d p.s ++ 46 :: fmt33d p.fs)))))

end SatSky.Dates
