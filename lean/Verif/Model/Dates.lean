import Verif.Model.Float
import Verif.Model.Calendar

/-!
`date2mjd_nf` and `mjd2date` with floating point rounding.  Every `double`/`float` operation is the
exact rational operation followed by rounding (`F.rnd`, `G.rnd`).
-/

namespace SatSky.Dates

open SatSky Cal

/-- `date2mjd_nf.c` 34: `roundf((s + 60 * (mm + 60 * h)) / 86400. * 100000) / 100000`.
The quotient and product are `double`; the argument of `roundf` is converted to `float`; the last
division is a `float` division (100000 is exact in `float`). -/
def timeOfDay (F : Fl64) (G : Fl32) (h mm s : ℤ) : ℚ :=
  let a := F.rnd (((s + 60 * (mm + 60 * h) : ℤ) : ℚ) / 86400)
  let b := F.rnd (a * 100000)
  let c := G.rnd b
  let r := roundAway c
  G.rnd ((r : ℚ) / 100000)

/-- `date2mjd_nf.c` 25-36, after a successful `sscanf`. -/
def date2mjd (F : Fl64) (G : Fl32) (y m d h mm s : ℤ) : ℚ :=
  let y' := if m ≤ 2 then y - 1 else y
  let m' := if m ≤ 2 then m + 12 else m
  let a := Int.tdiv y' 100
  let b := 2 - a + Int.tdiv a 4
  -- line 31, left to right
  let t := F.rnd ((b : ℚ) + (⌊F.rnd (1461 / 4 * (y' : ℚ))⌋ : ℤ))
  let t := F.rnd (t + (⌊F.rnd (F.rnd (306001 / 10000) * ((m' + 1 : ℤ) : ℚ))⌋ : ℤ))
  let t := F.rnd (t + (d : ℚ))
  let t := F.rnd (t + 3441989 / 2)          -- 1720994.5
  -- line 34
  let t := F.rnd (t + timeOfDay F G h mm s)
  -- line 36
  F.rnd (t - 4800001 / 2)                   -- JD_OFF = 2400000.5

/-- The six numbers `mjd2date` prints. -/
structure Printed where
  y : ℤ
  m : ℤ
  d : ℤ
  h : ℤ
  mm : ℤ
  s : ℤ
deriving DecidableEq, Repr

/-- `DJ1` (`mjd2date.c` 19). -/
def DJ1 : ℚ := 4800001 / 2
/-- `DJMIN` and `DJMAX` (`mjd2date.c` 17-18). -/
def DJMIN : ℚ := -137139 / 2
def DJMAX : ℚ := 1000000000
/-- The literal `HALF_S_IN_DAYS` (`mjd2date.c` 20): 0.000005787037037037037e0. -/
def HALF_S : ℚ := 5787037037037037 / 10 ^ 21

/-- `mjd2date.c` 50-51 `/* Separate day and fraction. */` (lines 46-51): day number `jd` and the
fraction `f`, from the two parts `d1`, `d2` (after `d2 -= 0.5`). -/
def splitDay (F : Fl64) (d1 d2 : ℚ) : ℤ × ℚ :=
  let f1 := fmod1 d1
  let f2 := fmod1 d2
  let w := F.rnd (f1 + f2)
  let f := fmod1 w
  let f := if f < 0 then F.rnd (f + 1) else f
  let d := F.rnd (F.rnd (((⌊F.rnd (d1 - f1)⌋ : ℤ) : ℚ) + (⌊F.rnd (d2 - f2)⌋ : ℤ)) + (⌊F.rnd (w - f)⌋ : ℤ))
  (⌊d⌋ + 1, f)

/-- `mjd2date.c` 64-68: hours, minutes, seconds of the fraction. -/
def splitTime (F : Fl64) (f : ℚ) : ℤ × ℤ × ℤ :=
  let h := truncQ (F.rnd (f * 24))
  let f := F.rnd (f - F.rnd ((h : ℚ) / 24))
  let mm := truncQ (F.rnd (f * 1440))
  let f := F.rnd (f - F.rnd ((mm : ℚ) / 1440))
  let s := truncQ (F.rnd (f * 86400))
  (h, mm, s)

/-- `mjd2date.c` 31-43: the acceptable range and the two parts "big then small". -/
def mjdParts (F : Fl64) (mjd : ℚ) : Option (ℚ × ℚ) :=
  let dj := F.rnd (DJ1 + mjd)
  if dj < DJMIN ∨ dj > DJMAX then none
  else if DJ1 ≥ mjd then some (DJ1, F.rnd (F.rnd (mjd + F.rnd HALF_S) - 1 / 2))
  else some (F.rnd (mjd + F.rnd HALF_S), F.rnd (DJ1 - 1 / 2))

/-- `mjd2date.c` 23-73 `mjd2date`, up to the `sprintf`; `none` is the NULL return. -/
def mjd2date (F : Fl64) (mjd : ℚ) : Option Printed := do
  let (d1, d2) ← mjdParts F mjd
  let (jd, f) := splitDay F d1 d2
  let (y, m, d) := toYmd jd
  let (h, mm, s) := splitTime F f
  return { y, m, d, h, mm, s }

end SatSky.Dates
