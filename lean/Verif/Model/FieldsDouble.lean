import Verif.Model.GetEl
import Verif.Model.SepDouble

/-! The elements of an element set as `double`, in the units of the propagators. -/

namespace SatSky.GetEl

open SatSky SatSky.Geo

/-- `get_el.c` 340-343: an angle in 1e-4 degree to radians; `PI / 180e+4` is rounded. -/
def angleFieldD (F : Fl64) (k : ℤ) : ℚ := F.rnd (k * F.rnd (piD / 1800000))

/-- `get_el.c` 344: the eccentricity. -/
def eccFieldD (F : Fl64) (k : ℤ) : ℚ := F.rnd (k * F.rnd (1 / 10 ^ 7))

/-- `get_el.c` 258-261, 352: the mean motion in radians per minute. -/
def motionFieldD (F : Fl64) (n : ℤ × ℤ) : ℚ :=
  F.rnd (F.rnd (F.rnd ((n.1 : ℚ) + F.rnd (n.2 * F.rnd (1 / 10 ^ 8))) * twopiD) / 1440)

/-- `get_el.c` 353-356: half the derivative of the mean motion; `k` has the sign of column 34, which the program applies at the end. -/
def ndotFieldD (F : Fl64) (k : ℤ) : ℚ :=
  let r := F.rnd (F.rnd (F.rnd (((|k| : ℤ) : ℚ) * F.rnd (1 / 10 ^ 8)) * twopiD) / 2073600)
  if k < 0 then F.rnd (r * -1) else r

/-- `get_el.c` 46-71 `sci` in `double`: the mantissa, then one product per unit of the exponent (59-67). -/
def sciFieldD (F : Fl64) (d : Dec) : ℚ :=
  let r := F.rnd (d.mant * F.rnd (1 / 10 ^ 5))
  if d.expo < -5 then (fun x => F.rnd (x * F.rnd (1 / 10)))^[(-5 - d.expo).toNat] r
  else (fun x => F.rnd (x * 10))^[(d.expo + 5).toNat] r

/-- `get_el.c` 357: a sixth of the second derivative of the mean motion. -/
def nddotFieldD (F : Fl64) (d : Dec) : ℚ := F.rnd (F.rnd (sciFieldD F d * twopiD) / 2985984000)

/-- `get_el.c` 359: the drag term. -/
def bstarFieldD (F : Fl64) (d : Dec) : ℚ := F.rnd (sciFieldD F d * 1)

end SatSky.GetEl
