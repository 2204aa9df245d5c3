import Mathlib.Analysis.SpecialFunctions.Trigonometric.Arctan
import Verif.Model.AltDouble
import Verif.Model.ShadowDouble

/-! The position of the Sun in `double` arithmetic. -/

namespace SatSky.Geo

open SatSky

/-- The library with `atan`, within two units of rounding. -/
structure SunLib extends Libm where
  atan : ℚ → ℚ
  atan_err : ∀ x : ℚ, |(atan x : ℝ) - Real.arctan x| ≤ 2 / 2 ^ 53 * |Real.arctan x| + 1 / 2 ^ 200

/-- `lpsun_radec.c` 13-33 `atan_circ` in `double` (`M_PI_2` is half of `PI`). -/
def atanCircD (F : Fl64) (M : SunLib) (x y : ℚ) : ℚ :=
  let th := if x = 0 then (if y > 0 then piD / 2 else if y < 0 then F.rnd (3 * (piD / 2)) else 0) else M.atan (F.rnd (y / x))
  let th := if x < 0 then F.rnd (th + piD) else th
  if th < 0 then F.rnd (th + twopiD) else th

/-- `lpsun_radec.c` 41 and 42 in `double`: a number of degrees growing linearly with the number `n` of days. -/
def linearD (F : Fl64) (a b n : ℚ) : ℚ := F.rnd (F.rnd a + F.rnd (F.rnd b * n))

/-- `lpsun_radec.c` 40-42 in `double`: the mean anomaly and the ecliptic longitude in radians. -/
def anomalyD (F : Fl64) (n : ℚ) : ℚ := F.rnd (linearD F (357528 / 1000) (9856003 / 10000000) n * d2rD)
def lambdaD (F : Fl64) (M : Libm) (n : ℚ) : ℚ :=
  let g := anomalyD F n
  F.rnd (F.rnd (F.rnd (linearD F (280460 / 1000) (9856474 / 10000000) n + F.rnd (F.rnd (1915 / 1000) * M.sin g)) +
    F.rnd (F.rnd (20 / 1000) * M.sin (F.rnd (2 * g)))) * d2rD)

/-- `lpsun_radec.c` 43 in `double`. -/
def epsilonD (F : Fl64) (n : ℚ) : ℚ := F.rnd (F.rnd (F.rnd (23439 / 1000) - F.rnd (F.rnd (4 / 10000000) * n)) * d2rD)

/-- `lpsun_radec.c` 36-51 `lpsun_radec` in `double`: `(ra, dec)`.  `none`: NaN. -/
def sunD (F : Fl64) (M : SunLib) (jd : ℚ) : Option (ℚ × ℚ) :=
  let n := F.rnd (jd - 2451545)
  let l := lambdaD F M.toLibm n
  let e := epsilonD F n
  let x := M.cos l
  let y := F.rnd (M.cos e * M.sin l)
  let z := F.rnd (M.sin e * M.sin l)
  if |z| ≤ 1 then some (atanCircD F M x y, M.asin z) else none

/-- `sat_skymap.c` 132-139 `sphrad2v` and 646-647 in `double`: the place of the Sun in km. -/
def sunKmD (F : Fl64) (M : Libm) (ra dec : ℚ) : ℚ × ℚ × ℚ :=
  (F.rnd (F.rnd (M.cos ra * M.cos dec) * F.rnd (1495978707 / 10)), F.rnd (F.rnd (M.sin ra * M.cos dec) * F.rnd (1495978707 / 10)),
    F.rnd (M.sin dec * F.rnd (1495978707 / 10)))

/-- `sat_skymap.c` 628, 644-647 and 857 in `double`: whether the Earth is between the satellite at `s` and the Sun.  `none`: NaN. -/
def eclipsedD (F : Fl64) (M : SunLib) (jd s0 s1 s2 : ℚ) : Option ℤ :=
  (sunD F M jd).map fun r =>
    let q := sunKmD F M.toLibm r.1 r.2
    (shadowD F M.toLibm s0 s1 s2 q.1 q.2.1 q.2.2).1

end SatSky.Geo
