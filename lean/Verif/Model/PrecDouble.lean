import Mathlib.Analysis.SpecialFunctions.Trigonometric.Basic
import Verif.Model.AltDouble

/-! The precession in `double` arithmetic. -/

namespace SatSky.Geo

open SatSky

/-- The library with `tan`, within two units of rounding. -/
structure PrecLib extends Libm where
  tan : ℚ → ℚ
  tan_err : ∀ x : ℚ, |(tan x : ℝ) - Real.tan x| ≤ 2 / 2 ^ 53 * |Real.tan x| + 1 / 2 ^ 200

/-- `observe.c` 113 in `double`. -/
def centuriesD (F : Fl64) (jd : ℚ) : ℚ := F.rnd (F.rnd (jd - 2451545) / 36525)

/-- `observe.c` 114 in `double`. -/
def precMD (F : Fl64) (t : ℚ) : ℚ :=
  F.rnd (F.rnd (F.rnd (F.rnd (307496 / 10 ^ 5) + F.rnd (F.rnd (F.rnd (186 / 10 ^ 5) * t) / 2)) * d2rD) / 240)

/-- `observe.c` 115 in `double`. -/
def precND (F : Fl64) (t : ℚ) : ℚ :=
  F.rnd (F.rnd (F.rnd (F.rnd (133621 / 10 ^ 5) - F.rnd (F.rnd (F.rnd (57 / 10 ^ 5) * t) / 2)) * d2rD) / 240)

/-- `observe.c` 124-127 in `double`. -/
def turnD (F : Fl64) (ra : ℚ) : ℚ := if ra < 0 then F.rnd (ra + twopiD) else if ra ≥ twopiD then F.rnd (ra - twopiD) else ra

/-- `observe.c` 111-128 `epoch_of_date_to_j2000` in `double`: the new `(ra, dec)`. -/
def precD (F : Fl64) (M : PrecLib) (jd ra dec : ℚ) : ℚ × ℚ :=
  let t := centuriesD F jd
  let raRate := F.rnd (precMD F t + F.rnd (F.rnd (precND F t * M.sin ra) * M.tan dec))
  let decRate := F.rnd (precND F t * M.cos ra)
  (turnD F (F.rnd (ra - F.rnd (F.rnd (t * raRate) * 100))), F.rnd (dec - F.rnd (F.rnd (t * decRate) * 100)))

end SatSky.Geo
