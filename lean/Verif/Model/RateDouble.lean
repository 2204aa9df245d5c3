import Verif.Model.CodeDouble

/-! The secular rates of `sxpx_common_init` in `double` arithmetic. -/

namespace SatSky.Geo

open SatSky

/-- What `common.c` 81-82 and 100-114 read of `deep_arg_t`, as doubles. -/
structure RatePar where
  cosio : ℚ
  cosio2 : ℚ
  betao2 : ℚ
  betao : ℚ
  xnodp : ℚ
  aodp : ℚ

/-- `norad_in.h` 94-95 in `double` (`ae` is 1, so its factors change nothing). -/
def ck4D (F : Fl64) : ℚ := F.rnd (-(375 / 1000) * -F.rnd (165597 / 10 ^ 11))

/-- `k0 - k1 * cosio2` in `double` (`common.c` 108, 112, 113). -/
def linD (F : Fl64) (c k0 k1 : ℚ) : ℚ := F.rnd (k0 - F.rnd (k1 * c))

/-- `k0 - k1 * cosio2 + k2 * cosio4` in `double` (`common.c` 100, 107, 109, 110). -/
def quadD (F : Fl64) (c k0 k1 k2 : ℚ) : ℚ := F.rnd (linD F c k0 k1 + F.rnd (k2 * F.rnd (c * c)))

/-- `common.c` 81-82 in `double`. -/
def pinvsqD (F : Fl64) (p : RatePar) : ℚ :=
  let pinv := F.rnd (1 / F.rnd (p.aodp * p.betao2))
  F.rnd (pinv * pinv)

/-- `common.c` 101 in `double`. -/
def rate1D (F : Fl64) (p : RatePar) : ℚ := F.rnd (F.rnd (F.rnd (3 * ck2D F) * pinvsqD F p) * p.xnodp)

/-- `common.c` 102 in `double`. -/
def rate2D (F : Fl64) (p : RatePar) : ℚ := F.rnd (F.rnd (rate1D F p * ck2D F) * pinvsqD F p)

/-- `common.c` 103 in `double`. -/
def rate3D (F : Fl64) (p : RatePar) : ℚ := F.rnd (F.rnd (F.rnd (F.rnd (5 / 4 * ck4D F) * pinvsqD F p) * pinvsqD F p) * p.xnodp)

/-- `common.c` 61 in `double`. -/
def x3thm1D (F : Fl64) (p : RatePar) : ℚ := F.rnd (F.rnd (3 * p.cosio2) - 1)

/-- `common.c` 104-107 in `double`. -/
def xmdotD (F : Fl64) (p : RatePar) : ℚ :=
  F.rnd (F.rnd (p.xnodp + F.rnd (F.rnd (F.rnd (rate1D F p * p.betao) * x3thm1D F p) / 2)) +
    F.rnd (F.rnd (F.rnd (rate2D F p * p.betao) * quadD F p.cosio2 13 78 137) / 16))

/-- `common.c` 108-110 in `double`. -/
def omgdotD (F : Fl64) (p : RatePar) : ℚ :=
  F.rnd (F.rnd (F.rnd (F.rnd (-rate1D F p * linD F p.cosio2 1 5) / 2) + F.rnd (F.rnd (rate2D F p * quadD F p.cosio2 7 114 395) / 16)) +
    F.rnd (rate3D F p * quadD F p.cosio2 3 36 49))

/-- `common.c` 111 in `double`. -/
def xhdot1D (F : Fl64) (p : RatePar) : ℚ := F.rnd (-rate1D F p * p.cosio)

/-- `common.c` 112-113 in `double`. -/
def xnodotD (F : Fl64) (p : RatePar) : ℚ :=
  F.rnd (xhdot1D F p + F.rnd (F.rnd (F.rnd (F.rnd (rate2D F p * linD F p.cosio2 4 19) / 2) + F.rnd (F.rnd (2 * rate3D F p) * linD F p.cosio2 3 7)) * p.cosio))

end SatSky.Geo
