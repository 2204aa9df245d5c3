import Verif.Model.Propagate
import Verif.Model.SepDouble

/-! The choice of the propagator in `double` arithmetic. -/

namespace SatSky.Sxp

open SatSky SatSky.Geo

/-- The library with `pow`, within two units of rounding. -/
structure PowLib extends Libm where
  pow : ℚ → ℚ → ℚ
  pow_err : ∀ x y : ℚ, 0 < x → |(pow x y : ℝ) - (x : ℝ) ^ (y : ℝ)| ≤ 2 / 2 ^ 53 * (x : ℝ) ^ (y : ℝ) + 1 / 2 ^ 200

/-- The elements that decide, as `double` (`norad.h` 30-42). -/
structure ElemD where
  xincl : ℚ
  eo : ℚ
  xno : ℚ
  ephType : ℤ

/-- The same elements in the exact model; the others have no part in the choice. -/
noncomputable def ElemD.elem (e : ElemD) : Elem :=
  { epoch := 0, bstar := 0, xincl := e.xincl, xnodeo := 0, eo := e.eo, omegao := 0, xmo := 0, xno := e.xno, ephType := e.ephType }

/-- `common.c` 34 in `double`; `xke` (`norad_in.h` 99) and `two_thirds` (76) are rounded. -/
def a1D (F : Fl64) (M : PowLib) (e : ElemD) : ℚ := M.pow (F.rnd (F.rnd (743669161331734132 / 10 ^ 19) / e.xno)) (F.rnd (2 / 3))

/-- `common.c` 41 in `double`. -/
def betao2D (F : Fl64) (e : ElemD) : ℚ := F.rnd (1 - F.rnd (e.eo * e.eo))

/-- `common.c` 44 in `double`: the numerator.  The products by `ae` (1.0) in `ck2` are exact. -/
def tnumD (F : Fl64) (M : PowLib) (e : ElemD) : ℚ :=
  let c := M.cos e.xincl
  F.rnd (F.rnd (3 / 2 * F.rnd (1 / 2 * F.rnd (1082616 / 10 ^ 9))) * F.rnd (F.rnd (3 * F.rnd (c * c)) - 1))

/-- `common.c` 44 in `double`. -/
def tvalD (F : Fl64) (M : PowLib) (e : ElemD) : ℚ :=
  F.rnd (tnumD F M e / F.rnd (M.sqrt (betao2D F e) * betao2D F e))

/-- `common.c` 45 in `double`. -/
def del1D (F : Fl64) (M : PowLib) (e : ElemD) : ℚ := F.rnd (tvalD F M e / F.rnd (a1D F M e * a1D F M e))

/-- `common.c` 46 in `double`: the factor of `a1`. -/
def shrinkD (F : Fl64) (d : ℚ) : ℚ :=
  F.rnd (1 - F.rnd (d * F.rnd (F.rnd (1 / 3) + F.rnd (d * F.rnd (1 + F.rnd (F.rnd (134 / 81) * d))))))

/-- `common.c` 46 in `double`. -/
def aoD (F : Fl64) (M : PowLib) (e : ElemD) : ℚ := F.rnd (a1D F M e * shrinkD F (del1D F M e))

/-- `common.c` 47 in `double`. -/
def deloD (F : Fl64) (M : PowLib) (e : ElemD) : ℚ := F.rnd (tvalD F M e / F.rnd (aoD F M e * aoD F M e))

/-- `common.c` 48 in `double`. -/
def xnodpD (F : Fl64) (M : PowLib) (e : ElemD) : ℚ := F.rnd (e.xno / F.rnd (1 + deloD F M e))

/-- `common.c` 49 in `double`. -/
def aodpD (F : Fl64) (M : PowLib) (e : ElemD) : ℚ := F.rnd (aoD F M e / F.rnd (1 - deloD F M e))

/-- `basics.c` 48-75 `select_ephemeris` in `double`. -/
def selectD (F : Fl64) (M : PowLib) (e : ElemD) : ℤ :=
  if e.ephType = 104 then 1
  else if e.xno ≤ 0 ∨ e.eo > 1 ∨ e.eo < 0 then -1
  else if e.ephType = 50 ∨ e.ephType = 52 then 0
  else if e.ephType = 51 ∨ e.ephType = 53 then 1
  else if F.rnd (twopiD / xnodpD F M e) ≥ 225 then 1 else 0

end SatSky.Sxp
