import Mathlib.Analysis.SpecialFunctions.Trigonometric.Basic

/-! Pixel centres of HEALPix (Górski et al. 2005, equations 4 to 9 and the mirror image in the south). -/

namespace SatSky.Spec.Healpix

/-- Pixels in ring `i`, counted from the north pole: `1 ≤ i ≤ 4n-1`. -/
def ringLen (n i : ℤ) : ℤ := if i < n then 4 * i else if i ≤ 3 * n then 4 * n else 4 * (4 * n - i)

/-- Pixels north of ring `i`. -/
def ringStart (n i : ℤ) : ℤ :=
  if i < n then 2 * i * (i - 1) else if i ≤ 3 * n then 2 * n * (n - 1) + (i - n) * (4 * n)
  else 12 * n * n - 2 * (4 * n - i) * (4 * n - i + 1)

/-- Height of ring `i`. -/
noncomputable def ringZ (n i : ℤ) : ℝ :=
  if i < n then 1 - (i : ℝ) ^ 2 / (3 * n ^ 2) else if i ≤ 3 * n then 4 / 3 - 2 * i / (3 * n)
  else -(1 - ((4 * n - i : ℤ) : ℝ) ^ 2 / (3 * n ^ 2))

/-- Longitude of pixel `j` (from 1) of ring `i`, in quarter turns. -/
noncomputable def ringT (n i j : ℤ) : ℝ :=
  if i < n then (j - 1 / 2) / i
  else if i ≤ 3 * n then (j - (if (i - n) % 2 = 0 then 1 / 2 else 1)) / n
  else (j - 1 / 2) / (4 * n - i : ℤ)

/-- `p` is the RING number of pixel `j` (from 1) of ring `i`. -/
def RingPix (n i j p : ℤ) : Prop := 1 ≤ i ∧ i < 4 * n ∧ 1 ≤ j ∧ j ≤ ringLen n i ∧ p = ringStart n i + (j - 1)

end SatSky.Spec.Healpix
