import Mathlib.Data.Nat.Bitwise

/-! The NESTED numbering of HEALPix (Górski et al. 2005, section 4.1). -/

namespace SatSky.Spec.Healpix

/-- `m` has the bits of `x` at the even places and those of `y` at the odd ones. -/
def Interleaved (x y m : ℕ) : Prop := ∀ i, m.testBit (2 * i) = x.testBit i ∧ m.testBit (2 * i + 1) = y.testBit i

/-- Coordinates on one of the twelve faces. -/
structure OnFace (n x y f : ℕ) : Prop where
  x : x < n
  y : y < n
  f : f < 12

/-- `p` is the NESTED number of the pixel `(x, y)` of face `f`: the faces follow each other. -/
def Nested (n x y f p : ℕ) : Prop := ∃ m, Interleaved x y m ∧ m < n * n ∧ p = f * (n * n) + m

end SatSky.Spec.Healpix
