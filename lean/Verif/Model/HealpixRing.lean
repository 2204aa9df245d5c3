import Verif.Model.Float
import Verif.Model.HealpixNest

/-!
HEALPix (`HealpixC/chealpix.c`): the RING numbering, integer square roots and pixel counts.

The 32 and 64 bit versions have the same text with other types.  They are one definition here, with the type
as parameter: `c` is the result of a signed computation (`none`: overflow), `u` that of the two computations
which the 32 bit version makes with `unsigned int`.  The check is applied to the result of each assignment and
to each product with more than one variable; the other subexpressions are smaller in absolute value.
-/

namespace SatSky.Healpix

open SatSky

/-- A signed type with `w` bits besides the sign. -/
def signed (w : ℕ) (x : ℤ) : Option ℤ := if -2 ^ w ≤ x ∧ x < 2 ^ w then some x else none

/-- `unsigned int`. -/
def unsigned32 (x : ℤ) : Option ℤ := some (x % 2 ^ 32)

/-- Conversion of a `long` to `int` (gcc: modulo 2^32). -/
def toInt32 (x : ℤ) : ℤ := (x + 2 ^ 31) % 2 ^ 32 - 2 ^ 31

/-- `sqrt` of the C library: correctly rounded, stated by squares for arguments from 1/2. -/
structure Root where
  root : ℚ → ℚ
  nonneg : ∀ x, 1 / 2 ≤ x → 0 ≤ root x
  lower : ∀ x, 1 / 2 ≤ x → (1 - 1 / 2 ^ 53) ^ 2 * x ≤ root x ^ 2
  upper : ∀ x, 1 / 2 ≤ x → root x ^ 2 ≤ (1 + 1 / 2 ^ 53) ^ 2 * x

/-- `chealpix.c` 73-74 `isqrt`; the root of a negative number is a NaN, which has no value as `int`. -/
def isqrt (F : Fl64) (R : Root) (v : ℤ) : Option ℤ :=
  if v < 0 then none else signed 31 (truncQ (R.root (F.rnd (v + 1 / 2))))

/-- `chealpix.c` 487-496 `isqrt64`: the sum rounds twice (conversion to `double`, addition). -/
def isqrt64 (F : Fl64) (R : Root) (v : ℤ) : Option ℤ := do
  if v < 0 then none
  let res ← signed 63 (truncQ (R.root (F.rnd (F.rnd v + 1 / 2))))
  if v < 2 ^ 50 then return res
  let sq ← signed 63 (res * res)
  if sq > v then return res - 1
  let sq1 ← signed 63 ((res + 1) * (res + 1))
  if sq1 ≤ v then return res + 1
  return res

/-- `chealpix.c` 101. -/
def jrll : List ℤ := [2, 2, 2, 2, 3, 3, 3, 3, 4, 4, 4, 4]
/-- `chealpix.c` 102. -/
def jpll : List ℤ := [1, 3, 5, 7, 0, 2, 4, 6, 1, 3, 5, 7]

/-- `chealpix.c` 144-149 `special_div`, 550-555 `special_div64`. -/
def specialDiv (a b : ℤ) : ℤ :=
  let t : ℤ := if a ≥ 2 * b then 1 else 0
  let a' := a - t * (2 * b)
  2 * t + (if a' ≥ b then 1 else 0)

/-- `chealpix.c` 156-176, 562-582 (also 365-386, 786-812): number of pixels in the quarter ring, number of
pixels before the ring and shift, for ring `jr`. -/
def ringData (c : ℤ → Option ℤ) (n nl4 jr : ℤ) : Option (ℤ × ℤ × ℤ) :=
  if jr < n then do
    let nb ← c (2 * jr * (jr - 1))
    return (jr, nb, 0)
  else if jr > 3 * n then do
    let nr ← c (nl4 - jr)
    let npix ← c (12 * n * n)
    let a ← c (2 * (nr + 1) * nr)
    let nb ← c (npix - a)
    return (nr, nb, 0)
  else do
    let ncap ← c (2 * n * (n - 1))
    let a ← c ((jr - n) * nl4)
    let nb ← c (ncap + a)
    return (n, nb, (jr - n) % 2)

/-- `chealpix.c` 151-184 `xyf2ring`, 557-590 `xyf2ring64`. -/
def xyf2ringG (c : ℤ → Option ℤ) (n ix iy : ℤ) (face : ℕ) : Option ℤ := do
  let nl4 ← c (4 * n)
  let jl ← jrll[face]?
  let jr ← c (jl * n - ix - iy - 1)
  let (nr, nb, ks) ← ringData c n nl4 jr
  let pl ← jpll[face]?
  let s ← c (pl * nr + ix - iy + 1 + ks)
  let jp := s.tdiv 2
  let jp := if jp > nl4 then jp - nl4 else if jp < 1 then jp + nl4 else jp
  c (nb + jp - 1)

/-- The three parts of the sphere. -/
inductive Part where
  | north | belt | south
deriving DecidableEq

/-- `chealpix.c` 192-195, 201-204, 214-217 (and the same text in 601-624, 325-350, 739-766): part of the
sphere, ring counted from the nearer pole (in the belt from the north pole) and position in the ring. -/
def ringOf (c : ℤ → Option ℤ) (isq : ℤ → Option ℤ) (n pix : ℤ) : Option (Part × ℤ × ℤ) := do
  let ncap ← c (2 * n * (n - 1))
  let npix ← c (12 * n * n)
  if pix < ncap then
    let v ← c (1 + 2 * pix)
    let s ← isq v
    let iring := (1 + s) / 2
    let t ← c (2 * iring * (iring - 1))
    let iphi ← c (pix + 1 - t)
    return (.north, iring, iphi)
  else if pix < npix - ncap then
    let ip ← c (pix - ncap)
    let nl4 ← c (4 * n)
    if nl4 = 0 then none
    let iring ← c (ip.tdiv nl4 + n)
    let iphi ← c (ip.tmod nl4 + 1)
    return (.belt, iring, iphi)
  else
    let ip ← c (npix - pix)
    let v ← c (2 * ip - 1)
    let s ← isq v
    let iring := (1 + s) / 2
    let t ← c (2 * iring * (iring - 1))
    let iphi ← c (4 * iring + 1 - (ip - t))
    return (.south, iring, iphi)

/-- `chealpix.c` 211, 246, 618, 654: face in the belt from the two edge line numbers, which are not
negative. -/
def beltFace (ifp ifm : ℤ) : ℤ :=
  if ifp = ifm then ((ifp.toNat ||| 4 : ℕ) : ℤ) else if ifp < ifm then ifp else ifm + 8

/-- `chealpix.c` 196-199, 205-211, 218-221: ring from the north pole, `kshift`, `nr` and face. -/
def ringFace (u : ℤ → Option ℤ) (n : ℤ) : Part × ℤ × ℤ → Option (ℤ × ℤ × ℤ × ℤ)
  | (.north, iring, iphi) => some (iring, 0, iring, specialDiv (iphi - 1) iring)
  | (.belt, iring, iphi) => do
    let ire ← u (iring - n + 1)
    let irm ← u (2 * n + 2 - ire)
    let a ← u (iphi - ire.tdiv 2 + n - 1)
    let b ← u (iphi - irm.tdiv 2 + n - 1)
    return (iring, (iring + n) % 2, n, beltFace (b.tdiv n) (a.tdiv n))
  | (.south, iring, iphi) => some (2 * (2 * n) - iring, 0, iring, 8 + specialDiv (iphi - 1) iring)

/-- `chealpix.c` 185-230 `ring2xyf`, 591-637 `ring2xyf64`. -/
def ring2xyfG (c u : ℤ → Option ℤ) (isq : ℤ → Option ℤ) (n pix : ℤ) : Option (ℤ × ℤ × ℕ) := do
  let (part, i, iphi) ← ringOf c isq n pix
  let (iring, ks, nr, f) ← ringFace u n (part, i, iphi)
  if f < 0 then none
  let jl ← jrll[f.toNat]?
  let pl ← jpll[f.toNat]?
  let irt ← c (iring - jl * n + 1)
  let ipt ← c (2 * iphi - pl * nr - ks - 1)
  let ipt := if ipt ≥ 2 * n then ipt - 8 * n else ipt
  return ((ipt - irt) / 2, (-(ipt + irt)) / 2, f.toNat)

/-- `nside & (nside-1)` is not 0, for `long`. -/
def notPow2 (nside : ℤ) : Bool := BitVec.ofInt 64 nside &&& BitVec.ofInt 64 (nside - 1) != 0

/-- `chealpix.c` 468-474 `nest2ring`: the `long` arguments are converted to `int`.  A negative size or pixel
is not followed further. -/
def nest2ring (nside ipnest : ℤ) : Option ℤ :=
  if nside = -2 ^ 63 then none
  else if notPow2 nside then some (-1)
  else do
    let n := toInt32 nside
    let p := toInt32 ipnest
    if n < 0 ∨ p < 0 then none
    let (x, y, f) ← nest2xyf n.toNat p.toNat
    xyf2ringG (signed 31) n x y f

/-- `chealpix.c` 475-481 `ring2nest`. -/
def ring2nest (F : Fl64) (R : Root) (nside ipring : ℤ) : Option ℤ :=
  if nside = -2 ^ 63 then none
  else if notPow2 nside then some (-1)
  else do
    let n := toInt32 nside
    let p := toInt32 ipring
    if n < 0 ∨ p < 0 then none
    let (x, y, f) ← ring2xyfG (signed 31) unsigned32 (isqrt F R) n p
    if x < 0 ∨ y < 0 then none
    let r ← xyf2nest n.toNat x.toNat y.toNat f
    return r

/-- `chealpix.c` 886-892 `nest2ring64`. -/
def nest2ring64 (nside ipnest : ℤ) : Option ℤ :=
  if nside = -2 ^ 63 then none
  else if notPow2 nside then some (-1)
  else do
    if nside < 0 ∨ ipnest < 0 then none
    let (x, y, f) ← nest2xyf64 nside.toNat ipnest.toNat
    xyf2ringG (signed 63) nside x y f

/-- `chealpix.c` 893-899 `ring2nest64`. -/
def ring2nest64 (F : Fl64) (R : Root) (nside ipring : ℤ) : Option ℤ :=
  if nside = -2 ^ 63 then none
  else if notPow2 nside then some (-1)
  else do
    if nside < 0 ∨ ipring < 0 then none
    let (x, y, f) ← ring2xyfG (signed 63) (signed 63) (isqrt64 F R) nside ipring
    if x < 0 ∨ y < 0 then none
    let r ← xyf2nest64 nside.toNat x.toNat y.toNat f
    return r

/-- `chealpix.c` 415-416 `nside2npix`, 827-828 `nside2npix64`. -/
def nside2npix (nside : ℤ) : Option ℤ := signed 63 (12 * nside * nside)

/-- `chealpix.c` 409-413 `npix2nside`: the argument of `isqrt` is converted to `int`. -/
def npix2nside (F : Fl64) (R : Root) (npix : ℤ) : Option ℤ := do
  let res ← isqrt F R (toInt32 (npix.tdiv 12))
  let sq ← signed 63 (res * res * 12)
  return if sq = npix then res else -1

/-- `chealpix.c` 821-825 `npix2nside64`: the division is in `double`. -/
def npix2nside64 (F : Fl64) (R : Root) (npix : ℤ) : Option ℤ := do
  let v ← signed 63 (truncQ (F.rnd (F.rnd npix / 12)))
  let res ← isqrt64 F R v
  let sq ← signed 63 (res * res * 12)
  return if sq = npix then res else -1

end SatSky.Healpix
