import Verif.Model.HealpixRing
import Mathlib.Algebra.Order.Floor.Ring
import Mathlib.Algebra.Order.Field.Basic

/-!
HEALPix (`HealpixC/chealpix.c`): directions and pixels.

The functions are written over any ordered field `K` with a rounding function, so that they can be read in exact
arithmetic (`K` the reals, no rounding) and in `double` arithmetic (`K` the rationals, rounding to 53 bits).
-/

namespace SatSky.Healpix

open SatSky

/-- Arithmetic of the `double` expressions, and the constants of lines 34-38. -/
structure Arith (K : Type) where
  rnd : K → K
  sqrt : K → K
  pi : K
  twopi : K
  halfpi : K
  invHalfpi : K
  twothird : K

/-- `chealpix.c` 34-38: the constants in `double`, with rounding `F` and library root `sq`. -/
def double (F : Fl64) (sq : ℚ → ℚ) : Arith ℚ where
  rnd := F.rnd
  sqrt := sq
  pi := 884279719003555 / 2 ^ 48
  twopi := 884279719003555 / 2 ^ 47
  halfpi := 884279719003555 / 2 ^ 49
  invHalfpi := 5734161139222659 / 2 ^ 53
  twothird := 6004799503160661 / 2 ^ 53

variable {K : Type} [Field K] [LinearOrder K] [FloorRing K]

/-- Conversion to an integer: toward zero. -/
def trunc (x : K) : ℤ := if 0 ≤ x then ⌊x⌋ else ⌈x⌉

/-- `fmod` (exact in IEEE arithmetic). -/
def fmod (v1 v2 : K) : K := v1 - v2 * (trunc (v1 / v2) : ℤ)

/-- `chealpix.c` 61-67 `fmodulo`. -/
def fmodulo (A : Arith K) (v1 v2 : K) : K :=
  if v1 ≥ 0 then if v1 < v2 then v1 else fmod v1 v2
  else
    let tmp := A.rnd (fmod v1 v2 + v2)
    if tmp = v2 then 0 else tmp

/-- `chealpix.c` 71-72 `imodulo`, 485-486 `imodulo64`. -/
def imodulo (v1 v2 : ℤ) : ℤ :=
  let v := v1.tmod v2
  if v ≥ 0 then v else v + v2

/-- `a & (nside-1)` for `a` not negative. -/
def andPred (a n : ℤ) : ℤ := ((a.toNat &&& (n - 1).toNat : ℕ) : ℤ)

/-- `chealpix.c` 235, 283: longitude in quarter turns. -/
def quarter (A : Arith K) (phi : K) : K := A.rnd (fmodulo A phi A.twopi * A.invHalfpi)

/-- The distance from the pole in rings: 257 and 304 without `s`, 665-668 and 716 with the sine `s` if it is
given (`s > -2`). -/
def polar (A : Arith K) (n : ℤ) (za s : K) : K :=
  if s > -2 then A.rnd (A.rnd (n * s) / A.sqrt (A.rnd (A.rnd (1 + za) / 3)))
  else A.rnd (n * A.sqrt (A.rnd (3 * A.rnd (1 - za))))

/-- `chealpix.c` 232-276 (`ang2pix_nest_z_phi`, which passes no `s`: -5) and 639-687 (`ang2pix_nest_z_phi64`), up to the
call of `xyf2nest`: `(ix, iy, face_num)`.  `c` is the integer type. -/
def ang2xyf (A : Arith K) (c : ℤ → Option ℤ) (n : ℤ) (z s phi : K) : Option (ℤ × ℤ × ℤ) :=
  let za := |z|
  let tt := quarter A phi
  if za ≤ A.twothird then do
    let temp1 := A.rnd (n * A.rnd (1 / 2 + tt))
    let temp2 := A.rnd (n * A.rnd (z * (3 / 4)))
    let jp ← c (trunc (A.rnd (temp1 - temp2)))
    let jm ← c (trunc (A.rnd (temp1 + temp2)))
    let ifp := jp.tdiv n
    let ifm := jm.tdiv n
    return (andPred jm n, n - andPred jp n - 1, beltFace ifp ifm)
  else do
    let ntt ← c (trunc tt)
    let ntt := if ntt ≥ 4 then 3 else ntt
    let tp := A.rnd (tt - ntt)
    let tmp := polar A n za s
    let jp ← c (trunc (A.rnd (tp * tmp)))
    let jm ← c (trunc (A.rnd (A.rnd (1 - tp) * tmp)))
    let jp := if jp ≥ n then n - 1 else jp
    let jm := if jm ≥ n then n - 1 else jm
    if z ≥ 0 then return (n - jm - 1, n - jp - 1, ntt) else return (jp, jm, ntt + 8)

/-- `chealpix.c` 232-278 `ang2pix_nest_z_phi`.  A negative coordinate or face would index the tables outside. -/
def ang2pixNest (A : Arith K) (n : ℤ) (z phi : K) : Option ℤ := do
  let (x, y, f) ← ang2xyf A (signed 31) n z (-5) phi
  if x < 0 ∨ y < 0 ∨ f < 0 then none
  let p ← xyf2nest n.toNat x.toNat y.toNat f.toNat
  return p

/-- `chealpix.c` 639-689 `ang2pix_nest_z_phi64`. -/
def ang2pixNest64 (A : Arith K) (n : ℤ) (z s phi : K) : Option ℤ := do
  let (x, y, f) ← ang2xyf A (signed 63) n z s phi
  if x < 0 ∨ y < 0 ∨ f < 0 then none
  let p ← xyf2nest64 n.toNat x.toNat y.toNat f.toNat
  return p

/-- `chealpix.c` 280-318 `ang2pix_ring_z_phi`, 691-730 `ang2pix_ring_z_phi64`. -/
def ang2pixRing (A : Arith K) (c : ℤ → Option ℤ) (n : ℤ) (z s phi : K) : Option ℤ :=
  let za := |z|
  let tt := quarter A phi
  if za ≤ A.twothird then do
    let temp1 := A.rnd (n * A.rnd (1 / 2 + tt))
    let temp2 := A.rnd (A.rnd (n * z) * (3 / 4))
    let jp ← c (trunc (A.rnd (temp1 - temp2)))
    let jm ← c (trunc (A.rnd (temp1 + temp2)))
    let ir ← c (n + 1 + jp - jm)
    let ks := 1 - ir % 2
    let ip ← c (jp + jm - n + ks + 1)
    if n = 0 then none
    let ip := imodulo (ip.tdiv 2) (4 * n)
    c (n * (n - 1) * 2 + (ir - 1) * 4 * n + ip)
  else do
    let ti ← c (trunc tt)
    let tp := A.rnd (tt - ti)
    let tmp := polar A n za s
    let jp ← c (trunc (A.rnd (tp * tmp)))
    let jm ← c (trunc (A.rnd (A.rnd (1 - tp) * tmp)))
    let ir ← c (jp + jm + 1)
    let ip ← c (trunc (A.rnd (tt * ir)))
    if ir = 0 then none
    let ip := imodulo ip (4 * ir)
    if z > 0 then c (2 * ir * (ir - 1) + ip) else c (12 * n * n - 2 * ir * (ir + 1) + ip)

/-- `chealpix.c` 320-355 `pix2ang_ring_z_phi`, 732-773 `pix2ang_ring_z_phi64`: `(z, phi)`. -/
def pix2angRing (A : Arith K) (c isq : ℤ → Option ℤ) (n pix : ℤ) : Option (K × K) := do
  let (part, i, j) ← ringOf c isq n pix
  let npix ← c (12 * n * n)
  let fact2 := A.rnd (4 / npix)
  match part with
  | .north => return (A.rnd (1 - A.rnd ((i * i : ℤ) * fact2)), A.rnd (A.rnd (A.rnd (j - 1 / 2) * A.halfpi) / i))
  | .belt =>
    let fact1 := A.rnd ((2 * n : ℤ) * fact2)
    let fodd : K := if (i + n) % 2 = 1 then 1 else 1 / 2
    return (A.rnd ((2 * n - i : ℤ) * fact1), A.rnd (A.rnd (A.rnd (j - fodd) * A.pi) / (2 * n : ℤ)))
  | .south => return (A.rnd (-1 + A.rnd ((i * i : ℤ) * fact2)), A.rnd (A.rnd (A.rnd (j - 1 / 2) * A.halfpi) / i))

/-- `chealpix.c` 357-392 `pix2ang_nest_z_phi`, 775-819 `pix2ang_nest_z_phi64`, after `nest2xyf`: `(z, phi)`. -/
def xyf2ang (A : Arith K) (c : ℤ → Option ℤ) (n ix iy : ℤ) (face : ℕ) : Option (K × K) := do
  let nl4 ← c (n * 4)
  let npix ← c (12 * n * n)
  let fact2 := A.rnd (4 / npix)
  let jl ← jrll[face]?
  let jr ← c (jl * n - ix - iy - 1)
  let (z, nr, ks) ←
    if jr < n then do
      let sq ← c (jr * jr)
      pure (A.rnd (1 - A.rnd (sq * fact2)), jr, (0 : ℤ))
    else if jr > 3 * n then do
      let nr ← c (nl4 - jr)
      let sq ← c (nr * nr)
      pure (A.rnd (A.rnd (sq * fact2) - 1), nr, 0)
    else
      pure (A.rnd ((2 * n - jr : ℤ) * A.rnd ((2 * n : ℤ) * fact2)), n, (jr - n) % 2)
  let pl ← jpll[face]?
  let s ← c (pl * nr + ix - iy + 1 + ks)
  let jp := s.tdiv 2
  let jp := if jp > nl4 then jp - nl4 else jp
  let jp := if jp < 1 then jp + nl4 else jp
  return (z, A.rnd (A.rnd (jp - A.rnd ((ks + 1 : ℤ) * (1 / 2))) * A.rnd (A.halfpi / nr)))

end SatSky.Healpix
