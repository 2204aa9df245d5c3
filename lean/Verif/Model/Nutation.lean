import Mathlib.Analysis.SpecialFunctions.Trigonometric.Basic

/-! Model of `earthtilt.c`: nutation and the orientation of the axis of the Earth.  Arithmetic is exact; the `double` literals of the tables and of the
fundamental arguments are the decimal numbers of the source. -/

namespace SatSky.Nut

/-! ### Tables, `earthtilt.c` 78-138 -/

def clng : List ℚ := [
  1, 1, -1, -1, 1, -1, -1, -1, -1, -1, -1, 1, -1, 1, -1, 1, 1, -1,
  -1, 1, 1, -1, 1, -1, 1, -1, -1, -1, 1, -1, -1, 1, -1, 1, 2, 2,
  2, 2, 2, -2, 2, 2, 2, 3, -3, -3, 3, -3, 3, -3, 3, 4, 4, -4,
  -4, 4, -4, 5, 5, 5, -5, 6, 6, 6, -6, 6, -7, 7, 7, -7, -8, 10,
  11, 12, -13, -15, -16, -16, 17, -21, -22, 26, 29, 29, -31, -38, -46, 48, -51, 58,
  59, 63, 63, -123, 129, -158, -217, -301, -386, -517, 712, 1426, 2062, -2274, -13187, -171996]
def clngx : List ℚ := [
  0.1, -0.1, 0.1, 0.1, 0.1, 0.1, 0.2, -0.2, -0.4, 0.5, 1.2, -1.6, -3.4, -174.2]
def cobl : List ℚ := [
  1, 1, 1, -1, -1, -1, 1, 1, 1, 1, 1, -1, 1, -1, 1, -1, -1, -1,
  1, -1, 1, 1, -1, -2, -2, -2, 3, 3, -3, 3, 3, -3, 3, 3, -3, 3,
  3, 5, 6, 7, -7, 7, -8, 9, -10, -12, 13, 16, -24, 26, 27, 32, -33, -53,
  54, -70, -95, 129, 200, 224, -895, 977, 5736, 92025]
def coblx : List ℚ := [
  -0.1, -0.1, 0.3, 0.5, -0.5, -0.6, -3.1, 8.9]
def nav1 : List ℕ := [
  0, 0, 1, 0, 2, 1, 3, 0, 4, 0]
def nav2 : List ℕ := [
  0, 0, 0, 5, 1, 1, 3, 3, 4, 4]
def nav : List ℕ := [
  2, 0, 1, 1, 5, 2, 2, 0, 2, 1, 0, 3, 2, 5, 8, 1, 17, 8,
  1, 18, 0, 2, 0, 8, 0, 1, 3, 2, 1, 8, 0, 17, 1, 1, 15, 1,
  2, 21, 1, 1, 2, 8, 2, 0, 29, 1, 21, 2, 2, 1, 29, 2, 0, 9,
  2, 5, 4, 2, 0, 4, 0, 1, 9, 2, 1, 4, 0, 2, 9, 2, 2, 4,
  1, 14, 44, 2, 0, 45, 2, 5, 44, 2, 50, 0, 1, 36, 2, 2, 5, 45,
  1, 37, 2, 2, 1, 45, 2, 1, 44, 2, 53, 1, 2, 8, 4, 1, 40, 3,
  2, 17, 4, 2, 0, 64, 1, 39, 8, 2, 27, 4, 1, 50, 18, 1, 21, 47,
  2, 44, 3, 2, 44, 8, 2, 45, 8, 1, 46, 8, 0, 67, 2, 1, 5, 74,
  1, 0, 74, 2, 50, 8, 1, 5, 78, 2, 17, 53, 2, 53, 8, 2, 0, 80,
  2, 0, 81, 0, 7, 79, 1, 7, 81, 2, 1, 81, 2, 24, 44, 1, 1, 79,
  2, 27, 44]
def llng : List ℕ := [
  57, 25, 82, 34, 41, 66, 33, 36, 19, 88, 18, 104, 93, 84, 47, 28, 83, 86,
  69, 75, 89, 30, 58, 73, 46, 77, 23, 32, 59, 72, 31, 16, 74, 22, 98, 38,
  62, 96, 37, 35, 6, 76, 85, 51, 26, 10, 13, 63, 105, 52, 102, 67, 99, 15,
  24, 14, 3, 100, 65, 11, 55, 68, 20, 87, 64, 95, 27, 60, 61, 80, 91, 94,
  12, 43, 71, 42, 97, 70, 7, 49, 29, 2, 5, 92, 50, 78, 56, 17, 48, 40,
  90, 8, 39, 54, 81, 21, 103, 53, 45, 101, 0, 1, 9, 44, 79, 4]
def llngx : List ℕ := [
  81, 7, 97, 0, 39, 40, 9, 44, 45, 103, 101, 79, 1, 4]
def lobl : List ℕ := [
  51, 98, 17, 21, 5, 2, 63, 105, 38, 52, 102, 62, 96, 37, 35, 76, 36, 88,
  85, 104, 93, 84, 83, 67, 99, 8, 68, 100, 60, 61, 91, 87, 64, 80, 95, 65,
  55, 94, 43, 97, 0, 71, 70, 42, 49, 92, 50, 78, 56, 90, 48, 40, 39, 54,
  1, 81, 103, 53, 45, 101, 9, 44, 79, 4]
def loblx : List ℕ := [
  53, 1, 103, 9, 44, 101, 79, 4]

/-! ### The recursion

The loops are written once for any kind of entry: with pairs of cosine and sine this is the program; `Verif/Props/Nutation.lean` runs the same loops on
integer combinations.  `none`: an index outside of what has been computed, or a write after the end of the arrays. -/

/-- What the loops do with entries: the one for a multiple of one of the five arguments, the one for the sum and the one for the difference. -/
structure Ops (α : Type) where
  base : ℕ → ℕ → Option α
  plus : α → α → α
  minus : α → α → α

variable {α : Type}

/-- `c[i] = ...; s[i] = ...; i += 1` with `c` and `s` of 106 entries. -/
def store (acc : List α) (x : α) : Option (List α) := if acc.length < 106 then some (acc ++ [x]) else none

/-- `earthtilt.c` 161-168. -/
def loop1 (o : Ops α) : List ℕ → List α → Option (List α)
  | i :: j :: rest, acc => do
    let x ← o.base i (j + 1)
    let acc ← store acc x
    loop1 o rest acc
  | _, acc => some acc

/-- `earthtilt.c` 170-179. -/
def loop2 (o : Ops α) : List ℕ → List α → Option (List α)
  | i :: j :: rest, acc => do
    let p ← acc[i]?
    let q ← acc[j]?
    let acc ← store acc (o.plus p q)
    loop2 o rest acc
  | _, acc => some acc

/-- `earthtilt.c` 181-214. -/
def loop3 (o : Ops α) : List ℕ → List α → Option (List α)
  | iop :: i :: j :: rest, acc =>
    if iop = 3 then some acc
    else if iop = 0 then do
      let p ← acc[i]?
      let q ← acc[j]?
      let acc ← store acc (o.plus p q)
      loop3 o rest acc
    else if iop = 1 then do
      let p ← acc[i]?
      let q ← acc[j]?
      let acc ← store acc (o.minus p q)
      loop3 o rest acc
    else if iop = 2 then do
      let p ← acc[i]?
      let q ← acc[j]?
      let acc ← store acc (o.plus p q)
      let acc ← store acc (o.minus p q)
      loop3 o rest acc
    else loop3 o rest acc
  | _, acc => some acc

/-- `earthtilt.c` 161-214: the loops one after the other. -/
def entries (o : Ops α) : Option (List α) := do
  let acc ← loop1 o nav1 []
  let acc ← loop2 o nav2 acc
  loop3 o nav acc

/-- Cosine and sine. -/
structure Pair where
  c : ℝ
  s : ℝ

/-- `earthtilt.c` 163-166, 175-176, 189-190, 193-194, 196-205: the operations of the program, for the five arguments `a`. -/
noncomputable def trig (a : List ℝ) : Ops Pair where
  base i m := a[i]?.map fun x => ⟨Real.cos (x * m), Real.sin (x * m)⟩
  plus p q := ⟨p.c * q.c - p.s * q.s, p.s * q.c + p.c * q.s⟩
  minus p q := ⟨p.c * q.c + p.s * q.s, p.s * q.c - p.c * q.s⟩

/-- `earthtilt.c` 216-230: one of the sums; `f` takes the sine or the cosine. -/
noncomputable def tableSum (f : Pair → ℝ) (tab : List Pair) : List ℚ → List ℕ → ℝ → Option ℝ
  | k :: ks, i :: is, acc => do
    let p ← tab[i]?
    tableSum f tab ks is (acc + k * f p)
  | _, _, acc => some acc

/-- `earthtilt.c` 161-233: nutation in longitude and in obliquity (seconds of arc) for the five arguments `a` and the time `t` in centuries. -/
noncomputable def nutationOf (a : List ℝ) (t : ℝ) : Option (ℝ × ℝ) := do
  let tab ← entries (trig a)
  let lng ← tableSum Pair.s tab clng llng 0
  let lngx ← tableSum Pair.s tab clngx llngx 0
  let obl ← tableSum Pair.c tab cobl lobl 0
  let oblx ← tableSum Pair.c tab coblx loblx 0
  return ((lng + t * lngx) / 10000, (obl + t * oblx) / 10000)

/-- `earthtilt.c` 145-159: the five arguments (radians). -/
noncomputable def arguments (t : ℝ) : List ℝ :=
  [2.3555483935439407 + t * (8328.691422883896 + t * (1.517951635553957e-4 + 3.1028075591010306e-7 * t)),
   6.240035939326023 + t * (628.3019560241842 + t * (-2.7973749400020225e-6 - 5.817764173314431e-8 * t)),
   1.6279019339719611 + t * (8433.466158318453 + t * (-6.427174970469119e-5 + 5.332950492204896e-8 * t)),
   5.198469513579922 + t * (7771.377146170642 + t * (-3.340851076525812e-5 + 9.211459941081184e-8 * t)),
   2.1824386243609943 + t * (-33.75704593375351 + t * (3.614285992671591e-5 + 3.878509448876288e-8 * t))]

/-- `earthtilt.c` 18-236 `calcnutation`. -/
noncomputable def calcnutation (t : ℝ) : Option (ℝ × ℝ) := nutationOf (arguments t) t

/-! ### earthtilt -/

/-- What `earthtilt` returns: nutation in longitude and obliquity (seconds of arc), equation of the equinoxes (seconds of time), mean and true obliquity
(degrees). -/
structure Tilt where
  dpsi : ℝ
  deps : ℝ
  eq : ℝ
  mobl : ℝ
  tobl : ℝ

/-- `earthtilt.c` 309-341: the computation for a date. -/
noncomputable def tiltAt (tjd : ℝ) : Option Tilt := do
  let t := (tjd - 2451545) / 36525
  let (dpsi, deps) ← calcnutation t
  let mean := 84381.4480 - 46.8150 * t - 0.00059 * t ^ 2 + 0.001813 * t ^ 3
  let tru := mean + deps
  return ⟨dpsi, deps, dpsi / 15 * Real.cos (tru * 4.848136811095359936e-6), mean / 3600, tru / 3600⟩

/-- The static variables of `earthtilt` (305): `tjd_last` and the values; all zero at the start of the program. -/
structure TiltState where
  last : ℝ
  val : Tilt

def tiltStart : TiltState := ⟨0, ⟨0, 0, 0, 0, 0⟩⟩

open Classical in
/-- `earthtilt.c` 238-353 `earthtilt`: the new state; the returned values are its `val`. -/
noncomputable def earthtilt (s : TiltState) (tjd : ℝ) : Option TiltState :=
  if |tjd - s.last| > 1 / 100 then (tiltAt tjd).map fun v => ⟨tjd, v⟩ else some s

/-- A sequence of calls: the returned values. -/
noncomputable def tiltCalls (s : TiltState) : List ℝ → Option (List Tilt)
  | [] => some []
  | d :: ds => do
    let s ← earthtilt s d
    let vs ← tiltCalls s ds
    return s.val :: vs

end SatSky.Nut
