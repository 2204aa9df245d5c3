import Verif.Model.CStr

/-!
Model of `src/get_el.c`: TLE checksum, catalogue number decoding, field readers, `parse_elements`.
`none` always means undefined behaviour (read beyond the string, signed overflow, runaway loop) or,
where said so, a failed `assert`.
-/

namespace SatSky.GetEl

open SatSky

/-- `get_el.c` 28-33, second loop of `get_angle`: accumulate until a blank is met.  There is no
test for the end of the string, so running into it is `none`. `rval` is an `int`. -/
def getAngleLoop (rval : Int) : CString → Option Int
  | [] => none          -- reads NUL, accumulates it and runs past the terminator
  | c :: t =>
    if c = 32 then some rval
    else if c = 46 then getAngleLoop rval t
    else do
      let r ← int32 (rval * 10 + (c - 48))
      getAngleLoop r t

/-- `get_el.c` 22-35 `get_angle`. -/
def getAngle (s : CString) : Option Int :=
  getAngleLoop 0 (s.dropWhile (· == 32))

/-- A decimal number `mant * 10^expo`; the result type of `sci`.  Simplification: the C code
computes a `double` by repeated multiplication with `.1` or `10.`; here the exact decimal is
kept and rounding is not modelled. -/
structure Dec where
  mant : Int
  expo : Int
deriving DecidableEq, Repr

/-- `get_el.c` 46-71 `sci`.  `none`: a needed character is beyond the string, `atoi` overflows, or
`while( exponent--)` starts from a negative number (then it runs through 2^32 iterations with signed
overflow: undefined behaviour). -/
def sci (s : CString) : Option Dec := do
  let c1 ← rd s 1
  if c1 ≠ 32 then
    let ival ← atoi s
    if ival ≠ 0 then
      let c7 ← rd s 7
      if c7 ≠ 48 then
        let exponent := c7 - 48
        let c6 ← rd s 6
        if exponent < 0 then none
        else if c6 = 45 then some ⟨ival, -5 - exponent⟩
        else some ⟨ival, -5 + exponent⟩
      else some ⟨ival, -5⟩
    else some ⟨0, 0⟩
  else some ⟨0, 0⟩

/-- `get_el.c` 89-92: contribution of one character to the checksum. -/
def ckChar (c : CChar) : Int :=
  if c > 48 ∧ c ≤ 57 then c - 48 else if c = 45 then 1 else 0

/-- `get_el.c` 87-96: the loop over the first 68 characters, starting at index `i` with `n`
iterations to go; `Sum.inl r` is an early `return(r)`. -/
def ckLoop (s : CString) : (n i : Nat) → Int → Option (Int ⊕ Int)
  | 0, _, rval => some (.inr rval)
  | n + 1, i, rval => do
    let c ← rd s i
    if c < 32 ∨ c > 122 then some (.inl (-2))
    else ckLoop s n (i + 1) (rval + ckChar c)

/-- `get_el.c` 97-106: what follows the loop.  `%` is C's truncating remainder (`Int.tmod`). -/
def ckFinish (s : CString) : Int ⊕ Int → Option Int
  | .inl r => some r
  | .inr sum => do
    let c68 ← rd s 68
    let rval := sum - (c68 - 48)
    let c69 ← rd s 69
    if c69 > 32 then return Int.tmod (-3) 10
    else
      let r := Int.tmod rval 10
      let r := if r < 0 then r + 10 else r
      return Int.tmod r 10

/-- `get_el.c` 80-107 `tle_checksum`. -/
def tleChecksum (s : CString) : Option Int := do
  let c0 ← rd s 0
  if c0 ≠ 49 ∧ c0 ≠ 50 then return -1
  let c1 ← rd s 1
  if c1 ≠ 32 then return -1
  let x ← ckLoop s 68 0 0
  ckFinish s x

/-- `get_el.c` 109-120 `mutant_dehex`. -/
def mutantDehex (c : CChar) : Int :=
  if c ≤ 57 ∧ c ≥ 48 then c - 48
  else if c ≥ 65 ∧ c ≤ 90 then c + 10 - 65
  else -1

/-- `get_el.c` 153-158: the loop over `n` characters from index `i`; `none` when the `assert` on
the digit fails or the string ends. -/
def highLoop (s : CString) : (n i : Nat) → Int → Option Int
  | 0, _, rval => some rval
  | n + 1, i, rval => do
    let c ← rd s i
    let d := mutantDehex c
    if d < 0 then none else highLoop s n (i + 1) (rval * 36 + d)

/-- `get_el.c` 144-163 `get_high_value`; `none` is a failed `assert` (abort).  The value is an
integer < 36^8 < 2^53, so the conversion to `double` is exact. -/
def getHighValue (s : CString) : Option Int := do
  let c ← rd s 0
  if c = 43 ∨ c = 45 then
    let r ← highLoop s 8 1 0
    return (if c = 45 then -r else r)
  else none

/-- `get_el.c` 209-226 `base34_to_int`. -/
def base34 (c : CChar) : Int :=
  if c = 32 then 0
  else if c ≥ 48 ∧ c ≤ 57 then c - 48
  else if c ≥ 65 ∧ c ≤ 72 then c - (65 - 10)
  else if c ≥ 74 ∧ c ≤ 78 then c - (74 - 18)
  else if c ≥ 80 ∧ c ≤ 90 then c - (80 - 23)
  else -1

/-- `get_el.c` 239-255: the six numbering schemes; `rest` is the string from `buff + 1` on, read by
`atoi` in the standard scheme. -/
def noradOfDigits (d0 d1 d2 d3 d4 : Int) (rest : CString) : Option Int :=
  if d4 > 9 then
    some (340000 + (d4 - 10) + 24 * (d3 + d2 * 34 + d1 * 34 * 34 + d0 * 34 * 34 * 34))
  else if d3 > 9 then
    some (340000 + 32072064 + d4 + (d3 - 10) * 10 + 10 * 24 * (d2 + d1 * 34 + d0 * 34 * 34))
  else if d2 > 9 then
    some (340000 + 32072064 + 9432960 + d4 + d3 * 10 + (d2 - 10) * 100 + 2400 * (d1 + d0 * 34))
  else if d1 > 9 then
    some (340000 + 32072064 + 9432960 + 2774400 + d4 + d3 * 10 + d2 * 100 + (d1 - 10) * 1000
      + d0 * 24000)
  else do
    let a ← atoi rest
    int32 (d0 * 10000 + a)

/-- `get_el.c` 228-256 `get_norad_number` (argument: the string from the field on). -/
def getNoradNumber (s : CString) : Option Int := do
  let c0 ← rd s 0
  let d0 := base34 c0
  if d0 = -1 then return 0
  let c1 ← rd s 1
  let d1 := base34 c1
  if d1 = -1 then return 0
  let c2 ← rd s 2
  let d2 := base34 c2
  if d2 = -1 then return 0
  let c3 ← rd s 3
  let d3 := base34 c3
  if d3 = -1 then return 0
  let c4 ← rd s 4
  let d4 := base34 c4
  if d4 = -1 then return 0
  noradOfDigits d0 d1 d2 d3 d4 (s.drop 1)

/-- `get_el.c` 258-261 `get_eight_places`: integer part and the 8-digit fraction (in 1e-8).
Simplification: the pair is kept instead of the rounded `double`. -/
def getEightPlaces (s : CString) : Option (Int × Int) := do
  let a ← atoi s
  let p ← ptrAdd s 4
  let b ← atoi p
  return (a, b)

/-- Copy of `n` bytes from index `i` of a string (`memcpy( tbuff, line + i, n)`): `none` if it
would read past the terminator.  (A NUL inside the copied bytes ends the copied string.) -/
def sub (s : CString) (i n : Nat) : Option CString :=
  if i + n ≤ s.length then some ((s.drop i).take n) else none

/-- The elements read by `parse_elements` (`tle_t`), each as the exact decimal written in the file.
Simplification: the C code multiplies them by constants (degrees to radians, days to minutes) as
`double`s; here they stay in the units of the format:
angles in 1e-4 degree, eccentricity in 1e-7, mean motion and ndot/2 in (integer part, 1e-8) rev/day.
`epochDay` is the integer day number (day-of-year part plus year days, `get_el.c` 314-315) on top of
J1900, and `epochFrac` the fraction in 1e-8 day. -/
structure Tle where
  epochDay : Int
  epochFrac : Int
  norad : Int
  bulletin : Int
  classification : CChar
  intlDesig : CString
  revolution : Int
  ephType : CChar
  xmo : Int := 0
  xnodeo : Int := 0
  omegao : Int := 0
  xincl : Int := 0
  eo : Int := 0
  xno : Int × Int := (0, 0)
  xndt2o : Int := 0
  xndd6o : Dec := ⟨0, 0⟩
  bstar : Dec := ⟨0, 0⟩
  high : List Int := []     -- the 3+3 integers of an 'H' element set
deriving DecidableEq, Repr

/-- `get_el.c` 308-313: year since 1900 from the two epoch year characters. -/
def epochYear (c18 c19 : CChar) : Int :=
  let year := c19 - 48
  let year := if c18 ≥ 48 then year + (c18 - 48) * 10 else year
  if year < 57 then year + 100 else year

/-- `get_el.c` 314-315: `year * 365 + (year - 1) / 4`, C division truncates. -/
def yearDays (year : Int) : Int := year * 365 + Int.tdiv (year - 1) 4

/-- `get_el.c` 281-303: the checks before any field is read.  Result: `(rval, checksum_problem)`. -/
def parseCheck (line1 line2 : CString) : Option (Int × Int) := do
  let a ← rd line1 0
  let b ← rd line2 0
  -- lines 281-291
  let (rval, problem) ←
    if a ≠ 49 ∨ b ≠ 50 then some ((-4 : Int), (0 : Int))
    else do
      let r ← tleChecksum line1
      if r > 0 then some (0, 1) else some (r, 0)
  -- lines 293-303
  if rval ≠ 0 then some (rval - 100, problem)
  else do
    let r ← tleChecksum line2
    if r > 0 then some (0, problem + 2)     -- `|= 2` on 0 or 1
    else some (r, problem)

/-- `get_el.c` 307-337: header part and 'H' part, and 340-360: standard part. -/
def parseFields (line1 line2 : CString) : Option Tle := do
  let c18 ← rd line1 18
  let c19 ← rd line1 19
  let year := epochYear c18 c19
  let p20 ← ptrAdd line1 20
  let (day, frac) ← getEightPlaces p20
  let p2 ← ptrAdd line1 2
  let norad ← getNoradNumber p2
  let tb ← sub line1 64 4
  let bulletin ← atoi tb
  let cls ← rd line1 7
  let desig ← sub line1 9 8
  let tb ← sub line2 63 5
  let rev ← atoi tb
  let et ← rd line1 62
  if et = 72 then
    let h (l : CString) (i : Nat) : Option Int := do getHighValue (← ptrAdd l (33 + i * 10))
    let x0 ← h line1 0
    let v0 ← h line2 0
    let x1 ← h line1 1
    let v1 ← h line2 1
    let x2 ← h line1 2
    let v2 ← h line2 2
    return { epochDay := day + yearDays year, epochFrac := frac, norad := norad,
             bulletin := bulletin, classification := cls, intlDesig := desig, revolution := rev,
             ephType := et, high := [x0, x1, x2, v0, v1, v2] }
  else
    let xmo ← getAngle (← ptrAdd line2 43)
    let xnodeo ← getAngle (← ptrAdd line2 17)
    let omegao ← getAngle (← ptrAdd line2 34)
    let xincl ← getAngle (← ptrAdd line2 8)
    let eo ← atoi (← ptrAdd line2 26)
    let tb ← sub line2 51 12
    let xno ← getEightPlaces tb
    let nd ← atoi (← ptrAdd line1 35)
    let c33 ← rd line1 33
    let xndd6o ← sci (← ptrAdd line1 44)
    let bstar ← sci (← ptrAdd line1 53)
    return { epochDay := day + yearDays year, epochFrac := frac, norad := norad,
             bulletin := bulletin, classification := cls, intlDesig := desig, revolution := rev,
             ephType := et, xmo := xmo, xnodeo := xnodeo, omegao := omegao, xincl := xincl,
             eo := eo, xno := xno, xndt2o := (if c33 = 45 then -nd else nd),
             xndd6o := xndd6o, bstar := bstar }

/-- `get_el.c` 277-363 `parse_elements`: return code and, when the fields were read, the elements. -/
def parseElements (line1 line2 : CString) : Option (Int × Option Tle) := do
  let (rval, problem) ← parseCheck line1 line2
  if rval = 0 then
    let t ← parseFields line1 line2
    if t.ephType = 72 then return (0, some t)       -- line 337: `return( 0)`
    else return (problem, some t)
  else return (rval, none)

end SatSky.GetEl
