import Verif.Model.SkyLoop

/-!
`printf` of floating point numbers, and a concrete library (`Lib`) for examples.
-/

namespace SatSky.Opts

open SatSky Dates Sky

/-- `%.pf` of a finite number (C11 7.21.6.1): sign, integer part, point, `p ≥ 1` digits, rounded to
nearest (ties to even, as glibc does in the default rounding mode). -/
def fmtF (p : Nat) (x : ℚ) : CString :=
  let n := (roundEven (|x| * 10 ^ p)).natAbs
  let f := natText (n % 10 ^ p)
  (if x < 0 then [45] else []) ++ natText (n / 10 ^ p) ++ 46 :: (List.replicate (p - f.length) 48 ++ f)

/-- A minimum field width: blanks on the left. -/
def padLeft (w : Nat) (s : CString) : CString := List.replicate (w - s.length) 32 ++ s

/-- Decimal numbers without exponent: sign, digits, optional fraction.  (A simple instance of the
`%lf` conversion, for examples only.) -/
def scanDec (s : CString) : Option (ℚ × CString) :=
  let t := s.dropWhile isSpace
  let neg := t.head? = some 45
  let t := if t.head? = some 45 ∨ t.head? = some 43 then t.drop 1 else t
  let a := takeDigits t.length 0 t
  if a.1 = 0 then none
  else
    let v : ℚ × CString :=
      match a.2.2 with
      | 46 :: r =>
        let b := takeDigits r.length 0 r
        ((a.2.1 : ℚ) + (b.2.1 : ℚ) / 10 ^ b.1, b.2.2)
      | r => ((a.2.1 : ℚ), r)
    some (if neg then -v.1 else v.1, v.2)

/-- A library for examples. -/
def lib0 : Lib where
  atof s := match scanDec s with | some (x, _) => x | none => 0
  scanD := scanDec
  showF := fmtF 6
  F := Fl64.ieee
  G := Fl32.ieee

end SatSky.Opts
