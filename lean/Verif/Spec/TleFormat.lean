import Verif.Spec.Tle
import Verif.Lemmas.Digits

/-!
A writer for the standard two-line format (column layout of the NORAD format description, also in the
comments of `get_el.c` 263-265), used as the specification of C09.  Independent of the reader.
-/

namespace SatSky.Spec

open SatSky

/-- Decimal digits without leading zeros (`0` is one digit). -/
def decDigits (n : Nat) : List Nat :=
  if n < 10 then [n] else decDigits (n / 10) ++ [n % 10]

/-- Exactly `w` decimal digits, with leading zeros. -/
def zeroDigits : (w : Nat) → Nat → List Nat
  | 0, _ => []
  | w + 1, n => zeroDigits w (n / 10) ++ [n % 10]

/-- `%0wd`. -/
def zeroPad (w n : Nat) : CString := digitChars (zeroDigits w n)

/-- `%wd`. -/
def blankPad (w n : Nat) : CString :=
  List.replicate (w - (decDigits n).length) 32 ++ digitChars (decDigits n)

/-- A field of the form sDDDDDtE. -/
structure SciValue where
  neg : Bool
  mant : Nat
  expNeg : Bool
  expo : Nat

/-- Its text. -/
def SciValue.text (v : SciValue) : CString :=
  (if v.neg then 45 else 32) :: (zeroPad 5 v.mant ++ [if v.expNeg then 45 else 43, 48 + (v.expo : Int)])

/-- An orbital element set in the units of the format. -/
structure Elements where
  norad : Nat
  classification : CChar
  desig : CString           -- 8 characters
  yy : Nat
  day : Nat
  dayFrac : Nat             -- 1e-8 day
  ndotNeg : Bool
  ndot : Nat                -- 1e-8
  nddot : SciValue
  bstar : SciValue
  ephType : CChar
  bulletin : Nat
  incl : Nat × Nat          -- degrees, 1e-4 degree
  node : Nat × Nat
  argp : Nat × Nat
  anomaly : Nat × Nat
  ecc : Nat                 -- 1e-7
  motion : Nat × Nat        -- rev/day, 1e-8 rev/day
  rev : Nat

/-- The values the format can hold (element type 'H' uses another layout). -/
structure Elements.Valid (r : Elements) : Prop where
  norad : r.norad ≤ 45435423
  cls : Printable r.classification ∧ ¬ Digit r.classification
  desig : r.desig.length = 8 ∧ ∀ c ∈ r.desig, Printable c
  yy : r.yy < 100
  day : r.day < 1000
  dayFrac : r.dayFrac < 10 ^ 8
  ndot : r.ndot < 10 ^ 8
  nddot : r.nddot.mant < 10 ^ 5 ∧ r.nddot.expo ≤ 9
  bstar : r.bstar.mant < 10 ^ 5 ∧ r.bstar.expo ≤ 9
  eph : Printable r.ephType ∧ r.ephType ≠ 72
  bulletin : r.bulletin < 10 ^ 4
  incl : r.incl.1 < 1000 ∧ r.incl.2 < 10 ^ 4
  node : r.node.1 < 1000 ∧ r.node.2 < 10 ^ 4
  argp : r.argp.1 < 1000 ∧ r.argp.2 < 10 ^ 4
  anomaly : r.anomaly.1 < 1000 ∧ r.anomaly.2 < 10 ^ 4
  ecc : r.ecc < 10 ^ 7
  motion : r.motion.1 < 100 ∧ r.motion.2 < 10 ^ 8
  rev : r.rev < 10 ^ 5

/-- An angle field, 8 columns. -/
def angleText (a : Nat × Nat) : CString := blankPad 3 a.1 ++ 46 :: zeroPad 4 a.2

/-- The 68 data columns of line 1, as segments. -/
def Elements.segs1 (r : Elements) : List CString :=
  [ [49, 32],                        -- 0-1
    encodeNorad r.norad,             -- 2-6
    [r.classification],              -- 7
    [32],                            -- 8
    r.desig,                         -- 9-16
    [32],                            -- 17
    zeroPad 2 r.yy,                  -- 18-19
    zeroPad 3 r.day,                 -- 20-22
    [46],                            -- 23
    zeroPad 8 r.dayFrac,             -- 24-31
    [32],                            -- 32
    [if r.ndotNeg then 45 else 32],  -- 33
    [46],                            -- 34
    zeroPad 8 r.ndot,                -- 35-42
    [32],                            -- 43
    r.nddot.text,                    -- 44-51
    [32],                            -- 52
    r.bstar.text,                    -- 53-60
    [32],                            -- 61
    [r.ephType],                     -- 62
    [32],                            -- 63
    blankPad 4 r.bulletin ]          -- 64-67

/-- The 68 data columns of line 2, as segments. -/
def Elements.segs2 (r : Elements) : List CString :=
  [ [50, 32],                        -- 0-1
    encodeNorad r.norad,             -- 2-6
    [32],                            -- 7
    angleText r.incl,                -- 8-15
    [32],                            -- 16
    angleText r.node,                -- 17-24
    [32],                            -- 25
    zeroPad 7 r.ecc,                 -- 26-32
    [32],                            -- 33
    angleText r.argp,                -- 34-41
    [32],                            -- 42
    angleText r.anomaly,             -- 43-50
    [32],                            -- 51
    blankPad 2 r.motion.1,           -- 52-53
    [46],                            -- 54
    zeroPad 8 r.motion.2,            -- 55-62
    blankPad 5 r.rev ]               -- 63-67

/-- Append the check digit to the 68 data columns. -/
def withCheck (s : CString) : CString := s ++ [48 + dataSum s % 10]

def Elements.line1 (r : Elements) : CString := withCheck r.segs1.flatten
def Elements.line2 (r : Elements) : CString := withCheck r.segs2.flatten

end SatSky.Spec
