import Verif.Model.CStr

/-!
Specification of the TLE text format, written from the format description (NORAD two-line element
set format; the comments in `get_el.c`), independently of the model of the C code.
-/

namespace SatSky.Spec

open SatSky

/-- A decimal digit character. -/
def Digit (c : CChar) : Prop := 48 ≤ c ∧ c ≤ 57

instance (c : CChar) : Decidable (Digit c) := by unfold Digit; infer_instance

/-- What a character contributes to the checksum: digits their value, '-' one, all others zero. -/
def weight (c : CChar) : Int :=
  if Digit c then c - 48 else if c = 45 then 1 else 0

/-- Sum over the 68 data columns. -/
def dataSum (s : CString) : Int := ((s.take 68).map weight).sum

/-- Text characters allowed in a TLE line. -/
def Printable (c : CChar) : Prop := 32 ≤ c ∧ c ≤ 122

instance (c : CChar) : Decidable (Printable c) := by unfold Printable; infer_instance

/-- Starts like a TLE line: '1' or '2', then a blank. -/
def TleHead (s : CString) : Prop :=
  (s[0]? = some 49 ∨ s[0]? = some 50) ∧ s[1]? = some 32

/-- The data columns are all text characters (and exist). -/
def TleBody (s : CString) : Prop := 68 ≤ s.length ∧ ∀ c ∈ s.take 68, Printable c

/-- Nothing printable follows the check column. -/
def TleEnd (s : CString) : Prop := ∀ c, s[69]? = some c → c ≤ 32

/-- The check column is congruent to the checksum modulo ten. -/
def CheckColumn (s : CString) : Prop := ∃ c, s[68]? = some c ∧ (c - 48) % 10 = dataSum s % 10

/-- A line as the format wants it: the check column is the *digit* of the checksum. -/
def WellFormedLine (s : CString) : Prop :=
  TleHead s ∧ TleBody s ∧ (∃ c, s[68]? = some c ∧ Digit c ∧ c - 48 = dataSum s % 10) ∧ TleEnd s

/-- Base-34 digits of the Alpha-5/Super-5 catalogue number schemes: digits, then upper-case
letters without I and O. -/
def alphabet34 : List CChar :=
  [48,49,50,51,52,53,54,55,56,57,
   65,66,67,68,69,70,71,72, 74,75,76,77,78, 80,81,82,83,84,85,86,87,88,89,90]

end SatSky.Spec

namespace SatSky.Spec

/-- The `k`-th base-34 digit character. -/
def char34 (k : Nat) : CChar := alphabet34.getD k 0

/-- The code of a catalogue number according to the scheme documented in `get_el.c` 165-207: five
decimal digits; Alpha-5; then the four Super-5 families, each counted up in the natural order. -/
def encodeDigits (n : Nat) : List Nat :=
  if n < 100000 then [n / 10000, n / 1000 % 10, n / 100 % 10, n / 10 % 10, n % 10]
  else if n < 340000 then [n / 10000, n / 1000 % 10, n / 100 % 10, n / 10 % 10, n % 10]
  else if n < 32412064 then
    let m := n - 340000
    [m / 24 / 34 / 34 / 34, m / 24 / 34 / 34 % 34, m / 24 / 34 % 34, m / 24 % 34, 10 + m % 24]
  else if n < 41845024 then
    let m := n - 32412064
    [m / 240 / 34 / 34, m / 240 / 34 % 34, m / 240 % 34, 10 + m / 10 % 24, m % 10]
  else if n < 44619424 then
    let m := n - 41845024
    [m / 2400 / 34, m / 2400 % 34, 10 + m / 100 % 24, m / 10 % 10, m % 10]
  else
    let m := n - 44619424
    [m / 24000, 10 + m / 1000 % 24, m / 100 % 10, m / 10 % 10, m % 10]

/-- The 5-character code of a catalogue number. -/
def encodeNorad (n : Nat) : CString := (encodeDigits n).map char34

/-- A code of the space-free catalogue number alphabet. -/
def ValidCode (c : CString) : Prop := c.length = 5 ∧ ∀ x ∈ c, x ∈ alphabet34

/-- What follows the catalogue number field is not a digit (normally the classification 'U'). -/
def NoDigitHead (t : CString) : Prop := ∀ c, t.head? = some c → ¬ Digit c

end SatSky.Spec

namespace SatSky.Spec

/-- A line that is a TLE line in all respects except possibly the check column. -/
def LooksOk (first : CChar) (s : CString) : Prop :=
  s[0]? = some first ∧ TleHead s ∧ TleBody s ∧ 69 ≤ s.length ∧ TleEnd s

/-- The return code documented in `get_el.c` 270-275, for lines that look like TLE lines:
bit 0 for line 1, bit 1 for line 2. -/
noncomputable def documentedCode (l1 l2 : CString) : Int :=
  open Classical in
  (if CheckColumn l1 then 0 else 1) + (if CheckColumn l2 then 0 else 2)

/-- Gregorian leap years. -/
def Leap (y : Nat) : Prop := y % 4 = 0 ∧ (y % 100 ≠ 0 ∨ y % 400 = 0)

instance (y : Nat) : Decidable (Leap y) := by unfold Leap; infer_instance

/-- Days in a year. -/
def yearLength (y : Nat) : Nat := if Leap y then 366 else 365

/-- Days from 1 Jan 1900 to 1 Jan of year `1900 + n`. -/
def daysSince1900 : Nat → Nat
  | 0 => 0
  | n + 1 => daysSince1900 n + yearLength (1900 + n)

/-- Calendar year meant by a two-digit TLE year: 57..99 are 1957..1999, 00..56 are 2000..2056. -/
def fullYear (yy : Nat) : Nat := if 57 ≤ yy then 1900 + yy else 2000 + yy

/-- Twice the Julian date (an integer) of 0h on day `d` (1-based) of year `y ≥ 1900`:
1 Jan 1900 0h is JD 2415020.5. -/
def twiceJd (y d : Nat) : Int := 4830041 + 2 * ((daysSince1900 (y - 1900) : Int) + ((d : Int) - 1))

/-- Base-36 digit characters. -/
def alphabet36 : List CChar :=
  [48,49,50,51,52,53,54,55,56,57,65,66,67,68,69,70,71,72,73,74,75,76,77,78,79,80,81,82,83,84,85,
   86,87,88,89,90]

/-- `w` base-36 digits of `n`, most significant first. -/
def base36 : (w : Nat) → Nat → CString
  | 0, _ => []
  | w + 1, n => base36 w (n / 36) ++ [alphabet36.getD (n % 36) 0]

/-- The text of a signed base-36 field. -/
def highField (v : Int) : CString := (if v < 0 then 45 else 43) :: base36 8 v.natAbs

end SatSky.Spec
