import Verif.Model.CStr
import Verif.Model.Dates

/-!
The text side of `date2mjd_nf` and `mjd2date`: `sscanf` and `sprintf` with the formats used there,
and the option code of `sat_skymap` that calls them.
-/

namespace SatSky.Dates

open SatSky

/-- Up to `w` decimal digits: how many were read, their value, the rest. -/
def takeDigits : (w : Nat) → (acc : Int) → CString → Nat × Int × CString
  | 0, acc, s => (0, acc, s)
  | _ + 1, acc, [] => (0, acc, [])
  | w + 1, acc, c :: t =>
    if isDigit c then
      let r := takeDigits w (acc * 10 + (c - 48)) t
      (r.1 + 1, r.2.1, r.2.2)
    else (0, acc, c :: t)

/-- The conversion `%wd` of `sscanf` (C11 7.21.6.2: skip white space; at most `w` characters of
[sign] digits; matching failure if there is no digit). -/
def scanNum (w : Nat) (s : CString) : Option (Int × CString) :=
  match s.dropWhile isSpace with
  | [] => none
  | c :: t =>
    if c = 45 ∨ c = 43 then
      let r := takeDigits (w - 1) 0 t
      if r.1 = 0 then none else some (if c = 45 then - r.2.1 else r.2.1, r.2.2)
    else
      let r := takeDigits w 0 (c :: t)
      if r.1 = 0 then none else some (r.2.1, r.2.2)

/-- An ordinary character of the `sscanf` format must match the next input character. -/
def scanLit (c : CChar) : CString → Option CString
  | [] => none
  | x :: t => if x = c then some t else none

/-- `sscanf(date, "%4d-%2d-%2dT%2d:%2d:%2d", ...)` (`date2mjd_nf.c` 22): the six numbers if all six
conversions succeed (return value 6), `none` otherwise. -/
def scanDate (s : CString) : Option (Int × Int × Int × Int × Int × Int) := do
  let (y, s) ← scanNum 4 s
  let s ← scanLit 45 s
  let (m, s) ← scanNum 2 s
  let s ← scanLit 45 s
  let (d, s) ← scanNum 2 s
  let s ← scanLit 84 s
  let (h, s) ← scanNum 2 s
  let s ← scanLit 58 s
  let (mm, s) ← scanNum 2 s
  let s ← scanLit 58 s
  let (sec, _) ← scanNum 2 s
  return (y, m, d, h, mm, sec)

/-- `date2mjd_nf.c` 17-48 `date2mjd_nf`: return value and `*mjd`. -/
def date2mjdNf (F : Fl64) (G : Fl32) (date : CString) : Int × ℚ :=
  match scanDate date with
  | some (y, m, d, h, mm, s) => (0, date2mjd F G y m d h mm s)
  | none => (-1, 0)

/-- Decimal text of a natural number (`%d` without padding). -/
def natText (n : Nat) : CString :=
  if n < 10 then [48 + (n : Int)] else natText (n / 10) ++ [48 + ((n % 10 : Nat) : Int)]

/-- `%4d`: right aligned in at least four columns. -/
def fmt4d (n : Int) : CString :=
  let t := if n < 0 then 45 :: natText n.natAbs else natText n.natAbs
  List.replicate (4 - t.length) 32 ++ t

/-- `%2.2d`: at least two digits. -/
def fmt22d (n : Int) : CString :=
  let t := natText n.natAbs
  let t := List.replicate (2 - t.length) 48 ++ t
  if n < 0 then 45 :: t else t

/-- The `sprintf` of `mjd2date.c` 70. -/
def printDate (p : Printed) : CString :=
  fmt4d p.y ++ 45 :: (fmt22d p.m ++ 45 :: (fmt22d p.d ++ 84 :: (fmt22d p.h ++ 58 ::
    (fmt22d p.mm ++ 58 :: fmt22d p.s))))

/-- `mjd2date.c` 23-73 with its text: `none` is NULL. -/
def mjd2dateText (F : Fl64) (mjd : ℚ) : Option CString := (mjd2date F mjd).map printDate

/-- Copying a string of this length and its NUL into a buffer of `n` bytes stays inside. -/
def fits (n : Nat) (s : CString) : Prop := s.length + 1 ≤ n

instance (n : Nat) (s : CString) : Decidable (fits n s) := by unfold fits; infer_instance

/-- Parameters set by `-d` and `-j` in `sat_skymap.c`. -/
structure When where
  mjd : ℚ
  date : CString

/-- `sat_skymap.c` 453-456, option `-d`: copies the text, converts it, ignores the return value.
`none`: the copy overflows `date[24]` (`sat_skymap.c` 83). -/
def optD (F : Fl64) (G : Fl32) (arg : CString) : Option When :=
  if fits 24 arg then some { mjd := (date2mjdNf F G arg).2, date := arg } else none

/-- `sat_skymap.c` 468-471, option `-j` (after `atof`): `none` when `mjd2date` overflows its static
buffer of 20 bytes or returns NULL, which `strcpy` then dereferences. -/
def optJ (F : Fl64) (mjd : ℚ) : Option When := do
  let t ← mjd2dateText F mjd
  if fits 20 t then some { mjd := mjd, date := t } else none

end SatSky.Dates
