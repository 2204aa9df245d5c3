import Mathlib.Algebra.Order.Field.Rat
import Verif.Model.CStr

/-! The meaning of the numbers in an array of a JSON text (RFC 8259, without exponents). -/

namespace SatSky.Spec.Decimal

open SatSky

def digit (c : Int) : Bool := decide (48 ≤ c ∧ c ≤ 57)

/-- The number a row of digits stands for. -/
def whole (s : CString) : ℤ := s.foldl (fun a c => 10 * a + (c - 48)) 0

/-- Digits, or digits, a point and digits. -/
def unsigned (t : CString) : Option ℚ :=
  if t.takeWhile digit = [] then none
  else
    match t.dropWhile digit with
    | [] => some ((whole (t.takeWhile digit) : ℤ) : ℚ)
    | 46 :: b => if b ≠ [] ∧ b.all digit then some ((whole (t.takeWhile digit) : ℚ) + (whole b : ℚ) / 10 ^ b.length) else none
    | _ => none

/-- The number a text stands for: blanks, a sign, the digits. -/
def value : CString → Option ℚ
  | 32 :: t => value t
  | 45 :: t => (unsigned t).map fun v => -v
  | t => unsigned t

/-- The texts between commas. -/
def fields : CString → List CString
  | [] => [[]]
  | c :: t =>
    if c = 44 then [] :: fields t
    else
      match fields t with
      | [] => [[c]]
      | f :: fs => (c :: f) :: fs

end SatSky.Spec.Decimal
