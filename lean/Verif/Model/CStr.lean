/-
C strings, and the few C library functions on them that the modelled code uses.

A `char` is modelled by its value (as a `signed char` on the usual platforms), so `List Int` is a
sequence of characters.  A C string `s` is the list of its characters before the terminating NUL.
Reading at the index of the NUL gives 0; reading past it is the distinct outcome `none`
(undefined or indeterminate in C).
-/

namespace SatSky

/- One C character, by value. -/
notation "CChar" => Int

/- A C string without its terminator. -/
notation "CString" => List Int

/-- `b!"text"` is the list of the character codes of an (ASCII) literal. -/
syntax:max "b!" noWs str : term
macro_rules
  | `(b!$s:str) => do
    let cs := s.getString.toList
    let elems := cs.map (fun c => Lean.Syntax.mkNumLit (toString c.toNat))
    `(([$(elems.toArray),*] : List Int))

/-- `s` can be stored as a C string: no NUL inside. -/
def IsCStr (s : CString) : Prop := ∀ c ∈ s, c ≠ 0

instance (s : CString) : Decidable (IsCStr s) := by unfold IsCStr; infer_instance

/-- The read `s[i]` of a NUL-terminated string: the character, 0 at the terminator, `none` beyond. -/
def rd (s : CString) (i : Nat) : Option CChar :=
  match s, i with
  | [], 0 => some 0
  | [], _ + 1 => none
  | c :: _, 0 => some c
  | _ :: t, i + 1 => rd t i

/-- `s + n` as a pointer: `none` if it would point beyond the terminator. -/
def ptrAdd (s : CString) (n : Nat) : Option CString :=
  if n ≤ s.length then some (s.drop n) else none

/-- `isspace` in the C locale (C11 7.4.1.10): space, \t \n \v \f \r. -/
def isSpace (c : CChar) : Bool := c == 32 || (9 ≤ c && c ≤ 13)

/-- `isdigit`. -/
def isDigit (c : CChar) : Bool := 48 ≤ c && c ≤ 57

/-- The longest prefix of decimal digits, read as a number on top of `acc`
(the digit loop inside `atoi`/`strtol`). -/
def digitsVal (acc : Int) : CString → Int
  | [] => acc
  | c :: t => if isDigit c then digitsVal (acc * 10 + (c - 48)) t else acc

/-- Sign and digits part of `strtol`. -/
def signDigits : CString → Int
  | [] => 0
  | c :: t =>
    if c = 45 then - digitsVal 0 t
    else if c = 43 then digitsVal 0 t
    else digitsVal 0 (c :: t)

/-- The value `strtol(s, _, 10)` denotes before any range check: optional white space, optional
sign, digits; 0 if there is no digit. -/
def strtolVal (s : CString) : Int := signDigits (s.dropWhile isSpace)

/-- Range of a 32-bit `int`. -/
def inInt (x : Int) : Prop := -2147483648 ≤ x ∧ x ≤ 2147483647

instance (x : Int) : Decidable (inInt x) := by unfold inInt; infer_instance

/-- A signed 32-bit computation result: `none` (undefined behaviour) on overflow. -/
def int32 (x : Int) : Option Int := if inInt x then some x else none

/-- `atoi(s)`: undefined (C11 7.22.1.2) when the value is not representable as `int`. -/
def atoi (s : CString) : Option Int := int32 (strtolVal s)

end SatSky
