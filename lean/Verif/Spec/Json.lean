import Verif.Model.CStr

/-!
The grammar of JSON texts (RFC 8259) over bytes.  Bytes above 127 (negative as `char`) are allowed in
strings; whether they form valid UTF-8 is not examined.
-/

namespace SatSky.Spec.Json

open SatSky

/-- Insignificant white space. -/
def Ws (s : CString) : Prop := ∀ c ∈ s, c = 32 ∨ c = 10 ∨ c = 13 ∨ c = 9

def Digit (c : Int) : Prop := 48 ≤ c ∧ c ≤ 57

/-- The inside of a string. -/
inductive Chars : CString → Prop
  | nil : Chars []
  | plain (c : Int) (s : CString) : ¬ (0 ≤ c ∧ c < 32) → c ≠ 34 → c ≠ 92 → Chars s → Chars (c :: s)
  | esc (c : Int) (s : CString) : c ∈ ([34, 92, 47, 98, 102, 110, 114, 116] : List Int) → Chars s → Chars (92 :: c :: s)
  | hex (a b c d : Int) (s : CString) :
      (∀ x ∈ [a, b, c, d], Digit x ∨ (65 ≤ x ∧ x ≤ 70) ∨ (97 ≤ x ∧ x ≤ 102)) → Chars s → Chars (92 :: 117 :: a :: b :: c :: d :: s)

/-- A number: optional minus, integer part without leading zeros, optional fraction, optional exponent. -/
def Number (t : CString) : Prop :=
  ∃ sgn ip fp ep, t = sgn ++ ip ++ fp ++ ep ∧ (sgn = [] ∨ sgn = [45]) ∧
    (ip = [48] ∨ ∃ d ds, ip = d :: ds ∧ 49 ≤ d ∧ d ≤ 57 ∧ ∀ c ∈ ds, Digit c) ∧
    (fp = [] ∨ ∃ d ds, fp = 46 :: d :: ds ∧ ∀ c ∈ d :: ds, Digit c) ∧
    (ep = [] ∨ ∃ e s d ds, ep = e :: s ++ d :: ds ∧ (e = 69 ∨ e = 101) ∧ (s = [] ∨ s = [43] ∨ s = [45]) ∧ ∀ c ∈ d :: ds, Digit c)

inductive Kind where
  | value
  | elements
  | members

/-- `G k s`: the text `s` is a value; one or more array elements separated by commas; one or more
members of an object separated by commas. -/
inductive G : Kind → CString → Prop
  | str (s : CString) : Chars s → G .value (34 :: s ++ [34])
  | num (t : CString) : Number t → G .value t
  | true : G .value b!"true"
  | false : G .value b!"false"
  | null : G .value b!"null"
  | emptyArray (w : CString) : Ws w → G .value (91 :: w ++ [93])
  | array (e : CString) : G .elements e → G .value (91 :: e ++ [93])
  | emptyObject (w : CString) : Ws w → G .value (123 :: w ++ [125])
  | object (m : CString) : G .members m → G .value (123 :: m ++ [125])
  | element (a v b : CString) : Ws a → G .value v → Ws b → G .elements (a ++ v ++ b)
  | moreElements (a v b e : CString) : Ws a → G .value v → Ws b → G .elements e → G .elements (a ++ v ++ b ++ 44 :: e)
  | member (a k b c v d : CString) : Ws a → Chars k → Ws b → Ws c → G .value v → Ws d →
      G .members (a ++ 34 :: k ++ 34 :: b ++ 58 :: c ++ v ++ d)
  | moreMembers (a k b c v d m : CString) : Ws a → Chars k → Ws b → Ws c → G .value v → Ws d → G .members m →
      G .members (a ++ 34 :: k ++ 34 :: b ++ 58 :: c ++ v ++ d ++ 44 :: m)

/-- A JSON text. -/
def Document (s : CString) : Prop := ∃ a v b, s = a ++ v ++ b ∧ Ws a ∧ G .value v ∧ Ws b

/-- A JSON text that is an object. -/
def ObjectDocument (s : CString) : Prop :=
  ∃ a m b, s = a ++ 123 :: m ++ 125 :: b ∧ Ws a ∧ (G .members m ∨ Ws m) ∧ Ws b

end SatSky.Spec.Json
