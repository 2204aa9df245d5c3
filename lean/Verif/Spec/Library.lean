import Mathlib.Data.Int.Notation
import Mathlib.Data.Nat.Notation

/-! What a program that uses a library loaded at run time should be answered.

A library is the set of ordinals it exports.  The initialisation functions have the ordinals 1 to 5, the propagators 6 to 10, the version 20
(`dynamic.c` 72, 95, 117).  The library is looked for when something is asked of it and nothing is known yet; then its presence or absence stays known
until the program unloads it.  The answer -2 means that there is no library, -1 that it lacks the function (`dynamic.c` 48-50). -/

namespace SatSky.Spec

/-- A library that can be loaded. -/
abbrev Library := ℕ → Bool

/-- What is known of the library. -/
inductive Known where
  | nothing
  | absent
  | present (l : Library)

/-- A request. -/
inductive Request where
  | init (k : ℕ)
  | run (k : ℕ)
  | version
  | unload

/-- What is known once the library has been looked for; `tries` of the attempts `offer` have been made before. -/
def Known.look (offer : ℕ → Option Library) (tries : ℕ) : Known → Known × ℕ
  | .nothing => (match offer tries with
      | some l => .present l
      | none => .absent, tries + 1)
  | k => (k, tries)

/-- The answer to a call of the function with the given ordinal which, if it is there, returns `r`. -/
def Known.answer (ordinal : ℕ) (r : ℤ) : Known → ℤ
  | .present l => if l ordinal then r else -1
  | _ => -2

/-- The answers to a sequence of requests. -/
def libAnswers (offer : ℕ → Option Library) (result : ℕ → ℤ) (version : ℤ) : Known → ℕ → List Request → List ℤ
  | _, _, [] => []
  | k, n, .init i :: rs => (k.look offer n).1.answer (i + 1) 0 :: libAnswers offer result version (k.look offer n).1 (k.look offer n).2 rs
  | k, n, .run i :: rs => (k.look offer n).1.answer (i + 6) (result (i + 6)) :: libAnswers offer result version (k.look offer n).1 (k.look offer n).2 rs
  | k, n, .version :: rs => (k.look offer n).1.answer 20 version :: libAnswers offer result version (k.look offer n).1 (k.look offer n).2 rs
  | _, n, .unload :: rs => 0 :: libAnswers offer result version .nothing n rs

end SatSky.Spec
