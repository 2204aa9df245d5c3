import Verif.Spec.Tle

/-!
Specification of the proleptic Gregorian calendar: valid dates and "the next day".  Counting days is
then iterating `next`; no closed formula appears in the specification.
-/

namespace SatSky.Spec

/-- A calendar date (astronomical year numbering). -/
structure Date where
  y : Int
  m : Int
  d : Int
deriving DecidableEq, Repr

/-- Gregorian leap year, any integer year. -/
def LeapI (y : Int) : Prop := y % 4 = 0 ∧ (y % 100 ≠ 0 ∨ y % 400 = 0)

instance (y : Int) : Decidable (LeapI y) := by unfold LeapI; infer_instance

/-- Length of a month. -/
def monthLength (y m : Int) : Int :=
  if m = 2 then (if LeapI y then 29 else 28)
  else if m = 4 ∨ m = 6 ∨ m = 9 ∨ m = 11 then 30 else 31

/-- A date that exists in the calendar. -/
def Date.Valid (x : Date) : Prop := 1 ≤ x.m ∧ x.m ≤ 12 ∧ 1 ≤ x.d ∧ x.d ≤ monthLength x.y x.m

instance (x : Date) : Decidable x.Valid := by unfold Date.Valid; infer_instance

/-- The following day. -/
def Date.next (x : Date) : Date :=
  if x.d < monthLength x.y x.m then ⟨x.y, x.m, x.d + 1⟩
  else if x.m < 12 then ⟨x.y, x.m + 1, 1⟩
  else ⟨x.y + 1, 1, 1⟩

/-- The day `n` days after `x`. -/
def Date.plus (x : Date) : Nat → Date
  | 0 => x
  | n + 1 => (x.plus n).next

/-- 17 November 1858, the day MJD 0 begins. -/
def mjdEpoch : Date := ⟨1858, 11, 17⟩

end SatSky.Spec
