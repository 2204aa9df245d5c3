import Verif.Spec.Calendar
import Verif.Spec.TleFormat

/-! Specification of date texts `YYYY-MM-DDThh:mm:ss` and of day numbers. -/

namespace SatSky.Spec

open SatSky

/-- The ISO text of a date (year 0..9999) and time. -/
def isoText (x : Date) (h mm s : Int) : CString :=
  zeroPad 4 x.y.toNat ++ [45] ++ zeroPad 2 x.m.toNat ++ [45] ++ zeroPad 2 x.d.toNat ++ [84] ++
    zeroPad 2 h.toNat ++ [58] ++ zeroPad 2 mm.toNat ++ [58] ++ zeroPad 2 s.toNat

/-- A time of day. -/
def TimeValid (h mm s : Int) : Prop := (0 ≤ h ∧ h ≤ 23) ∧ (0 ≤ mm ∧ mm ≤ 59) ∧ (0 ≤ s ∧ s ≤ 59)

instance (h mm s : Int) : Decidable (TimeValid h mm s) := by unfold TimeValid; infer_instance

/-- `x` is the date of MJD day `n`: `n` days after 17 November 1858, or that many days before. -/
def IsDay (x : Date) (n : Int) : Prop :=
  (0 ≤ n ∧ x = mjdEpoch.plus n.toNat) ∨ (n < 0 ∧ x.Valid ∧ x.plus (-n).toNat = mjdEpoch)

/-- What a numeric field of the text may look like: white space, an optional sign, digits. -/
def NumField (w : Nat) (t : CString) : Prop :=
  ∃ ws sg ds : CString, t = ws ++ sg ++ ds ∧ (∀ c ∈ ws, c = 32 ∨ (9 ≤ c ∧ c ≤ 13)) ∧
    (sg = [] ∨ sg = [43] ∨ sg = [45]) ∧ ds ≠ [] ∧ (∀ c ∈ ds, Digit c) ∧ sg.length + ds.length ≤ w

/-- The shape "number-number-numberTnumber:number:number", possibly followed by more. -/
def DateShape (t : CString) : Prop :=
  ∃ a b c d e f rest : CString, t = a ++ [45] ++ b ++ [45] ++ c ++ [84] ++ d ++ [58] ++ e ++ [58] ++ f ++ rest ∧
    NumField 4 a ∧ NumField 2 b ∧ NumField 2 c ∧ NumField 2 d ∧ NumField 2 e ∧ NumField 2 f

end SatSky.Spec
