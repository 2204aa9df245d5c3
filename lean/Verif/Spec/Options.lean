import Verif.Model.CStr

/-!
The documented form of the command line of `sat_skymap` (README.md, `Usage`): options are one letter
after a dash; a value follows immediately or as the next argument; the TLE file is the first or the
last argument.
-/

namespace SatSky.Spec

open SatSky

/-- Letters of the switches E G H I T V (without the help switch). -/
def SwitchLetter (c : CChar) : Prop := c ∈ ([69, 71, 72, 73, 84, 86] : List Int)

/-- Letters of the options with a value: a d D i j l n p r s S t. -/
def ValueLetter (c : CChar) : Prop := c ∈ ([97, 100, 68, 105, 106, 108, 110, 112, 114, 115, 83, 116] : List Int)

instance (c : CChar) : Decidable (SwitchLetter c) := by unfold SwitchLetter; infer_instance
instance (c : CChar) : Decidable (ValueLetter c) := by unfold ValueLetter; infer_instance

/-- One item of the command line. -/
inductive Tok where
  | file (name : CString)
  | switch (c : CChar)
  | attached (c : CChar) (v : CString)
  | spaced (c : CChar) (v : CString)
deriving DecidableEq

/-- The arguments it consists of. -/
def Tok.args : Tok → List CString
  | .file n => [n]
  | .switch c => [[45, c]]
  | .attached c v => [45 :: c :: v]
  | .spaced c v => [[45, c], v]

/-- Written as documented. -/
def Tok.Ok : Tok → Prop
  | .file n => n.head? ≠ some 45
  | .switch c => SwitchLetter c
  | .attached c v => ValueLetter c ∧ v ≠ [] ∧ IsCStr v
  | .spaced c v => ValueLetter c ∧ IsCStr v

instance (t : Tok) : Decidable t.Ok := by cases t <;> unfold Tok.Ok <;> infer_instance

/-- The option letter. -/
def Tok.letter : Tok → Option CChar
  | .file _ => none
  | .switch c => some c
  | .attached c _ => some c
  | .spaced c _ => some c

/-- Pairs of letters whose order matters: date and MJD (d j), altitude range and region against a
single-satellite request (a p with i s), directory choices (D T). -/
def conflicts : List (Int × Int) := [(100, 106), (97, 105), (97, 115), (112, 105), (112, 115), (68, 84)]

/-- Two items whose order should not matter: different letters, none of the pairs above. -/
def Independent (x y : Tok) : Prop :=
  match x.letter, y.letter with
  | some a, some b => a ≠ b ∧ (a, b) ∉ conflicts ∧ (b, a) ∉ conflicts
  | _, _ => True

instance (x y : Tok) : Decidable (Independent x y) := by unfold Independent; split <;> infer_instance

/-! ### `sat_visibility` (README.md, its `Usage`): the same form with other letters -/

/-- Letters of the switches N T of `sat_visibility` (without the help switch). -/
def VisSwitchLetter (c : CChar) : Prop := c ∈ ([78, 84] : List Int)

/-- Letters of the options of `sat_visibility` with a value: a d D i j l r s t. -/
def VisValueLetter (c : CChar) : Prop := c ∈ ([97, 100, 68, 105, 106, 108, 114, 115, 116] : List Int)

instance (c : CChar) : Decidable (VisSwitchLetter c) := by unfold VisSwitchLetter; infer_instance
instance (c : CChar) : Decidable (VisValueLetter c) := by unfold VisValueLetter; infer_instance

/-- Written as documented for `sat_visibility`. -/
def Tok.VisOk : Tok → Prop
  | .file n => n.head? ≠ some 45
  | .switch c => VisSwitchLetter c
  | .attached c v => VisValueLetter c ∧ v ≠ [] ∧ IsCStr v
  | .spaced c v => VisValueLetter c ∧ IsCStr v

instance (t : Tok) : Decidable t.VisOk := by cases t <;> unfold Tok.VisOk <;> infer_instance

end SatSky.Spec
