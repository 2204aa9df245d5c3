import Verif.Spec.Tle

/-!
Independent description of TLE files and of what `sat_skymap` should report: records, names,
first occurrences, selection.
-/

namespace SatSky.Spec

open SatSky

/-- A white space character of the C locale. -/
def Blank (c : CChar) : Prop := c = 32 ∨ (9 ≤ c ∧ c ≤ 13)

instance (c : CChar) : Decidable (Blank c) := by unfold Blank; infer_instance

/-- The name carried by a name line: at most 23 characters, trailing blanks removed (a line of blanks
leaves its first character). -/
def nameText (line : CString) : CString :=
  let t := ((line.take 23).reverse.dropWhile (fun c => decide (Blank c))).reverse
  if t = [] then line.take 1 else t

/-- A text line that fits the read buffer, ended by a newline. -/
def FullLine (l : CString) : Prop :=
  ∃ t : CString, l = t ++ [10] ∧ 10 ∉ t ∧ IsCStr t ∧ t.length ≤ 98

/-- The last line of a file may lack the newline. -/
def LastLine (l : CString) : Prop :=
  FullLine l ∨ (l ≠ [] ∧ 10 ∉ l ∧ IsCStr l ∧ l.length ≤ 99)

/-- The lines of a text file. -/
def FileOfLines (ls : List CString) : Prop :=
  ls ≠ [] ∧ (∀ l ∈ ls.dropLast, FullLine l) ∧ ∀ l ∈ ls.getLast?, LastLine l

/-- One record: two element lines, with or without a name line in front (lines with their ends). -/
structure Record where
  name : Option CString
  l1 : CString
  l2 : CString
deriving DecidableEq

/-- The lines of a record in file order. -/
def Record.lines (r : Record) : List CString := r.name.toList ++ [r.l1, r.l2]

/-- The catalogue number text: columns 3-7 of line 1. -/
def Record.cat (r : Record) : CString := (r.l1.drop 2).take 5

/-- A line that cannot be taken for the second line of an element set. -/
def NotLine2 (l : CString) : Prop := l ≠ [] ∧ IsCStr l ∧ l.length ≠ 68 ∧ ¬ LooksOk 50 l

/-- Both element lines look like TLE lines, the name line does not look like a second line. -/
def Record.Shape (r : Record) : Prop :=
  LooksOk 49 r.l1 ∧ LooksOk 50 r.l2 ∧ IsCStr r.l1 ∧ IsCStr r.l2 ∧ ∀ n ∈ r.name, NotLine2 n

/-- The elements of a list whose key did not occur before, in order. -/
def firsts {α κ : Type} [DecidableEq κ] (key : α → κ) : List κ → List α → List α
  | _, [] => []
  | seen, a :: l => if key a ∈ seen then firsts key seen l else a :: firsts key (key a :: seen) l

/-- Five decimal digits in columns 3-7 of line 1, no digit in column 8. -/
def Record.FiveDigits (r : Record) : Prop :=
  (∃ n, n < 100000 ∧ r.cat = encodeNorad n) ∧ ∀ c ∈ r.l1[7]?, ¬ Digit c

end SatSky.Spec
