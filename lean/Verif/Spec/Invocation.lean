import Mathlib.Data.List.Infix
import Verif.Model.CStr

/-!
What the users of `sat_skymap` are told about its invocation and its answer (README.md, `Usage`):
the command line that is repeated in the output, members of the JSON answer, rows of a list file.
-/

namespace SatSky.Spec

open SatSky

/-- The command line as typed: the words separated by single blanks. -/
def commandLine (words : List CString) : CString := [32].intercalate words

/-- The text contains the member `"key": "s"`. -/
def StringMember (out key s : CString) : Prop := (34 :: key ++ b!"\": \"" ++ s ++ [34]) <:+: out

/-- The text contains the member `"key": t,` where `t` is the text of a number. -/
def NumberMember (out key t : CString) : Prop := (34 :: key ++ b!"\": " ++ t ++ [44]) <:+: out

instance (out key s : CString) : Decidable (StringMember out key s) := by unfold StringMember; infer_instance
instance (out key t : CString) : Decidable (NumberMember out key t) := by unfold NumberMember; infer_instance

/-- The rows of a text file: the texts between newlines; what follows the last newline counts if it
is not empty. -/
def rowsFrom (acc : CString) : CString → List CString
  | [] => if acc = [] then [] else [acc]
  | c :: t => if c = 10 then acc :: rowsFrom [] t else rowsFrom (acc ++ [c]) t

def rows (content : CString) : List CString := rowsFrom [] content

/-- Rows that name a file: not empty, not a comment. -/
def namesFile (row : CString) : Bool := !row.isEmpty && decide (row.head? ≠ some 35)

/-- A name without a slash is looked up in the directory. -/
def inDir (dir name : CString) : CString := dir ++ b!"/" ++ name

end SatSky.Spec
