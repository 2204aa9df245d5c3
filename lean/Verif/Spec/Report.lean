import Verif.Spec.Records
import Verif.Model.SkyLoop

/-!
What `sat_skymap` is expected to report, as list operations on the records of the files.
Only data types of the model are used here, none of its functions.
-/

namespace SatSky.Spec

open SatSky GetEl Opts

/-- A satellite of the input: the name it should carry, its catalogue text, its elements. -/
structure Item where
  name : CString
  cat : CString
  tle : Tle
deriving DecidableEq

/-- The name in force at a record: its name line; in files without name lines the previous one, at
the beginning of a file the first line.  (A name line starting with '1' or '2' is not recognised
unless it is the first line of the file.) -/
def nameFor (first : Bool) (prev : CString) (r : Record) : CString :=
  match r.name with
  | some n => if first ∨ (n.head? ≠ some 49 ∧ n.head? ≠ some 50) then nameText n else prev
  | none => if first then nameText r.l1 else prev

/-- The satellites of a sequence of records. -/
def items : Bool → CString → List (Record × Tle) → List Item
  | _, _, [] => []
  | first, prev, (r, t) :: rs =>
    let n := nameFor first prev r
    ⟨n, r.cat, t⟩ :: items false n rs

/-- The satellites of one file. -/
def fileItems (rs : List (Record × Tle)) : List Item := items true [] rs

/-- Inside the requested altitude range. -/
def AltOk (p : Params) (o : Sky.Obs) : Prop := p.altRange = true → p.altMin ≤ o.alt ∧ o.alt ≤ p.altMax

/-- Inside the search radius at one of the two epochs. -/
def InRegion (p : Params) (o : Sky.Obs) : Prop := o.sep ≤ p.radius ∨ o.sep1 ≤ p.radius

/-- Sunlit if that was asked for. -/
def LightOk (p : Params) (o : Sky.Obs) : Prop := p.sunlitOnly = true → o.sunlit = true

/-- A satellite that is to be reported in a search by region or name. -/
def Qualifies (p : Params) (o : Sky.Obs) : Prop :=
  AltOk p o ∧ (p.nameFilter = true ∨ InRegion p o) ∧ LightOk p o

instance (p : Params) (o : Sky.Obs) : Decidable (Qualifies p o) := by
  unfold Qualifies AltOk InRegion LightOk; infer_instance

/-- With `-S`, the name must begin with the request. -/
def NameOk (p : Params) (i : Item) : Prop := p.nameFilter = true → p.satname <+: i.name

instance (p : Params) (i : Item) : Decidable (NameOk p i) := by unfold NameOk; infer_instance

/-- Distinct candidate satellites, by catalogue text, first occurrence. -/
def candidates (p : Params) (seen : List CString) (l : List Item) : List Item :=
  firsts Item.cat seen (l.filter (NameOk p))

/-- All satellites to be reported, without limit on their number. -/
def wanted (p : Params) (E : Tle → Sky.Obs) (seen : List CString) (l : List Item) : List Item :=
  (candidates p seen l).filter (fun i => Qualifies p (E i.tle))

/-- At most `N` of them when `N ≥ 1` (no limit otherwise), `k` having been reported before. -/
def limited {α : Type} (N k : ℤ) (l : List α) : List α := if k < N then l.take (N - k).toNat else l

end SatSky.Spec
