import Verif.Py.Str
/-! How the lines of a BIB section group into fields, and what its printed form says. -/
namespace X4

/-- the tag columns of a line -/
def tagOf (l : Str) : Str := strip (l.take 10)
/-- the line opens a new field -/
def hasTag (l : Str) : Prop := tagOf l ≠ []
/-- the line is a `BIB` or `ENDBIB` line -/
def isBibFrame (l : Str) : Bool := tagOf l == "BIB".toList || tagOf l == "ENDBIB".toList

/-- A field: its first line, then lines without a tag. -/
def IsField (f : List Str) : Prop := ∃ l ls, f = l :: ls ∧ ∀ m ∈ ls, ¬ hasTag m

/-- The cut of the content lines into fields: every field after the first starts with
a tagged line, the first with the first line whatever it is. -/
structure FieldCut (content : List Str) (fields : List (List Str)) : Prop where
  all : fields.flatten = content
  isField : ∀ f ∈ fields, IsField f
  tagged : ∀ f ∈ fields.tail, ∀ l ∈ f.head?, hasTag l

/-- the key a field is stored under: its tag, `none` if the first line has none -/
def fieldKey (f : List Str) : Option Str := match f with
  | [] => none
  | l :: _ => if tagOf l = [] then none else some (tagOf l)

end X4
