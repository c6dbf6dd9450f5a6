import Verif.Model.Dataset
/-! What datasets should contain, stated on the sections they are built from. -/
namespace X4

/-- counters, headings and rows of a section agree (true of every section that was read,
see `C02_rectangular`) -/
structure DataSection.WF (d : DataSection) : Prop where
  cols : d.numcols.toNat = d.labels.length
  units : d.units.length = d.labels.length
  rows : d.numrows.toNat = d.data.length
  rect : ∀ r ∈ d.data, r.length = d.labels.length

/-- a heading as datasets store it: the first ten characters, without blanks around them -/
def head10 (s : Str) : Str := strip (s.take 10)

/-- the entries of `l` in the columns selected by `sel` -/
def pick {α} (sel : Nat → Bool) (l : List α) : List α := (l.zipIdx.filter fun x => sel x.2).map Prod.fst

/-- the pointer carried by a heading: its 11th character -/
def headPointer (l : Str) : Option Char := if l.length = 11 then l[10]? else none

/-- column `j` belongs to the dataset for pointer `p`: it carries no pointer, or `p` -/
def belongs (labels : List Str) (p : Option Char) (j : Nat) : Bool :=
  match labels[j]?.bind headPointer with
  | none => true
  | some q => decide (some q = p)

/-- the values a COMMON section contributes to row `i`. Beyond the last row of a section with
several rows the code leaves zeros. -/
def commonBlock {N} [PyNum N] (c : Option (Nat × DataSection)) (i : Nat) : List (Option N) :=
  match c with
  | none => []
  | some c =>
    if c.2.numrows = 1 then (c.2.data[0]?.getD []).map cellNum
    else if i < c.2.data.length then (c.2.data[i]?.getD []).map cellNum
    else List.replicate c.2.labels.length (some PyNum.zero)

def commonLabels (c : Option (Nat × DataSection)) : List Str :=
  match c with
  | none => []
  | some c => c.2.labels.map head10
def commonUnits (c : Option (Nat × DataSection)) : List (Option Str) :=
  match c with
  | none => []
  | some c => c.2.units.map fun u => some (head10 u)

/-- the last value given in a list of optional values -/
def lastGiven {α} : List (Option α) → Option α
  | [] => none
  | x :: l => (lastGiven l).or x

end X4
