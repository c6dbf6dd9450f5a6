import Verif.Model.ColumnParsing
import Verif.Py.RealNum
/-! What the column parsers should report, stated on the raw table. -/
namespace X4
variable {N : Type}

/-- every row has one cell per label, and every label a unit -/
def Table.Rect (d : Table N) : Prop :=
  d.units.length = d.labels.length ∧ ∀ row ∈ d.data, row.length = d.labels.length

/-- the cell of a row in column `i` -/
def cell (row : List (Option N)) (i : Nat) : Option N := (row[i]?).getD none

/-- column `i` is the first column whose label and unit a parser accepts -/
structure Finds (p : ColParser) (d : Table N) (i : Nat) (l u : Str) : Prop where
  label : d.labels[i]? = some l
  unit : d.units[i]? = some (some u)
  accLabel : l ∈ p.labels
  accUnit : u ∈ p.units
  first : ∀ j < i, ∀ l' u', d.labels[j]? = some l' → d.units[j]? = some (some u') → ¬ (l' ∈ p.labels ∧ u' ∈ p.units)

/-- no column is accepted -/
def FindsNone (p : ColParser) (d : Table N) : Prop :=
  ∀ (j : Nat) l' u', d.labels[j]? = some l' → d.units[j]? = some (some u') → ¬ (l' ∈ p.labels ∧ u' ∈ p.units)

/-- The units x4i3 knows: canonical unit and conversion factor `m·10^e` (`none` for
radians and steradians, converted by `180/π`). -/
def knownUnits : List (Str × Str × Option (Int × Int)) :=
  [("GEV".toList, "MeV".toList, some (1, 3)), ("MEV".toList, "MeV".toList, some (1, 0)),
   ("KEV".toList, "MeV".toList, some (1, -3)), ("EV".toList, "MeV".toList, some (1, -6)),
   ("MILLI-EV".toList, "MeV".toList, some (1, -9)), ("MeV".toList, "MeV".toList, some (1, 0)),
   ("K".toList, "MeV".toList, some (8621738, -17)),
   ("1/GEV".toList, "1/MeV".toList, some (1, -3)), ("1/MEV".toList, "1/MeV".toList, some (1, 0)),
   ("1/KEV".toList, "1/MeV".toList, some (1, 3)), ("1/EV".toList, "1/MeV".toList, some (1, 6)),
   ("1/MILLI-EV".toList, "1/MeV".toList, some (1, 9)), ("1/MeV".toList, "1/MeV".toList, some (1, 0)),
   ("B".toList, "barns".toList, some (1, 0)), ("MB".toList, "barns".toList, some (1, -3)),
   ("MICRO-B".toList, "barns".toList, some (1, -6)), ("barns".toList, "barns".toList, some (1, 0)),
   ("ADEG".toList, "degrees".toList, some (1, 0)), ("SR".toList, "degrees".toList, none), ("RAD".toList, "degrees".toList, none),
   ("B*RT-EV".toList, "B*RT-EV".toList, some (1, 0)), ("MB*RT-EV".toList, "B*RT-EV".toList, some (1, -3)),
   ("B/SR".toList, "barns/ster".toList, some (1, 0)), ("MB/SR".toList, "barns/ster".toList, some (1, -3)),
   ("MICRO-B/SR".toList, "barns/ster".toList, some (1, -6)), ("barns/SR".toList, "barns/ster".toList, some (1, 0)),
   ("GEV/C".toList, "GeV/c".toList, some (1, 0)), ("MEV/C".toList, "GeV/c".toList, some (1, -3)),
   ("PRT/FIS".toList, "ptcls/fis".toList, some (1, 0)),
   ("NO-DIM".toList, "no-dim".toList, some (1, 0)), ("ARB-UNITS".toList, "no-dim".toList, some (1, 0)),
   ("no-dim".toList, "no-dim".toList, some (1, 0))]

def lookupUnit (u : Str) : Option (Str × Str × Option (Int × Int)) := knownUnits.find? fun x => decide (x.1 = u)

/-- canonical unit of a unit -/
def canonUnit (u : Str) : Str :=
  match lookupUnit u with
  | some (_, c, _) => c
  | none => u

/-- conversion factor of a unit -/
noncomputable def unitFactor (u : Str) : ℝ :=
  match lookupUnit u with
  | some (_, _, some (m, e)) => (m : ℝ) * 10 ^ e
  | some (_, _, none) => 180 / Real.pi
  | none => 1

/-- the value of a cell in canonical units, including the scale factor of the parser (0.5
for full widths) -/
noncomputable def canonCell (p : ColParser) (u : Str) (i : Nat) (row : List (Option ℝ)) : Option ℝ :=
  (cell row i).map fun x => x * unitFactor u * p.scale.val

/-- The first entry that is not `None`. -/
def firstSome {α} : List (Option α) → Option α
  | [] => none
  | some a :: _ => some a
  | none :: l => firstSome l

end X4
