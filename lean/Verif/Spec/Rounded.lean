import Verif.Py.Rounded
import Verif.Model.Dataset
import Verif.Spec.Column
/-! What rounding may do to a table, stated on the table of the exact numbers. -/
namespace X4

/-- the table of the numbers of a floating-point arithmetic: every entry is rounded -/
noncomputable def Table.rounded (R : Rounding) (t : Table ℝ) : Table (Fl R) :=
  { labels := t.labels, units := t.units, data := t.data.map (List.map (Option.map fun x => ⟨R.rnd x⟩)) }

noncomputable def DataSet.rounded {ρ : Type} (R : Rounding) (d : DataSet ρ ℝ) : DataSet ρ (Fl R) :=
  { kind := d.kind, info := d.info, reaction := d.reaction, monitor := d.monitor, coupled := d.coupled, labels := d.labels, units := d.units,
    data := d.data.map (List.map (Option.map fun x => ⟨R.rnd x⟩)), simplified := d.simplified, frame := d.frame }

/-- the magnitude of an entry in the converted unit -/
noncomputable def cellSize : Option ℝ → Option Str → ℝ
  | some x, some u => |x * unitFactor u|
  | _, _ => 0

/-- the largest magnitude of the entries of a row, in the converted units -/
noncomputable def rowSize (units : List (Option Str)) (row : List (Option ℝ)) : ℝ := (List.zipWith cellSize row units).foldr max 0

/-- The entry `a` of a row approximates `x`: both are missing, or they differ by at most `e` times the magnitude of `x` and twice
the largest magnitude `s` of the row. -/
def Approx {R : Rounding} (e s : ℝ) : Option (Fl R) → Option ℝ → Prop
  | some a, some x => |a.val - x| ≤ e * (|x| + 2 * s)
  | none, none => True
  | _, _ => False

/-- `d'` is, up to the error `e`, the dataset `d` computed from the table of `d0`: everything but the numbers is the same, and every
number approximates the exact one. -/
structure Agrees {R : Rounding} {ρ : Type} (e : ℝ) (d0 : DataSet ρ ℝ) (d' : DataSet ρ (Fl R)) (d : DataSet ρ ℝ) : Prop where
  attrs : ({ d' with data := [] } : DataSet ρ (Fl R)) = { d.rounded R with data := [] }
  rows : d'.data.length = d.data.length ∧ d.data.length = d0.data.length
  cells : ∀ (i : Nat) row a b, d0.data[i]? = some row → d'.data[i]? = some a → d.data[i]? = some b → List.Forall₂ (Approx e (rowSize d0.units row)) a b

/-- no heading of an angular distribution is that of a cosine -/
def NoCosines {ρ : Type} (d : DataSet ρ ℝ) : Prop := d.kind = .angular → ∀ l ∈ d.labels, ¬ "COS".toList <:+: l

end X4
