import Verif.Spec.SI
import Verif.Spec.ColumnOrder
/-! Columns with the same physical quantities, in units of choice. -/
namespace X4

/-- the units of columns in EXFOR files, without those that are converted to something else (Kelvin, steradians, arbitrary units) -/
def freeUnits : List Str :=
  ["GEV", "MEV", "KEV", "EV", "MILLI-EV", "1/GEV", "1/MEV", "1/KEV", "1/EV", "1/MILLI-EV", "B", "MB", "MICRO-B", "B/SR", "MB/SR", "MICRO-B/SR",
   "B*RT-EV", "MB*RT-EV", "ADEG", "RAD", "GEV/C", "MEV/C", "PRT/FIS", "NO-DIM"].map String.toList

/-- two cells with the same physical quantity, or two cells without a number -/
def SameSize (size size' : ℝ) : Option (Option ℝ) → Option (Option ℝ) → Prop
  | some (some x), some (some x') => x * size = x' * size'
  | a, a' => a = a'

/-- the columns have the same heading, and the same physical quantities in units of the same kind -/
structure OtherUnit (c c' : WholeColumn ℝ) : Prop where
  heading : c.1 = c'.1
  /-- not the cosine of an angle -/
  noCosine : ¬ hasSub "COS".toList c.1 = true
  unit : ∃ u b n u' b' n', c.2.1 = some (some u) ∧ c'.2.1 = some (some u') ∧ u ∈ freeUnits ∧ u' ∈ freeUnits ∧ IsUnit u b n ∧ IsUnit u' b' n' ∧
    b.dimension = b'.dimension ∧ List.Forall₂ (SameSize (10 ^ n * b.size) (10 ^ n' * b'.size)) c.2.2 c'.2.2

/-- the same column, or the same column in another unit -/
def SameQuantities (c c' : WholeColumn ℝ) : Prop := c = c' ∨ OtherUnit c c'

end X4
