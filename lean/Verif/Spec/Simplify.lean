import Verif.Spec.Column
import Verif.Model.Dataset
/-! What a simplified dataset should contain, in terms of the columns the parsers read. -/
namespace X4
variable {N : Type} [PyNum N]

/-- the value column and the uncertainty column read by one parser -/
def valCol (t : Table N) (p : Pair) : Column N := (p.getValue t).toOption.getD (dummy t)
def errCol (t : Table N) (p : Pair) : Column N := (p.getError t).toOption.getD (dummy t)

/-- value and uncertainty in row `i`: the first one some parser of the list gives -/
def colVal (t : Table N) (ps : List Pair) (i : Nat) : Option N := firstSome (ps.map fun p => cell (valCol t p).vals i)
def colErr (t : Table N) (ps : List Pair) (i : Nat) : Option N := firstSome (ps.map fun p => cell (errCol t p).vals i)
/-- units -/
def colUnit (t : Table N) (ps : List Pair) : Option Str := firstSome (ps.map fun p => (valCol t p).unit)
def errUnit (t : Table N) (ps : List Pair) : Option Str := firstSome (ps.map fun p => (errCol t p).unit)

/-- there is no value (uncertainty) in any row -/
def NoValue (t : Table N) (ps : List Pair) : Prop := ∀ i < t.data.length, colVal t ps i = none
def NoError (t : Table N) (ps : List Pair) : Prop := ∀ i < t.data.length, colErr t ps i = none

/-- all parsers of a list can read the table -/
def Reads (t : Table N) (ps : List Pair) : Prop :=
  ps ≠ [] ∧ ∀ p ∈ ps, (∃ k, p.getValue t = .ok k) ∧ ∃ k, p.getError t = .ok k

/-- `d(name)` -/
def dName (name : Str) : Str := "d(".toList ++ name ++ ")".toList

end X4
