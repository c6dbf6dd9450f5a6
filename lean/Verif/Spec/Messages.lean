import Verif.Spec.DataSets
import Verif.Model.FieldText
/-! What the messages about datasets should say. -/
namespace X4
variable {ρ N : Type}

/-- the name of the class of an exception that is reported -/
def PyErr.className : PyErr → Str
  | .notImplementedError => chars!"NotImplementedError"
  | .noValuesGivenError _ => chars!"NoValuesGivenError"
  | .noUncertaintyGivenError _ => chars!"NoUncertaintyGivenError"
  | .brokenNumberError _ => chars!"BrokenNumberError"
  | .typeError => chars!"TypeError"
  | .indexError => chars!"IndexError"
  | _ => []

variable [PyNum N]

/-- the message about the reaction under pointer `p` in `from_`, when the dataset `attempt` of it came to nothing: a combination of reactions with
different quantities is named; for a table that is too short, the message is that of Python -/
def noteOf (rx : RxOps ρ) (indexText : Str) (from_ : SubInfo ρ) (p : Char) (attempt : Option (Except PyErr (DataSet ρ N))) : Option Str :=
  match from_.reactions.get? p, attempt with
  | some r, some (.error .notImplementedError) => match rx.text r.1 with
    | .ok t => some (chars!"Encountered NotImplementedError: Coupled data with different quantities in expression:" ++ t)
    | .error _ => none
  | some _, some (.error .indexError) => some (chars!"Encountered IndexError:" ++ indexText)
  | _, _ => none

/-- the message about a subentry and a pointer: the one about the reaction of the subentry itself before that about the reaction in the first
subentry -/
def notesOf (N : Type) [PyNum N] (rx : RxOps ρ) (indexText : Str) (e : Entry ρ) (main : SubInfo ρ) (k : Option Str) (p : Char) : Option Str :=
  match e.dataOf k with
  | none => none
  | some di => (noteOf rx indexText di.2 p (ownAttempt (N := N) rx e main k di p)).or
      (noteOf rx indexText main p (mainAttempt (N := N) rx e main k di p))

end X4
