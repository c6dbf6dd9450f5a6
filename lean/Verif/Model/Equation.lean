import Verif.Model.Bib
import Verif.Model.Reaction
/-! Model of the equations of REACTION fields (`X4ReactionField.getEquation`, `x4i3/exfor_field.py`). -/
namespace X4

/-- what `getEquation` returns: a text for a single reaction, otherwise a list of texts, exfor_field.py:179-194 -/
inductive Equation where
  | text (s : Str)
  | items (l : List Str)
  deriving DecidableEq, Repr

/-- the name of the reaction number `i` in a schematic equation, exfor_field.py:181, 188 -/
def rxnName (i : Nat) : Str := chars!"rxn " ++ natStr i

/-- what is written for an element that is no operator, exfor_field.py:187-190 -/
def equationItem (schematic : Bool) (i : Nat) (x : Datum) : Except PyErr Str :=
  if schematic then .ok (rxnName i) else x.repr

/-- the equation of a measurement, exfor_field.py:177-194 -/
def Measurement.equation (schematic : Bool) : Measurement → Except PyErr Equation
  | .rx r => if schematic then .ok (.text (rxnName 0)) else match r.repr with
    | .error e => .error e
    | .ok s => .ok (.text s)
  | .comb d | .iso d => match equationItems (equationItem schematic) 0 d with
    | .error e => .error e
    | .ok l => .ok (.items l)

/-- `X4ReactionField.getEquation(key, schematic)`, exfor_field.py:167-194 -/
def fieldEquation (rs : Dict Char (Measurement × Str)) (key : Char) (schematic : Bool) : Except PyErr Equation :=
  match rs.get key with
  | .error e => .error e
  | .ok m => m.1.equation schematic

/-- `X4ReactionField.getX4ReactionList(key)`, exfor_field.py:196-214 -/
def fieldReactionList (rs : Dict Char (Measurement × Str)) (key : Char) : Except PyErr (List Reaction) :=
  match rs.get key with
  | .error e => .error e
  | .ok m => .ok m.1.reactionList

/-- the same method of a MONITOR field: there `self.reactions[key]` is a list of tuples, which are neither reactions nor have `data`;
exfor_field.py:179-185, 248-300 -/
def monitorEquation (ms : Dict Char (List (Monitor Measurement))) (key : Char) (_schematic : Bool) : Except PyErr Equation :=
  match ms.get key with
  | .error e => .error e
  | .ok [] => .error .indexError
  | .ok (_ :: _) => .error .attributeError

end X4
