import Verif.Model.Field
import Verif.Model.TextGrammar
import Verif.Model.PyParsing
/-! Model of small helper functions that the package offers but does not use itself (`x4i3/exfor_field.py`, `x4i3/exfor_utilities.py`). -/
namespace X4
open Parser

/-- `chunkifyX4TextField` of a text, exfor_field.py:42-55 (other arguments raise TypeError) -/
def chunkifyX4TextField (oldtext : Str) : Except PyErr (List Tok) := parseString pTextField oldtext

/-- `extractX4FieldPointer`, exfor_field.py:72-83; `none` is Python's `None` -/
def extractX4FieldPointer (field : List Str) : Except PyErr (Option Str) :=
  match pyIdx field 0 with
  | .error e => .error e
  | .ok l0 =>
    let tag := strip (slice l0 10 11)
    .ok (if tag = [] then none else some tag)

/-- a line printed by `prettyprint_table`, exfor_utilities.py:186, 188; the cells are given by their `str` -/
def prettyLine (colwidth : Nat) (cells : List Str) : Str := joinWith [' '] (cells.map fun x => ljust x colwidth)

/-- the lines printed by `prettyprint_table`, exfor_utilities.py:185-188 -/
def prettyTable (colwidth : Nat) (colLabels : List Str) (table : List (List Str)) : List Str :=
  prettyLine colwidth colLabels :: table.map (prettyLine colwidth)

end X4
