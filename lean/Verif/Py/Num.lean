import Verif.Py.Float
import Verif.Py.Err
/-! The operations on Python floats that the column parsers use. The model is generic in
the type of numbers, so that structural theorems hold for IEEE doubles as well; theorems
about values are stated for the reals. -/
namespace X4

/-- A type of numbers with the operations used by `exfor_column_parsing.py`. Only
`math.sqrt`, `math.acos` and the division by a computed number can raise. -/
class PyNum (N : Type) where
  /-- the number read from a string -/
  ofLit : FloatLit → N
  /-- the constant `m·10^e` -/
  dec : Int → Int → N
  /-- `180.0 / math.pi` -/
  degPerRad : N
  add : N → N → N
  sub : N → N → N
  mul : N → N → N
  div : N → N → Except PyErr N
  /-- `x / 100.0` -/
  pct : N → N
  abs : N → N
  sqrt : N → Except PyErr N
  acos : N → Except PyErr N

namespace PyNum
variable {N : Type} [PyNum N]
def zero : N := dec 0 0
def one : N := dec 1 0
/-- the constant 0.5 -/
def half : N := dec 5 (-1)
end PyNum

end X4
