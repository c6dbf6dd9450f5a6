import Verif.Model.AbundanceData
import Verif.Py.Float
import Verif.Py.Dict
import Verif.Py.Loop
/-! Model of `x4i3/abundance.py`. -/
namespace X4

/-- `__getAbundanceTuple`, abundance.py:334-340. -/
def getAbundanceTuple (line : Str) : Except PyErr ((Int × Int) × (FloatLit × FloatLit)) :=
  match splitWs line with
  | z :: a :: _ :: ab :: dab :: _ =>
    match pyInt z, pyInt a, pyFloat ab, pyFloat dab with
    | some z, some a, some ab, some dab => .ok ((z, a), (ab, dab))
    | _, _, _, _ => .error .valueError
  | _ => .error .indexError

/-- `abundances`, abundance.py:343-344: `dict` of the tuples for the lines
`__data.split('\n')[5:-1]`. -/
def abundances : Except PyErr (Dict (Int × Int) (FloatLit × FloatLit)) :=
  match mapE getAbundanceTuple ((abundanceData.drop 5).dropLast) with
  | .error e => .error e
  | .ok l => .ok (dictOf l)

/-- `getAbundance`, abundance.py:347-348. -/
def getAbundance (Z A : Int) : Except PyErr (FloatLit × FloatLit) :=
  match abundances with
  | .error e => .error e
  | .ok d => .ok ((d.get? (Z, A)).getD (.fin false 0 (-1), .fin false 0 (-1)))

end X4
