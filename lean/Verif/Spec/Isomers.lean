import Verif.Spec.ExpressionText
/-! Isomeric states in reaction texts. -/
namespace X4

/-- the numbers of the states that a single modifier stands for: `G` is the ground state 0, `M` the first isomer, `M2` the second one, and
`T` the sum over all states, for which no state is listed -/
def IsoMod.levels (m : IsoMod) : List Str :=
  if m.letter = 'G' then [['0']] else if m.letter = 'M' then [if m.digits = [] then ['1'] else m.digits] else []

mutual
/-- The elements of a combination, given what each of its reactions becomes. -/
def FactorText.dataOf (rd : ReactText → Datum) : FactorText → List Datum
  | .rx r => [rd r]
  | .par f l => .op ['('] :: (f.dataOf rd ++ (l.dataOf rd ++ [.op [')']]))
def RestText.dataOf (rd : ReactText → Datum) : RestText → List Datum
  | .nil => []
  | .cons op f l => .op op :: (f.dataOf rd ++ l.dataOf rd)
end

mutual
/-- the text of a combination, each reaction being replaced by a text in parentheses -/
def FactorText.printed (t : ReactText → Str) : FactorText → Str
  | .rx r => chars!"( " ++ t r ++ chars!" )"
  | .par f l => ['('] ++ f.printed t ++ l.printed t ++ [')']
def RestText.printed (t : ReactText → Str) : RestText → Str
  | .nil => []
  | .cons op f l => op ++ f.printed t ++ l.printed t
end

end X4
