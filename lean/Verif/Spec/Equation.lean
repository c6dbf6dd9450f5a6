import Verif.Spec.ExpressionText
import Verif.Py.Chars
/-! What the equation of a REACTION field means. -/
namespace X4

mutual
/-- the words of a combination: parentheses, operators and a text for each reaction -/
def FactorText.words (t : ReactText → Str) : FactorText → List Str
  | .rx r => [t r]
  | .par f l => ['('] :: (f.words t ++ (l.words t ++ [[')']]))
def RestText.words (t : ReactText → Str) : RestText → List Str
  | .nil => []
  | .cons op f l => op :: (f.words t ++ l.words t)
end

/-- the word stands for a reaction -/
def isName (w : Str) : Bool := (chars!"rxn ").isPrefixOf w

/-- the number in the name of a reaction -/
def nameNumber (w : Str) : Nat := digitsVal (w.drop 4)

/-- Every name `rxn i` is replaced by the text number `i` of a list; `none` if the list is too short. -/
def fillIn (ts : List Str) (ws : List Str) : Option (List Str) :=
  ws.mapM fun w => if isName w then ts[nameNumber w]? else some w

end X4
