import Verif.Spec.ReactionText
import Verif.Model.Reaction
/-! The written form of combinations of reactions: reactions in parentheses, connected by
operators, and combinations in parentheses again. -/
namespace X4
open Parser

mutual
/-- a reaction or a combination in parentheses -/
inductive FactorText where
  | rx (r : ReactText)
  | par (f : FactorText) (l : RestText)
/-- operators and what they connect -/
inductive RestText where
  | nil
  | cons (op : Str) (f : FactorText) (l : RestText)
end

mutual
def FactorText.text : FactorText → Str
  | .rx r => r.text
  | .par f l => '(' :: (f.text ++ (l.text ++ [')']))
def RestText.text : RestText → Str
  | .nil => []
  | .cons op f l => op ++ (f.text ++ l.text)
end

mutual
/-- the words: a group for each reaction, everything else as it stands -/
def FactorText.toks : FactorText → List Tok
  | .rx r => [.grp r.toks]
  | .par f l => .str ['('] :: (f.toks ++ (l.toks ++ [.str [')']]))
def RestText.toks : RestText → List Tok
  | .nil => []
  | .cons op f l => .str op :: (f.toks ++ l.toks)
end

/-- the operators between reactions -/
def exprOps : List Str := [['+'], ['-'], ['*'], ['/'], ['/', '/'], ['=']]

mutual
def FactorText.wf : FactorText → Prop
  | .rx r => r.wf
  | .par f l => f.wf ∧ l.wf
def RestText.wf : RestText → Prop
  | .nil => True
  | .cons op f l => op ∈ exprOps ∧ f.wf ∧ l.wf
end

mutual
/-- nesting of parentheses -/
def FactorText.depth : FactorText → Nat
  | .rx _ => 0
  | .par f l => max f.depth l.depth + 1
def RestText.depth : RestText → Nat
  | .nil => 0
  | .cons _ f l => max f.depth l.depth
end

def RestText.toList : RestText → List (Str × FactorText)
  | .nil => []
  | .cons op f l => (op, f) :: l.toList

mutual
/-- the reactions of a combination in order -/
def FactorText.reacts : FactorText → List ReactText
  | .rx r => [r]
  | .par f l => f.reacts ++ l.reacts
def RestText.reacts : RestText → List ReactText
  | .nil => []
  | .cons _ f l => f.reacts ++ l.reacts
end

mutual
/-- The elements of a combination, given what its reactions stand for. -/
def FactorText.data (rd : ReactText → Reaction) : FactorText → List Datum
  | .rx r => [.rx (rd r)]
  | .par f l => .op ['('] :: (f.data rd ++ (l.data rd ++ [.op [')']]))
def RestText.data (rd : ReactText → Reaction) : RestText → List Datum
  | .nil => []
  | .cons op f l => .op op :: (f.data rd ++ l.data rd)
end

/-- the reaction with one isomer of the nucleus `n` as residual -/
def ReactText.withIsomer (x : ReactText) (n : NucText) (m : IsoMod) : ReactText :=
  { x with proc := { x.proc with resid := some (.nuc { n with mods := [{ m with op := '-' }] }) } }

/-- operators and reactions for a list of isomers -/
def isomerRest (x : ReactText) (n : NucText) : List IsoMod → RestText
  | [] => .nil
  | m :: l => .cons [m.op] (.rx (x.withIsomer n m)) (isomerRest x n l)

/-- The combination that a reaction with the residual `n-m op m' op m'' ...` stands for:
each isomer by itself, with the same operators between them. -/
def unfoldIsomers (x : ReactText) (n : NucText) (m : IsoMod) (l : List IsoMod) : FactorText :=
  .par (.rx (x.withIsomer n m)) (isomerRest x n l)

end X4
