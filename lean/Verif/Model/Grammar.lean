import Verif.Model.PyParsing
import Verif.Model.DictTexts
/-! Model of the grammars of `x4i3/exfor_grammers.py` for reactions. -/
namespace X4
open Parser

/-- `caps`, exfor_grammers.py:48 -/
def isCap (c : Char) : Bool := 65 ≤ c.toNat && c.toNat ≤ 90
/-- pyparsing's `alphas`, pyparsing3.py:280 -/
def isAlphaA (c : Char) : Bool := isCap c || (97 ≤ c.toNat && c.toNat ≤ 122)
/-- pyparsing's `alphanums`, pyparsing3.py:283 -/
def isAlnumA (c : Char) : Bool := isAlphaA c || isDig c

/-- `Word(nums)`, exfor_grammers.py:77-104 -/
def pNums (ws : Bool := true) : Parser := word isDig isDig ws
/-- `lpar`, exfor_grammers.py:52 -/
def pLpar : Parser := suppress (lit ['('])
/-- `rpar`, exfor_grammers.py:53 -/
def pRpar : Parser := suppress (lit [')'])
/-- `comma`, exfor_grammers.py:54 -/
def pComma : Parser := suppress (lit [','])
/-- `dash`, exfor_grammers.py:61 -/
def pDash : Parser := suppress (lit ['-'])
/-- `addop`, exfor_grammers.py:63 -/
def pAddop : Parser := first (lit ['+']) (lit ['-'])
/-- `multop`, exfor_grammers.py:64 -/
def pMultop : Parser := first (lit ['*']) (lit ['/'])
/-- `mathop`, exfor_grammers.py:65 -/
def pMathop : Parser := first pAddop pMultop
/-- `altmultop`, exfor_grammers.py:71 -/
def pAltmultop : Parser := first (first (first (lit ['*']) (lit ['/', '/'])) (lit ['/'])) (lit ['='])

/-- characters of the isomer modifiers, exfor_grammers.py:77 -/
def isModifier (c : Char) : Bool := c == 'm' || c == 'M' || c == 'g' || c == 'G' || c == 'T' || c == 'L'
/-- `x4isomer_modifier`, exfor_grammers.py:77 -/
def pIsomerModifier : Parser := and (wordMax isModifier isModifier 1) (opt pNums)
/-- the alternatives for the codes of dictionary 33, exfor_grammers.py:79-80 -/
def pParticleCode : Parser := orAll (particleKeys.map (fun k => lit k))
/-- `x4basicparticle`, exfor_grammers.py:79-80 -/
def pBasicParticle : Parser := and (opt (lit ['X'])) pParticleCode
/-- `x4particle`, exfor_grammers.py:81 -/
def pParticle : Parser := combine (and (word isAlphaA isAlphaA false) (opt (pNums false)))
/-- `x4element`, exfor_grammers.py:82-83 -/
def pElement : Parser :=
  orAll [wordMax (fun c => isCap c || c == '*') isAlphaA 2, lit ['P', 'I'], lit ['K', '0'], lit ['P', 'I', 'M'], lit ['P', 'I', 'P'], lit ['P', '0']]
/-- `x4nucleus`, exfor_grammers.py:84-85 -/
def pNucleus : Parser :=
  and (and (and (and (and pNums pDash) pElement) pDash) pNums) (many (and pMathop pIsomerModifier))
/-- `x4chemical_compound`, exfor_grammers.py:86-87 -/
def pCompound : Parser := orAll (compoundKeys.map (fun k => lit k))

/-- `x4projectile`, exfor_grammers.py:89 -/
def pProjectile : Parser := orAll [group pNucleus, pParticle, lit ['0']]
/-- `x4target`, exfor_grammers.py:90-91 -/
def pTarget : Parser :=
  orAll [group (first pCompound pNucleus), lit chars!"ELEM/MASS", lit chars!"MASS", lit chars!"ELEM"]
/-- `x4residual`, exfor_grammers.py:92-93 -/
def pResidual : Parser :=
  orAll [group (first pCompound pNucleus), lit chars!"ELEM/MASS", lit chars!"MASS", lit chars!"ELEM", lit chars!"NPART"]
/-- `x4product`, exfor_grammers.py:94-95 -/
def pProduct : Parser :=
  orAll [group pNucleus, pBasicParticle, pParticle, group (and (opt pNums) pParticle), lit ['0']]
/-- `x4products`, exfor_grammers.py:97 -/
def pProducts : Parser := delimited pProduct ['+']
/-- `x4process`, exfor_grammers.py:99-100 -/
def pProcess : Parser :=
  and (and (and (and (and (and pTarget pLpar) pProjectile) pComma) pProducts) pRpar) (opt pResidual)
/-- characters of the reaction descriptors, exfor_grammers.py:101-102 -/
def isDescr (c : Char) : Bool := isAlnumA c || c == '/' || c == '*' || c == '+' || c == '-'
/-- `x4reaction_descriptor`, exfor_grammers.py:101-102 -/
def pDescriptor : Parser := or (word isDescr isDescr) (and (and pLpar (word isDescr isDescr)) pRpar)
/-- `x4reaction`, exfor_grammers.py:103-104 -/
def pReaction : Parser := and (and pLpar (delimited (or (group pProcess) (many pDescriptor)) [','])) pRpar

/-- `x4compound_expression`, `x4compound_factor` and `x4compound_term`,
exfor_grammers.py:106-109. The `Forward` is unfolded as often as the first argument
says; a text of `n` characters needs at most `n + 1` unfoldings, because each one consumes a
parenthesis (theorem `expression_unfoldings`). -/
def pExpression : Nat → Parser
  | 0 => { ws := true, pre := true, impl := fun _ => none }
  | n + 1 =>
    let factor := first (group pReaction) (and (and (lit ['(']) (pExpression n)) (lit [')']))
    let term := and factor (many (and pAltmultop factor))
    forward (and term (many (and pAddop term)))
/-- `x4reactionfield`, exfor_grammers.py:111 -/
def pReactionField (n : Nat) : Parser := and (pExpression n) restOfLine

end X4
