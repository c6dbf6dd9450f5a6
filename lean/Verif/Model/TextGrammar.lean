import Verif.Model.Grammar
/-! Model of the grammars of `x4i3/exfor_grammers.py` for texts, authors and references, and of the
expressions `quotedString`, `nestedExpr()` and `commaSeparatedList` of `x4i3/pyparsing3.py` they use. -/
namespace X4
open Parser

/-- `Optional(p, default=d)`, pyparsing3.py:4785-4840 -/
def Parser.optDefault (p : Parser) (d : Str) : Parser where
  ws := p.ws
  pre := p.pre
  impl s := match p.parse false s with
    | none => some ([.str d], s)
    | some m => some m

/-- `LineEnd()` where white space is left alone, pyparsing3.py:3754-3772 -/
def Parser.lineEnd : Parser where
  ws := false
  pre := true
  impl s := match s with
    | [] => some ([], [])
    | c :: cs => if c = '\n' then some ([.str ['\n']], cs) else none

/-- a hexadecimal digit, pyparsing3.py:6106-6107 -/
def isHexDigit (c : Char) : Bool :=
  isDig c || (65 ≤ c.toNat && c.toNat ≤ 70) || (97 ≤ c.toNat && c.toNat ≤ 102)

/-- What `(?:[^Q\n\r\\]|(?:QQ)|(?:\\(?:[^x]|x[0-9a-fA-F]+)))*` matches (for the quote `Q`), pyparsing3.py:6106-6107.
(After `\x` and one hexadecimal digit, further ones match as ordinary characters.) -/
def quotedBody (q : Char) : Str → Str
  | [] => []
  | [c] => if c = q ∨ c = '\n' ∨ c = '\r' ∨ c = '\\' then [] else [c]
  | c :: d :: r =>
    if c = q then if d = q then c :: d :: quotedBody q r else []
    else if c = '\n' ∨ c = '\r' then []
    else if c = '\\' then
      if d = 'x' then match r with
        | [] => []
        | h :: r' => if isHexDigit h then c :: d :: h :: quotedBody q r' else []
      else c :: d :: quotedBody q r
    else c :: quotedBody q (d :: r)

/-- the two regular expressions, without the closing quote, pyparsing3.py:6106-6107 -/
def pQuoteOpen (q : Char) : Parser where
  ws := false
  pre := true
  impl s := match s with
    | [] => none
    | c :: cs => if c = q then some ([.str (q :: quotedBody q cs)], cs.drop (quotedBody q cs).length) else none

/-- `quotedString`, pyparsing3.py:6106-6107. With `ws = false` after `leaveWhitespace`. -/
def pQuoted (ws : Bool := true) : Parser :=
  { combine (first (and (pQuoteOpen '"') (lit ['"'] false)) (and (pQuoteOpen '\'') (lit ['\''] false))) with ws := ws }

/-- a parse action applied to the only token, pyparsing3.py:1686-1715 -/
def Parser.action (f : Str → Str) (p : Parser) : Parser where
  ws := p.ws
  pre := p.pre
  impl s := match p.parse false s with
    | some ([.str t], r) => some ([.str (f t)], r)
    | m => m

/-- the characters that end a word in `nestedExpr()`, pyparsing3.py:6181-6186 -/
def isNestedStop (c : Char) : Bool := c == '(' || c == ')' || isWhite c

/-- `content` of `nestedExpr()`, pyparsing3.py:6181-6186 -/
def pContent : Parser :=
  Parser.action strip (combine (many1 (and (notAny (pQuoted false)) (charNotIn isNestedStop))))

/-- `nestedExpr()`, pyparsing3.py:6110-6209. The `Forward` is unfolded as often as the first argument
says; each unfolding consumes a parenthesis. -/
def pNested : Nat → Parser
  | 0 => { ws := true, pre := true, impl := fun _ => none }
  | n + 1 => forward (group (and (and pLpar (many (first (first pQuoted (pNested n)) pContent))) pRpar))

/-- `printables` without the comma, pyparsing3.py:285 and 6370 -/
def isCommaItemChar (c : Char) : Bool := 33 ≤ c.toNat && c.toNat ≤ 126 && c != ','
/-- the characters of `Word(" \t")`, pyparsing3.py:6370-6372 -/
def isBlankTab (c : Char) : Bool := c == ' ' || c == '\t'

/-- `_commasepitem`, pyparsing3.py:6370-6372 -/
def pCommaItem : Parser :=
  combine (many1 (and (word isCommaItemChar isCommaItemChar false)
    (opt (and (and (word isBlankTab isBlankTab false) (notAny (lit [','] false))) (notAny lineEnd)))))

/-- `commaSeparatedList`, pyparsing3.py:6373; `x4authorlist`, exfor_grammers.py:151 -/
def pCommaList : Parser := delimited (optDefault (first pQuoted pCommaItem) []) [',']

/-- `x4refcode`, exfor_grammers.py:153 (and the equal `x4authorfield`, line 150) -/
def pRefCode (n : Nat) : Parser := and (pNested n) restOfLine
/-- `equals`, exfor_grammers.py:60 -/
def pEquals : Parser := lit ['=']
/-- `x4refcodetautology`, exfor_grammers.py:154-155 -/
def pRefTautology (n : Nat) : Parser :=
  and (and (and (and pLpar (pNested n)) (many1 (and pEquals (pNested n)))) pRpar) restOfLine

/-- characters of `x4word`, exfor_grammers.py:131 -/
def isX4Word (c : Char) : Bool :=
  isAlnumA c || c == ',' || c == '.' || c == ';' || c == '+' || c == '-' || c == '*' || c == '/' || c == '\''
/-- `x4word`, exfor_grammers.py:131 -/
def pX4Word : Parser := word isX4Word isX4Word
/-- characters of `x4minicode`, exfor_grammers.py:132 -/
def isMiniChar (c : Char) : Bool := isAlnumA c || c == '-' || c == '/'
/-- `x4minicode`, exfor_grammers.py:132 -/
def pMinicode : Parser := and (and pLpar (word isMiniChar isMiniChar)) pRpar
/-- `x4phrase`, exfor_grammers.py:133 -/
def pPhrase : Parser := many1 (first pX4Word pMinicode)
/-- `x4code`, exfor_grammers.py:134-146 -/
def pCode : Parser :=
  or (and (and pLpar pPhrase) pRpar)
    (and (and (and (and (and (and (and (and pLpar pLpar) pPhrase) pRpar) pEquals) pLpar) pPhrase) pRpar) pRpar)
/-- `x4codefield`, exfor_grammers.py:147 -/
def pCodeField : Parser := and (group pCode) (many pX4Word)
/-- `x4textfield`, exfor_grammers.py:148 -/
def pTextField : Parser := many1 (group pCodeField)

end X4
