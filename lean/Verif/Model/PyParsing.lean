import Verif.Py.Str
/-! Model of the part of the vendored `x4i3/pyparsing3.py` that the grammars of
x4i3 use: `_parseNoCache`, `Literal`, `Word`, `Regex('.*')`, `CharsNotIn`, `And`,
`Or`, `MatchFirst`, `OneOrMore`, `ZeroOrMore`, `Optional`, `NotAny`, `Group`,
`Suppress`, `Combine`, `Forward`, `delimitedList`.

A location in the parsed string is represented by the rest of the string from
there on. Results names, parse actions (there is one, `t[0].strip()` in
`nestedExpr`), packrat caching (never enabled), error messages and Python's
recursion limit are not modelled; the only error is `ParseException`, represented
by `none` (an `IndexError` of a token at the end of the string is turned into a
`ParseException` in pyparsing3.py:1674-1678, and the same is done here by `none`). -/
namespace X4

/-- What a `ParseResults` list contains: strings and nested `ParseResults`. pyparsing3.py:502-530 -/
inductive Tok where
  | str (s : Str)
  | grp (ts : List Tok)
  deriving Repr

/-- A `ParserElement`: `skipWhitespace`, `callPreparse` and `parseImpl`
followed by `postParse`. pyparsing3.py:1634-1720 -/
structure Parser where
  ws : Bool
  pre : Bool
  impl : Str → Option (List Tok × Str)

namespace Parser

/-- `DEFAULT_WHITE_CHARS`, pyparsing3.py:1353 -/
def isWhite (c : Char) : Bool := c == ' ' || c == '\n' || c == '\t' || c == '\r'
/-- `preParse`, pyparsing3.py:1622-1632 (there are no `ignoreExprs`) -/
def skipWs (s : Str) : Str := s.dropWhile isWhite

/-- `_parseNoCache(instring, loc, doActions, callPreParse)`, pyparsing3.py:1641-1729 -/
def parse (p : Parser) (callPre : Bool) (s : Str) : Option (List Tok × Str) :=
  p.impl (if callPre && p.pre && p.ws then skipWs s else s)

/-- `Literal(m)`, pyparsing3.py:2840-2884, for a nonempty `m` -/
def lit (m : Str) (ws : Bool := true) : Parser where
  ws := ws
  pre := true
  impl s := if m.isPrefixOf s then some ([.str m], s.drop m.length) else none

/-- `Word(init, body)`, pyparsing3.py:3071-3238, without length limits (`_WordRegex`) -/
def word (init body : Char → Bool) (ws : Bool := true) : Parser where
  ws := ws
  pre := true
  impl s := match s with
    | [] => none
    | c :: cs => if init c then some ([.str (c :: cs.takeWhile body)], cs.dropWhile body) else none

/-- `Word(init, body, max=m)`, pyparsing3.py:3178-3206, `m ≥ 1`: no match if more than
`m` of the characters follow. -/
def wordMax (init body : Char → Bool) (m : Nat) : Parser where
  ws := true
  pre := true
  impl s := match s with
    | [] => none
    | c :: cs =>
      if init c then
        let w := (cs.takeWhile body).take (m - 1)
        match cs.drop w.length with
        | [] => some ([.str (c :: w)], [])
        | d :: r => if body d then none else some ([.str (c :: w)], d :: r)
      else none

/-- `restOfLine`, pyparsing3.py:6357: `Regex('.*')` without skipping white space -/
def restOfLine : Parser where
  ws := false
  pre := true
  impl s := some ([.str (s.takeWhile (· != '\n'))], s.dropWhile (· != '\n'))

/-- `CharsNotIn(not, exact=1)`, pyparsing3.py:3545-3605 -/
def charNotIn (bad : Char → Bool) : Parser where
  ws := false
  pre := true
  impl s := match s with
    | [] => none
    | c :: cs => if bad c then none else some ([.str [c]], cs)

/-- `a + b`: `And`, pyparsing3.py:3971-4052. The first element is parsed without
skipping white space, which the `And` itself has done. `And`s of several elements
are nested to the left here; `streamline` (pyparsing3.py:3908-3937) flattens them. -/
def and (a b : Parser) : Parser where
  ws := a.ws
  pre := true
  impl s := match a.parse false s with
    | none => none
    | some (t1, r) => match b.parse true r with
      | none => none
      | some (t2, r') => some (t1 ++ t2, r')

/-- of two matches the longer one, the first one of two equally long ones, pyparsing3.py:4079-4164 -/
def longer : Option (List Tok × Str) → Option (List Tok × Str) → Option (List Tok × Str)
  | none, m => m
  | m, none => m
  | some (t1, r1), some (t2, r2) => if r2.length < r1.length then some (t2, r2) else some (t1, r1)

/-- `a ^ b`: `Or`, pyparsing3.py:4079-4164. The matches are sorted by descending end
location (stably) and the first one is taken. -/
def or (a b : Parser) : Parser where
  ws := true
  pre := false
  impl s := longer (a.parse true s) (b.parse true s)

/-- `a | b`: `MatchFirst`, pyparsing3.py:4202-4258 -/
def first (a b : Parser) : Parser where
  ws := true
  pre := false
  impl s := match a.parse true s with
    | some m => some m
    | none => b.parse true s

/-- `Or` of several alternatives, pyparsing3.py:4079-4164 -/
def orAll : List Parser → Parser
  | [] => { ws := true, pre := false, impl := fun _ => none }
  | [p] => p
  | p :: q :: r => orFrom (or p q) r
where
  orFrom (acc : Parser) : List Parser → Parser
    | [] => acc
    | q :: r => orFrom (or acc q) r

/-- The `while` loop of `_MultipleMatch.parseImpl`, pyparsing3.py:4685-4697. Every
iteration consumes a character (all the repeated expressions of x4i3 do), so
the length of the rest bounds the number of iterations. -/
def manyLoop (p : Parser) : Nat → List Tok → Str → List Tok × Str
  | 0, acc, s => (acc, s)
  | n + 1, acc, s => match p.parse true s with
    | none => (acc, s)
    | some (t, r) => manyLoop p n (acc ++ t) r

/-- `OneOrMore(p)`, pyparsing3.py:4654-4745 -/
def many1 (p : Parser) : Parser where
  ws := p.ws
  pre := p.pre
  impl s := match p.parse false s with
    | none => none
    | some (t, r) => some (manyLoop p (r.length + 1) t r)

/-- `ZeroOrMore(p)`, pyparsing3.py:4747-4767 -/
def many (p : Parser) : Parser where
  ws := p.ws
  pre := p.pre
  impl s := match (many1 p).impl s with
    | none => some ([], s)
    | some m => some m

/-- `Optional(p)`, pyparsing3.py:4785-4840, without default -/
def opt (p : Parser) : Parser where
  ws := p.ws
  pre := p.pre
  impl s := match p.parse false s with
    | none => some ([], s)
    | some m => some m

/-- `~p`: `NotAny`, pyparsing3.py:4610-4640 -/
def notAny (p : Parser) : Parser where
  ws := false
  pre := p.pre
  impl s := match p.parse true s with
    | none => some ([], s)
    | some _ => none

/-- `Group(p)`, pyparsing3.py:5130-5150 -/
def group (p : Parser) : Parser where
  ws := p.ws
  pre := p.pre
  impl s := match p.parse false s with
    | none => none
    | some (t, r) => some ([.grp t], r)

/-- `Suppress(p)`, pyparsing3.py:5220-5246 -/
def suppress (p : Parser) : Parser where
  ws := p.ws
  pre := p.pre
  impl s := match p.parse false s with
    | none => none
    | some (_, r) => some ([], r)

mutual
/-- the text of a token, pyparsing3.py:882-891 -/
def tokFlat : Tok → Str
  | .str s => s
  | .grp ts => flatStr ts
/-- `"".join(tokenlist._asStringList(""))`, pyparsing3.py:882-891 -/
def flatStr : List Tok → Str
  | [] => []
  | t :: r => tokFlat t ++ flatStr r
end

/-- `Combine(p)`, pyparsing3.py:5085-5128. `Combine` calls `leaveWhitespace` on copies
of everything inside `p`; here `p` has to be given without white space skipping. -/
def combine (p : Parser) : Parser where
  ws := true
  pre := true
  impl s := match p.parse false s with
    | none => none
    | some (t, r) => some ([.str (flatStr t)], r)

/-- A `Forward` whose expression is `p`, pyparsing3.py:4971-5008 -/
def forward (p : Parser) : Parser where
  ws := p.ws
  pre := true
  impl s := p.parse false s

/-- `delimitedList(p, delim)`, pyparsing3.py:5312-5331 -/
def delimited (p : Parser) (delim : Str) : Parser :=
  and p (many (and (suppress (lit delim)) p))

/-- `s.expandtabs()` from a given column on, Python built-in, as used in pyparsing3.py:1895-1944 -/
def expandTabs : Nat → Str → Str
  | _, [] => []
  | col, c :: cs =>
    if c == '\t' then List.replicate (8 - col % 8) ' ' ++ expandTabs 0 cs
    else c :: expandTabs (if c == '\n' || c == '\r' then 0 else col + 1) cs

/-- `p.parseString(s)`, pyparsing3.py:1895-1944 with `parseAll=False` -/
def parseString (p : Parser) (s : Str) : Except PyErr (List Tok) :=
  match p.parse true (expandTabs 0 s) with
  | none => .error .parseException
  | some (t, _) => .ok t

end Parser
end X4
