import Verif.Model.Grammar
import Verif.Model.EndlZ
import Verif.Model.DataSection
import Verif.Py.Dict
/-! Model of `x4i3/exfor_particle.py`: particles, nuclei, isomers, elements, chemical compounds. -/
namespace X4
open Parser

/-- `x4ZMap`, exfor_particle.py:46-72 -/
def x4ZMap : Dict Str Int := [
  (chars!"0", 0), (chars!"G", 0), (chars!"AR", 0), (chars!"N", 0), (chars!"P", 1), (chars!"AP", -1), (chars!"AN", 0),
  (chars!"H", 1), (chars!"D", 1), (chars!"T", 1), (chars!"A", 2), (chars!"HE3", 2), (chars!"HE2", 2), (chars!"PI", 0),
  (chars!"PI0", 0), (chars!"P0", 0), (chars!"PIP", 1), (chars!"ETA", 0), (chars!"PIN", -1), (chars!"KP", 1),
  (chars!"KN", -1), (chars!"E", -1), (chars!"B", -1), (chars!"B+", 1), (chars!"B-", -1), (chars!"XR", 0)]
/-- `x4AMap`, exfor_particle.py:73-99 -/
def x4AMap : Dict Str Int := [
  (chars!"0", 0), (chars!"G", 0), (chars!"AR", 0), (chars!"N", 1), (chars!"P", 1), (chars!"AP", -1), (chars!"AN", -1),
  (chars!"H", 1), (chars!"D", 2), (chars!"T", 3), (chars!"A", 4), (chars!"HE3", 3), (chars!"HE2", 2), (chars!"PI", 0),
  (chars!"PI0", 0), (chars!"P0", 0), (chars!"PIP", 0), (chars!"ETA", 0), (chars!"PIN", 0), (chars!"KP", 0),
  (chars!"KN", 0), (chars!"E", 0), (chars!"B", 0), (chars!"B+", 0), (chars!"B-", 0), (chars!"XR", 0)]
/-- `x4Hadrons`, exfor_particle.py:105-116 -/
def x4Hadrons : Dict Str Str := [
  (chars!"N", chars!"n"), (chars!"P", chars!"p"), (chars!"AP", chars!"anti-p"), (chars!"AN", chars!"anti-n"),
  (chars!"PI0", chars!"pi0"), (chars!"P0", chars!"pi0"), (chars!"PIP", chars!"pi+"), (chars!"PIN", chars!"pi-"),
  (chars!"KP", chars!"K+"), (chars!"KN", chars!"K-"), (chars!"ETA", chars!"eta")]

/-- the attribute `num`: a number or the text 'X', exfor_particle.py:133, 198-207 -/
inductive Mult where
  | num (n : Int)
  | any
  deriving DecidableEq, Repr

/-- The objects of exfor_particle.py with the attributes that are used. exfor_particle.py:123-410 -/
inductive Particle where
  /-- `X4Particle` -/
  | particle (num : Mult) (sym : Str) (Z A : Int)
  /-- `X4Nucleus`; `Z` and `A` are texts, converted when they are used -/
  | nucleus (Z sym A : Str)
  /-- `X4Element` -/
  | element (Z sym A : Str)
  /-- `X4Isomer` -/
  | isomer (Z sym A : Str) (isomers : List Str)
  /-- `X4VariableParticle` -/
  | variable (sym : Str)
  /-- `X4ChemicalCompound`; `code` is `parse_results[0]` -/
  | compound (Z : Int) (sym code : Str)
  deriving DecidableEq, Repr

/-- the strings of a list of tokens, `x.asList()` when there is no nested group, exfor_particle.py:190-207, 256-264 -/
def strToks : List Tok → Option (List Str)
  | [] => some []
  | .str s :: r => (strToks r).map (s :: ·)
  | .grp _ :: _ => none

/-- exfor_particle.py:198-207: multiplicity and symbol -/
def multSym : List Str → Except PyErr (Mult × Str)
  | [] => .error .indexError
  | [x] => match x with
    | [] => .error .indexError
    | c :: r => if c = 'X' then .ok (.any, r) else .ok (.num 1, c :: r)
  | x :: y :: _ => match pyIntE x with
    | .error e => .error e
    | .ok n => .ok (.num n, y)

/-- exfor_particle.py:208-209: charge and mass number from the tables -/
def lookupParticle (ms : Mult × Str) : Except PyErr Particle :=
  match x4ZMap.get (upper ms.2) with
  | .error e => .error e
  | .ok Z => match x4AMap.get (upper ms.2) with
    | .error e => .error e
    | .ok A => .ok (.particle ms.1 ms.2 Z A)

/-- `X4Particle.parse`, exfor_particle.py:211-220 -/
def parseParticle (x : Str) : Except PyErr (List Str) :=
  match parseString pParticle x with
  | .error _ => .error .particleParsingError
  | .ok ts => match strToks ts with
    | none => .error .typeError
    | some l => .ok l

/-- `X4Particle(x)` for a text, exfor_particle.py:179-209 -/
def particleOfStr (x : Str) : Except PyErr Particle :=
  if x = ['0'] then .ok (.particle (.num 0) ['0'] 0 0)
  else match parseParticle (upper x) with
    | .error e => .error e
    | .ok l => match multSym l with
      | .error e => .error e
      | .ok ms => lookupParticle ms

/-- `X4Particle(x)` for parse results consisting of texts, exfor_particle.py:190-209 -/
def particleOfToks (x : List Str) : Except PyErr Particle :=
  match multSym (x.map lower) with
  | .error e => .error e
  | .ok ms => lookupParticle ms

/-- one round of the loop of `X4Isomer.__init__`, exfor_particle.py:302-312: what is
appended to `isomers` for `x[i]`, `more` telling whether there is an `x[i+1]` -/
def isomerItem (s : Str) (more : Bool) : List Str :=
  if lower s = ['g'] then [['0']]
  else if lower s = ['m'] ∧ more then []
  else if isDigitStr s then [s]
  else if lower s = ['t'] then []
  else [['1']]

/-- the loop of `X4Isomer.__init__` over `x[4:]`, exfor_particle.py:302-312 -/
def isomerList : List Str → List Str
  | [] => []
  | s :: r => isomerItem s (!r.isEmpty) ++ isomerList r

/-- the test for arithmetic with isomers, exfor_particle.py:313; `xs` is `x[4:]` -/
def isIsomerMath (xs : List Str) : Bool :=
  ((xs.contains ['G'] || xs.contains ['T']) && xs.contains ['M']) || decide (1 < xs.count ['M'])

/-- `X4Isomer(x)` for parse results with at least three texts and `IgnoreIsomerMath=False`,
exfor_particle.py:294-318. (The test stands inside the loop, so it is only made if
there is an `x[4]`; without one it is false.) -/
def isomerOfToks (Z sym A : Str) (rest : List Str) : Except PyErr Particle :=
  if isIsomerMath (rest.drop 1) then .error .isomerMathParsingError
  else .ok (.isomer Z (capitalize sym) A (isomerList (rest.drop 1)))

/-- `X4ChemicalCompound(x)` for a text, exfor_particle.py:376-393 -/
def compoundOfStr (x : Str) : Except PyErr Particle :=
  match parseString pCompound x with
  | .error _ => .error .particleParsingError
  | .ok ts => match strToks ts with
    | none => .error .typeError
    | some l => match l with
      | [] => .error .indexError
      | code :: _ => match splitChar '-' code with
        | z :: sym :: _ => match pyIntE z with
          | .error e => .error e
          | .ok Z => .ok (.compound Z sym code)
        | _ => .error .indexError

/-- `X4Nucleus.parse`, exfor_particle.py:266-275, and `parse_results.asList()` -/
def parseNucleus (x : Str) : Except PyErr (List Str) :=
  match parseString pNucleus x with
  | .error _ => .error .particleParsingError
  | .ok ts => match strToks ts with
    | none => .error .typeError
    | some l => .ok l

/-- `X4Nucleus(x)` for a text, exfor_particle.py:254-264; `X4Element` has the same constructor (exfor_particle.py:344-351) -/
def nucleusOfStr (x : Str) : Except PyErr Particle :=
  match parseNucleus x with
  | .error e => .error e
  | .ok (Z :: sym :: A :: _) => .ok (.nucleus Z (capitalize sym) A)
  | .ok _ => .error .indexError

/-- `X4Isomer(x)` for a text with `IgnoreIsomerMath=False`, exfor_particle.py:294-318 -/
def isomerOfStr (x : Str) : Except PyErr Particle :=
  match parseNucleus x with
  | .error e => .error e
  | .ok (Z :: sym :: A :: rest) => isomerOfToks Z sym A rest
  | .ok _ => .error .indexError

/-- `asList()` of a nucleus or isomer made from a text, exfor_particle.py:151-156 -/
def nucleusList (x : Str) : Except PyErr (List Str) :=
  match parseNucleus x with
  | .error e => .error e
  | .ok l => .ok (l.map upper)

/-- `num * int(v)`, or `int(v)` if `num` is 'X', exfor_particle.py:141-149 -/
def scaled (m : Mult) (v : Int) : Int :=
  match m with
  | .any => v
  | .num n => n * v

/-- `getZ()`, exfor_particle.py:141-144, 364-367 -/
def Particle.getZ : Particle → Except PyErr Int
  | .particle m _ Z _ => .ok (scaled m Z)
  | .nucleus Z _ _ | .element Z _ _ | .isomer Z _ _ _ => pyIntE Z
  | .variable _ => .ok (-3000)
  | .compound Z _ _ => .ok Z

/-- `getA()`, exfor_particle.py:146-149, 347-348, 369-370, 395-396 -/
def Particle.getA : Particle → Except PyErr Int
  | .particle m _ _ A => .ok (scaled m A)
  | .nucleus _ _ A | .isomer _ _ A _ => pyIntE A
  | .element .. | .variable _ | .compound .. => .ok (-3000)

/-- `self.num > 1` and the prefix made from it; comparing the text 'X' is a `TypeError`
(exfor_particle.py:223-226, 245-248) -/
def multPrefix : Mult → Except PyErr Str
  | .any => .error .typeError
  | .num n => .ok (if n > 1 then intStr n else [])

/-- the part of `X4Particle.prettyStyle` after the hadrons, exfor_particle.py:229-242 -/
def prettySym (sym : Str) : Str :=
  if sym.length = 1 then
    if sym = ['A'] then chars!"alpha"
    else if sym = ['G'] then chars!"gamma"
    else if sym = ['0'] then chars!"None"
    else if sym = ['B'] then chars!"beta"
    else lower sym
  else capitalize sym

/-- `X4Particle.prettyStyle`, exfor_particle.py:222-242 -/
def prettyParticle (m : Mult) (sym : Str) : Except PyErr Str :=
  match multPrefix m with
  | .error e => .error e
  | .ok pre => match x4Hadrons.get? sym with
    | some h => .ok h
    | none => .ok (pre ++ prettySym sym)

/-- the isomers in `exforStyle` and `prettyStyle`, exfor_particle.py:331-341 -/
def isomerTail (sep : Str) (isomers : List Str) : Str :=
  if isomers = [['1']] then [] else joinWith sep isomers

/-- `exforStyle()` of nuclei, exfor_particle.py:280-283 -/
def exforNucleus (Z sym A : Str) : Str :=
  if sym = chars!"Nn" then ['n'] else Z ++ ['-'] ++ upper sym ++ ['-'] ++ A

/-- `repr(p)`: `exforStyle()`, exfor_particle.py:244-248, 280-283, 331-335, 404-405 -/
def Particle.exfor : Particle → Except PyErr Str
  | .particle m sym _ _ => match multPrefix m with
    | .error e => .error e
    | .ok pre => .ok (pre ++ sym)
  | .nucleus Z sym A | .element Z sym A => .ok (exforNucleus Z sym A)
  | .isomer Z sym A iso => .ok (exforNucleus Z sym A ++ ['-', 'M'] ++ isomerTail ['+', 'M'] iso)
  | .variable sym => .ok sym
  | .compound _ _ code => .ok code

/-- `str(p)`: `prettyStyle()`, exfor_particle.py:222-242, 285-288, 337-341, 350-351,
407-408. `names` is the dictionary of compounds. -/
def Particle.pretty (names : Dict Str (List Str)) : Particle → Except PyErr Str
  | .particle m sym _ _ => prettyParticle m sym
  | .nucleus _ sym A => .ok (if sym = chars!"Nn" then ['n'] else A ++ sym)
  | .element _ sym _ => .ok (chars!"nat" ++ sym)
  | .isomer _ sym A iso => .ok (A ++ ['m'] ++ isomerTail [','] iso ++ sym)
  | .variable sym => prettyParticle (.num 1) sym
  | .compound _ _ code => match names.get code with
    | .error e => .error e
    | .ok v => pyIdx v 0

/-- `X4Nucleus.endlZAStyle`, exfor_particle.py:277-278 -/
def endlNucleus (Z A : Str) : Str := chars!"za" ++ zfill Z 3 ++ zfill A 3

/-- `endlZAStyle()`, exfor_particle.py:166-167, 277-278, 320-329, 401-402 (`None` for particles) -/
def Particle.endlZA : Particle → Except PyErr (Option Str)
  | .particle .. | .variable _ => .ok none
  | .nucleus Z _ A | .element Z _ A => .ok (some (endlNucleus Z A))
  | .isomer Z _ A iso =>
    .ok (some (endlNucleus Z A ++ if iso = [['1']] then ['m'] else iso.flatMap (fun i => if i = ['0'] then ['g'] else 'm' :: i)))
  | .compound .. => .error .notImplementedError

end X4
