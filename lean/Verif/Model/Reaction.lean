import Verif.Model.Particle
import Verif.Py.Loop
/-! Model of `x4i3/exfor_reactions.py`: processes, reactions, combinations of reactions and
the unfolding of isomer arithmetic, and of the part of `X4ReactionField` that chooses between
them (`exfor_field.py:158-165`).

The dictionaries that only serve for printing are parameters. `IgnoreIsomerMath` is
`False` throughout (nothing in x4i3 passes another value). -/
namespace X4
open Parser

/-- `x4ReactionMap`, exfor_reactions.py:57-70 -/
def x4ReactionMap : Dict Str Str := [
  (chars!"TOT", chars!"Total"), (chars!"EL", chars!"Elastic"), (chars!"ABS", chars!"Absorption"),
  (chars!"INL", chars!"Inelastic"), (chars!"TCC", chars!"TotalChargeChanging"), (chars!"FUS", chars!"Fusion"),
  (chars!"NON", chars!"Nonelastic"), (chars!"SCT", chars!"Scattering"), (chars!"F", chars!"Fission"),
  (chars!"PAI", chars!"PairProduction"), (chars!"THS", chars!"ThermalScattering"), (chars!"X", chars!"Unspecified"),
  (chars!"0", chars!"None")]

/-- an element of the product list: a channel name or an object, exfor_reactions.py:146-150 -/
inductive Product where
  | chan (s : Str)
  | part (p : Particle)
  deriving DecidableEq, Repr

/-- `X4Process`, exfor_reactions.py:75-90 -/
structure Process where
  targ : Particle
  proj : Particle
  products : List Product
  residual : Option Product
  processType : Str
  deriving DecidableEq, Repr

/-- `X4Process.setParticleType`, exfor_reactions.py:117-144. Groups of texts only; for three
texts the last of which is no number (which the grammar excludes) the code returns
`None`, here an error. -/
def setParticleType : Tok → Except PyErr Particle
  | .str s =>
    if s ∈ [chars!"ELEM", chars!"MASS", chars!"ELEM/MASS", chars!"X", chars!"NPART"] then .ok (.variable s)
    else particleOfStr s
  | .grp ts => match strToks ts with
    | none => .error .typeError
    | some il => match il with
      | [z, sym, a] =>
        if isDigitStr a then .ok (if a = ['0'] then .element z (capitalize sym) a else .nucleus z (capitalize sym) a)
        else .error .attributeError
      | z :: sym :: a :: rest => isomerOfToks z sym a rest
      | [x] => if x.length > 4 then compoundOfStr x else particleOfToks [x]
      | il => particleOfToks il

/-- `X4Process.setProduct`, exfor_reactions.py:146-150 -/
def setProduct : Tok → Except PyErr Product
  | .str s =>
    if x4ReactionMap.has s then .ok (.chan s)
    else match particleOfTok (.str s) with
      | .error e => .error e
      | .ok p => .ok (.part p)
  | .grp ts => match particleOfTok (.grp ts) with
    | .error e => .error e
    | .ok p => .ok (.part p)
where particleOfTok (t : Tok) := setParticleType t

/-- the channels with the target as residual, exfor_reactions.py:157-158 (the long names
cannot be products, so they are left out) -/
def targetChannels : List Str := [chars!"EL", chars!"SCT", chars!"THS", chars!"INL"]

/-- `isinstance(prod, X4Nucleus) or isinstance(prod, X4Particle)`, exfor_reactions.py:170 -/
def Product.counts : Product → Bool
  | .chan _ => false
  | .part (.compound ..) => false
  | .part _ => true

/-- `getZ()` of a counted product, exfor_reactions.py:171, exfor_particle.py:141-144 -/
def Product.getZ : Product → Except PyErr Int
  | .chan _ => .error .attributeError
  | .part p => p.getZ
/-- `getA()` of a counted product, exfor_reactions.py:172, exfor_particle.py:146-149 -/
def Product.getA : Product → Except PyErr Int
  | .chan _ => .error .attributeError
  | .part p => p.getA

/-- body of the loop of `setResidual`, exfor_reactions.py:169-174. State: `Zout`, `Aout`,
`can_compute_residual`; `ok` is `Ain > Zin`. -/
def residualStep (ok : Bool) (st : Int × Int × Bool) (p : Product) : Except PyErr (Int × Int × Bool) :=
  if p.counts && ok then
    match p.getZ with
    | .error e => .error e
    | .ok z => match p.getA with
      | .error e => .error e
      | .ok a => .ok (st.1 + z, st.2.1 + a, st.2.2)
  else .ok (st.1, st.2.1, false)

/-- the residual nucleus with given charge and mass number, exfor_reactions.py:179-192 -/
def residualNucleus (dZ dA : Int) : Except PyErr (Option Product) :=
  match endlZSymbol dZ with
  | some sym => .ok (some (.part (.nucleus (intStr dZ) (capitalize sym) (intStr dA))))
  | none =>
    if dZ = -1 ∧ dA = 0 then match particleOfStr chars!"E" with
      | .error e => .error e
      | .ok p => .ok (some (.part p))
    else if dZ = 1 ∧ dA = 0 then match particleOfStr chars!"B+" with
      | .error e => .error e
      | .ok p => .ok (some (.part p))
    else if 1000 < dZ.natAbs ∨ 1000 < dA.natAbs then .ok none
    else .error .residualNucleusError

/-- exfor_reactions.py:176-197: from the sums to the residual and the final product list.
Objects are never equal to other objects, so `remove` only concerns channel names. -/
def chooseResidual (Zin Ain Zout Aout : Int) (can : Bool) (products : List Product) :
    Except PyErr (List Product × Option Product) :=
  if Zin = Zout ∧ Ain = Aout then
    match products.getLast? with
    | none => .error .indexError
    | some (.chan s) => .ok (products.dropLast.erase (.chan s), some (.chan s))
    | some (.part p) => .ok (products.dropLast, some (.part p))
  else if can then
    match residualNucleus (Zin - Zout) (Ain - Aout) with
    | .error e => .error e
    | .ok r => .ok (products, r)
  else .ok (products, none)

/-- the first of `l` that is a product, exfor_reactions.py:157-158 -/
def findChannel (products : List Product) : List Str → Option Str
  | [] => none
  | c :: r => if .chan c ∈ products then some c else findChannel products r

/-- charge and mass number of target and projectile together, exfor_reactions.py:164-165 -/
def totalIn (targ proj : Particle) : Except PyErr (Int × Int) :=
  match targ.getZ with
  | .error e => .error e
  | .ok z1 => match proj.getZ with
    | .error e => .error e
    | .ok z2 => match targ.getA with
      | .error e => .error e
      | .ok a1 => match proj.getA with
        | .error e => .error e
        | .ok a2 => .ok (z1 + z2, a1 + a2)

/-- `X4Process.setResidual`, exfor_reactions.py:152-197: the product list and the residual -/
def setResidual (targ proj : Particle) (products : List Product) : Except PyErr (List Product × Option Product) :=
  match targ.getA with
  | .error e => .error e
  | .ok a => match findChannel products targetChannels with
    | some c => .ok ([.chan c], some (.part targ))
    | none => match totalIn targ proj with
      | .error e => .error e
      | .ok zin => match foldE (residualStep (decide (zin.1 < zin.2))) (0, 0, decide (a ≠ 0)) products with
        | .error e => .error e
        | .ok st => chooseResidual zin.1 zin.2 st.1 st.2.1 st.2.2 products

/-- `str` of a product (`swapit` applied to channel names), exfor_reactions.py:200-204 -/
def Product.pretty (names : Dict Str (List Str)) : Product → Except PyErr Str
  | .chan s => .ok ((x4ReactionMap.get? s).getD s)
  | .part p => p.pretty names

/-- `X4Process.setProcessType`, exfor_reactions.py:198-204 -/
def setProcessType (names : Dict Str (List Str)) (products : List Product) : Except PyErr Str :=
  match mapE (Product.pretty names) products with
  | .error e => .error e
  | .ok l => .ok (joinWith ['+'] l)

/-- `X4Process(xl)` for parse results, exfor_reactions.py:78-90 -/
def processOfToks (names : Dict Str (List Str)) (xl : List Tok) : Except PyErr Process :=
  match xl with
  | t :: p :: prods =>
    match setParticleType t with
    | .error e => .error e
    | .ok targ => match setParticleType p with
      | .error e => .error e
      | .ok proj => match mapE setProduct prods with
        | .error e => .error e
        | .ok products => match setResidual targ proj products with
          | .error e => .error e
          | .ok pr => match setProcessType names pr.1 with
            | .error e => .error e
            | .ok ty => .ok { targ := targ, proj := proj, products := pr.1, residual := pr.2, processType := ty }
  | _ => .error .indexError

/-- `X4Process(x)` for a text, exfor_reactions.py:78-90, 106-115 -/
def processOfStr (names : Dict Str (List Str)) (x : Str) : Except PyErr Process :=
  match parseString pProcess x with
  | .error _ => .error .reactionParsingError
  | .ok ts => processOfToks names ts

/-- `str` of the residual, exfor_reactions.py:92-97 -/
def residualText (names : Dict Str (List Str)) : Option Product → Except PyErr Str
  | none => .ok []
  | some (.chan s) => .ok s
  | some (.part p) => p.pretty names

/-- `X4Process.__str__`, exfor_reactions.py:92-97 -/
def Process.str (names : Dict Str (List Str)) (p : Process) : Except PyErr Str :=
  match p.targ.pretty names with
  | .error e => .error e
  | .ok t => match p.proj.pretty names with
    | .error e => .error e
    | .ok q => match residualText names p.residual with
      | .error e => .error e
      | .ok r => .ok (t ++ ['('] ++ q ++ [','] ++ p.processType ++ [')'] ++ r)

/-- `repr` of a product, the quotes of texts being removed in the end (exfor_reactions.py:101-104) -/
def Product.exfor : Product → Except PyErr Str
  | .chan s => .ok s
  | .part p => p.exfor

/-- `X4Process.__repr__`, exfor_reactions.py:99-104 -/
def Process.repr (p : Process) : Except PyErr Str :=
  match p.targ.exfor with
  | .error e => .error e
  | .ok t => match p.proj.exfor with
    | .error e => .error e
    | .ok q => match mapE Product.exfor p.products with
      | .error e => .error e
      | .ok l => match (match p.residual with | none => Except.ok [] | some r => r.exfor) with
        | .error e => .error e
        | .ok r => .ok (upper (replaceChar '\'' [] (t ++ ['('] ++ q ++ [','] ++ joinWith ['+'] l ++ [')'] ++ r)))

/-! ### reactions -/

/-- `X4Reaction`, exfor_reactions.py:214-221 -/
structure Reaction where
  proc : Process
  quantity : List Tok

/-- `X4Reaction(x)` for parse results, exfor_reactions.py:217-221 -/
def reactionOfToks (names : Dict Str (List Str)) (x : List Tok) : Except PyErr Reaction :=
  match x with
  | [] => .error .indexError
  | t :: q => match (match t with | .str s => processOfStr names s | .grp ts => processOfToks names ts) with
    | .error e => .error e
    | .ok p => .ok { proc := p, quantity := q }

/-- `X4Reaction(x)` for a text, exfor_reactions.py:217-221, 229-241 -/
def reactionOfStr (names : Dict Str (List Str)) (x : Str) : Except PyErr Reaction :=
  match parseString pReaction x with
  | .error _ => .error (if '/' ∈ x ∨ '+' ∈ x then .isomerMathParsingError else .reactionParsingError)
  | .ok ts => reactionOfToks names ts

/-- `X4Reaction.has_quantity`, exfor_reactions.py:243-244 -/
def Reaction.hasQuantity (r : Reaction) (i : Str) : Bool :=
  r.quantity.any (fun t => match t with | .str s => s == i | .grp _ => false)

/-- the dictionaries used for printing reactions, exfor_reactions.py:71-72 -/
structure RxDicts where
  compounds : Dict Str (List Str)
  quantities : Dict Str (List Str)
  modifiers : Dict Str (List Str)

/-- the first of the given keys that a dictionary has, exfor_reactions.py:246-263 -/
def firstEntry (d : Dict Str (List Str)) : List Str → Option (List Str)
  | [] => none
  | k :: r => match d.get? k with
    | some v => some v
    | none => firstEntry d r

/-- the first field of an entry that was found, followed by a text; nothing otherwise, exfor_reactions.py:246-263 -/
def entryText (o : Option (List Str)) (tail : Str) : Except PyErr Str :=
  match o with
  | none => .ok []
  | some v => match pyIdx v 0 with
    | .error e => .error e
    | .ok t => .ok (t ++ tail)

/-- `X4Reaction.getReactionType`, exfor_reactions.py:246-263 -/
def Reaction.getReactionType (D : RxDicts) (r : Reaction) : Except PyErr Str :=
  match strToks r.quantity with
  | none => .error .typeError
  | some q => match D.quantities.get? (joinWith [','] q) with
    | some v => pyIdx v 0
    | none => match entryText (firstEntry D.modifiers q) [' '] with
      | .error e => .error e
      | .ok m => match entryText (firstEntry D.quantities (q ++ q.map (',' :: ·))) [] with
        | .error e => .error e
        | .ok t => .ok (m ++ t)

/-- `X4Reaction.__str__`, exfor_reactions.py:223-224 -/
def Reaction.str (D : RxDicts) (r : Reaction) : Except PyErr Str :=
  match r.getReactionType D with
  | .error e => .error e
  | .ok t => match r.proc.str D.compounds with
    | .error e => .error e
    | .ok p => .ok (t ++ chars!" for " ++ p)

/-- `X4Reaction.__repr__`, exfor_reactions.py:226-227 -/
def Reaction.repr (r : Reaction) : Except PyErr Str :=
  match r.proc.repr with
  | .error e => .error e
  | .ok p => match strToks r.quantity with
    | none => .error .typeError
    | some q => .ok (['('] ++ p ++ [','] ++ joinWith [','] q ++ [')'])

/-! ### isomer arithmetic -/

/-- a token as a Python sequence: the characters of a text, the elements of a group, exfor_reactions.py:350-379 -/
def tokSeq : Tok → List Tok
  | .str s => s.map (fun c => .str [c])
  | .grp ts => ts
/-- `sep.join(l)`, exfor_reactions.py:358-375 -/
def joinToks (sep : Str) (l : List Tok) : Except PyErr Str :=
  match strToks l with
  | none => .error .typeError
  | some q => .ok (joinWith sep q)
/-- a text, or the joined elements of a group, exfor_reactions.py:362-375 -/
def strOrJoin (sep : Str) : Tok → Except PyErr Str
  | .str s => .ok s
  | .grp ts => joinToks sep ts

/-- an element of `residList`: an operator or the parts of a nucleus, exfor_reactions.py:379-387 -/
inductive ResidPart where
  | op (s : Str)
  | nuc (l : List Str)
  deriving DecidableEq, Repr

/-- `residList[-1][-1] += thing`, exfor_reactions.py:381-387 -/
def appendDigit (thing : Str) (l : List ResidPart) : Except PyErr (List ResidPart) :=
  match l.getLast? with
  | some (.nuc parts) => match parts.getLast? with
    | some m => .ok (l.dropLast ++ [.nuc (parts.dropLast ++ [m ++ thing])])
    | none => .error .indexError
  | some (.op _) => .error .typeError
  | none => .error .indexError

/-- one round of the loop over `uglyResid[5:]`, exfor_reactions.py:381-387. `pre` is
`residPrefix[0:-1]`. -/
def residStep (pre : List Str) (l : List ResidPart) (thing : Str) : Except PyErr (List ResidPart) :=
  if thing ∈ [['-'], ['+'], ['='], ['/'], ['/', '/']] then .ok (l ++ [.op thing])
  else if thing ∈ [['0'], ['1'], ['2'], ['3'], ['4'], ['5']] then appendDigit thing l
  else .ok (l ++ [.nuc (pre ++ [thing])])

/-- the list `residList`, exfor_reactions.py:379-387, for the parts of the residual -/
def residList (resid : List Str) : Except PyErr (List ResidPart) :=
  match resid[4]? with
  | none => .error .indexError
  | some m => foldE (residStep (resid.take 3)) [.nuc (resid.take 3 ++ [m])] (resid.drop 5)

/-- the reaction text for one element of `residList`, exfor_reactions.py:393-398 -/
def residText (targ proj proc quant : Str) : ResidPart → Str
  | .op s => s
  | .nuc l => ['('] ++ targ ++ ['('] ++ proj ++ [','] ++ proc ++ [')'] ++ joinWith ['-'] l ++ [','] ++ quant ++ [')']

/-- the target text, exfor_reactions.py:358-361 -/
def repackTarget (t : Tok) : Except PyErr Str :=
  if (tokSeq t).length > 3 then
    match joinToks ['-'] ((tokSeq t).take 3) with
    | .error e => .error e
    | .ok a => match joinToks [] ((tokSeq t).drop 4) with
      | .error e => .error e
      | .ok b => .ok (a ++ ['-'] ++ b)
  else joinToks ['-'] (tokSeq t)

/-- the quantity text, exfor_reactions.py:354-356 (adding a text and a `ParseResults` ends in
a `RecursionError`) -/
def repackQuant : Tok → Except PyErr Str
  | .str s => .ok (if ',' ∈ s then s else ',' :: s)
  | .grp _ => .error .runtimeError

/-- the parts of the residual, exfor_reactions.py:376-379: texts are not lists -/
def repackResid : Tok → Except PyErr (List Str)
  | .str s => if s.length ≤ 4 then .error .indexError else .error .typeError
  | .grp ts => match strToks ts with
    | none => .error .typeError
    | some l => .ok l

/-- `if len(x) == 1: x = x[0]`, exfor_reactions.py:350-351 -/
def repackUnwrap : List Tok → List Tok
  | [t] => tokSeq t
  | x => x

/-- `X4ReactionIsomerCombination.repack`, exfor_reactions.py:341-399 -/
def repack (x : List Tok) : Except PyErr Str :=
  match repackUnwrap x with
  | ugly :: quantTok :: _ =>
    match repackQuant quantTok with
    | .error e => .error e
    | .ok quant => match tokSeq ugly with
      | t :: p :: more => match repackTarget t with
        | .error e => .error e
        | .ok targ => match strOrJoin ['-'] p with
          | .error e => .error e
          | .ok proj => match mapE (strOrJoin []) more.dropLast with
            | .error e => .error e
            | .ok procs => match repackResid ((tokSeq ugly).getLast?.getD p) with
              | .error e => .error e
              | .ok resid => match residList resid with
                | .error e => .error e
                | .ok l => .ok (['('] ++ (l.map (residText targ proj (joinWith ['+'] procs) quant)).flatten ++ [')'])
      | _ => .error .indexError
  | _ => .error .indexError

/-! ### combinations -/

/-- an element of the `data` of a combination, exfor_reactions.py:269-276, 289-296 -/
inductive Datum where
  | op (s : Str)
  | rx (r : Reaction)
  /-- `X4ReactionIsomerCombination`, with its data -/
  | iso (data : List Datum)

/-- `['(', ')', '+', '-', '*', '/', '=', '//']`, exfor_reactions.py:290, exfor_field.py:160 -/
def combOps : List Str := [['('], [')'], ['+'], ['-'], ['*'], ['/'], ['='], ['/', '/']]

/-- `X4ReactionCombination.parse`, exfor_reactions.py:278-287 -/
def parseExpression (x : Str) : Except PyErr (List Tok) :=
  match parseString (pExpression (x.length + 1)) x with
  | .error _ => .error .reactionParsingError
  | .ok ts => .ok ts

/-- `X4ReactionIsomerCombination(x)`, exfor_reactions.py:334-339: repack, parse the new text
and build a combination with `comb` -/
def isoWith (comb : List Tok → Except PyErr (List Datum)) (x : List Tok) : Except PyErr Datum :=
  match repack x with
  | .error e => .error e
  | .ok s => match parseExpression s with
    | .error e => .error e
    | .ok ts => match comb ts with
      | .error e => .error e
      | .ok d => .ok (.iso d)

/-- the isomer combination made when a reaction is refused with an `IsomerMathParsingError`, exfor_reactions.py:292-296 -/
def rxOrIso (comb : List Tok → Except PyErr (List Datum)) (r : Except PyErr Reaction) (x : Except PyErr (List Tok)) :
    Except PyErr Datum :=
  match r with
  | .ok r => .ok (.rx r)
  | .error .isomerMathParsingError => match x with
    | .error e => .error e
    | .ok ts => isoWith comb ts
  | .error e => .error e

/-- `X4ReactionCombination.getStrOrX4Reaction`, exfor_reactions.py:289-296 -/
def datumOf (names : Dict Str (List Str)) (comb : List Tok → Except PyErr (List Datum)) : Tok → Except PyErr Datum
  | .str s => if s ∈ combOps then .ok (.op s) else rxOrIso comb (reactionOfStr names s) (parseExpression s)
  | .grp ts => rxOrIso comb (reactionOfToks names ts) (.ok ts)

/-- the `data` of `X4ReactionCombination(x)`, exfor_reactions.py:269-276. Isomer
combinations contain combinations again; the first argument bounds the depth, and
exceeding it is the `RecursionError` of Python (whose bound is not exactly this one). -/
def combination (names : Dict Str (List Str)) : Nat → List Tok → Except PyErr (List Datum)
  | 0, _ => .error .runtimeError
  | n + 1, x => mapE (datumOf names (combination names n)) x

/-- the bound of the recursion depth, exfor_reactions.py:289-296, 334-339; Python's default limit is 1000 calls, several of which are used per level -/
def maxDepth : Nat := 100

/-- A measurement object, the result of `getMeasurementType`. exfor_field.py:158-165; the base class `X4Measurement` has no data, exfor_reactions.py:210-211 -/
inductive Measurement where
  | rx (r : Reaction)
  | comb (data : List Datum)
  | iso (data : List Datum)

/-- whether an element of the parse results is an operator, exfor_field.py:160 -/
def isOpTok : Tok → Bool
  | .str s => decide (s ∈ combOps)
  | .grp _ => false

/-- the first attempt of `getMeasurementType`, exfor_field.py:159-163 -/
def measurementTry (names : Dict Str (List Str)) (x : List Tok) : Except PyErr Measurement :=
  if x.any isOpTok then
    match combination names maxDepth x with
    | .error e => .error e
    | .ok d => .ok (.comb d)
  else match x with
    | [] => .error .indexError
    | t :: _ => match (match t with | .str s => reactionOfStr names s | .grp ts => reactionOfToks names ts) with
      | .error e => .error e
      | .ok r => .ok (.rx r)

/-- `X4ReactionField.getMeasurementType`, exfor_field.py:158-165 -/
def getMeasurementType (names : Dict Str (List Str)) (x : List Tok) : Except PyErr Measurement :=
  match measurementTry names x with
  | .error .isomerMathParsingError => match isoWith (combination names maxDepth) x with
    | .error e => .error e
    | .ok (.iso d) => .ok (.iso d)
    | .ok _ => .error .typeError
  | r => r

/-- The reaction of a field, exfor_field.py:149-156: the measurement and the free text -/
def reactionFieldText (names : Dict Str (List Str)) (d : Str) : Except PyErr (Measurement × Str) :=
  match parseString (pReactionField (d.length + 1)) d with
  | .error e => .error e
  | .ok f => match getMeasurementType names f.dropLast with
    | .error e => .error e
    | .ok m => match f.getLast? with
      | some (.str s) => .ok (m, s)
      | _ => .error .indexError

mutual
/-- `getReactionList()`, exfor_reactions.py:298-306 -/
def Datum.reactions : Datum → List Reaction
  | .op _ => []
  | .rx r => [r]
  | .iso d => reactionList d
/-- `getReactionList()`, exfor_reactions.py:298-306 -/
def reactionList : List Datum → List Reaction
  | [] => []
  | d :: r => d.reactions ++ reactionList r
end

/-- `X4ReactionCombination.has_quantity`, exfor_reactions.py:308-314 -/
def combHasQuantity (data : List Datum) (i : Str) : Except PyErr Bool :=
  match reactionList data with
  | [] => .error .typeError
  | l => .ok (l.any (fun r => r.hasQuantity i))

mutual
/-- `print_gizmo(op)`, exfor_reactions.py:320-329, for `op` given on reactions. Line 325 computes
`str(j)` of every element, also for `repr`, and compares it with the operators; the model looks at the
element instead (the text of a reaction is never an operator). So an exception of `str(j)`, raised for
instance by a compound that dictionary 209 does not have, is not represented for `op = repr`. -/
def Datum.print (f : Reaction → Except PyErr Str) : Datum → Except PyErr Str
  | .op s => .ok s
  | .rx r => match f r with
    | .error e => .error e
    | .ok s => .ok (chars!"( " ++ s ++ chars!" )")
  | .iso d => match printData f d with
    | .error e => .error e
    | .ok s => .ok (chars!"( " ++ s ++ chars!" )")
/-- `print_gizmo(op)`, exfor_reactions.py:320-329 -/
def printData (f : Reaction → Except PyErr Str) : List Datum → Except PyErr Str
  | [] => .ok []
  | d :: r => match d.print f with
    | .error e => .error e
    | .ok s => match printData f r with
      | .error e => .error e
      | .ok t => .ok (s ++ t)
end

/-- `str(m)`, exfor_reactions.py:223-224, 316 -/
def Measurement.str (D : RxDicts) : Measurement → Except PyErr Str
  | .rx r => r.str D
  | .comb d | .iso d => printData (Reaction.str D) d

/-- `repr(m)`, exfor_reactions.py:226-227, 318 -/
def Measurement.repr : Measurement → Except PyErr Str
  | .rx r => r.repr
  | .comb d | .iso d => printData Reaction.repr d

/-- `X4ReactionField.getX4ReactionList`, exfor_field.py:208-214 -/
def Measurement.reactionList : Measurement → List Reaction
  | .rx r => [r]
  | .comb d | .iso d => d.filterMap (fun x => match x with | .rx r => some r | _ => none)

/-- one element of `X4ReactionField.getEquation`, exfor_field.py:185-193; `i` numbers the
elements that are no operators -/
def equationItems (f : Nat → Datum → Except PyErr Str) : Nat → List Datum → Except PyErr (List Str)
  | _, [] => .ok []
  | i, .op s :: r => match equationItems f i r with
    | .error e => .error e
    | .ok l => .ok (s :: l)
  | i, d :: r => match f i d with
    | .error e => .error e
    | .ok s => match equationItems f (i + 1) r with
      | .error e => .error e
      | .ok l => .ok (s :: l)

/-- `repr` of an element of the data, exfor_reactions.py:226-227, 318 -/
def Datum.repr : Datum → Except PyErr Str
  | .op s => .ok s
  | .rx r => r.repr
  | .iso d => printData Reaction.repr d

end X4
