import Verif.Model.TextGrammar
import Verif.Model.Bib
import Verif.Model.Reaction
import Verif.Model.Reference
import Verif.Model.Dataset
/-! Model of the constructors of the reference, author and institute fields (`x4i3/exfor_field.py`), of reference codes
(`x4i3/exfor_reference.py`), and the grammars put together to the parameter `FieldParsers` of `Verif.Model.Bib`. -/
namespace X4
open Parser

/-- the characters that Python's `title()` takes for letters; only ASCII letters are modelled, as used in exfor_field.py:471, 496 -/
def isCased (c : Char) : Bool := isAlphaA c

/-- `s.title()` (a Python built-in); the first argument tells whether the previous character was a letter.
Letters outside ASCII are left alone. (as used in exfor_field.py:471, 496) -/
def titleAux : Bool → Str → Str
  | _, [] => []
  | prev, c :: cs => (if prev then c.toLower else c.toUpper) :: titleAux (isCased c) cs
/-- `s.title()`, exfor_field.py:471, 496 -/
def title (s : Str) : Str := titleAux false s

/-- `parens`, exfor_field.py:404-407 (`x[0]` of an empty list; `'(' + x[0]` when `x[0]` is a list) -/
def parens : Tok → Except PyErr Str
  | .str s => .ok s
  | .grp [] => .error .indexError
  | .grp (.str s :: _) => .ok (['('] ++ s ++ [')'])
  | .grp (.grp _ :: _) => .error .typeError

/-- `X4ReferenceField.flatten`, exfor_field.py:399-408: a text, or, for a list of one element, that element -/
def flattenRef : List Tok → Except PyErr Tok
  | [t] => .ok t
  | l => match mapE parens l with
    | .error e => .error e
    | .ok ss => .ok (.str ss.flatten)

/-- the strings of a flat list of tokens, `asList()`, exfor_reference.py:81, exfor_field.py:463 -/
def tokTexts (l : List Tok) : List Str := l.map tokFlat

/-- `X4ReferenceCode.getRefName`, exfor_reference.py:99-117; the argument is `x4Dictionaries` -/
def getRefName (D : Dict Str (Dict Str (List Str))) (reftype name : Str) : Except PyErr Str :=
  let entry (dict key : Str) (i : Nat) : Except PyErr Str :=
    match D.get dict with
    | .error e => .error e
    | .ok d => match d.get key with
      | .error e => .error e
      | .ok rec => pyIdx rec i
  if reftype ∈ [chars!"A", chars!"B", chars!"C"] then
    match entry chars!"ConferencesAndBooks" name 0 with
    | .error e => .error e
    | .ok s => .ok (s ++ [' '])
  else if reftype ∈ [chars!"J", chars!"K"] then
    match entry chars!"Journals" name 0 with
    | .error e => .error e
    | .ok s => .ok (s ++ [' '])
  else if reftype ∈ [chars!"P", chars!"R", chars!"S"] then
    match entry chars!"ReferenceTypes" reftype 1 with
    | .error e => .error e
    | .ok s => .ok (s ++ chars!": " ++ name ++ [' '])
  else if reftype ∈ [chars!"T", chars!"W", chars!"X", chars!"0", chars!"3", chars!"4"] then
    match entry chars!"ReferenceTypes" reftype 1 with
    | .error e => .error e
    | .ok s => .ok (s ++ chars!": " ++ capitalize name ++ [' '])
  else .error .lookupError

/-- `self.pretty_name`, exfor_reference.py:94-97 -/
def prettyName (D : Dict Str (Dict Str (List Str))) (reftype name : Str) : Except PyErr Str :=
  match getRefName D reftype name with
  | .error .keyError => .ok (reftype ++ [','] ++ name)
  | r => r

/-- `l[2:-1]`, exfor_reference.py:87 -/
def detailsOf (l : List Str) : List Str := slice l 2 (l.length - 1)

/-- `self.pubyear`, exfor_reference.py:89-92 -/
def refYear (date : Str) : Except PyErr Str :=
  match parseX4Year date with
  | .error .typeError => .error .referenceParsingError
  | r => r

/-- the rest of `X4ReferenceCode.__init__`, exfor_reference.py:85-97, from the list `refcode` on -/
def refCodeOfList (D : Dict Str (Dict Str (List Str))) (l : List Str) : Except PyErr RefCode :=
  match pyIdx l 0 with
  | .error e => .error e
  | .ok reftype => match pyIdx l 1 with
    | .error e => .error e
    | .ok name => match pyIdx l (l.length - 1) with
      | .error e => .error e
      | .ok date => match refYear date with
        | .error e => .error e
        | .ok pubyear => match prettyName D reftype name with
          | .error e => .error e
          | .ok prettyName => .ok { reftype, name, details := detailsOf l, date, pubyear, prettyName }

/-- `X4ReferenceCode.__init__`, exfor_reference.py:77-97 (the test of line 78 never fails; a list has no `expandtabs`) -/
def refCodeOf (D : Dict Str (Dict Str (List Str))) : Tok → Except PyErr RefCode
  | .grp _ => .error .attributeError
  | .str x => match parseString pCommaList x with
    | .error _ => .error .referenceParsingError
    | .ok ts => refCodeOfList D (tokTexts ts)

/-- the exceptions converted by `except (KeyError, ParseException, LookupError, AssertionError)`,
exfor_field.py:367-369 and 376-378 (an `IndexError` is a `LookupError`) -/
def refReraise {α} : Except PyErr α → Except PyErr α
  | .error .keyError => .error .referenceParsingError
  | .error .parseException => .error .referenceParsingError
  | .error .lookupError => .error .referenceParsingError
  | .error .indexError => .error .referenceParsingError
  | .error .assertionError => .error .referenceParsingError
  | x => x

/-- `X4ReferenceCode(self.flatten(x))` within the `try`, exfor_field.py:361-369, 372-378. (`x` is always a list here.) -/
def refOfTok (D : Dict Str (Dict Str (List Str))) (x : Tok) : Except PyErr RefCode :=
  refReraise (match flattenRef (tokSeq x) with
    | .error e => .error e
    | .ok t => refCodeOf D t)

/-- whether `x != '='`, exfor_field.py:362 -/
def notEquals : Tok → Bool
  | .str s => decide (s ≠ ['='])
  | .grp _ => true

/-- exfor_field.py:351-379: one piece of a reference field -/
def referencesOf (D : Dict Str (Dict Str (List Str))) (hastautology : Bool) (xx : Str) : Except PyErr (List RefCode) :=
  if hastautology = true ∧ '=' ∈ xx then
    match parseString (pRefTautology (xx.length + 1)) xx with
    | .error _ => .error .referenceParsingError
    | .ok xref => mapE (refOfTok D) (xref.dropLast.filter notEquals)
  else
    match parseString (pRefCode (xx.length + 1)) xx with
    | .error e => .error e
    | .ok xref => match xref with
      | [] => .error .indexError
      | t :: _ => match refOfTok D t with
        | .error e => .error e
        | .ok r => .ok [r]

/-- the results of the steps before the first failure, exfor_field.py:361-369 -/
def okPrefix {α β : Type} (f : α → Except PyErr β) : List α → List β
  | [] => []
  | x :: l => match f x with
    | .error _ => []
    | .ok y => y :: okPrefix f l

/-- exfor_field.py:361-369: the codes of a tautology that were stored before one of them failed; from other pieces nothing is
stored when they fail -/
def referencesKeptOf (D : Dict Str (Dict Str (List Str))) (hastautology : Bool) (xx : Str) : List RefCode :=
  if hastautology = true ∧ '=' ∈ xx then
    match parseString (pRefTautology (xx.length + 1)) xx with
    | .error _ => []
    | .ok xref => okPrefix (refOfTok D) (xref.dropLast.filter notEquals)
  else []

/-- `' '.join(l)`: a list among the elements is a `TypeError`, exfor_field.py:463, 496 -/
def joinStrToks (sep : Str) (l : List Tok) : Except PyErr Str :=
  match strToks l with
  | none => .error .typeError
  | some ss => .ok (joinWith sep ss)

/-- `tt`, exfor_field.py:450-462; the second attempt takes what precedes the first `)`. -/
def authorTokens (t : Str) : Except PyErr (List Tok) :=
  match parseString (pRefCode (t.length + 1)) t with
  | .ok tt => .ok tt
  | .error _ =>
    let t' := t.takeWhile (· ≠ ')') ++ [')']
    parseString (pRefCode (t'.length + 1)) t'

/-- the author list of one pointer, exfor_field.py:449-471 -/
def authorsOfText (t : Str) : Except PyErr (List Str) :=
  match authorTokens t with
  | .error e => .error e
  | .ok [] => .error .indexError
  | .ok (x :: _) => match joinStrToks [' '] (tokSeq x) with
    | .error e => .error e
    | .ok s => match parseString pCommaList s with
      | .error e => .error e
      | .ok ts => .ok ((tokTexts ts).map title)

/-- `self.author_family_names`, exfor_field.py:472 -/
def familyName (s : Str) : Str := ((splitChar '.' s).getLast?).getD []

/-- `s[-3:]`, exfor_field.py:497 -/
def lastThree (s : Str) : Str := s.drop (s.length - 3)

/-- one institute, exfor_field.py:494-501; the first argument is the dictionary 'Institutes' -/
def instituteOf (I : Dict Str (List Str)) (i : Tok) : Except PyErr (Str × Str × Str) :=
  match tokSeq i with
  | [] => .error .indexError
  | code :: more => match tokSeq code with
    | [] => .error .indexError
    | tok :: _ =>
      let tok := tokFlat tok
      match joinStrToks [' '] more with
      | .error e => .error e
      | .ok c => match I.get? (lastThree tok) with
        | none => .ok (tok, tok, title c)
        | some rec => match pyIdx rec 0 with
          | .error e => .error e
          | .ok name => .ok (tok, name, title c)

/-- the institutes of one pointer, exfor_field.py:489-501 -/
def institutesOfText (I : Dict Str (List Str)) (s : Str) : Except PyErr (List (Str × Str × Str)) :=
  match parseString pTextField s with
  | .error e => .error e
  | .ok il => mapE (instituteOf I) il

/-- The dictionaries read from the files (exfor_utilities.py:38, exfor_field.py:486). If the institute dictionary is missing, `.keys()` of
`None` fails; here the dictionary is taken to be present. -/
structure TextDicts where
  /-- `x4Dictionaries` -/
  all : Dict Str (Dict Str (List Str))
  /-- dictionary 'Institutes' -/
  institutes : Dict Str (List Str)
  /-- dictionary 'Particles' -/
  names : Dict Str (List Str)

/-- The grammars of x4i3. exfor_grammers.py:77-155 -/
def x4Parsers (D : TextDicts) : FieldParsers Measurement where
  reaction := reactionFieldText D.names
  references := referencesOf D.all
  referencesKept := referencesKeptOf D.all
  authors := authorsOfText
  institutes := institutesOfText D.institutes

/-- The texts of a quantity. A process among the quantities is a list that equals no text (nor, in Python, another such list); it is
represented by a text which occurs nowhere else. exfor_reactions.py:217-221 -/
def quantTexts (q : List Tok) : List Str :=
  q.map fun t => match t with
    | .str s => s
    | .grp _ => ['\x00']

/-- What datasets use of the measurements: `quantity` and `reaction_list`, exfor_reactions.py:217-221, 269-276. `D` are the
dictionaries for `str`. -/
def x4RxOps (D : RxDicts) : RxOps Measurement where
  quantity
    | .rx r => some (quantTexts r.quantity)
    | _ => none
  members
    | .rx r => [quantTexts r.quantity]
    | .comb d | .iso d => (reactionList d).map (fun r => quantTexts r.quantity)
  text := Measurement.str D

end X4
