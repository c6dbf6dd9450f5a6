import Verif.Model.Field
import Verif.Py.Chars
import Verif.Py.Loop
/-! Model of BIB sections (`x4i3/exfor_section.py`) and of the constructors of the
parsed fields (`x4i3/exfor_field.py`).

`ρ` is the type of measurement objects (`X4Reaction`, `X4ReactionCombination`, …).
The grammars are a parameter of this file, so everything proved here holds
whatever the grammars accept. -/
namespace X4

/-- the attributes of an `X4ReferenceCode`, exfor_reference.py:77-97 -/
structure RefCode where
  reftype : Str
  name : Str
  details : List Str
  date : Str
  pubyear : Str
  prettyName : Str
  deriving DecidableEq, Repr

/-- the attributes `X4ReferenceField` takes from its first reference,
exfor_field.py:380-397 -/
structure RefInfo where
  reftype : Str
  name : Str
  details : List Str
  date : Str
  pubyear : Str
  pubtype : Str
  /-- `self.refs`, per pointer the reference codes (the free text stored with each of them is never used) -/
  refs : Dict Char (List RefCode)
  deriving DecidableEq, Repr

/-- What the grammars make of a piece of text (exfor_grammers.py). exfor_grammers.py:151-155 as used in exfor_field.py:152, 293, 351-379, 449-471, 489-501 -/
structure FieldParsers (ρ : Type) where
  /-- `x4reactionfield.parseString` followed by `getMeasurementType`: the measurement
  and the free text. `parseException` stands for the parser rejecting the text. -/
  reaction : Str → Except PyErr (ρ × Str)
  /-- exfor_field.py:351-379: the reference codes in one of the pieces into which the lines of a pointer are cut; the flag is
  `hastautology` -/
  references : Bool → Str → Except PyErr (List RefCode)
  /-- exfor_field.py:361-366: the reference codes of the piece that have been stored when reading it fails -/
  referencesKept : Bool → Str → List RefCode := fun _ _ => []
  /-- exfor_field.py:449-471: the author list of one pointer -/
  authors : Str → Except PyErr (List Str)
  /-- exfor_field.py:489-501: institutes (token, name, comment) of one pointer -/
  institutes : Str → Except PyErr (List (Str × Str × Str))

/-- one monitor entry: reaction, free text, column heading, exfor_field.py:234-242, 294-300 -/
structure Monitor (ρ : Type) where
  reaction : Option ρ
  text : Str
  heading : Option Str
  deriving DecidableEq, Repr

/-- The values stored in a BIB section. exfor_field.py:100-511 -/
inductive BibField (ρ : Type) where
  /-- `X4PlainField` and `X4TitleField` -/
  | plain (f : PlainField)
  | reaction (f : PlainField) (reactions : Dict Char (ρ × Str))
  | monitor (f : PlainField) (monitors : Dict Char (List (Monitor ρ)))
  | reference (f : PlainField) (info : RefInfo)
  | author (f : PlainField) (authors : List Str)
  | institute (f : PlainField) (institutes : List (Str × Str × Str))
  /-- an `X4AuthorField` whose constructor returned early (exfor_field.py:442-445): an
  empty dict without a `tag` attribute -/
  | noAuthor
  /-- Python's `None` -/
  | none
  deriving DecidableEq, Repr

variable {ρ : Type}

/-- a parse failure is re-raised as another exception, exfor_field.py:151-155, 292-298 -/
def reraise (e' : PyErr) {α} : Except PyErr α → Except PyErr α
  | .error .parseException => .error e'
  | x => x

/-- body of the loop of `X4ReactionField.__init__`, exfor_field.py:149-156 -/
def reactionOf (P : FieldParsers ρ) (kv : Char × List Str) : Except PyErr (Char × ρ × Str) :=
  match reraise .reactionParsingError (P.reaction (subStr kv.2)) with
  | .error e => .error e
  | .ok r => .ok (kv.1, r.1, r.2)

/-- `s.split(sep)` for a non-empty separator string, Python built-in, as used in exfor_field.py:287 -/
def splitStrAux (sep : Str) : Nat → Str → Str → List Str
  | 0, acc, s => [acc ++ s]
  | _, acc, [] => [acc]
  | n + 1, acc, c :: s =>
    if sep.isPrefixOf (c :: s) then acc :: splitStrAux sep n [] ((c :: s).drop sep.length)
    else splitStrAux sep n (acc ++ [c]) s
/-- `s.split(sep)`, as used in exfor_field.py:287 -/
def splitStr (sep s : Str) : List Str := splitStrAux sep (s.length + 1) [] s

/-- the inner loop over `d.split('((MONIT')[1:]`, exfor_field.py:287-290; state: `d`, `heading`.
`s.index(')')` without a `)` is a `ValueError`. -/
def monitHeading (_st : Str × Option Str) (s : Str) : Except PyErr (Str × Option Str) :=
  if ')' ∈ s then
    let a := s.takeWhile (· ≠ ')')
    .ok ('(' :: (s.drop (a.length + 1)), some ("MONIT".toList ++ a))
  else .error .valueError

/-- processing one monitor string, exfor_field.py:284-300 -/
def monitorOf (P : FieldParsers ρ) (d : Str) : Except PyErr (Monitor ρ) :=
  match (if hasSub "MONIT".toList d then
      foldE monitHeading (d, Option.none) ((splitStr "((MONIT".toList d).drop 1)
    else .ok (d, Option.none)) with
  | .error e => .error e
  | .ok dh =>
    if startsWith dh.1 "(".toList then
      match reraise .reactionParsingError (P.reaction dh.1) with
      | .error e => .error e
      | .ok r => .ok { reaction := some r.1, text := r.2, heading := dh.2 }
    else .ok { reaction := Option.none, text := dh.1, heading := dh.2 }

/-- one pointer of `X4MonitorField.__init__`, exfor_field.py:251-300 -/
def monitorsOf (P : FieldParsers ρ) (kv : Char × List Str) : Except PyErr (Char × List (Monitor ρ)) :=
  match monitorSplit kv.2 with
  | .error e => .error e
  | .ok ds =>
    match mapE (monitorOf P) ds with
    | .error e => .error e
    | .ok ms => .ok (kv.1, ms)

/-- `hastautology`, exfor_field.py:339-343 -/
def hasTautology (lines : List Str) : Bool := lines.any (fun l => slice l 0 2 == "((".toList)

/-- one pointer of the loop of `X4ReferenceField.__init__`, exfor_field.py:335-379 -/
def refsOf (P : FieldParsers ρ) (kv : Char × List Str) : Except PyErr (Char × List RefCode) :=
  match refSplit kv.2 with
  | .error e => .error e
  | .ok rs => match mapE (P.references (hasTautology kv.2)) rs with
    | .error e => .error e
    | .ok l => .ok (kv.1, l.flatten)

/-- `pubTypeMap`, exfor_field.py:314-325 -/
def pubTypeMap : Dict Str Str := [
  (chars!"A", chars!"Abstract"), (chars!"K", chars!"Abstract of Journal"), (chars!"J", chars!"Journal"),
  (chars!"C", chars!"Conf. Proc."), (chars!"S", chars!"Conf. Proc."), (chars!"P", chars!"Prog. Report"),
  (chars!"R", chars!"Lab Report"), (chars!"B", chars!"Book"), (chars!"W", chars!"Private Comm."),
  (chars!"T", chars!"Thesis"), (chars!"X", chars!"Preprint")]

/-- the attributes taken from the first reference of the first pointer (all but `refs`), exfor_field.py:382-390. (There is always a first pointer;
without one the attributes would be missing.) -/
def firstRef : Dict Char (List RefCode) → Except PyErr RefInfo
  | [] => .error .attributeError
  | (_, rs) :: _ => match pyIdx rs 0 with
    | .error e => .error e
    | .ok r => match pubTypeMap.get r.reftype with
      | .error e => .error e
      | .ok pt => .ok { reftype := r.reftype, name := r.name, details := r.details, date := r.date, pubyear := r.pubyear,
                        pubtype := pt, refs := [] }

/-- exfor_field.py:391-397: the attributes set when a reference could not be parsed; the argument is what `self.refs` contains then -/
def refFailed (refs : Dict Char (List RefCode)) : RefInfo :=
  { reftype := "?".toList, name := "Parsing failed".toList, details := ["?".toList], date := "?".toList,
    pubyear := "?".toList, pubtype := "?".toList, refs }

/-- the codes stored in `self.refs[p]` when one of the pieces cannot be read, exfor_field.py:351-379 -/
def keptPieces (P : FieldParsers ρ) (taut : Bool) : List Str → List RefCode
  | [] => []
  | xx :: r => match P.references taut xx with
    | .error _ => P.referencesKept taut xx
    | .ok l => l ++ keptPieces P taut r

/-- `self.refs` when one of the pointers cannot be read, exfor_field.py:333-379 -/
def keptRefs (P : FieldParsers ρ) : Dict Char (List Str) → Dict Char (List RefCode)
  | [] => []
  | (p, lines) :: r => match refSplit lines with
    | .error _ => [(p, [])]
    | .ok rs => match mapE (P.references (hasTautology lines)) rs with
      | .error _ => [(p, keptPieces P (hasTautology lines) rs)]
      | .ok l => (p, l.flatten) :: keptRefs P r

/-- the body of the `try`, exfor_field.py:335-390 -/
def referenceTry (P : FieldParsers ρ) (f : PlainField) : Except PyErr RefInfo :=
  match mapE (refsOf P) f.subs with
  | .error e => .error e
  | .ok refs => match firstRef refs with
    | .error e => .error e
    | .ok i => .ok { i with refs }

/-- `X4ReferenceField.__init__`, exfor_field.py:331-397: the attributes -/
def referenceInfo (P : FieldParsers ρ) (f : PlainField) : Except PyErr RefInfo :=
  match referenceTry P f with
  | .error .referenceParsingError => .ok (refFailed (keptRefs P f.subs))
  | x => x

/-- authors of one pointer, exfor_field.py:448-471. (When the text cannot be parsed, the
error message is built with `'…' + x` for a list `x`, which is a `TypeError`.) -/
def authorsOf (P : FieldParsers ρ) (kv : Char × List Str) : Except PyErr (List Str) :=
  reraise .typeError (P.authors (kv.2.map strip).flatten)

/-- institutes of one pointer, exfor_field.py:489-501 -/
def institutesOf (P : FieldParsers ρ) (kv : Char × List Str) : Except PyErr (List (Str × Str × Str)) :=
  reraise .instituteParsingError (P.institutes (subStr kv.2))

/-- the texts that mean that there is no author list, exfor_field.py:442-443 -/
def isNoAuthor (raw : List Str) : Bool :=
  hasSub "No author given".toList (joinWith ['\n'] raw) || hasSub ".NOT GIVEN.".toList (joinWith ['\n'] raw)

/-- finishing a field whose plain part has been read, `X4PlainField.__init__` first, then the rest of the constructor: exfor_field.py:145-156, 245-300, 331-397, 446-472, 484-501 -/
def finishField {α} (plain : Except PyErr PlainField) (more : PlainField → Except PyErr α)
    (mk : PlainField → α → BibField ρ) : Except PyErr (BibField ρ) :=
  match plain with
  | .error e => .error e
  | .ok f => match more f with
    | .error e => .error e
    | .ok a => .ok (mk f a)

/-- The constructor called for a field with tag `ftag`, exfor_section.py:62-75. -/
def buildField (P : FieldParsers ρ) (ftag : Option Str) (raw : List Str) : Except PyErr (BibField ρ) :=
  if ftag = some "REACTION".toList then
    finishField (PlainField.build raw) (fun f => mapE (reactionOf P) f.subs) .reaction
  else if ftag = some "MONITOR".toList then
    finishField (PlainField.build raw) (fun f => mapE (monitorsOf P) f.subs) .monitor
  else if ftag = some "REFERENCE".toList then
    finishField (PlainField.build raw) (referenceInfo P) .reference
  else if ftag = some "AUTHOR".toList then
    if isNoAuthor raw then .ok .noAuthor
    else finishField (PlainField.build raw) (fun f => match mapE (authorsOf P) f.subs with
      | .error e => .error e
      | .ok as => .ok as.flatten) .author
  else if ftag = some "INSTITUTE".toList then
    finishField (PlainField.build raw) (fun f => match mapE (institutesOf P) f.subs with
      | .error e => .error e
      | .ok is => .ok is.flatten) .institute
  else finishField (PlainField.build raw) (fun _ => .ok ()) (fun f _ => .plain f)

/-- `total_len()` of a stored value, exfor_field.py:121 -/
def BibField.totalLen : BibField ρ → Except PyErr Nat
  | .plain f | .reaction f _ | .monitor f _ | .reference f _ | .author f _ | .institute f _ => .ok f.totalLen
  | .noAuthor => .ok 0
  | .none => .error .attributeError

/-- `repr()` of a stored value, exfor_field.py:133-139; without a tag `self.tag` fails -/
def BibField.repr : BibField ρ → Except PyErr Str
  | .plain f | .reaction f _ | .monitor f _ | .reference f _ | .author f _ | .institute f _ => .ok f.repr
  | .noAuthor => .error .attributeError
  | .none => .ok "None".toList

/-- the pointer dictionary of a stored value, exfor_field.py:106-115 -/
def BibField.subs : BibField ρ → Dict Char (List Str)
  | .plain f | .reaction f _ | .monitor f _ | .reference f _ | .author f _ | .institute f _ => f.subs
  | .noAuthor => []
  | .none => []

/-- `X4BibSection.chunkify`, exfor_section.py:93-116. State: `first`, the open field, the
fields so far. -/
def bibLoop : Bool → List Str → List (List Str) → List Str → List (List Str)
  | _, field, section_, [] => section_ ++ [field]
  | first, field, section_, line :: ls =>
    let tag := strip (slice line 0 10)
    if tag = "BIB".toList ∨ tag = "ENDBIB".toList then bibLoop first field section_ ls
    else if first then bibLoop false (field ++ [line]) section_ ls
    else if tag ≠ [] then bibLoop false [line] (section_ ++ [field]) ls
    else bibLoop false (field ++ [line]) section_ ls
/-- `X4BibSection.chunkify`, exfor_section.py:93-116 -/
def bibChunkify (sec : List Str) : List (List Str) := bibLoop true [] [] sec

/-- `X4BibSection`, exfor_section.py:51-75 -/
structure BibSection (ρ : Type) where
  fields : Dict (Option Str) (BibField ρ)
  sortedKeys : List (Option Str)
  deriving DecidableEq, Repr

/-- loop body of the constructor, exfor_section.py:59-75 -/
def bibStep (P : FieldParsers ρ) (b : BibSection ρ) (field : List Str) : Except PyErr (BibSection ρ) :=
  match extractX4FieldType field with
  | .error e => .error e
  | .ok ftag =>
    match buildField P ftag field with
    | .error e => .error e
    | .ok v => .ok { fields := b.fields.set ftag v, sortedKeys := b.sortedKeys ++ [ftag] }

/-- `X4BibSection.__init__`, exfor_section.py:56-75 -/
def BibSection.build (P : FieldParsers ρ) (sec : List Str) : Except PyErr (BibSection ρ) :=
  foldE (bibStep P) { fields := [], sortedKeys := [] } (bibChunkify sec)

/-- `totalLen`, exfor_section.py:118-119 -/
def BibSection.totalLen (b : BibSection ρ) : Except PyErr Nat :=
  match mapE (fun kv => kv.2.totalLen) b.fields with
  | .error e => .error e
  | .ok ls => .ok ls.sum

/-- `repr(self[i])` inside `X4BibSection.__repr__`, exfor_section.py:88-89 -/
def BibSection.fieldRepr (b : BibSection ρ) (k : Option Str) : Except PyErr Str :=
  match b.fields.get k with
  | .error e => .error e
  | .ok v => v.repr

/-- `X4BibSection.__repr__`, exfor_section.py:85-91 -/
def BibSection.repr (b : BibSection ρ) : Except PyErr Str :=
  match b.totalLen with
  | .error e => .error e
  | .ok n =>
    match mapE b.fieldRepr b.sortedKeys with
    | .error e => .error e
    | .ok rs => .ok (ljust "BIB".toList 11 ++ rjust (natStr b.fields.length) 11 ++ rjust (natStr n) 11 ++ ['\n'] ++
        (rs.flatMap fun r => r ++ ['\n']) ++ ljust "ENDBIB".toList 11 ++ rjust (natStr n) 11)

/-- `X4BibMetaData`, exfor_section.py:124-157. Strings "None" are modelled as `none`. -/
structure BibMeta (ρ : Type) where
  author : Option (List Str)
  institute : Option (BibField ρ)
  /-- the stored TITLE value whose `str()` is taken; `.none` is the text "None" -/
  title : BibField ρ
  reference : Option (BibField ρ)
  pubType : Option Str
  year : Option Str
  subent : Str
  deriving DecidableEq, Repr

/-- `bib['AUTHOR'].authors`, exfor_section.py:134, exfor_field.py:440, 471 -/
def BibField.authors : BibField ρ → Except PyErr (List Str)
  | .author _ a => .ok a
  | .noAuthor => .ok []
  | _ => .error .attributeError

/-- `bib['REFERENCE'].pubtype`, `.pubyear`, exfor_section.py:143-145 -/
def BibField.pub : BibField ρ → Except PyErr (Str × Str)
  | .reference _ i => .ok (i.pubtype, i.pubyear)
  | _ => .error .attributeError

/-- `self.author`, exfor_section.py:133-136 -/
def BibSection.metaAuthor (b : BibSection ρ) : Except PyErr (Option (List Str)) :=
  match b.fields.get? (some "AUTHOR".toList) with
  | Option.none => .ok Option.none
  | some a => match a.authors with
    | .error e => .error e
    | .ok l => .ok (some l)

/-- the section after `bib.setdefault('TITLE')`, exfor_section.py:141 -/
def BibSection.defaultTitle (b : BibSection ρ) : BibSection ρ :=
  if b.fields.has (some "TITLE".toList) then b
  else { b with fields := b.fields.set (some "TITLE".toList) .none }

/-- `X4BibSection.meta` / `X4BibMetaData.__init__`, exfor_section.py:121-157. The section is
changed by `bib.setdefault('TITLE')`, so the new section is returned too. -/
def BibSection.meta (b : BibSection ρ) (subent : Str) : Except PyErr (BibMeta ρ × BibSection ρ) :=
  match b.metaAuthor with
  | .error e => .error e
  | .ok author =>
    let b' := b.defaultTitle
    let title := (b'.fields.get? (some "TITLE".toList)).getD .none
    let institute := b.fields.get? (some "INSTITUTE".toList)
    match b.fields.get? (some "REFERENCE".toList) with
    | Option.none => .ok ({ author, institute, title, reference := Option.none, pubType := Option.none,
                            year := Option.none, subent }, b')
    | some r =>
      match r.pub with
      | .error e => .error e
      | .ok p => .ok ({ author, institute, title, reference := some r, pubType := some p.1,
                        year := some p.2, subent }, b')

end X4
