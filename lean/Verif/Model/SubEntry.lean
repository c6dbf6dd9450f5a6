import Verif.Model.Bib
import Verif.Model.DataSection
/-! Model of `x4i3/exfor_subentry.py`. -/
namespace X4
variable {ρ : Type}

/-- `extractX4SubEntryIndex`, exfor_subentry.py:32-44 -/
def extractX4SubEntryIndex : List Str → Option Str
  | [] => none
  | line :: ls =>
    if (splitWs (strip line)).head? = some "SUBENT".toList then some (slice line 14 22)
    else extractX4SubEntryIndex ls

/-- the names of sections, exfor_subentry.py:47-59, 98-123 -/
def isSectionName (t : Str) : Bool := t = "BIB".toList || t = "DATA".toList || t = "COMMON".toList

/-- `extractX4SectionType`, exfor_subentry.py:47-59 -/
def extractX4SectionType : List Str → Option Str
  | [] => none
  | line :: ls =>
    if isSectionName (strip (slice line 0 10)) then some (strip (slice line 0 10))
    else extractX4SectionType ls

/-- `X4SubEntry.chunkify`, exfor_subentry.py:98-123 -/
def subentryChunkify (sub : List Str) : List (List Str) :=
  chunkLoop (fun l => isSectionName (tag11 l)) (fun l => slice l 0 3 = "END".toList) [] none sub

/-- the sections, exfor_subentry.py:67-82 -/
inductive Sec (ρ : Type) where
  | bib (b : BibSection ρ)
  | data (d : DataSection)
  deriving DecidableEq

/-- `X4SubEntry`, exfor_subentry.py:62-82 (`hascommon` is `'COMMON' in self`) -/
structure SubEntry (ρ : Type) where
  accnum : Option Str
  sections : Dict Str (Sec ρ)
  sortedKeys : List Str
  deriving DecidableEq

/-- loop body of the constructor; `None + " is not…"` is a `TypeError`, exfor_subentry.py:67-82 -/
def sectionStep (P : FieldParsers ρ) (d : Dict Str (Sec ρ)) (sec : List Str) : Except PyErr (Dict Str (Sec ρ)) :=
  match extractX4SectionType sec with
  | none => .error .typeError
  | some tag =>
    if tag = "BIB".toList then
      match BibSection.build P sec with
      | .error e => .error e
      | .ok b => .ok (d.set tag (.bib b))
    else
      match DataSection.build tag sec with
      | .error e => .error e
      | .ok s => .ok (d.set tag (.data s))

/-- `X4SubEntry.__init__`, exfor_subentry.py:67-82, for a list of lines -/
def SubEntry.build (P : FieldParsers ρ) (lines : List Str) : Except PyErr (SubEntry ρ) :=
  match foldE (sectionStep P) [] (subentryChunkify lines) with
  | .error e => .error e
  | .ok d => .ok { accnum := extractX4SubEntryIndex lines, sections := d, sortedKeys := sortBy strLe d.keys }

/-- `repr` of a section, exfor_section.py:85-91, 294-309 -/
def Sec.repr : Sec ρ → Except PyErr Str
  | .bib b => b.repr
  | .data d => .ok d.repr

/-- `repr(self[i])`, exfor_subentry.py:84-89 -/
def SubEntry.secRepr (s : SubEntry ρ) (k : Str) : Except PyErr Str :=
  match s.sections.get k with
  | .error e => .error e
  | .ok v => v.repr

/-- `X4SubEntry.__repr__`, exfor_subentry.py:84-89. `None.ljust` is an `AttributeError`. -/
def SubEntry.repr (s : SubEntry ρ) : Except PyErr Str :=
  match s.accnum with
  | none => .error .attributeError
  | some acc =>
    match mapE s.secRepr s.sortedKeys with
    | .error e => .error e
    | .ok rs => .ok (ljust "SUBENT".toList 11 ++ ljust acc 11 ++ ['\n'] ++ (rs.flatMap fun r => r ++ ['\n']) ++
        ljust "ENDSUBENT".toList 11)

end X4
