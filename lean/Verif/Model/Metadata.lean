import Verif.Model.TextFields
/-! Model of the printed metadata: `__str__` of the parsed fields (`x4i3/exfor_field.py`), of reference codes
(`x4i3/exfor_reference.py`), `X4BibMetaData` (`x4i3/exfor_section.py`), `X4EntryMetaData` (`x4i3/exfor_entry.py`). -/
namespace X4
variable {ρ : Type}

/-- `X4ReferenceCode.__repr__`, exfor_reference.py:120-122 -/
def RefCode.repr (r : RefCode) : Str :=
  r.reftype ++ [','] ++ r.name ++ [','] ++ joinWith [','] (r.details.map strip) ++ [','] ++ r.date

/-- `X4ReferenceCode.__str__`, exfor_reference.py:124-126 -/
def RefCode.str (r : RefCode) : Str :=
  r.prettyName ++ joinWith chars!", " (r.details.map strip) ++ chars!" (" ++ r.pubyear ++ [')']

/-- one pointer of a printed reference field, exfor_field.py:413-418 -/
def pointerRefs (kv : Char × List RefCode) : Str :=
  (if kv.1 = ' ' then [] else ['[', kv.1, ']']) ++ joinWith chars!"; " (kv.2.map RefCode.str)

/-- `X4ReferenceField.__str__`, exfor_field.py:410-419 -/
def refsStr (refs : Dict Char (List RefCode)) : Str := joinWith chars!"; " (refs.map pointerRefs)

/-- `X4AuthorField.__str__`, exfor_field.py:474-478 -/
def authorsStr (authors : List Str) : Str :=
  if authors = [] then chars!"No author given" else joinWith chars!", " authors

/-- one institute of the printed list, exfor_field.py:507-510 -/
def instituteStr (i : Str × Str × Str) : Str :=
  if i.2.2 ≠ [] then i.2.1 ++ chars!" (" ++ i.2.2 ++ [')'] else i.2.1

/-- `X4InstituteField.__str__`, exfor_field.py:503-511 -/
def institutesStr (l : List (Str × Str × Str)) : Str := joinWith chars!"; " (l.map instituteStr)

/-- `str(x)` for the values that metadata holds, exfor_section.py:164-165, 173, 191-192. A REFERENCE or INSTITUTE tag
always gives the constructor of that name (exfor_section.py:66-71), so the last line is never reached. -/
def BibField.metaStr : BibField ρ → Str
  | .reference _ i => refsStr i.refs
  | .institute _ l => institutesStr l
  | .plain f => f.str
  | .author _ a => authorsStr a
  | .noAuthor => authorsStr []
  | _ => chars!"None"

/-- an attribute that may be the text 'None', exfor_section.py:140, 147-149 -/
def optFieldStr : Option (BibField ρ) → Str
  | none => chars!"None"
  | some f => f.metaStr

/-- The attributes of an `X4BibMetaData` that are printed, exfor_section.py:125. `none` is the text 'None'. -/
structure MetaRec (ρ : Type) where
  author : Option (List Str)
  title : Str
  year : Str
  institute : Option (BibField ρ)
  reference : Option (BibField ρ)
  subent : Str

/-- the attributes after `X4BibMetaData(bib=…, subent=…)`, exfor_section.py:133-149, 157 -/
def BibMeta.record (m : BibMeta ρ) : MetaRec ρ :=
  { author := m.author, title := m.title.titleText, year := m.year.getD chars!"None", institute := m.institute,
    reference := m.reference, subent := m.subent }

/-- the attributes of a dataset, exfor_dataset.py:50-57 -/
def DsMeta.record (m : DsMeta ρ) : MetaRec ρ :=
  { author := m.author, title := m.title.getD chars!"None", year := m.year.getD chars!"None", institute := m.institute,
    reference := m.reference, subent := m.subent.getD chars!"None" }

/-- what iterating over `self.author` gives: the authors, or the characters of the text 'None', exfor_section.py:136, 160, 169-172 -/
def authorItems : Option (List Str) → List Str
  | none => [['N'], ['o'], ['n'], ['e']]
  | some l => l

/-- `author_string`, exfor_section.py:169-172, 180-184 -/
def authorString (a : List Str) : Str :=
  if a.length > 2 then joinWith chars!", " (a.take 2) ++ chars!", et al." else joinWith chars!", " a

/-- `X4BibMetaData.legend`, exfor_section.py:178-184 -/
def MetaRec.legend (m : MetaRec ρ) : Str := ['('] ++ m.year ++ chars!") " ++ authorString (authorItems m.author)

/-- `str(self.reference.date)`, exfor_section.py:175; a text has no attribute `date` -/
def refDate : Option (BibField ρ) → Except PyErr Str
  | some (.reference _ i) => .ok i.date
  | _ => .error .attributeError

/-- `X4BibMetaData.citation`, exfor_section.py:168-176 -/
def MetaRec.citation (m : MetaRec ρ) : Except PyErr Str :=
  match refDate m.reference with
  | .error e => .error e
  | .ok date => .ok (authorString (authorItems m.author) ++ chars!", " ++ optFieldStr m.reference ++
      chars!";  Data taken from the EXFOR database, file EXFOR " ++ m.subent ++ chars!" dated " ++ date ++
      chars!", retrieved from the IAEA Nuclear Data Services website.")

/-- the lines of the header, each behind a prefix, exfor_section.py:159-166, 186-193 -/
def MetaRec.lines (pre : Str) (m : MetaRec ρ) : Str :=
  joinWith ['\n'] [pre ++ chars!"Authors:   " ++ joinWith chars!", " (authorItems m.author),
    pre ++ chars!"Title:     " ++ m.title, pre ++ chars!"Year:      " ++ m.year,
    pre ++ chars!"Institute: " ++ optFieldStr m.institute, pre ++ chars!"Reference: " ++ optFieldStr m.reference,
    pre ++ chars!"Subent:    " ++ m.subent]

/-- `X4BibMetaData.xmgraceHeader`, exfor_section.py:159-166 (`COMMENTSTRING` is '#', exfor_utilities.py:39) -/
def MetaRec.xmgraceHeader (m : MetaRec ρ) : Str := m.lines chars!"#  "
/-- `X4BibMetaData.__repr__`, exfor_section.py:186-193 -/
def MetaRec.repr (m : MetaRec ρ) : Str := m.lines []

/-! ### entries -/

/-- `X4EntryMetaData`, exfor_entry.py:355-364 -/
structure EntryMeta (ρ : Type) where
  accnum : Str
  deleted : Bool
  subentryaccnums : List (Option Str)
  bibMeta : BibMeta ρ

/-- `X4Entry.meta` and `X4EntryMetaData.__init__`, exfor_entry.py:352, 357-364. (The change of the BIB section made by `meta` is not returned.) -/
def Entry.meta (e : Entry ρ) : Except PyErr (EntryMeta ρ) :=
  match e.deleted with
  | .error e => .error e
  | .ok deleted => match e.sortedKeys with
    | .error e => .error e
    | .ok ks => match e.mainBib with
      | .error e => .error e
      | .ok b => match b.meta (e.accnum ++ chars!"001") with
        | .error e => .error e
        | .ok m => .ok { accnum := e.accnum, deleted, subentryaccnums := ks, bibMeta := m.1 }

/-- the text for a deleted entry, exfor_entry.py:368, 375, 381 -/
def EntryMeta.deletedText (m : EntryMeta ρ) : Str := chars!"ENTRY " ++ m.accnum ++ chars!" DELETED"

/-- `X4EntryMetaData.xmgraceHeader`, exfor_entry.py:366-371 -/
def EntryMeta.xmgraceHeader (m : EntryMeta ρ) : Str :=
  if m.deleted then m.deletedText
  else chars!"#Exfor Entry " ++ m.accnum ++ ['\n'] ++ m.bibMeta.record.xmgraceHeader

/-- `s.replace(old, new)` for a non-empty `old` (a Python built-in), as used in exfor_entry.py:376; the number bounds the length -/
def replaceStrAux (old new : Str) : Nat → Str → Str
  | 0, s => s
  | _, [] => []
  | n + 1, c :: s =>
    if old.isPrefixOf (c :: s) then new ++ replaceStrAux old new n ((c :: s).drop old.length)
    else c :: replaceStrAux old new n s
/-- `s.replace(old, new)`, exfor_entry.py:376 -/
def replaceStr (old new s : Str) : Str := replaceStrAux old new (s.length + 1) s

/-- `X4EntryMetaData.citation`, exfor_entry.py:373-376 -/
def EntryMeta.citation (m : EntryMeta ρ) : Except PyErr Str :=
  if m.deleted then .ok m.deletedText
  else match m.bibMeta.record.citation with
    | .error e => .error e
    | .ok s => .ok (replaceStr chars!"?????.???" m.accnum s)

/-- `X4EntryMetaData.legend`, exfor_entry.py:378-382 -/
def EntryMeta.legend (m : EntryMeta ρ) : Str := if m.deleted then m.deletedText else m.bibMeta.record.legend

end X4
