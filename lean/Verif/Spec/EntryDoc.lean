import Verif.Spec.DataTable
import Verif.Py.Chars
/-! How entries are written in the EXFOR format: documents and their lines. -/
namespace X4

/-- the columns of a table with their headings and units -/
structure TableDoc where
  labels : List Str
  units : List Str
  rows : List (List Str)
  deriving DecidableEq

/-- the lines of a logical row: six cells of 11 columns on each -/
def cellLines (cells : List Str) : List Str :=
  (List.range (physLines cells.length)).map fun k => (((cells.drop (6 * k)).take 6).map fun c => ljust c 11).flatten

/-- a counter in 11 columns -/
def counter (n : Nat) : Str := rjust (natStr n) 11

/-- the counted lines of a table -/
def TableDoc.body (t : TableDoc) : List Str := cellLines t.labels ++ cellLines t.units ++ t.rows.flatMap cellLines

/-- a DATA or COMMON section -/
def TableDoc.lines (tag : Str) (t : TableDoc) : List Str :=
  (ljust tag 11 ++ counter t.labels.length ++ counter t.rows.length) :: (t.body ++ [ljust (chars!"END" ++ tag) 11 ++ counter t.body.length])

/-- A text that is not taken for the beginning or the end of something. -/
def NoKeyword (s : Str) : Prop := ∀ w ∈ [chars!"END", chars!"SUBENT", chars!"ENTRY", chars!"NOSUBENT"], startsWith s w = false

/-- the text of a cell -/
def CellText (c : Str) : Prop := strip c = c ∧ c.length ≤ 11 ∧ '\n' ∉ c ∧ NoKeyword c

structure TableDoc.wf (t : TableDoc) : Prop where
  cols : t.labels ≠ []
  few : t.labels.length < 10 ^ 10 ∧ t.rows.length < 10 ^ 10
  units : t.units.length = t.labels.length
  rect : ∀ r ∈ t.rows, r.length = t.labels.length
  labelCells : ∀ c ∈ t.labels, CellText c
  unitCells : ∀ c ∈ t.units, CellText c
  rowCells : ∀ r ∈ t.rows, ∀ c ∈ r, CellText c

/-- a field of a BIB section: the keyword, and for each line the pointer in column 11 and the text after it -/
structure FieldDoc where
  tag : Str
  first : Char × Str
  rest : List (Char × Str)
  deriving DecidableEq

def FieldDoc.lines (f : FieldDoc) : List Str :=
  (ljust f.tag 10 ++ f.first.1 :: f.first.2) :: f.rest.map fun l => List.replicate 10 ' ' ++ l.1 :: l.2

structure FieldDoc.wf (f : FieldDoc) : Prop where
  tag : f.tag ≠ [] ∧ strip f.tag = f.tag ∧ f.tag.length ≤ 10 ∧ '\n' ∉ f.tag ∧ NoKeyword f.tag
  notBib : f.tag ≠ chars!"BIB"
  lines : ∀ l ∈ f.first :: f.rest, l.1 ≠ '\n' ∧ '\n' ∉ l.2

/-- a subentry -/
structure SubDoc where
  acc : Str
  bib : List FieldDoc
  common : Option TableDoc
  data : Option TableDoc
  deriving DecidableEq

def SubDoc.bibLines (s : SubDoc) : List Str :=
  (ljust chars!"BIB" 11 ++ counter s.bib.length ++ counter (s.bib.flatMap FieldDoc.lines).length) ::
    (s.bib.flatMap FieldDoc.lines ++ [ljust chars!"ENDBIB" 11 ++ counter (s.bib.flatMap FieldDoc.lines).length])

/-- a section that may be missing -/
def optTable (tag : Str) : Option TableDoc → List Str
  | none => [ljust (chars!"NO" ++ tag) 11 ++ counter 0 ++ counter 0]
  | some t => t.lines tag

def SubDoc.body (s : SubDoc) : List Str := s.bibLines ++ optTable chars!"COMMON" s.common ++ optTable chars!"DATA" s.data

def SubDoc.lines (s : SubDoc) : List Str :=
  (ljust chars!"SUBENT" 14 ++ s.acc) :: (s.body ++ [ljust chars!"ENDSUBENT" 11 ++ counter (s.body.length)])

structure SubDoc.wf (s : SubDoc) : Prop where
  acc : s.acc.length = 8 ∧ ∀ c ∈ s.acc, isSpace c = false
  some : s.bib ≠ []
  fields : ∀ f ∈ s.bib, f.wf
  tags : (s.bib.map FieldDoc.tag).Nodup
  common : ∀ t ∈ s.common, t.wf
  data : ∀ t ∈ s.data, t.wf

/-- an entry -/
structure EntryDoc where
  acc : Str
  subs : List SubDoc
  deriving DecidableEq

/-- the lines of the file -/
def EntryDoc.lines (d : EntryDoc) : List Str :=
  (ljust chars!"ENTRY" 17 ++ d.acc) :: (d.subs.flatMap SubDoc.lines ++ [ljust chars!"ENDENTRY" 11 ++ counter d.subs.length])

/-- the lines as they are read, with their line ends -/
def EntryDoc.file (d : EntryDoc) : List Str := d.lines.map (· ++ ['\n'])

structure EntryDoc.wf (d : EntryDoc) : Prop where
  acc : d.acc.length = 5
  some : d.subs ≠ []
  subs : ∀ s ∈ d.subs, s.wf ∧ s.acc.take 5 = d.acc
  distinct : (d.subs.map SubDoc.acc).Nodup

end X4
