import Mathlib.Data.List.Forall2
import Verif.Spec.EntryDoc
import Verif.Spec.Entry
/-! The ways in which an entry can be laid out in a file: other counters and dates, cells anywhere in their columns, lines with and without the
blanks at their end, text after column 66. -/
namespace X4

/-- A line whose first 11 columns hold only the word. -/
def KeywordLine (w l : Str) : Prop := '\n' ∉ l ∧ ∃ r, l = w ++ r ∧ ∀ c ∈ r.take (11 - w.length), c = ' '

/-- A line that has the texts of the cells in its columns of width 11. -/
def ShowsCells (cells : List Str) (l : Str) : Prop := '\n' ∉ l ∧ ∀ (k : Nat) (c : Str), cells[k]? = some c → strip ((l.drop (11 * k)).take 11) = c

/-- The lines of a logical row, with six cells on each. The lines of a row of more than six cells end at column 66. -/
structure ShowsRow (cells : List Str) (ls : List Str) : Prop where
  count : ls.length = physLines cells.length
  shows : ∀ (k : Nat) (l : Str), ls[k]? = some l → ShowsCells ((cells.drop (6 * k)).take 6) l
  short : cells.length ≤ 6 ∨ ∀ l ∈ ls, l.length ≤ 66

/-- The second counter of a table: its rows, its rows with the headings and units (as in COMMON sections), or its lines. -/
def RowCount (t : TableDoc) (n : Nat) : Prop :=
  n = t.rows.length ∨ n = t.rows.length + 2 ∨ n = (t.rows.length + 2) * physLines t.labels.length

/-- A DATA or COMMON section with this table. -/
def TableLayout (tag : Str) (t : TableDoc) (ls : List Str) : Prop :=
  ∃ head n rows last, ls = head :: (rows.flatten ++ [last]) ∧ KeywordLine tag head ∧
    splitWs (head.take 33) = [tag, natStr t.labels.length, natStr n] ∧ RowCount t n ∧
    List.Forall₂ ShowsRow (t.labels :: t.units :: t.rows) rows ∧ KeywordLine (chars!"END" ++ tag) last

/-- A section that may be missing, with or without a line that says so. -/
def OptLayout (tag : Str) : Option TableDoc → List Str → Prop
  | none, ls => ls = [] ∨ ∃ l, ls = [l] ∧ KeywordLine (chars!"NO" ++ tag) l
  | some t, ls => TableLayout tag t ls

/-- The lines have the same text in columns 1-66. -/
def SameColumns (l l' : Str) : Prop := (ljust l 66).take 66 = (ljust l' 66).take 66

/-- The lines differ in the number of blanks at their end. -/
def UpToBlanks (l l' : Str) : Prop := ∃ t a b, l = t ++ List.replicate a ' ' ∧ l' = t ++ List.replicate b ' '

/-- A field of a BIB section: what is after column 66 does not matter, except in a list of authors. -/
def FieldLayout (f : FieldDoc) (ls : List Str) : Prop :=
  List.Forall₂ (fun l l' => '\n' ∉ l' ∧ SameColumns l l' ∧ (f.tag = chars!"AUTHOR" → UpToBlanks l l')) f.lines ls

/-- A BIB section with these fields. -/
def BibLayout (fs : List FieldDoc) (ls : List Str) : Prop :=
  ∃ head fields last, ls = head :: (fields.flatten ++ [last]) ∧ KeywordLine chars!"BIB" head ∧
    List.Forall₂ FieldLayout fs fields ∧ KeywordLine chars!"ENDBIB" last

/-- A subentry: after the accession number the first line has any text, such as dates. -/
def SubLayout (s : SubDoc) (ls : List Str) : Prop :=
  ∃ more bib common data last, ls = (ljust chars!"SUBENT" 14 ++ s.acc ++ more) :: (bib ++ common ++ data ++ [last]) ∧ '\n' ∉ more ∧
    BibLayout s.bib bib ∧ OptLayout chars!"COMMON" s.common common ∧ OptLayout chars!"DATA" s.data data ∧ KeywordLine chars!"ENDSUBENT" last

/-- A file with these subentries, and before, between and after them any lines that do not begin or end a subentry. -/
inductive FileLayout : List SubDoc → List Str → Prop
  | nil : FileLayout [] []
  | other (l : Str) {subs : List SubDoc} {ls : List Str} (h1 : startsWith l chars!"SUBENT" = false) (h2 : startsWith l chars!"ENDSUBENT" = false)
      (h : FileLayout subs ls) : FileLayout subs (l :: ls)
  | sub {s : SubDoc} {lines : List Str} {subs : List SubDoc} {ls : List Str} (h1 : SubLayout s lines) (h : FileLayout subs ls) :
      FileLayout (s :: subs) (lines.map (· ++ ['\n']) ++ ls)

end X4
