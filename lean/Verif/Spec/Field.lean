import Verif.Py.Str
/-! What a text field of a BIB section means: tag in columns 0-9, pointer in column
10, text in columns 11-65. -/
namespace X4

/-- the pointer given explicitly on a line -/
def explicitPointer (line : Str) : Option Char :=
  match line[10]? with
  | some c => if c = ' ' then none else some c
  | none => none

/-- the pointer in force after some lines: the last explicit one, blank if none -/
def pointerInForce (lines : List Str) : Char := ((lines.filterMap explicitPointer).getLast?).getD ' '

/-- the text area of a line without trailing blanks -/
def textArea (line : Str) : Str := rstrip ((line.drop 11).take 55)

/-- the texts of the lines for which the pointer in force is `p`, in order -/
def textUnder (lines : List Str) (p : Char) : List Str :=
  (List.range lines.length).filterMap fun k =>
    if pointerInForce (lines.take (k + 1)) = p then (lines[k]?).map textArea else none

/-- lines of one pointer block -/
def blockLines (b : Char × List Str) : List Str :=
  match b.2 with
  | [] => []
  | x :: r => (List.replicate 10 ' ' ++ b.1 :: x) :: r.map fun y => List.replicate 11 ' ' ++ y

/-- The canonical text of a field: every pointer once, the tag on the first line. -/
def canonLines (tag : Str) (blocks : List (Char × List Str)) : List Str :=
  match blocks.flatMap blockLines with
  | [] => []
  | l :: ls => (ljust tag 10 ++ l.drop 10) :: ls

/-- Conditions on a canonical field: a stripped tag of at most 10 characters, non-empty
blocks with strictly increasing pointers not below blank, and lines without trailing
blanks of at most 66 columns. -/
structure CanonField (tag : Str) (blocks : List (Char × List Str)) : Prop where
  tagLen : tag.length ≤ 10
  tagStrip : strip tag = tag
  nonempty : blocks ≠ []
  block : ∀ b ∈ blocks, b.2 ≠ [] ∧ ' '.toNat ≤ b.1.toNat ∧ ∀ x ∈ b.2, x.length ≤ 55 ∧ rstrip x = x
  sorted : blocks.Pairwise fun a b => a.1.toNat < b.1.toNat

end X4

namespace X4

/-! ### MONITOR fields -/

/-- the line begins (after blanks) with an opening parenthesis -/
def opensParen (l : Str) : Prop := startsWith (strip l) "(".toList = true
/-- as many `(` as `)` -/
def balanced (l : Str) : Prop := l.count '(' = l.count ')'

/-- the line(s) of one parenthesised code: one line, or two when the first is not balanced -/
inductive CodeLines : List Str → Prop
  | one (l : Str) (h : opensParen l) (hb : balanced l) : CodeLines [l]
  | two (l m : Str) (h : opensParen l) (hb : ¬ balanced l) : CodeLines [l, m]

/-- `MonEntries lines entries`: each entry is a parenthesised code followed by the
free text up to the next line opening a parenthesis. -/
inductive MonEntries : List Str → List Str → Prop
  | nil : MonEntries [] []
  | entry (code text rest : List Str) (es : List Str) (hc : CodeLines code)
      (ht : ∀ l ∈ text, ¬ opensParen l) (hr : ∀ l ∈ rest.head?, opensParen l) (h : MonEntries rest es) :
      MonEntries (code ++ text ++ rest) ((code.flatten ++ text.flatMap fun l => ' ' :: strip l) :: es)

/-- a monitor field may begin with free text, which forms an entry of its own -/
inductive MonField : List Str → List Str → Prop
  | coded (ls es : List Str) (h : MonEntries ls es) : MonField ls es
  | free (l : Str) (text rest es : List Str) (h0 : ¬ opensParen l) (ht : ∀ m ∈ text, ¬ opensParen m)
      (hr : ∀ l ∈ rest.head?, opensParen l) (h : MonEntries rest es) :
      MonField (l :: text ++ rest) ((strip l ++ text.flatMap fun m => ' ' :: strip m) :: es)

/-! ### REFERENCE fields -/

/-- After these lines we are inside a multi-line group `((…=…` not yet closed by `))`. -/
def InTautology (pre : List Str) : Prop :=
  ∃ a l b, pre = a ++ l :: b ∧ l.take 2 = "((".toList ∧ ∀ m ∈ l :: b, hasSub "))".toList m = false

/-- After the lines `pre`, line `l` begins a new reference. -/
def OpensRef (pre : List Str) (l : Str) : Prop :=
  l.take 2 = "((".toList ∨ (l.take 1 = "(".toList ∧ ¬ InTautology pre)

end X4
