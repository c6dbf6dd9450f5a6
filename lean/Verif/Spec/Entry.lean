import Verif.Py.Str
/-! What an entry file and a raw entry look like. -/
namespace X4

/-- the lines that open and close parts of an entry file -/
def isFrame (l : Str) : Prop :=
  startsWith l "ENTRY".toList ∨ startsWith l "ENDENTRY".toList ∨ startsWith l "NOSUBENT".toList

/-- the same test as a Boolean -/
def isFrameB (l : Str) : Bool :=
  startsWith l "ENTRY".toList || startsWith l "ENDENTRY".toList || startsWith l "NOSUBENT".toList

/-- one subentry of an entry file -/
structure SubentText where
  head : Str
  body : List Str
  tail : Str
  deriving DecidableEq

def SubentText.lines (s : SubentText) : List Str := s.head :: s.body ++ [s.tail]
/-- the accession number: columns 14-21 of the SUBENT line -/
def SubentText.accession (s : SubentText) : Str := strip ((s.head.drop 14).take 8)
structure SubentText.Ok (s : SubentText) : Prop where
  head : startsWith s.head "SUBENT".toList ∧ 22 ≤ s.head.length
  body : ∀ l ∈ s.body, ¬ isFrame l ∧ ¬ startsWith l "SUBENT".toList ∧ ¬ startsWith l "ENDSUBENT".toList
  tail : startsWith s.tail "ENDSUBENT".toList

/-- An entry file: subentries, with other lines (ENTRY, ENDENTRY, NOSUBENT lines, or any
line that neither begins nor ends a subentry) between them. -/
inductive EntryFile : List Str → List SubentText → Prop
  | nil : EntryFile [] []
  | other (l : Str) (ls : List Str) (ss : List SubentText)
      (hl : ¬ startsWith l "SUBENT".toList ∧ ¬ startsWith l "ENDSUBENT".toList) (h : EntryFile ls ss) : EntryFile (l :: ls) ss
  | subent (s : SubentText) (ls : List Str) (ss : List SubentText) (hs : s.Ok) (h : EntryFile ls ss) :
      EntryFile (s.lines ++ ls) (s :: ss)

/-- is this accession number asked for? (`none`: all are) -/
def requested (subents : Option (List Str)) (acc : Str) : Bool :=
  match subents with
  | none => true
  | some l => decide (acc ∈ l)

/-- first blank-separated word of a text -/
def firstWord (l : Str) : Option Str := (splitWs l).head?
/-- the 8-column accession field of a subentry text: columns 14-21 of its first line
whose first word is SUBENT -/
def accessionField (text : Str) : Option Str :=
  ((splitChar '\n' text).find? fun l => firstWord l = some "SUBENT".toList).map fun l => (l.drop 14).take 8
/-- the entry number of a raw entry: taken from its first element whose first word is
ENTRY or SUBENT -/
def entryNumber (raw : List Str) : Option Str :=
  (raw.find? fun x => firstWord x = some "ENTRY".toList ∨ firstWord x = some "SUBENT".toList).map fun x =>
    if firstWord x = some "ENTRY".toList then strip ((x.drop 14).take 8) else (x.drop 14).take 5

end X4
