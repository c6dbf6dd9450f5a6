import Verif.Spec.Field
import Verif.Py.Chars
import Verif.Model.Bib
/-! The written form of the text under one pointer of a MONITOR field (EXFOR Basics, LEXFOR "Monitor"): free text, then monitor
codes, each optionally with the heading of the column it refers to, and each followed by free text. -/
namespace X4

/-- one monitor: `(79-AU-197(N,G)79-AU-198,,SIG) free text` or `((MONIT1)79-AU-197(N,G)79-AU-198,,SIG) free text` -/
structure MonEntry where
  /-- what follows the word MONIT in the heading -/
  head : Option Str
  /-- the code after its opening parenthesis, and what follows on the line -/
  rest : Str
  /-- where the line is continued on a second one -/
  cut : Option Nat
  /-- lines of free text -/
  more : List Str

/-- the code line -/
def MonEntry.first (m : MonEntry) : Str :=
  match m.head with
  | none => '(' :: m.rest
  | some a => chars!"((MONIT" ++ a ++ ')' :: m.rest

/-- the lines of the monitor -/
def MonEntry.lines (m : MonEntry) : List Str :=
  (match m.cut with
    | none => [m.first]
    | some k => [m.first.take k, m.first.drop k]) ++ m.more

/-- the free text, one blank between lines -/
def MonEntry.free (m : MonEntry) : Str := m.more.flatMap fun l => ' ' :: strip l

/-- what is written when heading and line breaks are removed -/
def MonEntry.text (m : MonEntry) : Str := '(' :: (m.rest ++ m.free)

/-- a code on one line is complete; a code on two lines begins with two parentheses and is not complete on the first; free text does not
begin with a parenthesis; the heading stands nowhere else -/
structure MonEntry.wf (m : MonEntry) : Prop where
  head : ∀ a ∈ m.head, ')' ∉ a
  code : match m.cut with
    | none => balanced m.first
    | some k => (m.first.take k).take 2 = ['(', '('] ∧ ¬ balanced (m.first.take k)
  more : ∀ l ∈ m.more, ¬ opensParen l
  once : match m.head with
    | none => hasSub chars!"((MONIT" m.text = false
    | some a => hasSub chars!"((MONIT" (a ++ ')' :: (m.rest ++ m.free)) = false

/-- the free text before the first code, as one line -/
def introText : List Str → Str
  | [] => []
  | l :: r => strip l ++ r.flatMap fun m => ' ' :: strip m

/-- free text before the codes: no line begins with a parenthesis, no heading -/
def IntroWf (intro : List Str) : Prop := (∀ l ∈ intro, ¬ opensParen l) ∧ hasSub chars!"((MONIT" (introText intro) = false

/-- what a monitor is read as, given what the text of its reaction is read as -/
def MonEntry.read {ρ : Type} (reaction : Str → Except PyErr (ρ × Str)) (m : MonEntry) : Except PyErr (Monitor ρ) :=
  match reaction m.text with
  | .ok r => .ok ⟨some r.1, r.2, m.head.map (chars!"MONIT" ++ ·)⟩
  | .error .parseException => .error .reactionParsingError
  | .error e => .error e

/-- free text before the codes is a monitor without reaction -/
def introMonitor {ρ : Type} (intro : List Str) : List (Monitor ρ) := if intro = [] then [] else [⟨none, introText intro, none⟩]

end X4
