import Verif.Py.Str
/-! Which texts the theorems on authors, references and institutes speak about. -/
namespace X4

/-- a printable ASCII character that is neither a parenthesis nor a quotation mark -/
def plainChar (c : Char) : Bool :=
  33 ≤ c.toNat && c.toNat ≤ 126 && c != '(' && c != ')' && c != '\'' && c != '"'

/-- a text of such characters and blanks -/
def UnquotedText (s : Str) : Prop := ∀ c ∈ s, plainChar c = true ∨ c = ' '

instance (s : Str) : Decidable (UnquotedText s) := inferInstanceAs (Decidable (∀ c ∈ s, _))

/-- the characters of the words of an INSTITUTE field: letters, digits and some punctuation -/
def wordChar (c : Char) : Bool := c.isAlphanum || decide (c ∈ [',', '.', ';', '+', '-', '*', '/', '\''])

/-- the words of a text with single blanks between them -/
def squash (s : Str) : Str := joinWith [' '] (splitWs s)

/-- the text without blanks -/
def noBlanks (s : Str) : Str := s.filter (· != ' ')

end X4
