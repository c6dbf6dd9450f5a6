import Verif.Py.Str
/-! Which characters of a text count as its content. -/
namespace X4

/-- characters that separate the parts of EXFOR codes: white space, parentheses and commas -/
def isSeparator (c : Char) : Bool := isSpace c || c == '(' || c == ')' || c == ','
/-- in reaction codes the parts of nuclei and the products are moreover separated by - and + -/
def isRxSeparator (c : Char) : Bool := isSeparator c || c == '-' || c == '+'

/-- the text without its separators -/
def content (s : Str) : Str := s.filter fun c => !isSeparator c
/-- the text of a reaction code without its separators -/
def rxContent (s : Str) : Str := s.filter fun c => !isRxSeparator c
/-- the content of a text in capitals -/
def contentUpper (s : Str) : Str := (content s).map Char.toUpper

end X4
