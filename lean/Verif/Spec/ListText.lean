import Verif.Py.Str
/-! Reading a Python list literal, as far as lists, texts in single quotation marks and bare words are concerned. -/
namespace X4

/-- the pieces of a list literal -/
inductive ListTok where
  | opens
  | closes
  /-- a text in quotation marks -/
  | text (s : Str)
  /-- a number or `None` -/
  | word (s : Str)
  deriving DecidableEq, Repr

/-- the piece that is being read -/
inductive LexState where
  | idle
  | inText (s : Str)
  | inWord (s : Str)

/-- the pieces of a list literal; `none` for a backslash in a text or an unfinished text -/
def lexList : LexState → Str → Option (List ListTok)
  | .idle, [] => some []
  | .inText _, [] => none
  | .inWord w, [] => some [.word w]
  | .idle, c :: s =>
    if c = '[' then (lexList .idle s).map (.opens :: ·)
    else if c = ']' then (lexList .idle s).map (.closes :: ·)
    else if c = ',' ∨ c = ' ' ∨ c = '\n' then lexList .idle s
    else if c = '\'' then lexList (.inText []) s
    else lexList (.inWord [c]) s
  | .inText w, c :: s =>
    if c = '\'' then (lexList .idle s).map (.text w :: ·)
    else if c = '\\' then none
    else lexList (.inText (w ++ [c])) s
  | .inWord w, c :: s =>
    if c = ',' ∨ c = ' ' ∨ c = '\n' then (lexList .idle s).map (.word w :: ·)
    else if c = ']' then (lexList .idle s).map (fun l => .word w :: .closes :: l)
    else lexList (.inWord (w ++ [c])) s

/-- the pieces of a list of rows -/
def rowToks (cells : List ListTok) : List ListTok := .opens :: (cells ++ [.closes])
def tableToks (rows : List (List ListTok)) : List ListTok := .opens :: (rows.flatMap rowToks ++ [.closes])

/-- a text that needs no escapes -/
def QuoteFree (s : Str) : Prop := '\'' ∉ s ∧ '\\' ∉ s
/-- a word: not empty, no separators, brackets or quotation marks -/
def BareWord (s : Str) : Prop := s ≠ [] ∧ ∀ c ∈ s, c ∉ ['[', ']', ',', ' ', '\n', '\'']

end X4
