import Verif.Model.TextFields
import Verif.Model.Metadata
/-! Model of the texts of reaction and monitor fields (`x4i3/exfor_field.py`). -/
namespace X4

/-- a hexadecimal digit of Python's `repr` of a string, as used in exfor_field.py:302-311 -/
def hexDigit (n : Nat) : Char := if n < 10 then Char.ofNat (48 + n) else Char.ofNat (87 + n)

/-- one character in Python's `repr` of a string with quote `q`; for the characters of the files (latin 1): control
characters, DEL, the characters 128-160 and the soft hyphen are escaped. As used in exfor_field.py:302-311 -/
def reprChar (q c : Char) : Str :=
  if c = q || c = '\\' then ['\\', c]
  else if c = '\n' then ['\\', 'n']
  else if c = '\r' then ['\\', 'r']
  else if c = '\t' then ['\\', 't']
  else if c.toNat < 32 || (127 ≤ c.toNat && c.toNat ≤ 160) || c.toNat = 173 then
    ['\\', 'x', hexDigit (c.toNat / 16), hexDigit (c.toNat % 16)]
  else [c]

/-- the quote used by Python's `repr` of a string, as used in exfor_field.py:302-311 -/
def reprQuote (s : Str) : Char := if s.contains '\'' && !s.contains '"' then '"' else '\''

/-- Python's `repr` of a string, as used in exfor_field.py:302-311 and exfor_dataset.py:131 -/
def strRepr (s : Str) : Str := [reprQuote s] ++ s.flatMap (reprChar (reprQuote s)) ++ [reprQuote s]

/-- `repr` of a string or `None`, as used in exfor_field.py:302-311 -/
def optStrRepr : Option Str → Str
  | none => chars!"None"
  | some s => strRepr s

/-- `repr` of the reaction of a monitor, as used in exfor_field.py:302-311 -/
def optReactionRepr : Option Measurement → Except PyErr Str
  | none => .ok chars!"None"
  | some m => m.repr

/-- `repr` of the tuple (reaction, text, heading), as used in exfor_field.py:302-311 and exfor_dataset.py:131 -/
def Monitor.tupleRepr (m : Monitor Measurement) : Except PyErr Str :=
  match optReactionRepr m.reaction with
  | .error e => .error e
  | .ok r => .ok (['('] ++ r ++ chars!", " ++ strRepr m.text ++ chars!", " ++ optStrRepr m.heading ++ [')'])

/-- `str` of the list of monitors of one pointer, as used in exfor_field.py:302-311 -/
def monitorsRepr (ms : List (Monitor Measurement)) : Except PyErr Str :=
  match mapE Monitor.tupleRepr ms with
  | .error e => .error e
  | .ok ts => .ok (['['] ++ joinWith chars!", " ts ++ [']'])

/-- the entry of one pointer in a printed monitor field, exfor_field.py:306-310 -/
def monitorItem (kv : Char × List (Monitor Measurement)) : Except PyErr Str :=
  match monitorsRepr kv.2 with
  | .error e => .error e
  | .ok t => .ok (if kv.1 = ' ' then t else ['[', kv.1] ++ chars!"] " ++ t)

/-- `X4MonitorField.__str__`, exfor_field.py:302-311; without monitors it returns a list, which `str` rejects. The loop
`for j in self` is over the pointers in the order in which they were read, and the monitors are read in that order. -/
def monitorFieldStr (ms : Dict Char (List (Monitor Measurement))) : Except PyErr Str :=
  if ms = [] then .error .typeError else
  match mapE monitorItem ms with
  | .error e => .error e
  | .ok ts => .ok (joinWith chars!"; " ts)

/-- the entry of one pointer in a printed reaction field, exfor_field.py:220-226 -/
def reactionItem (D : RxDicts) (rs : Dict Char (Measurement × Str)) (j : Char) : Except PyErr Str :=
  match rs.get? j with
  | none => .error .keyError
  | some r => match r.1.str D with
    | .error e => .error e
    | .ok t => .ok (if j = ' ' then t else ['[', j] ++ chars!"] " ++ t ++ (if r.2 = [] then [] else chars!", " ++ r.2))

/-- `X4ReactionField.__str__`, exfor_field.py:216-227; without reactions it returns a list, which `str` rejects -/
def reactionFieldStr (D : RxDicts) (f : PlainField) (rs : Dict Char (Measurement × Str)) : Except PyErr Str :=
  if rs = [] then .error .typeError else
  match mapE (reactionItem D rs) f.sortedKeys with
  | .error e => .error e
  | .ok ts => .ok (joinWith chars!"; " ts)

/-- `str` of a field of a BIB section, exfor_field.py:123-132, 216-227, 302-311, 410-420, 428-433, 474-478, 503-511; a field tagged
TITLE is an `X4TitleField` (exfor_section.py:70-71) -/
def BibField.str (D : RxDicts) : BibField Measurement → Except PyErr Str
  | .reaction f rs => reactionFieldStr D f rs
  | .monitor _ ms => monitorFieldStr ms
  | .plain f => .ok (if f.tag = chars!"TITLE" then (BibField.plain (ρ := Measurement) f).titleText else f.str)
  | b => .ok b.metaStr

end X4
