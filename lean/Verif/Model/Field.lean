import Verif.Py.Dict
import Verif.Py.Sort
/-! Model of the text fields of a BIB section (`x4i3/exfor_field.py`). -/
namespace X4

/-- `extractX4FieldType`, exfor_field.py:58-69: `none` is Python's `None`. -/
def extractX4FieldType (field : List Str) : Except PyErr (Option Str) :=
  match pyIdx field 0 with
  | .error e => .error e
  | .ok l0 =>
    let tag := strip (slice l0 0 10)
    .ok (if tag = [] then none else some tag)

/-- `X4PlainField`, exfor_field.py:100-118: the tag and, per pointer, the list of text
lines (an `X4SubField`). -/
structure PlainField where
  tag : Str
  subs : Dict Char (List Str)
  deriving DecidableEq, Repr

/-- column 10 of a line after `ljust(66)`; the index is always valid, exfor_field.py:110-112 -/
def col10 (line : Str) : Char := (ljust line 66)[10]?.getD ' '
/-- `line[11:66].rstrip()` of the padded line, exfor_field.py:110, 115 -/
def lineText (line : Str) : Str := rstrip (slice (ljust line 66) 11 66)

/-- body of the loop in exfor_field.py:109-115; the state is `pointer` and the dict -/
def plainStep (st : Char × Dict Char (List Str)) (line : Str) : Char × Dict Char (List Str) :=
  let pointer := if col10 line ≠ ' ' then col10 line else st.1
  (pointer, st.2.set pointer ((st.2.get? pointer).getD [] ++ [lineText line]))

/-- `X4PlainField.__init__`, exfor_field.py:106-115 -/
def PlainField.build (raw : List Str) : Except PyErr PlainField :=
  match pyIdx raw 0 with
  | .error e => .error e
  | .ok l0 => .ok { tag := strip (slice l0 0 10), subs := (raw.foldl plainStep (' ', [])).2 }

/-- `sorted_keys`, exfor_field.py:117-119 -/
def PlainField.sortedKeys (f : PlainField) : List Char := sortBy charLe f.subs.keys

/-- `total_len`, exfor_field.py:121 -/
def PlainField.totalLen (f : PlainField) : Nat := (f.subs.map fun kv => kv.2.length).sum

/-- `n * ' '`, exfor_field.py:97 -/
def blanks (n : Nat) : Str := List.replicate n ' '

/-- `X4SubField.__repr__`, exfor_field.py:95-97 -/
def subRepr (s : List Str) : Str := joinWith ['\n'] (s.map fun x => blanks 11 ++ x)
/-- `X4SubField.__str__`, exfor_field.py:91-93 -/
def subStr (s : List Str) : Str := joinWith [' '] (s.map strip)

/-- `X4PlainField.__repr__`, exfor_field.py:133-139 -/
def PlainField.repr (f : PlainField) : Str :=
  let result := f.sortedKeys.map fun p =>
    let s := subRepr ((f.subs.get? p).getD [])
    s.take 10 ++ [p] ++ s.drop 11
  ljust f.tag 10 ++ (joinWith ['\n'] result).drop 10

/-- `X4PlainField.__str__`, exfor_field.py:123-131 -/
def PlainField.str (f : PlainField) : Str :=
  joinWith "; ".toList (f.sortedKeys.map fun p =>
    if p ≠ ' ' then '[' :: p :: "] ".toList ++ subStr ((f.subs.get? p).getD [])
    else subStr ((f.subs.get? p).getD []))

/-! ### MONITOR fields -/

/-- `ds[-1] += t`; the list is never empty where this is used, exfor_field.py:281, 348 -/
def appendLast (ds : List Str) (t : Str) : List Str :=
  match ds.reverse with
  | [] => []
  | x :: r => (r.reverse) ++ [x ++ t]

/-- Chopping one pointer's lines into monitor entries, exfor_field.py:254-281.
`lineQueue.pop(0)` on an empty queue is an `IndexError`. In case 2 the statement
`ds += lineQueue.pop(0)` extends the list by the *characters* of the line. -/
def monitorLoop : List Str → List Str → Except PyErr (List Str)
  | ds, [] => .ok ds
  | ds, line :: queue =>
    if startsWith (strip line) "((".toList then
      if line.count '(' ≠ line.count ')' then
        match queue with
        | [] => .error .indexError
        | next :: queue' => monitorLoop (ds ++ [line ++ next]) queue'
      else monitorLoop (ds ++ [line]) queue
    else if startsWith (strip line) "(".toList then
      if line.count '(' ≠ line.count ')' then
        match queue with
        | [] => .error .indexError
        | next :: queue' => monitorLoop (ds ++ [line] ++ next.map fun c => [c]) queue'
      else monitorLoop (ds ++ [line]) queue
    else if ds.length = 0 then monitorLoop (ds ++ [strip line]) queue
    else monitorLoop (appendLast ds (' ' :: strip line)) queue
/-- the list `ds`, exfor_field.py:254-281 -/
def monitorSplit (lines : List Str) : Except PyErr (List Str) := monitorLoop [] lines

/-! ### REFERENCE fields -/

/-- `line.replace('\n', '')`, exfor_field.py:344-348 -/
def noNl (l : Str) : Str := replaceChar '\n' [] l

/-- Chopping one pointer's lines into references, exfor_field.py:336-350. State:
`refs`, `intautology`. `refs[-1]` on an empty list is an `IndexError`. -/
def refLoop : List Str → Bool → List Str → Except PyErr (List Str)
  | refs, _, [] => .ok refs
  | refs, inTaut, line :: ls =>
    if slice line 0 2 = "((".toList then
      refLoop (refs ++ [noNl line]) (if hasSub "))".toList line then false else true) ls
    else if !inTaut ∧ slice line 0 1 = "(".toList then
      refLoop (refs ++ [noNl line]) (if hasSub "))".toList line then false else inTaut) ls
    else if refs = [] then .error .indexError
    else refLoop (appendLast refs (noNl line)) (if hasSub "))".toList line then false else inTaut) ls
/-- the list `refs`, exfor_field.py:336-350 -/
def refSplit (lines : List Str) : Except PyErr (List Str) := refLoop [] false lines

end X4
