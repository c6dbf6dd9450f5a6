import Verif.Py.Float
import Verif.Py.Dict
import Mathlib.Algebra.Order.Field.Basic
/-! Model of `x4i3/exfor_utilities.py`. -/
namespace X4

section tolerance
variable {K : Type} [Field K] [LinearOrder K]

/-- `withinXPercent`, exfor_utilities.py:81-86. Numbers are elements of an
ordered field instead of doubles (no rounding, no inf/nan). -/
def withinXPercent (a b percent absTol : K) : Bool :=
  if a + b = 0 then true
  else if |a| + |b| < absTol then true
  else decide (|a - b| * 2 / |a + b| ≤ percent / 100)

/-- `allWithinXPercent`, exfor_utilities.py:89-92. -/
def allWithinXPercent (aL bL : List K) (percent absTol : K) : Bool :=
  if aL.length ≠ bL.length then false
  else (aL.zip bL).all fun x => withinXPercent x.1 x.2 percent absTol
end tolerance

/-- `unique`, exfor_utilities.py:96-101: loop with the accumulator `newl`. -/
def uniqueLoop {α} [DecidableEq α] (newl : List α) : List α → List α
  | [] => newl
  | x :: l => uniqueLoop (if x ∈ newl then newl else newl ++ [x]) l
/-- `unique`, exfor_utilities.py:96-101 -/
def unique {α} [DecidableEq α] (l : List α) : List α := uniqueLoop [] l

/-- `s[-3:]`, exfor_utilities.py:117-128 -/
def last3 (s : Str) : Str := s.drop (s.length - 3)
/-- `s[:-3]`, exfor_utilities.py:117-128 -/
def but3 (s : Str) : Str := s.take (s.length - 3)

/-- The string that the second attempt of `parseFORTRANNumber` hands to
`float()`, exfor_utilities.py:117-128. -/
def fortranFix (numstring : Str) : Str :=
  let tmp := strip numstring
  let tmp :=
    if tmp.count 'E' < 1 ∧ (last3 tmp).count '+' + (last3 tmp).count '-' ≥ 1 then
      let separator := if (last3 tmp).count '-' = 1 then '-' else '+'
      but3 tmp ++ replaceChar separator ['E', separator] (last3 tmp)
    else tmp
  replaceChar ' ' [] tmp

/-- `parseFORTRANNumber`, exfor_utilities.py:105-134. `ok none` is `None`.
(The branch `tmp == ""` of lines 120-121 is unreachable, blank strings having
been handled in line 113.) -/
def parseFORTRANNumber (numstring : Str) : Except PyErr (Option FloatLit) :=
  if strip numstring = [] then .ok none
  else match pyFloat numstring with
    | some v => .ok (some v)
    | none =>
      match pyFloat (fortranFix numstring) with
      | some v => .ok (some v)
      | none => .error (.brokenNumberError numstring)

/-- The loop shared by `chunkifyX4Request` (exfor_utilities.py:138-164),
`X4Entry.chunkify` (exfor_entry.py:192-219) and `X4SubEntry.chunkify`
(exfor_subentry.py:98-123): `entries` accumulates, `cur` is the open chunk
(`none` when outside a chunk). -/
def chunkLoop (isStart isEnd : Str → Bool) :
    List (List Str) → Option (List Str) → List Str → List (List Str)
  | entries, _, [] => entries
  | entries, some cur, line :: ls =>
    let cur := cur ++ [line]
    if isEnd line then chunkLoop isStart isEnd (entries ++ [cur]) none ls
    else chunkLoop isStart isEnd entries (some cur) ls
  | entries, none, line :: ls =>
    if isStart line then chunkLoop isStart isEnd entries (some [line]) ls
    else chunkLoop isStart isEnd entries none ls

/-- `line[0:11].strip()`, exfor_utilities.py:138-164 -/
def tag11 (line : Str) : Str := strip (slice line 0 11)

/-- `chunkifyX4Request`, exfor_utilities.py:138-164 (for a list argument;
the `isinstance` check of line 146 cannot fail here). -/
def chunkifyX4Request (request : List Str) : List (List Str) :=
  chunkLoop (fun l => tag11 l = "ENTRY".toList) (fun l => tag11 l = "ENDENTRY".toList) [] none request

/-- `list_of_dicts_to_table`, exfor_utilities.py:167-180. -/
def tableCols {κ α} [DecidableEq κ] (ds : List (Dict κ α)) : List κ :=
  ds.foldl (fun cols d => d.keys.foldl (fun cols k => if k ∈ cols then cols else cols ++ [k]) cols) []
/-- `list_of_dicts_to_table`, exfor_utilities.py:167-180 -/
def listOfDictsToTable {κ α} [DecidableEq κ] (ds : List (Dict κ α)) (cols : Option (List κ)) :
    List κ × List (List (Option α)) :=
  let cols := cols.getD (tableCols ds)
  (cols, ds.map fun d => cols.map fun k => d.get? k)

end X4
