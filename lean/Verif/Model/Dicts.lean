import Verif.Py.Dict
import Verif.Py.Loop
import Verif.Py.Str
import Verif.Model.DataSection
/-! Model of `x4i3/exfor_dicts.py`. -/
namespace X4

/-- `s.split(c)[-1]`, as used in exfor_dicts.py:56-58 -/
def lastSplit (c : Char) (s : Str) : Str := ((splitChar c s).getLast?).getD []

/-- `[int(c) for c in s]` for the third line, exfor_dicts.py:57-58 -/
def fieldBreaks (line : Str) : Except PyErr (List Int) :=
  mapE pyIntE (splitChar ',' (replaceChar ']' [] (replaceChar '[' [] (strip (lastSplit '=' line)))))

/-- lower/upper bound of a slice, for a sequence of length `n`, Python built-in, as used in exfor_dicts.py:72-73 -/
def sliceBound (n : Nat) (i : Int) : Nat := if i < 0 then (i + n).toNat else i.toNat
/-- `s[a:b]` for arbitrary integers, as used in exfor_dicts.py:72-73 -/
def sliceInt {α} (s : List α) (a b : Int) : List α := slice s (sliceBound s.length a) (sliceBound s.length b)

/-- one field of a record, exfor_dicts.py:72-73 -/
def recordField (breaks : List Int) (line : Str) (i : Nat) : Except PyErr Str :=
  match pyIdx breaks i with
  | .error e => .error e
  | .ok a => match pyIdx breaks (i + 1) with
    | .error e => .error e
    | .ok b => .ok (strip (sliceInt line a b))

/-- the loop body, exfor_dicts.py:66-78: the state is the list `FieldBreaks`
(to which the length of the line is appended and removed again) and the dict. -/
def dictStep (n : Nat) (st : List Int × Dict Str (List Str)) (line : Str) :
    Except PyErr (List Int × Dict Str (List Str)) :=
  let line := strip line
  let breaks := st.1 ++ [(line.length : Int)]
  if line ≠ [] then
    match mapE (recordField breaks line) (List.range n) with
    | .error e => .error e
    | .ok [] => .error .indexError
    | .ok (k :: item) => .ok (breaks.dropLast, st.2.set k item)
  else .ok (breaks.dropLast, st.2)

/-- `getDictionary`, exfor_dicts.py:36-80, for the lines of a file that can be opened.
(`readline` at the end of the file gives the empty string; a negative `NumFields`
makes `range` empty.) -/
def getDictionary (file : List Str) : Except PyErr (Dict Str (List Str)) :=
  match pyIntE (strip (lastSplit '=' (file[1]?.getD []))) with
  | .error e => .error e
  | .ok numFields => match fieldBreaks (file[2]?.getD []) with
    | .error e => .error e
    | .ok brs => match foldE (dictStep numFields.toNat) ((0 : Int) :: brs, []) (file.drop 3) with
      | .error e => .error e
      | .ok st => .ok st.2

/-- `self.DictionaryNames`, exfor_dicts.py:95-116 -/
def dictionaryNames : List (Int × Str) :=
  [(3, "Institutes".toList), (4, "ReferenceTypes".toList), (5, "Journals".toList), (7, "ConferencesAndBooks".toList),
   (9, "Compounds".toList), (15, "History".toList), (16, "Status".toList), (17, "Rel_Ref".toList), (18, "Facility".toList),
   (19, "IncidentSource".toList), (20, "AdditionalResults".toList), (21, "Method".toList), (22, "Detectors".toList),
   (23, "Analysis".toList), (24, "DataHeadings".toList), (30, "Process".toList), (33, "Particles".toList),
   (34, "Modifiers".toList), (35, "DataType".toList), (36, "Quantities".toList), (37, "Result".toList)]

/-- an argument of the dictionary server: an `int`, a `str` or something else, exfor_dicts.py:127-186 -/
inductive DictKey where
  | int (n : Int)
  | str (s : Str)
  | other
  deriving DecidableEq

/-- the loop of `getDictionaryName`, exfor_dicts.py:127-139 -/
def nameIn (n : Int) : List (Int × Str) → Option Str
  | [] => none
  | i :: r => if i.1 = n then some i.2 else nameIn n r
/-- the loop of `getDictionaryIndex`, exfor_dicts.py:142-154 -/
def indexIn (s : Str) : List (Int × Str) → Option Int
  | [] => none
  | i :: r => if i.2 = s then some i.1 else indexIn s r

/-- `getDictionaryName`, exfor_dicts.py:127-139 -/
def getDictionaryName : DictKey → Option Str
  | .int n => nameIn n dictionaryNames
  | _ => none
/-- `getDictionaryIndex`, exfor_dicts.py:142-154 -/
def getDictionaryIndex : DictKey → Option Int
  | .str s => indexIn s dictionaryNames
  | _ => none

/-- the file name, exfor_dicts.py:157-173 -/
def fileName (n : Int) : Str := "dict".toList ++ zfill (intStr n) 2 ++ ".txt".toList
/-- the loop for a number, exfor_dicts.py:157-173 -/
def fileNameInt (n : Int) : List (Int × Str) → Option Str
  | [] => none
  | i :: r => if i.1 = n then some (fileName i.1) else fileNameInt n r
/-- the loop for a name, exfor_dicts.py:157-173 -/
def fileNameStr (s : Str) : List (Int × Str) → Option Str
  | [] => none
  | i :: r => if i.2 = s then some (fileName i.1) else fileNameStr s r
/-- `getDictionaryFilename`, exfor_dicts.py:157-173 -/
def getDictionaryFilename : DictKey → Option Str
  | .int n => fileNameInt n dictionaryNames
  | .str s => fileNameStr s dictionaryNames
  | .other => none

/-- The dictionary directory: the lines of the files that can be opened. exfor_dicts.py:36-55 -/
abbrev DictFiles := Str → Option (List Str)

/-- `X4DictionaryServer.getDictionary`, exfor_dicts.py:176-186 (and `__getitem__`, exfor_dicts.py:120-124). An unknown name makes
`path + None` a `TypeError`; `ok none` is the `None` returned for a missing file. -/
def serverGetDictionary (fs : DictFiles) (x : DictKey) : Except PyErr (Option (Dict Str (List Str))) :=
  match getDictionaryFilename x with
  | none => .error .typeError
  | some fn => match fs fn with
    | none => .ok none
    | some lines => match getDictionary lines with
      | .error e => .error e
      | .ok d => .ok (some d)

/-- one round of the loop of `getAllDictionaries`, exfor_dicts.py:189-202 -/
def allStep (fs : DictFiles) (dm : Dict Str (Dict Str (List Str))) (i : Int × Str) :
    Except PyErr (Dict Str (Dict Str (List Str))) :=
  match serverGetDictionary fs (.int i.1) with
  | .error e => .error e
  | .ok none => .ok dm
  | .ok (some d) => .ok (dm.set i.2 d)
/-- `getAllDictionaries`, exfor_dicts.py:189-202 -/
def getAllDictionaries (fs : DictFiles) : Except PyErr (Dict Str (Dict Str (List Str))) :=
  foldE (allStep fs) [] dictionaryNames

end X4
