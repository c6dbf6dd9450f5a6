import Verif.Model.DatasetText
/-! Model of the remaining methods of `X4DataSet` (`x4i3/exfor_dataset.py`): size, access to cells, `repr`. -/
namespace X4
variable {ρ N : Type}

/-- `l[i]` for a list and an integer, Python built-in, as used in exfor_dataset.py:298-304: negative indices count from the end -/
def intIdx {α : Type} (l : List α) (i : Int) : Except PyErr α :=
  if 0 ≤ i then pyIdx l i.toNat
  else if (-i).toNat ≤ l.length then pyIdx l (l.length - (-i).toNat)
  else .error .indexError

/-- the first part of the index of `X4DataSet.__getitem__`, exfor_dataset.py:295-296 -/
inductive RowIndex where
  | text (s : Str)
  | row (i : Int)

/-- what `X4DataSet.__getitem__` returns: a label, a unit or a value, exfor_dataset.py:294-304 -/
inductive DsItem (N : Type) where
  | label (s : Str)
  | unit (s : Option Str)
  | value (x : Option N)
  deriving DecidableEq, Repr

/-- `X4DataSet.numcols`, exfor_dataset.py:290 -/
def DataSet.numcols (d : DataSet ρ N) : Nat := d.labels.length
/-- `X4DataSet.numrows`, exfor_dataset.py:292 -/
def DataSet.numrows (d : DataSet ρ N) : Nat := d.data.length

/-- `X4DataSet.__getitem__`, exfor_dataset.py:294-304 -/
def DataSet.item (d : DataSet ρ N) (i : RowIndex) (j : Int) : Except PyErr (DsItem N) :=
  match i with
  | .text s =>
    if s = chars!"LABELS" then (intIdx d.labels j).map .label
    else if s = chars!"UNITS" then (intIdx d.units j).map .unit
    else .error .keyError
  | .row i => match intIdx d.data i with
    | .error e => .error e
    | .ok row => (intIdx row j).map .value

/-- `repr` of the things a dataset contains, exfor_dataset.py:139-142; `T.num` is `str` of a number -/
structure DsReprs (ρ N : Type) where
  rx : ρ → Except PyErr Str
  num : N → Str

/-- `repr(x[0])` for a monitor, exfor_dataset.py:142 -/
def monitorRepr (T : DsReprs ρ N) (m : Monitor ρ) : Except PyErr Str :=
  match m.reaction with
  | none => .ok chars!"None"
  | some r => T.rx r

/-- the line of the monitors, exfor_dataset.py:140-142 -/
def monitorsLine (T : DsReprs ρ N) : Option (List (Monitor ρ)) → Except PyErr Str
  | none => .ok []
  | some [] => .ok []
  | some ms => match mapE (monitorRepr T) ms with
    | .error e => .error e
    | .ok ts => .ok (chars!" \nMonitor(s):[" ++ joinWith chars!", " ts ++ [']'])

/-- `X4DataSet.reprHeader`, exfor_dataset.py:137-144; `None[0]` is a TypeError -/
def DataSet.reprHeader (T : DsReprs ρ N) (d : DataSet ρ N) : Except PyErr Str :=
  match d.reaction with
  | none => .error .typeError
  | some r => match T.rx r.1 with
    | .error e => .error e
    | .ok t => match monitorsLine T d.monitor with
      | .error e => .error e
      | .ok m => .ok (d.info.record.repr ++ chars!" \nReaction:  " ++ t ++ m ++ ['\n'])

/-- a row of texts, exfor_dataset.py:171-172 -/
def quotedRow (l : List Str) : Str := chars!"['" ++ joinWith chars!"','" l ++ chars!"']"

/-- `str(x)` for a value, exfor_dataset.py:174 -/
def valueText (T : DsReprs ρ N) : Option N → Str
  | none => chars!"None"
  | some x => T.num x

/-- an item of `','.join(self.units)`: `None` is a TypeError, exfor_dataset.py:172 -/
def joinItem : Option Str → Except PyErr Str
  | some s => .ok s
  | none => .error .typeError

/-- the table, exfor_dataset.py:170-175 -/
def DataSet.reprTable (T : DsReprs ρ N) (d : DataSet ρ N) : Except PyErr Str :=
  match mapE joinItem d.units with
  | .error e => .error e
  | .ok us => .ok (['['] ++ quotedRow d.labels ++ chars!",\n" ++ quotedRow us ++
      (d.data.flatMap fun row => chars!",\n[" ++ joinWith [','] (row.map (valueText T)) ++ [']']) ++ [']'])

/-- `X4DataSet.__repr__`, exfor_dataset.py:169-176 -/
def DataSet.repr (T : DsReprs ρ N) (d : DataSet ρ N) : Except PyErr Str :=
  match d.reprHeader T with
  | .error e => .error e
  | .ok h => match d.reprTable T with
    | .error e => .error e
    | .ok t => .ok (h ++ t)

end X4
