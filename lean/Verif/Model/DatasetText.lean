import Verif.Model.Metadata
/-! Model of the printed datasets (`x4i3/exfor_dataset.py`) and of the CSV files. The texts of numbers, reactions and monitors are
parameters. -/
namespace X4
variable {ρ N : Type}

/-- `str()` of the things a dataset contains: a measurement, a monitor entry (a tuple), a number after
`float(format(j, '.12g'))`; exfor_dataset.py:123, 131, 147-153 -/
structure DsTexts (ρ N : Type) where
  rx : ρ → Str
  mon : Monitor ρ → Str
  num : N → Str

/-- `str()` of an entry of a table; missing values print as 'None', exfor_dataset.py:147-153, 166 -/
def cellText (T : DsTexts ρ N) : Option N → Str
  | none => chars!"None"
  | some x => T.num x

/-- the monitor line of the header, exfor_dataset.py:128-131 -/
def monitorLine (T : DsTexts ρ N) : Option (List (Monitor ρ)) → Str
  | none => []
  | some ms => chars!"\n#  Monitor(s): " ++ joinWith [' '] (ms.map T.mon)

/-- the line added by two subclasses, exfor_dataset.py:384-387, 410-413 -/
def frameLine : Option Str → Str
  | none => []
  | some f => chars!"\n#  Frame:     " ++ f

/-- `strHeader`, exfor_dataset.py:119-135, 384-387, 410-413; without a reaction `map(str, None)` is a `TypeError` -/
def DataSet.strHeader (T : DsTexts ρ N) (d : DataSet ρ N) : Except PyErr Str :=
  match d.reaction with
  | none => .error .typeError
  | some r => .ok (d.info.record.xmgraceHeader ++ chars!"\n#  Reaction:  " ++ T.rx r.1 ++ [' '] ++ r.2 ++
      monitorLine T d.monitor ++ frameLine d.frame)

/-- a line of cells, exfor_dataset.py:157-158, 160-161, 165-166 -/
def cellLine (cells : List Str) : Str := cells.flatMap fun c => ljust c 14

/-- `X4DataSet.__str__`, exfor_dataset.py:146-168 -/
def DataSet.str (T : DsTexts ρ N) (d : DataSet ρ N) : Except PyErr Str :=
  match d.strHeader T with
  | .error e => .error e
  | .ok h => .ok (h ++ chars!"\n#        " ++ cellLine d.labels ++ chars!"\n#        " ++
      cellLine (d.units.map fun u => u.getD chars!"None") ++ chars!"\n        " ++
      d.data.flatMap fun row => cellLine (row.map (cellText T)) ++ chars!"\n        ")

/-! ### CSV -/

/-- whether `csv.writer` quotes a character (a Python library; default dialect with line terminator '\n'), as used in
exfor_dataset.py:283-284, exfor_section.py:315-316 -/
def csvSpecial (c : Char) : Bool := c == ',' || c == '"' || c == '\n' || c == '\r'

/-- a field as `csv.writer` writes it, as used in exfor_dataset.py:284 -/
def csvField (s : Str) : Str :=
  if s.any csvSpecial then ['"'] ++ (s.flatMap fun c => if c = '"' then ['"', '"'] else [c]) ++ ['"'] else s

/-- a row as `csv.writer` writes it; a single empty field is quoted, as used in exfor_dataset.py:284 -/
def csvRow (fields : List Str) : Str :=
  (if fields = [[]] then ['"', '"'] else joinWith [','] (fields.map csvField)) ++ ['\n']

/-- the rows given to the writer: `[self.labels, self.units] + self.data`; `None` is written as an empty field, exfor_dataset.py:284 -/
def DataSet.csvRows (T : DsTexts ρ N) (d : DataSet ρ N) : List (List Str) :=
  d.labels :: d.units.map (fun u => u.getD []) :: d.data.map fun row => row.map fun x => match x with
    | none => []
    | some x => T.num x

/-- the file written by `X4DataSet.csv`, exfor_dataset.py:279-288 -/
def DataSet.csv (T : DsTexts ρ N) (d : DataSet ρ N) : Str := (d.csvRows T).flatMap csvRow

/-- the file written by `X4DataSection.csv`, exfor_section.py:311-320 -/
def DataSection.csv (num : FloatLit → Str) (d : DataSection) : Str :=
  (d.labels :: d.units :: d.data.map fun row => row.map fun x => match x with
    | none => []
    | some x => num x).flatMap csvRow

end X4
