import Verif.Model.FieldText
import Verif.Model.Entry
/-! Model of the texts of sections, subentries and entries: `__str__` in `x4i3/exfor_section.py`, `x4i3/exfor_subentry.py` and
`x4i3/exfor_entry.py`. `str()` of a number is a parameter. -/
namespace X4

/-- `str(j)` of a cell of a data section: a number or `None`, exfor_section.py:288 -/
def sectionCell (num : FloatLit → Str) : Option FloatLit → Str
  | none => chars!"None"
  | some x => num x

/-- a line of cells, exfor_section.py:281-289 -/
def cells11 (cells : List Str) : Str := cells.flatMap fun c => ljust c 11

/-- the lines of `X4DataSection.__str__`, exfor_section.py:278-292 -/
def DataSection.strLines (num : FloatLit → Str) (d : DataSection) : List Str :=
  [ljust d.tag 11 ++ rjust (intStr d.numcols) 11 ++ rjust (intStr d.numrows) 11, cells11 d.labels, cells11 d.units] ++
  d.data.map (fun row => cells11 (row.map (sectionCell num))) ++
  [ljust (chars!"END" ++ d.tag) 11 ++ rjust (intStr (d.numrows + 2)) 11]

/-- `X4DataSection.__str__`, exfor_section.py:278-292 -/
def DataSection.str (num : FloatLit → Str) (d : DataSection) : Str := joinWith ['\n'] (d.strLines num)

/-- `str(self[i])` inside `X4BibSection.__str__`, exfor_section.py:80-81 -/
def BibSection.fieldStr (D : RxDicts) (b : BibSection Measurement) (k : Option Str) : Except PyErr Str :=
  match b.fields.get k with
  | .error e => .error e
  | .ok v => v.str D

/-- `X4BibSection.__str__`, exfor_section.py:77-83 (the tag of the section is always 'BIB', exfor_section.py:57) -/
def BibSection.str (D : RxDicts) (b : BibSection Measurement) : Except PyErr Str :=
  match b.totalLen with
  | .error e => .error e
  | .ok n => match mapE (b.fieldStr D) b.sortedKeys with
    | .error e => .error e
    | .ok ts => .ok (ljust chars!"BIB" 11 ++ rjust (natStr b.fields.length) 11 ++ rjust (natStr n) 11 ++ ['\n'] ++
        (ts.flatMap fun t => t ++ ['\n']) ++ ljust chars!"ENDBIB" 11 ++ rjust (natStr n) 11)

/-- `str` of a section, exfor_section.py:77-83, 278-292 -/
def Sec.str (num : FloatLit → Str) (D : RxDicts) : Sec Measurement → Except PyErr Str
  | .bib b => b.str D
  | .data d => .ok (d.str num)

/-- `str(self[i])`, exfor_subentry.py:94-95 -/
def SubEntry.secStr (num : FloatLit → Str) (D : RxDicts) (s : SubEntry Measurement) (k : Str) : Except PyErr Str :=
  match s.sections.get k with
  | .error e => .error e
  | .ok v => v.str num D

/-- `X4SubEntry.__str__`, exfor_subentry.py:91-97. `None.ljust` is an `AttributeError`. -/
def SubEntry.str (num : FloatLit → Str) (D : RxDicts) (s : SubEntry Measurement) : Except PyErr Str :=
  match s.accnum with
  | none => .error .attributeError
  | some acc => match mapE (s.secStr num D) s.sortedKeys with
    | .error e => .error e
    | .ok ts => .ok (ljust chars!"SUBENT" 11 ++ ljust acc 11 ++ ['\n'] ++ (ts.flatMap fun t => t ++ ['\n']) ++
        ljust chars!"ENDSUBENT" 11)

/-- `str(self[key])`, exfor_entry.py:176-177 -/
def Entry.keyStr (num : FloatLit → Str) (D : RxDicts) (e : Entry Measurement) (k : Option Str) : Except PyErr Str :=
  match e.getKey k with
  | .error e => .error e
  | .ok s => s.str num D

/-- `X4Entry.__str__`, exfor_entry.py:173-179 -/
def Entry.str (num : FloatLit → Str) (D : RxDicts) (e : Entry Measurement) : Except PyErr Str :=
  match e.sortedKeys with
  | .error e => .error e
  | .ok ks => match mapE (e.keyStr num D) ks with
    | .error e => .error e
    | .ok ts => .ok (ljust chars!"ENTRY" 11 ++ ljust e.accnum 11 ++ ['\n'] ++ (ts.flatMap fun t => t ++ ['\n']) ++
        ljust chars!"ENDENTRY" 11)

end X4
