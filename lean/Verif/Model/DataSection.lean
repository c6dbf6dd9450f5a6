import Verif.Py.Loop
import Verif.Model.Utilities
/-! Model of `X4DataSection` (`x4i3/exfor_section.py:196-334`). -/
namespace X4

/-- The data members of `X4DataSection` (exfor_section.py:201-216; the base class `X4Section`, 40-48, keeps the lines and is never printed).
`original` and `VERBOSELEVEL` are left out. -/
structure DataSection where
  tag : Str
  numcols : Int
  numrows : Int
  lpr : Int
  labels : List Str
  units : List Str
  pointers : Dict Char (List Nat)
  rawData : List (List Str)
  data : List (List (Option FloatLit))
  deriving DecidableEq, Repr

/-- `int(s)` raising `ValueError`, as used in exfor_section.py:219-220 -/
def pyIntE (s : Str) : Except PyErr Int :=
  match pyInt s with
  | some n => .ok n
  | none => .error .valueError

/-- the two counters of the section header, exfor_section.py:218-220 -/
def headerCounts (sec : List Str) : Except PyErr (Int × Int) :=
  match pyIdx sec 0 with
  | .error e => .error e
  | .ok line0 =>
    let w := splitWs (line0.take 33)
    match pyIdx w 1 with
    | .error e => .error e
    | .ok w1 =>
      match pyIntE w1 with
      | .error e => .error e
      | .ok ncols =>
        match pyIdx w 2 with
        | .error e => .error e
        | .ok w2 =>
          match pyIntE w2 with
          | .error e => .error e
          | .ok nrows => .ok (ncols, nrows)

/-- `LPR`, exfor_section.py:223 (floor division) -/
def linesPerRow (numcols : Int) : Int := Int.fdiv (numcols - 1) 6 + 1

/-- reconciling the announced number of rows with the number of lines,
exfor_section.py:224-244 -/
def reconcile (len : Nat) (numrows lpr : Int) : Except PyErr Int :=
  if (len : Int) ≠ 2 + (numrows + 2) * lpr then
    if (len : Int) = 2 + numrows * lpr then .ok (numrows - 2)
    else if (len : Int) = 2 + numrows then
      if lpr = 0 then .error .zeroDivisionError
      else .ok (Int.fdiv numrows lpr - 2)
    else .error .indexError
  else .ok numrows

/-- `line[0:67].ljust(66).replace('\n', '')`, exfor_section.py:256 -/
def fitLine (l : Str) : Str := replaceChar '\n' [] (ljust (slice l 0 67) 66)

/-- one logical row made of the physical lines `start .. start+lpr-1`,
exfor_section.py:254-257 -/
def collapseRow (sec : List Str) (start lpr : Nat) : Except PyErr Str :=
  match mapE (fun j => pyIdx sec (start + j)) (List.range lpr) with
  | .error e => .error e
  | .ok ls => .ok (ls.map fitLine).flatten

/-- `collapsed_section`, exfor_section.py:251-257. `range` with step 0 is a
`ValueError`; with a negative step it is empty unless the section has a single line. -/
def collapse (sec : List Str) (lpr : Int) : Except PyErr (List Str) :=
  if lpr = 0 then .error .valueError
  else if lpr < 0 then
    if sec.length = 1 then .ok [[]] else .ok []
  else
    let k := lpr.toNat
    mapE (fun r => collapseRow sec (1 + r * k) k) (List.range ((sec.length - 2 + (k - 1)) / k))

/-- field `j` of a logical row, e.g. exfor_section.py:260 -/
def field11 (row : Str) (j : Nat) : Str := strip (slice row (11 * j) (11 * (j + 1)))

/-- `collapsed_section[r][11*j : 11*(j+1)].strip()`, exfor_section.py:260-261, 273 -/
def rowField (collapsed : List Str) (r j : Nat) : Except PyErr Str :=
  match pyIdx collapsed r with
  | .error e => .error e
  | .ok row => .ok (field11 row j)

/-- `self.pointers`, exfor_section.py:264-268: note `self.labels.index(...)`, which
finds the first column with that label. -/
def pointerStep (labels : List Str) (d : Dict Char (List Nat)) (j : Nat) : Dict Char (List Nat) :=
  match labels[j]? with
  | none => d
  | some l =>
    if l.length = 11 then
      match l[10]? with
      | some p => d.set p ((d.get? p).getD [] ++ [(labels.take (j + 1)).idxOf l])
      | none => d
    else d
/-- `self.pointers`, exfor_section.py:247, 264-268 -/
def pointersOf (labels : List Str) : Dict Char (List Nat) :=
  (List.range labels.length).foldl (pointerStep labels) []

/-- one logical data row: raw cells and parsed numbers, exfor_section.py:270-276 -/
def dataRow (collapsed : List Str) (ncols : Nat) (i : Nat) :
    Except PyErr (List Str × List (Option FloatLit)) :=
  match mapE (rowField collapsed (2 + i)) (List.range ncols) with
  | .error e => .error e
  | .ok raw =>
    match mapE parseFORTRANNumber raw with
    | .error e => .error e
    | .ok vals => .ok (raw, vals)

/-- labels and units, exfor_section.py:259-261 -/
def headings (collapsed : List Str) (ncols : Nat) : Except PyErr (List (Str × Str)) :=
  mapE (fun j =>
    match rowField collapsed 0 j with
    | .error e => .error e
    | .ok label =>
      match rowField collapsed 1 j with
      | .error e => .error e
      | .ok unit => .ok (label, unit)) (List.range ncols)

/-- `X4DataSection.__init__`, exfor_section.py:201-276 -/
def DataSection.build (tag : Str) (sec : List Str) : Except PyErr DataSection :=
  match headerCounts sec with
  | .error e => .error e
  | .ok (numcols, announced) =>
    let lpr := linesPerRow numcols
    match reconcile sec.length announced lpr with
    | .error e => .error e
    | .ok numrows =>
      match collapse sec lpr with
      | .error e => .error e
      | .ok collapsed =>
        match headings collapsed numcols.toNat with
        | .error e => .error e
        | .ok hs =>
          match mapE (dataRow collapsed numcols.toNat) (List.range numrows.toNat) with
          | .error e => .error e
          | .ok rows =>
            let labels := hs.map Prod.fst
            .ok { tag, numcols, numrows, lpr, labels, units := hs.map Prod.snd,
                  pointers := pointersOf labels,
                  rawData := rows.map Prod.fst, data := rows.map Prod.snd }

/-- the lines of `repr(section)`, exfor_section.py:294-309 -/
def DataSection.reprLines (d : DataSection) : List Str :=
  let row (cells : List Str) : Str := (cells.map fun c => ljust c 11).flatten
  [ljust d.tag 11 ++ rjust (intStr d.numcols) 11 ++ rjust (intStr d.numrows) 11,
   row d.labels, row d.units] ++ d.rawData.map row ++
  [ljust ("END".toList ++ d.tag) 11 ++ rjust (intStr (d.numrows + 2)) 11]

/-- `repr(section)`, exfor_section.py:294-309 -/
def DataSection.repr (d : DataSection) : Str := joinWith ['\n'] d.reprLines

end X4
