import Verif.Model.Manager
import Verif.Model.EndlZ
/-! Model of the constructors and the base class of `x4i3/exfor_manager.py`, and of small tables. -/
namespace X4

/-- `kw.pop(k, default)`, Python built-in as used in exfor_manager.py:210-211: the value and what is left -/
def popKw {α : Type} (kw : Dict Str α) (k : Str) (dflt : α) : α × Dict Str α :=
  ((kw.get? k).getD dflt, kw.filter fun kv => kv.1 ≠ k)

/-- A manager after `__init__`: `self.DATAPATH`, `self.database`, and what `self.CURSOR` reads, exfor_manager.py:208-214. Statements of SQL only
read the table of the index. -/
structure PlainFS (α : Type) where
  datapath : α
  database : α
  table : List Row

/-- `X4DBManagerPlainFS.__init__`, exfor_manager.py:208-214 (and 110-113, which sets what is set again here). `connect database kw` is
`sqlite3.connect(database, **kw)`: the table in the file, or the exception. `X4DBManagerMemoryCached` has the same constructor. -/
def PlainFS.init {α : Type} (fullDBPath fullIndexFileName : α) (connect : α → Dict Str α → Except PyErr (List Row)) (kw : Dict Str α) :
    Except PyErr (PlainFS α) :=
  let d := popKw kw "datapath".toList fullDBPath
  let b := popKw d.2 "database".toList fullIndexFileName
  match connect b.1 b.2 with
  | .error e => .error e
  | .ok t => .ok ⟨d.1, b.1, t⟩

/-- `retrieve` of such a manager, exfor_manager.py:289-313; `files` are the directories of the computer -/
def PlainFS.retrieve {α ρ : Type} (P : FieldParsers ρ) (files : α → DB) (m : PlainFS α) (c : Criteria) : Except PyErr (Dict Str (Entry ρ)) :=
  X4.retrieve P m.table (files m.datapath) c

/-- `X4DBManager.query` of the base class, exfor_manager.py:183-189 -/
def baseQuery (_ : Criteria) : Except PyErr (Dict Str (List Str)) := .error .notImplementedError
/-- `X4DBManager.retrieve` of the base class, exfor_manager.py:191-197 -/
def baseRetrieve (ρ : Type) (_ : Criteria) : Except PyErr (Dict Str (Entry ρ)) := .error .notImplementedError

/-- `X4DBManager.__getitem__` of the base class, exfor_manager.py:129-139 -/
def baseGetItem (ρ : Type) (i : Index) : Except PyErr (Dict Str (Entry ρ)) :=
  match fixKey i with
  | .error e => .error e
  | .ok k => if k.length = 5 then baseRetrieve ρ { ENTRY := some (.str k) } else baseRetrieve ρ { SUBENT := some (.str k) }

/-- `X4DBManager.__contains__` of the base class, exfor_manager.py:150-160 -/
def baseContains (i : Index) : Except PyErr Bool :=
  match fixKey i with
  | .error e => .error e
  | .ok k =>
    match (if k.length = 5 then baseQuery { ENTRY := some (.str k) } else baseQuery { SUBENT := some (.str k) }) with
    | .error e => .error e
    | .ok m => if k.length = 5 then .ok (decide (0 < m.length)) else .error .typeError

/-- `EntryLetterConversion`, exfor_manager.py:59-74 -/
def entryLetters : Dict Str Str :=
  [("10".toList, "A".toList), ("11".toList, "B".toList), ("12".toList, "C".toList), ("13".toList, "D".toList), ("14".toList, "E".toList),
   ("15".toList, "F".toList), ("16".toList, "G".toList), ("21".toList, "L".toList), ("22".toList, "M".toList), ("24".toList, "O".toList),
   ("25".toList, "P".toList), ("27".toList, "R".toList), ("28".toList, "S".toList), ("29".toList, "T".toList), ("31".toList, "V".toList)]

/-- `revEntryLetterConversion`, exfor_manager.py:75-90 -/
def revEntryLetters : Dict Str Str :=
  [("A".toList, "10".toList), ("B".toList, "11".toList), ("C".toList, "12".toList), ("D".toList, "13".toList), ("E".toList, "14".toList),
   ("F".toList, "15".toList), ("G".toList, "16".toList), ("L".toList, "21".toList), ("M".toList, "22".toList), ("O".toList, "24".toList),
   ("P".toList, "25".toList), ("R".toList, "27".toList), ("S".toList, "28".toList), ("T".toList, "29".toList), ("V".toList, "31".toList)]

/-- `endl_nZs()`, endl_Z.py:28, 153 -/
def endlNZs : Int := 119

end X4
