import Verif.Model.SubEntry
/-! Model of `x4i3/exfor_entry.py` (reading and indexing of entries). -/
namespace X4
variable {ρ : Type}

/-- `subentsList == None or acc in subentsList`, exfor_entry.py:87, 119 -/
def keepSubent (subents : Option (List Str)) (acc : Str) : Bool :=
  match subents with
  | none => true
  | some l => decide (acc ∈ l)

/-- body of the loop of `x4EntryFactory` (exfor_entry.py:79-89) and of
`x4DictionaryEntryFactory` (exfor_entry.py:111-121). State: `subent`, `result`. -/
def entryFileStep (subents : Option (List Str)) (st : Str × List Str) (line : Str) : Str × List Str :=
  let subent :=
    if startsWith line "ENTRY".toList || startsWith line "ENDENTRY".toList || startsWith line "NOSUBENT".toList then st.1
    else if startsWith line "SUBENT".toList then line
    else st.1 ++ line
  if startsWith line "ENDSUBENT".toList then
    ([], if keepSubent subents (strip (slice subent 14 22)) then st.2 ++ [subent] else st.2)
  else (subent, st.2)

/-- the loop over the lines of the file (each line includes its newline), exfor_entry.py:78-89 -/
def splitEntryFile (subents : Option (List Str)) (entry : List Str) : List Str :=
  (entry.foldl (entryFileStep subents) ([], [])).2

/-- a read access to the database and its answer, exfor_entry.py:69-77 -/
structure DB where
  /-- the lines of the file with this path below the database directory -/
  read : Str → Except PyErr (List Str)

/-- `x4EntryFactory(enum, subentsList, rawEntry=True)`, exfor_entry.py:58-92. The first
component lists the paths read. (For `x4DictionaryEntryFactory` see Model/Cache.) -/
def entryFactoryRaw (db : DB) (enum : Str) (subents : Option (List Str)) : List Str × Except PyErr (List Str) :=
  if enum.length ≠ 5 then ([], .error .valueError)
  else
    let path := slice enum 0 3 ++ ['/'] ++ enum ++ ".x4".toList
    ([path], match db.read path with
      | .error e => .error e
      | .ok entry => .ok (splitEntryFile subents entry))

/-- `extractX4EntryIndex`, exfor_entry.py:127-142 -/
def extractX4EntryIndex : List Str → Option Str
  | [] => none
  | line :: ls =>
    if strip line = [] then extractX4EntryIndex ls
    else if (splitWs line).head? = some "ENTRY".toList then some (strip (slice line 14 22))
    else if (splitWs line).head? = some "SUBENT".toList then some (slice (slice line 14 22) 0 5)
    else extractX4EntryIndex ls

/-- `X4Entry`, exfor_entry.py:145-163, without the `errors` record. The keys are the
`accnum` of the subentries (`none` is Python's `None`). -/
structure Entry (ρ : Type) where
  accnum : Str
  subs : Dict (Option Str) (SubEntry ρ)
  deriving DecidableEq

/-- loop body of the constructor (an `IndexError` is re-raised as an `IndexError`), exfor_entry.py:157-163 -/
def entryStep (P : FieldParsers ρ) (d : Dict (Option Str) (SubEntry ρ)) (x : Str) :
    Except PyErr (Dict (Option Str) (SubEntry ρ)) :=
  match SubEntry.build P (splitChar '\n' x) with
  | .error e => .error e
  | .ok s => .ok (d.set s.accnum s)

/-- `X4Entry.__init__`, exfor_entry.py:150-163 -/
def Entry.build (P : FieldParsers ρ) (raw : List Str) : Except PyErr (Entry ρ) :=
  match extractX4EntryIndex raw with
  | none => .error .keyError
  | some acc =>
    if acc.length ≠ 5 then .error .keyError
    else match foldE (entryStep P) [] raw with
      | .error e => .error e
      | .ok d => .ok { accnum := acc, subs := d }

/-- the argument of `X4Entry.__getitem__`, exfor_entry.py:181-184 -/
inductive Index where
  | int (i : Int)
  | str (s : Str)
  deriving DecidableEq

/-- `type(i) == int` → `str(i)`, exfor_entry.py:183-184 -/
def Index.text : Index → Str
  | .int i => intStr i
  | .str s => s

/-- `X4Entry.__getitem__` once the index is a string, exfor_entry.py:185-190 -/
def Entry.getStr (e : Entry ρ) (s : Str) : Except PyErr (SubEntry ρ) :=
  if s.length = 8 then e.subs.get (some s)
  else if s.length ≤ 3 then e.subs.get (some (e.accnum ++ zfill s 3))
  else .error .keyError

/-- `X4Entry.__getitem__`, exfor_entry.py:181-190 -/
def Entry.getItem (e : Entry ρ) (i : Index) : Except PyErr (SubEntry ρ) := e.getStr i.text

/-- `X4Entry.chunkify`, exfor_entry.py:192-219 -/
def entryChunkify (entry : List Str) : List (List Str) :=
  chunkLoop (fun l => tag11 l = "SUBENT".toList) (fun l => tag11 l = "ENDSUBENT".toList) [] none entry

/-- `None < str` is a `TypeError`, so sorting keys fails if a key is `None` and there is
another key, exfor_entry.py:343-344 -/
def sortOptKeys (ks : List (Option Str)) : Except PyErr (List (Option Str)) :=
  if none ∈ ks ∧ ks.length ≠ 1 then .error .typeError
  else .ok (sortBy (fun a b => strLe (a.getD []) (b.getD [])) ks)

/-- `sortedKeys`, exfor_entry.py:342-345 -/
def Entry.sortedKeys (e : Entry ρ) : Except PyErr (List (Option Str)) := sortOptKeys e.subs.keys

/-- `self[key]` with a key of the entry; `len(None)` is a `TypeError`, exfor_entry.py:168-169, 185 -/
def Entry.getKey (e : Entry ρ) : Option Str → Except PyErr (SubEntry ρ)
  | none => .error .typeError
  | some k => e.getItem (.str k)

/-- `repr(self[key])`, exfor_entry.py:169 -/
def Entry.keyRepr (e : Entry ρ) (k : Option Str) : Except PyErr Str :=
  match e.getKey k with
  | .error e => .error e
  | .ok s => s.repr

/-- `X4Entry.__repr__`, exfor_entry.py:165-171 -/
def Entry.repr (e : Entry ρ) : Except PyErr Str :=
  match e.sortedKeys with
  | .error e => .error e
  | .ok ks =>
    match mapE e.keyRepr ks with
    | .error e => .error e
    | .ok rs => .ok (ljust "ENTRY".toList 11 ++ ljust e.accnum 11 ++ ['\n'] ++ (rs.flatMap fun r => r ++ ['\n']) ++
        ljust "ENDENTRY".toList 11)

/-- `self[1]['BIB']`, exfor_entry.py:348, 364 -/
def Entry.mainBib (e : Entry ρ) : Except PyErr (BibSection ρ) :=
  match e.getItem (.int 1) with
  | .error e => .error e
  | .ok s => match s.sections.get "BIB".toList with
    | .error e => .error e
    | .ok (.bib b) => .ok b
    | .ok (.data _) => .error .attributeError   -- never stored under this key

/-- `deleted`, exfor_entry.py:347-350. The membership test is on the *dictionary* of
pointers of the HISTORY field, whose keys are single characters. -/
def Entry.deleted (e : Entry ρ) : Except PyErr Bool :=
  match e.mainBib with
  | .error e => .error e
  | .ok b => match b.fields.get? (some "HISTORY".toList) with
    | none => .ok false
    | some h => .ok (decide ("ENTRY DELETED".toList ∈ h.subs.keys.map fun c => [c]))

end X4
