import Verif.Model.Messages
import Verif.Model.EntryText
import Verif.Model.DatasetAccess
import Verif.Model.Manager
/-! Model of the programs `examples/get-entry.py` and `examples/plotX4.py`. -/
namespace X4

/-! ### get-entry -/

/-- the options, get-entry.py:52-122 (`-v`, `-q` have no effect; `-c` chooses the manager, see `GetWorld.retrieve`) -/
structure GetArgs where
  subent : Option Str := none
  ent : Option Str := none
  getFile : Bool := false
  raw : Bool := false
  rawdata : Bool := false
  data : Bool := false
  rawdoc : Bool := false
  doc : Bool := false
  nada : Bool := false

/-- what the program works with: the manager's `retrieve` (get-entry.py:135-143), the files read with `-f` (get-entry.py:149), `str`
of numbers, dictionaries, and the texts printed for `getDataSets()` and then `errors` (get-entry.py:196-198), and for `repr` of a text -/
structure GetWorld where
  retrieve : Criteria → Except PyErr (Dict Str (Entry Measurement))
  P : FieldParsers Measurement
  db : DB
  num : FloatLit → Str
  D : RxDicts
  sets : Entry Measurement → Except PyErr (Str × Str)
  quoted : Str → Str

/-- the values of `searchResult`: entries, or texts of subentries, get-entry.py:135-149 -/
inductive Found where
  | entry (e : Entry Measurement)
  | raw (l : List Str)

/-- the texts printed, and how it ends, get-entry.py:125-198 -/
abbrev Printed := List Str × Except PyErr Unit

/-- one statement after another, get-entry.py:125-198 -/
def Printed.andThen (a b : Printed) : Printed :=
  match a.2 with
  | .error e => (a.1, .error e)
  | .ok () => (a.1 ++ b.1, b.2)

/-- `print` of a text that may fail, get-entry.py:173-198 -/
def printE : Except PyErr Str → Printed
  | .error e => ([], .error e)
  | .ok t => ([t], .ok ())

/-- the loop that removes the other subentries, get-entry.py:156-160; `None.endswith` is an `AttributeError` -/
def keepOnly (subent : Str) : Dict (Option Str) (SubEntry Measurement) → Except PyErr (Dict (Option Str) (SubEntry Measurement))
  | [] => .ok []
  | (none, _) :: _ => .error .attributeError
  | (some k, s) :: r => match keepOnly subent r with
    | .error e => .error e
    | .ok r' => .ok (if endsWith k chars!"001" || k = subent then (some k, s) :: r' else r')

/-- `searchResult`, get-entry.py:135-160 -/
def searchResult (w : GetWorld) (a : GetArgs) : Except PyErr (Dict Str Found) :=
  if a.getFile = false then
    (w.retrieve (match a.ent with
      | some e => { ENTRY := some (.str e) }
      | none => { SUBENT := a.subent.map .str })).map fun r => r.map fun kv => (kv.1, .entry kv.2)
  else
    let theEntry := match a.ent with
      | some e => e
      | none => slice (a.subent.getD []) 0 5
    match (entryFactoryRaw w.db theEntry none).2 with
    | .error e => .error e
    | .ok l =>
      if a.raw then .ok [(theEntry, .raw l)]
      else match Entry.build w.P l with
        | .error e => .error e
        | .ok x => match a.subent with
          | none => .ok [(theEntry, .entry x)]
          | some s =>
            if some s ∉ x.subs.keys then .error .keyError
            else match keepOnly s x.subs with
              | .error e => .error e
              | .ok subs => .ok [(theEntry, .entry { x with subs := subs })]

/-- `i.split('\n')[0][0:22]` printed after four blanks, get-entry.py:166 -/
def listLine (i : Str) : Str := chars!"    " ++ slice ((splitChar '\n' i).headD []) 0 22

/-- `for i in …: print(…)`, get-entry.py:165-166; `None.split` is an `AttributeError` -/
def listLoop : List (Option Str) → Printed
  | [] => ([], .ok ())
  | none :: _ => ([], .error .attributeError)
  | some i :: r => Printed.andThen ([listLine i], .ok ()) (listLoop r)

/-- what `for i in searchResult[k]` iterates over, get-entry.py:165, 176: the keys of an entry, the texts of a raw entry -/
def Found.items : Found → List (Option Str)
  | .entry e => e.subs.keys
  | .raw l => l.map some

/-- get-entry.py:163-166 -/
def printSubentries (r : Dict Str Found) : Printed :=
  match r with
  | [] => ([], .error .indexError)
  | (k, v) :: _ => Printed.andThen ([chars!"This ENTRY:       " ++ k], .ok ()) (listLoop v.items)

/-- `'\n'.join(searchResult[k])`, get-entry.py:176; joining `None` is a `TypeError` -/
def Found.joined (v : Found) : Except PyErr Str :=
  match mapE (fun i : Option Str => match i with | none => .error .typeError | some t => .ok t) v.items with
  | .error e => .error e
  | .ok ts => .ok (joinWith ['\n'] ts)

/-- `for k in keys: print(…)`, get-entry.py:175-176 -/
def joinLoop (r : Dict Str Found) : List Str → Printed
  | [] => ([], .ok ())
  | k :: ks => Printed.andThen (printE (match r.get k with
    | .error e => .error e
    | .ok v => v.joined)) (joinLoop r ks)

/-- `searchResult[keys[0]][1]`, get-entry.py:179, 182 -/
def Found.first (num : FloatLit → Str) (D : RxDicts) (quoted : Str → Str) (asRepr : Bool) : Found → Except PyErr Str
  | .entry e => match e.getItem (.int 1) with
    | .error e => .error e
    | .ok s => if asRepr then s.repr else s.str num D
  | .raw l => match l[1]? with
    | none => .error .indexError
    | some t => .ok (if asRepr then quoted t else t)

/-- `searchResult[keys[-1]][args.subent]['DATA']`, get-entry.py:188 -/
def Found.dataText (num : FloatLit → Str) (D : RxDicts) (subent : Str) : Found → Except PyErr Str
  | .raw _ => .error .typeError
  | .entry e => match e.getItem (.str subent) with
    | .error e => .error e
    | .ok s => match s.sections.get chars!"DATA" with
      | .error e => .error e
      | .ok v => v.str num D

/-- `10 * '-'`, a title, `10 * '-'`, get-entry.py:187-197 -/
def banner (t : Str) : Str := List.replicate 10 '-' ++ [' '] ++ t ++ [' '] ++ List.replicate 10 '-'

/-- `searchResult[keys[-1]]` and so on, get-entry.py:169-198 -/
def pickEntry (r : Dict Str Found) (k : Option Str) : Except PyErr Found :=
  match k with
  | none => .error .indexError
  | some k => r.get k

/-- `print(searchResult[keys[-1]].getDataSets())`, `print(searchResult[keys[-1]].errors)`, get-entry.py:196-198 -/
def printSets (sets : Entry Measurement → Except PyErr (Str × Str)) : Found → Printed
  | .raw _ => ([], .error .attributeError)
  | .entry e => match sets e with
    | .error e => ([], .error e)
    | .ok (t, errs) => ([t, banner chars!"Errors", errs], .ok ())

/-- `repr` of a key of `getDataSets()`: a tuple of texts, the second of which may be `None`; exfor_entry.py:263, 281, get-entry.py:196 -/
def dsKeyRepr (k : DsKey) : Str := ['('] ++ strRepr k.1 ++ chars!", " ++ optStrRepr k.2.1 ++ chars!", " ++ strRepr [k.2.2] ++ [')']

/-- `key: value` in the text of a dict of datasets, get-entry.py:196 -/
def setRepr {N : Type} (T : DsReprs Measurement N) (kd : DsKey × DataSet Measurement N) : Except PyErr Str :=
  match kd.2.repr T with
  | .error e => .error e
  | .ok t => .ok (dsKeyRepr kd.1 ++ chars!": " ++ t)

/-- the text of a dict, made of those of its items: `{…, …}`, get-entry.py:196-198 -/
def braced (items : List Str) : Str := ['{'] ++ joinWith chars!", " items ++ ['}']

/-- `searchResult[keys[-1]].getDataSets()` and `searchResult[keys[-1]].errors` as texts, get-entry.py:196-198; `py` gives the texts of Python's own
exceptions -/
def setsPrinted {N : Type} [PyNum N] (rx : RxOps Measurement) (T : DsReprs Measurement N) (py : PyErr → Str) (e : Entry Measurement) :
    Except PyErr (Str × Str) :=
  match e.getDataSetsN (N := N) rx py [] [] with
  | .error x => .error x
  | .ok st => match mapE (setRepr T) st.1.datasets with
    | .error x => .error x
    | .ok ts => .ok (braced ts, braced (st.2.map fun kv => dsKeyRepr kv.1 ++ chars!": " ++ strRepr kv.2))

/-- get-entry.py:169-198. The errors of an entry that was just read are `{}` (exfor_entry.py:156). -/
def examine (w : GetWorld) (a : GetArgs) (subent : Str) (r : Dict Str Found) : Printed :=
  let keys := sortBy strLe r.keys
  if a.nada then ([], .ok ()) else
  Printed.andThen (if a.raw then Printed.andThen ([chars!"\n\n"], .ok ()) (joinLoop r keys) else ([], .ok ())) <|
  Printed.andThen (if a.rawdoc then Printed.andThen ([chars!"\n\n"], .ok ())
    (printE (match pickEntry r keys.head? with | .error e => .error e | .ok v => v.first w.num w.D w.quoted true)) else ([], .ok ())) <|
  Printed.andThen (if a.doc then Printed.andThen ([chars!"\n\n"], .ok ())
    (printE (match pickEntry r keys.head? with | .error e => .error e | .ok v => v.first w.num w.D w.quoted false)) else ([], .ok ())) <|
  Printed.andThen (if a.rawdata then
    if endsWith subent chars!"001" then ([], .error .valueError) else
    Printed.andThen ([banner chars!"Raw Data"], .ok ()) <|
    Printed.andThen (printE (match pickEntry r keys.getLast? with | .error e => .error e | .ok v => v.dataText w.num w.D subent))
      ([banner chars!"Errors", chars!"{}"], .ok ()) else ([], .ok ())) <|
  if a.data then
    if endsWith subent chars!"001" then ([], .error .valueError) else
    Printed.andThen ([banner chars!"Data"], .ok ())
      (match pickEntry r keys.getLast? with | .error e => ([], .error e) | .ok v => printSets w.sets v)
  else ([], .ok ())

/-- the program, get-entry.py:125-198 -/
def getEntry (w : GetWorld) (a : GetArgs) : Printed :=
  if a.subent = none ∧ a.ent = none then ([], .error .valueError)
  else if ∃ s, a.subent = some s ∧ s.length ≠ 8 then ([], .error .valueError)
  else if ∃ e, a.ent = some e ∧ e.length ≠ 5 then ([], .error .valueError)
  else match searchResult w a with
    | .error e => ([], .error e)
    | .ok r => Printed.andThen (if a.ent = none then ([], .ok ()) else printSubentries r)
        (match a.subent with
          | none => ([], .ok ())
          | some s => examine w a s r)

/-! ### plotX4 -/

/-- `extractX4EntryIndex` of an entry, that is, of its keys, exfor_entry.py:135-142, plotX4.py:60; `None.strip` is an `AttributeError` -/
def entryIndexOfKeys : List (Option Str) → Except PyErr (Option Str)
  | [] => .ok none
  | none :: _ => .error .attributeError
  | some line :: ls =>
    if strip line = [] then entryIndexOfKeys ls
    else if (splitWs line).head? = some chars!"ENTRY" then .ok (some (strip (slice line 14 22)))
    else if (splitWs line).head? = some chars!"SUBENT" then .ok (some (slice (slice line 14 22) 0 5))
    else entryIndexOfKeys ls

/-- `X4Entry(subents[e])` of an entry, plotX4.py:60, exfor_entry.py:150-163; `None.split` is an `AttributeError` (exfor_subentry.py:69) -/
def entryOfEntry (P : FieldParsers Measurement) (e : Entry Measurement) : Except PyErr (Entry Measurement) :=
  match entryIndexOfKeys e.subs.keys with
  | .error e => .error e
  | .ok none => .error .keyError
  | .ok (some acc) =>
    if acc.length ≠ 5 then .error .keyError
    else match foldE (fun d k => match k with | none => .error .attributeError | some x => entryStep P d x) [] e.subs.keys with
      | .error e => .error e
      | .ok d => .ok { accnum := acc, subs := d }

/-- the loop, plotX4.py:56-66. `simple` gives the texts of the simplified datasets; the files written are collected. -/
def plotLoop (P : FieldParsers Measurement) (simple : Entry Measurement → Except PyErr (List Str)) (r : Dict Str (Entry Measurement)) :
    List Str → List Str → Except PyErr (List Str)
  | files, [] => .ok files
  | files, k :: ks =>
    if k = chars!"22208" then plotLoop P simple r files ks
    else match r.get k with
      | .error e => .error e
      | .ok e => match entryOfEntry P e with
        | .error e => .error e
        | .ok x => match simple x with
          | .error e => .error e
          | .ok ts => plotLoop P simple r (files ++ ts) ks

/-- how the program ends, plotX4.py:67-75: with exit status 1, or after calling xmgrace with these files -/
inductive PlotEnd where
  | exit1
  | plotted (files : List Str)
  deriving DecidableEq

/-- the program, plotX4.py:30-75: `retrieve` is the manager's; `shown` is the `print(subents)` of line 54 -/
def plotX4 (P : FieldParsers Measurement) (retrieve : Criteria → Except PyErr (Dict Str (Entry Measurement)))
    (shown : Dict Str (Entry Measurement) → Except PyErr Unit) (simple : Entry Measurement → Except PyErr (List Str))
    (isotope reaction : Str) : Except PyErr PlotEnd :=
  match retrieve { target := some isotope, reaction := some reaction, quantity := some chars!"CS" } with
  | .error e => .error e
  | .ok r => match shown r with
    | .error e => .error e
    | .ok () => match plotLoop P simple r [] r.keys with
      | .error e => .error e
      | .ok files => .ok (if files = [] then .exit1 else .plotted files)

end X4
