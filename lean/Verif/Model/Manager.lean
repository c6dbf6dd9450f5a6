import Verif.Model.Sql
import Verif.Model.Entry
import Verif.Model.Utilities
/-! Model of `x4i3/exfor_manager.py`. -/
namespace X4

/-- The search criteria of `query` and `retrieve`. `author` … `quantity` are texts (other types
end in an `AttributeError`, not modelled); the unused criteria are only compared with `None`. exfor_manager.py:216-222 -/
structure Criteria where
  author : Option Str := none
  reaction : Option Str := none
  target : Option Str := none
  projectile : Option Str := none
  quantity : Option Str := none
  product : Option Index := none
  MF : Option Index := none
  MT : Option Index := none
  C : Option Index := none
  S : Option Index := none
  I : Option Index := none
  SUBENT : Option Index := none
  ENTRY : Option Index := none
  deriving DecidableEq

/-- `"col = '%s' " % text`, exfor_manager.py:231-268 -/
def eqCriterion (col text : Str) : Str := col ++ " = '".toList ++ text ++ "' ".toList
/-- `"col LIKE '%s' " % text`, exfor_manager.py:243-249 -/
def likeCriterion (col text : Str) : Str := col ++ " LIKE '".toList ++ text ++ "' ".toList

/-- exfor_manager.py:243-249 -/
def reactionCriterion (r : Str) : Str :=
  if '*' ∈ r then likeCriterion "reaction".toList (upper (replaceChar '*' ['%'] r))
  else eqCriterion "reaction".toList (upper r)

/-- exfor_manager.py:257-260 -/
def quantityCriterion (q : Str) : Str :=
  if q = "CS".toList then eqCriterion "quantity".toList "SIG".toList
  else eqCriterion "quantity".toList (upper q)

/-- the list `criteria`, exfor_manager.py:231-268 (lines 223-229 have no effect: the
exception raised there is caught at once) -/
def Criteria.conditions (c : Criteria) : List Str :=
  (c.author.map (fun a => eqCriterion "author".toList (capitalize a))).toList ++
  (c.target.map (fun t => eqCriterion "target".toList (upper t))).toList ++
  (c.reaction.map reactionCriterion).toList ++
  (c.projectile.map (fun p => eqCriterion "projectile".toList (upper p))).toList ++
  (c.quantity.map quantityCriterion).toList ++
  (c.SUBENT.map (fun s => eqCriterion "subent".toList s.text)).toList ++
  (c.ENTRY.map (fun s => eqCriterion "entry".toList s.text)).toList

/-- `' and '.join(criteria)`, exfor_manager.py:271 -/
def Criteria.condition (c : Criteria) : Str := joinWith " and ".toList c.conditions

/-- the statement built by `run_sql_query`, exfor_manager.py:176-178 -/
def sqlStatement (table column cond : Str) : Str :=
  "select ".toList ++ column ++ " from ".toList ++ table ++ " where ".toList ++ cond

/-- one round of the loop of exfor_manager.py:280-285 -/
def groupStep (m : Dict Str (List Str)) (r : Str) : Dict Str (List Str) :=
  let e := slice r 0 5
  let m' := if m.has e then m else m.set e [e ++ "001".toList]
  match m'.get? e with
  | none => m'
  | some l => if r ∈ l then m' else m'.set e (l ++ [r])

/-- exfor_manager.py:274 and 279-285: the subentries found, sorted and grouped by entry -/
def groupSubents (found : List Str) : Dict Str (List Str) :=
  (sortBy strLe (unique found)).foldl groupStep []

/-- the column `subent` of a row; sorting or slicing a `None` is a `TypeError`, exfor_manager.py:274 -/
def rowSubent (r : Row) : Except PyErr Str :=
  match r.subent with
  | none => .error .typeError
  | some s => .ok s
/-- `[x[0] for x in self.CURSOR.fetchall()]`, exfor_manager.py:274 -/
def subentColumn (rows : List Row) : Except PyErr (List Str) := mapE rowSubent rows

/-- `X4DBManagerPlainFS.query`, exfor_manager.py:216-287, for the contents `table` of the index.
The first component lists the SQL statements executed. -/
def query (table : List Row) (c : Criteria) : List Str × Except PyErr (Dict Str (List Str)) :=
  if c.condition = [] then ([], .ok [])
  else ([sqlStatement "theworks".toList "subent".toList c.condition],
    match sqlWhere table c.condition with
    | none => .error .operationalError
    | some rows => match subentColumn rows with
      | .error e => .error e
      | .ok found => .ok (groupSubents found))

/-- `X4DBManagerPlainFS.retrieve` with `rawEntry=True`, exfor_manager.py:289-313; `db` is the
database directory `self.DATAPATH` -/
def retrieveRaw (table : List Row) (db : DB) (c : Criteria) : Except PyErr (Dict Str (List Str)) :=
  match (query table c).2 with
  | .error e => .error e
  | .ok smap => mapE (fun kv : Str × List Str =>
      match (entryFactoryRaw db kv.1 (some kv.2)).2 with
      | .error e => .error e
      | .ok l => .ok (kv.1, l)) smap

/-- `X4DBManagerPlainFS.retrieve` with `rawEntry=False`, exfor_manager.py:289-313 -/
def retrieve {ρ : Type} (P : FieldParsers ρ) (table : List Row) (db : DB) (c : Criteria) : Except PyErr (Dict Str (Entry ρ)) :=
  match (query table c).2 with
  | .error e => .error e
  | .ok smap => mapE (fun kv : Str × List Str =>
      match (entryFactoryRaw db kv.1 (some kv.2)).2 with
      | .error e => .error e
      | .ok l => match Entry.build P l with
        | .error e => .error e
        | .ok x => .ok (kv.1, x)) smap

/-- `__fixkey__`, exfor_manager.py:115-127 -/
def fixKey (i : Index) : Except PyErr Str :=
  if i.text.length ∈ [5, 8] then .ok i.text else .error .keyError

/-- `__getitem__`, exfor_manager.py:129-139 -/
def managerGetItem {ρ : Type} (P : FieldParsers ρ) (table : List Row) (db : DB) (i : Index) : Except PyErr (Dict Str (Entry ρ)) :=
  match fixKey i with
  | .error e => .error e
  | .ok k => if k.length = 5 then retrieve P table db { ENTRY := some (.str k) } else retrieve P table db { SUBENT := some (.str k) }

/-- `__contains__`, exfor_manager.py:150-160. For subentries the code is
`len(self.query(SUBENT=i) > 0)`, and a dictionary cannot be compared with a number. -/
def managerContains (table : List Row) (i : Index) : Except PyErr Bool :=
  match fixKey i with
  | .error e => .error e
  | .ok k =>
    if k.length = 5 then
      match (query table { ENTRY := some (.str k) }).2 with
      | .error e => .error e
      | .ok m => .ok (decide (0 < m.length))
    else match (query table { SUBENT := some (.str k) }).2 with
      | .error e => .error e
      | .ok _ => .error .typeError

/-- `__setitem__`, exfor_manager.py:141-148 -/
def managerSetItem (i : Index) : PyErr :=
  match fixKey i with
  | .error e => e
  | .ok _ => .notImplementedError

end X4
