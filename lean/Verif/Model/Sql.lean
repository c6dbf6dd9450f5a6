import Verif.Py.Str
/-! The part of SQLite that `x4i3/exfor_manager.py` uses: `select subent from theworks where …`
with a condition made of comparisons with `=` and `LIKE`, joined by `and` and `or`.

SQLite itself is not part of the repository. What follows is its documented behaviour for this
fragment; other conditions (parentheses, numbers, comments, functions, further statements, …) are
all treated as errors (`none`), although SQLite accepts some of them. The theorems about queries
say nothing about such conditions except where a result is claimed inside the fragment. -/
namespace X4

/-- a row of the table `theworks`; all columns used are declared `text`. `none` is `NULL`. exfor_manager.py:174-181 (SQLite) -/
structure Row where
  entry : Option Str
  subent : Option Str
  pointer : Option Str
  author : Option Str
  reaction : Option Str
  projectile : Option Str
  target : Option Str
  quantity : Option Str
  deriving DecidableEq, Repr

/-- tokens of SQL, exfor_manager.py:174-181 (SQLite) -/
inductive SqlTok where
  /-- name or keyword -/
  | ident (s : Str)
  /-- `'…'`, with doubled quotes read as single ones -/
  | lit (s : Str)
  | eq
  deriving DecidableEq, Repr

/-- state of the lexer, exfor_manager.py:174-181 (SQLite) -/
inductive LexMode where
  | base
  | ident (s : Str)
  | str (s : Str)
  /-- after a quote that ends the text unless another one follows -/
  | quote (s : Str)
  deriving DecidableEq, Repr

/-- white space in SQL, exfor_manager.py:174-181 (SQLite) -/
def isSqlSpace (c : Char) : Bool := c == ' ' || c == '\t' || c == '\n' || c == '\r' || c == Char.ofNat 12
/-- the characters that begin a name, exfor_manager.py:174-181 (SQLite) -/
def isIdStart (c : Char) : Bool := (65 ≤ c.toNat && c.toNat ≤ 90) || (97 ≤ c.toNat && c.toNat ≤ 122) || c == '_'
/-- the characters of a name, exfor_manager.py:174-181 (SQLite) -/
def isIdChar (c : Char) : Bool := isIdStart c || isDig c

/-- `c` begins a token, exfor_manager.py:174-181 (SQLite) -/
def lexStart (c : Char) : Option (List SqlTok × LexMode) :=
  if isSqlSpace c then some ([], .base)
  else if c == '\'' then some ([], .str [])
  else if c == '=' then some ([.eq], .base)
  else if isIdStart c then some ([], .ident [c])
  else none

/-- the token is finished and `c` begins the next one, exfor_manager.py:174-181 (SQLite) -/
def lexAfter (t : SqlTok) (c : Char) : Option (List SqlTok × LexMode) :=
  match lexStart c with
  | none => none
  | some (ts, m) => some (t :: ts, m)

/-- one character, exfor_manager.py:174-181 (SQLite) -/
def lexStep : LexMode → Char → Option (List SqlTok × LexMode)
  | .base, c => lexStart c
  | .ident s, c => if isIdChar c then some ([], .ident (s ++ [c])) else lexAfter (.ident s) c
  | .str s, c =>
    if c == '\'' then some ([], .quote s)
    else if c.toNat == 0 then none      -- the `sqlite3` module refuses NUL characters
    else some ([], .str (s ++ [c]))
  | .quote s, c => if c == '\'' then some ([], .str (s ++ ['\''])) else lexAfter (.lit s) c

/-- the end of the text, exfor_manager.py:174-181 (SQLite) -/
def lexEnd : LexMode → Option (List SqlTok)
  | .base => some []
  | .ident s => some [.ident s]
  | .quote s => some [.lit s]
  | .str _ => none

/-- the tokens of a text, exfor_manager.py:174-181 (SQLite) -/
def lexSql (m : LexMode) : Str → Option (List SqlTok)
  | [] => lexEnd m
  | c :: s => match lexStep m c with
    | none => none
    | some (ts, m') => match lexSql m' s with
      | none => none
      | some r => some (ts ++ r)

/-- the columns, exfor_manager.py:174-181 (SQLite) -/
inductive SqlCol where
  | entry | subent | pointer | author | reaction | projectile | target | quantity
  deriving DecidableEq, Repr

/-- the two sides of a comparison, exfor_manager.py:174-181 (SQLite) -/
inductive SqlOperand where
  | col (c : SqlCol)
  | lit (s : Str)
  deriving DecidableEq, Repr

/-- comparisons, exfor_manager.py:174-181 (SQLite) -/
inductive SqlCmp where
  | eq (a b : SqlOperand)
  | like (a b : SqlOperand)
  deriving DecidableEq, Repr

/-- column names are not case sensitive, exfor_manager.py:174-181 (SQLite) -/
def sqlCol (s : Str) : Option SqlCol :=
  let n := lower s
  if n = "entry".toList then some .entry
  else if n = "subent".toList then some .subent
  else if n = "pointer".toList then some .pointer
  else if n = "author".toList then some .author
  else if n = "reaction".toList then some .reaction
  else if n = "projectile".toList then some .projectile
  else if n = "target".toList then some .target
  else if n = "quantity".toList then some .quantity
  else none

/-- a token as an operand, exfor_manager.py:174-181 (SQLite) -/
def sqlOperand : SqlTok → Option SqlOperand
  | .ident s => (sqlCol s).map .col
  | .lit s => some (.lit s)
  | .eq => none

/-- a comparison operator, exfor_manager.py:174-181 (SQLite) -/
def sqlCmp (a op b : SqlTok) : Option SqlCmp :=
  match sqlOperand a, sqlOperand b with
  | some x, some y => match op with
    | .eq => some (.eq x y)
    | .ident s => if lower s = "like".toList then some (.like x y) else none
    | .lit _ => none
  | _, _ => none

/-- conditions as disjunctions of conjunctions (`and` binds stronger than `or`), exfor_manager.py:174-181 (SQLite) -/
def parseCond : List SqlTok → Option (List (List SqlCmp))
  | [a, op, b] => match sqlCmp a op b with
    | none => none
    | some c => some [[c]]
  | a :: op :: b :: .ident k :: rest =>
    match sqlCmp a op b, parseCond rest with
    | some c, some (l :: ls) =>
      if lower k = "and".toList then some ((c :: l) :: ls)
      else if lower k = "or".toList then some ([c] :: l :: ls)
      else none
    | _, _ => none
  | _ => none

/-- all endings of a text, exfor_manager.py:174-181 (SQLite) -/
def endings : Str → List Str
  | [] => [[]]
  | c :: s => (c :: s) :: endings s

/-- `s LIKE p`: `%` stands for any text, `_` for any character; ASCII letters are not
distinguished by case, exfor_manager.py:174-181 (SQLite) -/
def likeMatch : Str → Str → Bool
  | [], s => s.isEmpty
  | p :: ps, s =>
    if p = '%' then (endings s).any (fun t => likeMatch ps t)
    else match s with
      | [] => false
      | c :: cs => (p = '_' || p.toLower == c.toLower) && likeMatch ps cs

/-- the value of a column, exfor_manager.py:174-181 (SQLite) -/
def SqlCol.get (row : Row) : SqlCol → Option Str
  | .entry => row.entry
  | .subent => row.subent
  | .pointer => row.pointer
  | .author => row.author
  | .reaction => row.reaction
  | .projectile => row.projectile
  | .target => row.target
  | .quantity => row.quantity

/-- the value of an operand, exfor_manager.py:174-181 (SQLite) -/
def SqlOperand.value (row : Row) : SqlOperand → Option Str
  | .col c => c.get row
  | .lit s => some s

/-- comparisons with `NULL` are not true (and there is no negation in the fragment), exfor_manager.py:174-181 (SQLite) -/
def SqlCmp.holds (row : Row) : SqlCmp → Bool
  | .eq a b => match a.value row, b.value row with
    | some x, some y => decide (x = y)
    | _, _ => false
  | .like a b => match a.value row, b.value row with
    | some x, some y => likeMatch y x
    | _, _ => false

/-- whether a condition is true of a row, exfor_manager.py:174-181 (SQLite) -/
def condHolds (c : List (List SqlCmp)) (row : Row) : Bool := c.any (fun l => l.all (SqlCmp.holds row))

/-- the rows satisfying a condition, exfor_manager.py:174-181 (SQLite) -/
def sqlWhere (table : List Row) (cond : Str) : Option (List Row) :=
  match lexSql .base cond with
  | none => none
  | some ts => match parseCond ts with
    | none => none
    | some c => some (table.filter (condHolds c))

end X4
