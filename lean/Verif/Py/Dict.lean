import Verif.Py.Err
/-! Python `dict` as an insertion-ordered association list. -/
namespace X4

abbrev Dict (κ α : Type) := List (κ × α)

namespace Dict
variable {κ α : Type} [DecidableEq κ]

def keys (d : Dict κ α) : List κ := d.map Prod.fst
def values (d : Dict κ α) : List α := d.map Prod.snd
/-- `d.get(k)` -/
def get? (d : Dict κ α) (k : κ) : Option α :=
  match d with
  | [] => none
  | (k', v) :: r => if k' = k then some v else get? r k
/-- `k in d` -/
def has (d : Dict κ α) (k : κ) : Bool := (get? d k).isSome
/-- `d[k] = v`: update in place, or append a new key -/
def set (d : Dict κ α) (k : κ) (v : α) : Dict κ α :=
  match d with
  | [] => [(k, v)]
  | (k', v') :: r => if k' = k then (k', v) :: r else (k', v') :: set r k v
/-- `d[k]` -/
def get (d : Dict κ α) (k : κ) : Except PyErr α :=
  match get? d k with
  | some v => .ok v
  | none => .error .keyError

end Dict

/-- `dict(l)` for a list of pairs -/
def dictOf {κ α} [DecidableEq κ] (l : List (κ × α)) : Dict κ α := l.foldl (fun d kv => d.set kv.1 kv.2) []

end X4
