import Verif.Model.Dataset
/-! Datasets as objects whose row list is shared after `copy.copy` (exfor_dataset.py:178-180, 191,
248-259, 374). Only the list `self.data` is modelled as an object with an identity: it is the
only one that the methods change in place. (`labels` and `units` are extended in place only by
constructors and by `getSimplified`, on lists it has just made; rows are never changed after
construction.) -/
namespace X4
variable {ρ N : Type}

/-- the list objects; addresses from `next` on are unused, the lists that `self.data` refers to in exfor_dataset.py:64, 180, 205, 254, 260 -/
structure Heap (N : Type) where
  cells : Nat → List (List (Option N))
  next : Nat

/-- a dataset object: its attributes, except `data`, and the identity of the list `data`, exfor_dataset.py:46-72 -/
structure DsObj (ρ N : Type) where
  attrs : DataSet ρ N
  addr : Nat

/-- the dataset as it is seen through the heap, exfor_dataset.py:46-72 -/
def DsObj.view (h : Heap N) (o : DsObj ρ N) : DataSet ρ N := { o.attrs with data := h.cells o.addr }

/-- `self.data = <new list>`, exfor_dataset.py:64, 205, 254 -/
def Heap.alloc (h : Heap N) (rows : List (List (Option N))) : Heap N :=
  { cells := fun a => if a = h.next then rows else h.cells a, next := h.next + 1 }
/-- changing a list in place, exfor_dataset.py:180, 260 -/
def Heap.write (h : Heap N) (a : Nat) (rows : List (List (Option N))) : Heap N :=
  { h with cells := fun b => if b = a then rows else h.cells b }

variable [PyNum N]

/-- does `getSimplified` reach the line `result.data = []` (exfor_dataset.py:205)? -/
def DataSet.rebuilds (d : DataSet ρ N) : Bool :=
  d.kind ≠ .analyzingPower && !d.simplified && (parserMapOf d.kind).isSome

/-- `getSimplified`, exfor_dataset.py:182-246 and subclasses: `copy.copy(self)`, then possibly a new
list for the rows -/
def DsObj.getSimplified (h : Heap N) (o : DsObj ρ N) (makeAll failMissing : Bool) : Except PyErr (Heap N × DsObj ρ N) :=
  match (o.view h).getSimplified makeAll failMissing with
  | .error e => .error e
  | .ok d => if (o.view h).rebuilds then .ok (h.alloc d.data, { attrs := d, addr := h.next })
             else .ok (h, { attrs := d, addr := o.addr })

/-- an operation on a dataset object: `sort` with any key and order, or `append` of another dataset
(whose rows at that time are given), exfor_dataset.py:178-180, 248-277 -/
inductive DsOp (ρ N : Type) where
  | sort (order : List (List (Option N)) → List (List (Option N)))
  | append (other : DataSet ρ N)

/-- `sort` (exfor_dataset.py:178-180) and `append` (exfor_dataset.py:248-277; a blank receiver gets a new list, otherwise
rows are added to the list in place). A raised exception leaves everything as it is. -/
def DsObj.run [DecidableEq ρ] (rx : RxOps ρ) (st : Heap N × DsObj ρ N) : DsOp ρ N → Heap N × DsObj ρ N
  | .sort order => (st.1.write st.2.addr (order (st.1.cells st.2.addr)), st.2)
  | .append o =>
    match (st.2.view st.1).append rx o with
    | .error _ => st
    | .ok d => if (st.2.view st.1).labels = [] ∧ (st.2.view st.1).units = [] ∧ (st.2.view st.1).data = [] then
                 (st.1.alloc d.data, { attrs := d, addr := st.1.next })
               else (st.1.write st.2.addr d.data, st.2)

end X4
