import Verif.Py.Str
/-! `sorted` on strings and characters (code point order). -/
namespace X4

/-- code-point order on characters -/
def charLe (a b : Char) : Bool := decide (a.toNat ≤ b.toNat)
/-- lexicographic code-point order on strings -/
def strLe : Str → Str → Bool
  | [], _ => true
  | _ :: _, [] => false
  | a :: s, b :: t => if a.toNat < b.toNat then true else if b.toNat < a.toNat then false else strLe s t

/-- insertion into a sorted list (before the first strictly greater element) -/
def insertBy {α} (le : α → α → Bool) (x : α) : List α → List α
  | [] => [x]
  | y :: l => if le y x then y :: insertBy le x l else x :: y :: l
/-- `sorted(l)`: a stable sort. Python's timsort and this insertion sort return the
same list, because a stable sorted permutation is unique. -/
def sortBy {α} (le : α → α → Bool) (l : List α) : List α := l.foldl (fun acc x => insertBy le x acc) []

end X4
