import Verif.Model.Manager
/-! What queries of the database index should give. -/
namespace X4

/-- texts matching a pattern in which `*` stands for any text -/
inductive Glob : Str → Str → Prop
  | nil : Glob [] []
  | star {p s : Str} (a : Str) : Glob p s → Glob ('*' :: p) (a ++ s)
  | char {p s : Str} (c : Char) : c ≠ '*' → Glob p s → Glob (c :: p) (c :: s)

/-- A row satisfies the criterion for the reaction: equal, or matching the pattern (then upper
and lower case in the row are not distinguished). -/
def ReactionMatches (r : Str) (v : Option Str) : Prop :=
  if '*' ∈ r then ∃ s, v = some s ∧ Glob (upper r) (upper s) else v = some (upper r)

/-- A row satisfies all criteria given. -/
structure Matches (c : Criteria) (row : Row) : Prop where
  author : ∀ a, c.author = some a → row.author = some (capitalize a)
  target : ∀ t, c.target = some t → row.target = some (upper t)
  reaction : ∀ r, c.reaction = some r → ReactionMatches r row.reaction
  projectile : ∀ p, c.projectile = some p → row.projectile = some (upper p)
  quantity : ∀ q, c.quantity = some q → row.quantity = some (if q = ['C', 'S'] then ['S', 'I', 'G'] else upper q)
  subent : ∀ s, c.SUBENT = some s → row.subent = some s.text
  entry : ∀ s, c.ENTRY = some s → row.entry = some s.text

/-- texts that can stand between quotes in a condition -/
def PlainText (s : Str) : Prop := '\'' ∉ s ∧ Char.ofNat 0 ∉ s

/-- criteria without quotes, NUL characters, and SQL wildcards in patterns -/
structure Plain (c : Criteria) : Prop where
  author : ∀ a, c.author = some a → PlainText a
  target : ∀ t, c.target = some t → PlainText t
  reaction : ∀ r, c.reaction = some r → PlainText r ∧ ('*' ∈ r → '%' ∉ r ∧ '_' ∉ r)
  projectile : ∀ p, c.projectile = some p → PlainText p
  quantity : ∀ q, c.quantity = some q → PlainText q
  subent : ∀ s, c.SUBENT = some (.str s) → PlainText s
  entry : ∀ s, c.ENTRY = some (.str s) → PlainText s

/-- at least one of the criteria that `query` supports is given -/
def Criteria.given (c : Criteria) : Prop :=
  c.author.isSome ∨ c.target.isSome ∨ c.reaction.isSome ∨ c.projectile.isSome ∨ c.quantity.isSome ∨ c.SUBENT.isSome ∨ c.ENTRY.isSome

/-- `c'` has all the criteria of `c`, and maybe more -/
structure Criteria.Le (c c' : Criteria) : Prop where
  author : ∀ x, c.author = some x → c'.author = some x
  target : ∀ x, c.target = some x → c'.target = some x
  reaction : ∀ x, c.reaction = some x → c'.reaction = some x
  projectile : ∀ x, c.projectile = some x → c'.projectile = some x
  quantity : ∀ x, c.quantity = some x → c'.quantity = some x
  subent : ∀ x, c.SUBENT = some x → c'.SUBENT = some x
  entry : ∀ x, c.ENTRY = some x → c'.ENTRY = some x

/-- strictly increasing order of texts (by code points) -/
def StrLt (a b : Str) : Prop := strLe a b = true ∧ a ≠ b

/-- `m` groups the subentries satisfying `S` by entry: the keys are exactly the entries (first five
characters), in increasing order; each list begins with the documentation subentry and goes on with
the other subentries found for that entry, strictly increasing. -/
structure Grouped (S : Str → Prop) (m : Dict Str (List Str)) : Prop where
  keys : ∀ k, k ∈ m.keys ↔ ∃ r, S r ∧ r.take 5 = k
  increasing : m.keys.Pairwise StrLt
  lists : ∀ k l, (k, l) ∈ m → ∃ t, l = (k ++ ['0', '0', '1']) :: t ∧ t.Pairwise StrLt ∧
    ∀ r, r ∈ t ↔ S r ∧ r.take 5 = k ∧ r ≠ k ++ ['0', '0', '1']

/-- the subentries named by a query result -/
def Named (m : Dict Str (List Str)) (s : Str) : Prop := ∃ k l, (k, l) ∈ m ∧ s ∈ l

end X4
