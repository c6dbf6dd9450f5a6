import Verif.Spec.Manager
/-! Criteria with wildcards. -/
namespace X4

/-- texts matching a pattern in which `*` and `%` stand for any text and `_` for any character -/
inductive Wild : Str → Str → Prop
  | nil : Wild [] []
  | text {p s : Str} {w : Char} (a : Str) : w = '*' ∨ w = '%' → Wild p s → Wild (w :: p) (a ++ s)
  | one {p s : Str} (c : Char) : Wild p s → Wild ('_' :: p) (c :: s)
  | char {p s : Str} (c : Char) : c ≠ '*' → c ≠ '%' → c ≠ '_' → Wild p s → Wild (c :: p) (c :: s)

/-- A row satisfies all criteria given. In a reaction with `*` the characters `*`, `%` and `_` are wildcards and the case of letters does not matter;
elsewhere they stand for themselves. -/
structure WildMatches (c : Criteria) (row : Row) : Prop where
  author : ∀ a, c.author = some a → row.author = some (capitalize a)
  target : ∀ t, c.target = some t → row.target = some (upper t)
  pattern : ∀ r, c.reaction = some r → '*' ∈ r → ∃ s, row.reaction = some s ∧ Wild (upper r) (upper s)
  reaction : ∀ r, c.reaction = some r → '*' ∉ r → row.reaction = some (upper r)
  projectile : ∀ p, c.projectile = some p → row.projectile = some (upper p)
  quantity : ∀ q, c.quantity = some q → row.quantity = some (if q = ['C', 'S'] then ['S', 'I', 'G'] else upper q)
  subent : ∀ s, c.SUBENT = some s → row.subent = some s.text
  entry : ∀ s, c.ENTRY = some s → row.entry = some s.text

end X4
