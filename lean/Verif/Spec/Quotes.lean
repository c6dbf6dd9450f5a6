import Verif.Spec.Manager
/-! Criteria with quotes. -/
namespace X4

/-- every quote written twice, as in SQL texts -/
def dbl (s : Str) : Str := s.flatMap fun c => if c = '\'' then ['\'', '\''] else [c]

/-- the same for a key -/
def dblIndex : Index → Index
  | .int i => .int i
  | .str s => .str (dbl s)

/-- the criteria with every quote written twice -/
def Criteria.doubled (c : Criteria) : Criteria :=
  { c with author := c.author.map dbl, target := c.target.map dbl, reaction := c.reaction.map dbl, projectile := c.projectile.map dbl,
           quantity := c.quantity.map dbl, SUBENT := c.SUBENT.map dblIndex, ENTRY := c.ENTRY.map dblIndex }

/-- the texts that are put into the condition -/
def Criteria.texts (c : Criteria) : List Str :=
  c.author.toList ++ c.target.toList ++ c.reaction.toList ++ c.projectile.toList ++ c.quantity.toList ++ (c.SUBENT.map Index.text).toList ++
    (c.ENTRY.map Index.text).toList

/-- the number of quotes in all texts -/
def Criteria.quotes (c : Criteria) : Nat := (c.texts.map (·.count '\'')).sum

/-- A text with which no comment, quoted name or further statement of SQL can begin, wherever it is put. -/
structure NoSql (s : Str) : Prop where
  chars : ∀ c ∈ s, c ≠ '"' ∧ c ≠ '`' ∧ c ≠ '[' ∧ c ≠ ';' ∧ c ≠ Char.ofNat 0
  comment : ∀ a b, s ≠ a ++ '-' :: '-' :: b ∧ s ≠ a ++ '/' :: '*' :: b

end X4
