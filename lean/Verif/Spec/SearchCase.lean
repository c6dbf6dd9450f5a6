import Verif.Spec.Manager
import Mathlib.Data.List.Forall2
/-! Criteria that differ only in the case of letters, and names that can be found. -/
namespace X4

/-- the same character, or the same letter in upper and lower case -/
def SameLetter (a b : Char) : Prop :=
  a = b ∨ (65 ≤ a.toNat ∧ a.toNat ≤ 90 ∧ b.toNat = a.toNat + 32) ∨ (65 ≤ b.toNat ∧ b.toNat ≤ 90 ∧ a.toNat = b.toNat + 32)

/-- the same text up to the case of its letters -/
def SameText (s t : Str) : Prop := List.Forall₂ SameLetter s t

/-- both absent, or the same text up to the case of its letters -/
inductive SameOpt : Option Str → Option Str → Prop
  | none : SameOpt none none
  | some {s t : Str} : SameText s t → SameOpt (some s) (some t)

/-- Criteria that differ only in the case of letters of names, reactions and quantities; the numbers of entries are the same. -/
structure SameCriteria (c c' : Criteria) : Prop where
  author : SameOpt c.author c'.author
  target : SameOpt c.target c'.target
  reaction : SameOpt c.reaction c'.reaction
  projectile : SameOpt c.projectile c'.projectile
  quantity : SameOpt c.quantity c'.quantity
  subent : c.SUBENT = c'.SUBENT
  entry : c.ENTRY = c'.ENTRY

/-- there are no capital letters in the text -/
def NoCapitals (s : Str) : Prop := ∀ c ∈ s, ¬ (65 ≤ c.toNat ∧ c.toNat ≤ 90)
/-- there are no small letters in the text -/
def NoSmall (s : Str) : Prop := ∀ c ∈ s, ¬ (97 ≤ c.toNat ∧ c.toNat ≤ 122)

/-- Names are stored with a capital letter at the beginning and small letters after it. -/
def Capitalized : Str → Prop
  | [] => True
  | c :: s => ¬ (97 ≤ c.toNat ∧ c.toNat ≤ 122) ∧ NoCapitals s

/-- The criteria ask for values of this row, whatever the case of the letters. -/
structure OfRow (row : Row) (c : Criteria) : Prop where
  author : ∀ a, c.author = some a → ∃ v, row.author = some v ∧ SameText a v
  target : ∀ a, c.target = some a → ∃ v, row.target = some v ∧ SameText a v
  reaction : ∀ a, c.reaction = some a → ∃ v, row.reaction = some v ∧ SameText a v
  projectile : ∀ a, c.projectile = some a → ∃ v, row.projectile = some v ∧ SameText a v
  quantity : ∀ a, c.quantity = some a → ∃ v, row.quantity = some v ∧ SameText a v
  subent : ∀ a, c.SUBENT = some a → row.subent = some a.text
  entry : ∀ a, c.ENTRY = some a → row.entry = some a.text

/-- The values of the row are written as `query` looks for them: names capitalized, the rest in capital letters; the quantity is not
`CS`, which `query` uses as another name of `SIG`. -/
structure Findable (row : Row) : Prop where
  author : ∀ v, row.author = some v → Capitalized v
  target : ∀ v, row.target = some v → NoSmall v
  reaction : ∀ v, row.reaction = some v → NoSmall v ∧ '*' ∉ v
  projectile : ∀ v, row.projectile = some v → NoSmall v
  quantity : ∀ v, row.quantity = some v → NoSmall v ∧ v ≠ ['C', 'S']

end X4
