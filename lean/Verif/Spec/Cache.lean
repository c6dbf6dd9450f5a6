import Verif.Model.Cache
/-! What the database cache should give. -/
namespace X4

/-- the folder contains the file `key` (`directory/name`) with these contents -/
def HasFile (t : Folder) (key : Str) (b : Bytes) : Prop :=
  ∃ sd files name, (sd, .ok files) ∈ t ∧ (name, .ok b) ∈ files ∧ key = sd ++ ['/'] ++ name

/-- every directory can be listed and every file read -/
def Folder.Readable (t : Folder) : Prop :=
  ∀ x ∈ t, ∃ files, x.2 = .ok files ∧ ∀ f ∈ files, ∃ b, f.2 = .ok b

/-- names in a directory are distinct and contain no `/` -/
structure Folder.Names (t : Folder) : Prop where
  dirs : (t.map Prod.fst).Nodup
  noSlash : ∀ x ∈ t, '/' ∉ x.1
  files : ∀ x ∈ t, ∀ files, x.2 = .ok files → (files.map Prod.fst).Nodup

end X4
