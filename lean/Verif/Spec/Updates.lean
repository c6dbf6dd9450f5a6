import Verif.Model.Manager
/-! Two states of a database: the rows of the index and the files of an entry. -/
namespace X4

/-- the entry that a row of the index is about -/
def entryOfRow (row : Row) : Option Str := row.subent.map fun s => s.take 5

/-- two indexes with the same rows for an entry, in any order, with any other rows -/
def SameRowsFor (k : Str) (T T' : List Row) : Prop := ∀ row, entryOfRow row = some k → (row ∈ T ↔ row ∈ T')

/-- two indexes that differ at most in the rows for an entry (and in the order of the rows) -/
def SameRowsBut (k : Str) (T T' : List Row) : Prop := ∀ row, entryOfRow row ≠ some k → (row ∈ T ↔ row ∈ T')

/-- the file of an entry -/
def fileOfEntry (k : Str) : Str := k.take 3 ++ ['/'] ++ k ++ ".x4".toList

/-- two directories that differ at most in the file of an entry -/
def SameFilesBut (k : Str) (db db' : DB) : Prop := ∀ k', k' ≠ k → db.read (fileOfEntry k') = db'.read (fileOfEntry k')

end X4
