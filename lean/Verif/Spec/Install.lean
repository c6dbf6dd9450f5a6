import Verif.Model.Install
/-! What the installation of the database should guarantee. -/
namespace X4.Install

/-- what the archive says about a path (the last member with that name counts) -/
def lastNode (ms : List (Path × Node)) (p : Path) : Option Node := Dict.get? ms.reverse p

/-- every member of the archive is on disk, with its contents -/
def Unpacked (ms : List (Path × Node)) (fs : FS) : Prop := ∀ p n, lastNode ms p = some n → fs.get? p = some n

/-- what is above a node is a directory -/
def Tree (fs : FS) : Prop := ∀ p q, p <+: q → p ≠ q → (fs.get? q).isSome → fs.get? p = some .dir

/-- a transfer that is cut off is noticed: by the announced size or by `tarfile` -/
def Server.Detects (S : Server) : Prop :=
  (S.contentLength ≠ 0 ∧ S.contentLength = S.archive.length) ∨ ∀ b, b <+: S.archive → b ≠ S.archive → S.read b = none

end X4.Install
