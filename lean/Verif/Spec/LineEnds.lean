import Verif.Model.Cache
import Mathlib.Data.List.Forall2
/-! Texts on disk: one byte for each character (latin-1), lines that end in LF, in CR LF or in CR. -/
namespace X4

/-- the bytes of a piece of a line: one byte for each character, with the same number, and no line end among them -/
def Encoded (l : Str) (x : Bytes) : Prop := List.Forall₂ (fun c b => c.toNat = UInt8.toNat b ∧ c ≠ '\n' ∧ c ≠ '\r') l x

/-- The bytes of a file with these lines, each given with the newline it is read with. The line ends may be mixed; only the last line may have
none. (A line end CR must not be followed by LF, since both together are one line end.) -/
inductive OnDisk : List Str → Bytes → Prop
  | nil : OnDisk [] []
  | last {l : Str} {x : Bytes} (h : Encoded l x) (hl : l ≠ []) : OnDisk [l] x
  | lf {l : Str} {x : Bytes} {F : List Str} {b : Bytes} (h : Encoded l x) (hb : OnDisk F b) : OnDisk ((l ++ ['\n']) :: F) (x ++ 10 :: b)
  | crlf {l : Str} {x : Bytes} {F : List Str} {b : Bytes} (h : Encoded l x) (hb : OnDisk F b) : OnDisk ((l ++ ['\n']) :: F) (x ++ 13 :: 10 :: b)
  | cr {l : Str} {x : Bytes} {F : List Str} {b : Bytes} (h : Encoded l x) (hb : OnDisk F b) (hn : b.head? ≠ some 10) :
      OnDisk ((l ++ ['\n']) :: F) (x ++ 13 :: b)

/-- Two folders that hold the same texts, up to the line ends. What cannot be read in one cannot be read in the other. -/
def SameTexts (t t' : Folder) : Prop :=
  ∀ dir name, t.bytes dir name = t'.bytes dir name ∨
    ∃ F b b', OnDisk F b ∧ OnDisk F b' ∧ t.bytes dir name = .ok b ∧ t'.bytes dir name = .ok b'

end X4
