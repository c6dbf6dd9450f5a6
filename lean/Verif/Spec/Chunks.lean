/-! What it means to cut a list of lines into chunks. -/
namespace X4

/-- `Chunks S E lines cs`: reading `lines` from the top, `cs` are the chunks that
begin at a start line (`S`) and end at the next end line (`E`). Lines between
chunks are not start lines; an unfinished chunk at the end is not a chunk. -/
inductive Chunks {α : Type} (S E : α → Prop) : List α → List (List α) → Prop
  | none (junk : List α) (hj : ∀ l ∈ junk, ¬ S l) : Chunks S E junk []
  | unfinished (junk : List α) (s : α) (body : List α)
      (hj : ∀ l ∈ junk, ¬ S l) (hs : S s) (hb : ∀ l ∈ body, ¬ E l) :
      Chunks S E (junk ++ s :: body) []
  | chunk (junk : List α) (s : α) (body : List α) (e : α) (rest : List α) (cs : List (List α))
      (hj : ∀ l ∈ junk, ¬ S l) (hs : S s) (hb : ∀ l ∈ body, ¬ E l) (he : E e)
      (hrest : Chunks S E rest cs) :
      Chunks S E (junk ++ s :: body ++ e :: rest) ((s :: body ++ [e]) :: cs)

end X4
