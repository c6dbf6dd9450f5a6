import Verif.Model.Utilities
import Verif.Spec.Chunks
/-! The chunking loop meets its specification. -/
namespace X4
variable {S E : Str → Bool}

theorem chunkLoop_acc (entries : List (List Str)) (cur : Option (List Str)) (ls : List Str) :
    chunkLoop S E entries cur ls = entries ++ chunkLoop S E [] cur ls := by
  induction ls generalizing entries cur with
  | nil => cases cur <;> simp [chunkLoop]
  | cons l ls ih =>
    cases cur with
    | none =>
      simp only [chunkLoop]
      split
      · exact ih _ _
      · exact ih _ _
    | some cur =>
      simp only [chunkLoop]
      split
      · rw [ih, ih ([] ++ _)]; simp
      · exact ih _ _

theorem chunkLoop_junk {junk : List Str} (h : ∀ l ∈ junk, S l = false) (ls : List Str) :
    chunkLoop S E [] none (junk ++ ls) = chunkLoop S E [] none ls := by
  induction junk with
  | nil => rfl
  | cons l junk ih =>
    have hl := h l (by simp)
    simp [chunkLoop, hl, ih (fun x hx => h x (by simp [hx]))]

theorem chunkLoop_body {body : List Str} (h : ∀ l ∈ body, E l = false) (cur ls : List Str) :
    chunkLoop S E [] (some cur) (body ++ ls) = chunkLoop S E [] (some (cur ++ body)) ls := by
  induction body generalizing cur with
  | nil => simp
  | cons l body ih =>
    have hl := h l (by simp)
    have := ih (fun x hx => h x (by simp [hx])) (cur ++ [l])
    simp [chunkLoop, hl, this]

theorem chunkLoop_of_Chunks {ls : List Str} {cs : List (List Str)}
    (h : Chunks (fun l => S l = true) (fun l => E l = true) ls cs) : chunkLoop S E [] none ls = cs := by
  induction h with
  | none junk hj =>
    have := chunkLoop_junk (E := E) (S := S) (junk := junk) (by simpa using hj) []
    simpa [chunkLoop] using this
  | unfinished junk s body hj hs hb =>
    rw [chunkLoop_junk (by simpa using hj)]
    have := chunkLoop_body (S := S) (E := E) (body := body) (by simpa using hb) [s] []
    simp at this
    simp [chunkLoop, hs, this]
  | chunk junk s body e rest cs hj hs hb he hrest ih =>
    rw [List.append_assoc, chunkLoop_junk (by simpa using hj)]
    have := chunkLoop_body (S := S) (E := E) (body := body) (by simpa using hb) [s] (e :: rest)
    simp only [chunkLoop, hs, if_true, List.cons_append, this, he]
    rw [chunkLoop_acc, ih]; simp

theorem Chunks_total (ls : List Str) :
    Chunks (fun l => S l = true) (fun l => E l = true) ls (chunkLoop S E [] none ls) := by
  have : ∃ cs, Chunks (fun l => S l = true) (fun l => E l = true) ls cs := by
    generalize hn : ls.length = n
    induction n using Nat.strongRecOn generalizing ls with
    | ind n ih =>
      -- junk
      have key : ∀ (P : Str → Bool) (l : List Str),
          (∀ x ∈ l, P x = false) ∨ ∃ a x b, l = a ++ x :: b ∧ (∀ y ∈ a, P y = false) ∧ P x = true := by
        intro P l
        induction l with
        | nil => left; simp
        | cons x l ih =>
          by_cases hx : P x = true
          · right; exact ⟨[], x, l, rfl, by simp, hx⟩
          · rcases ih with h | ⟨a, y, b, rfl, h1, h2⟩
            · left; simpa [hx] using h
            · right; exact ⟨x :: a, y, b, rfl, by simpa [hx] using h1, h2⟩
      rcases key S ls with h | ⟨a, s, b, rfl, ha, hs⟩
      · exact ⟨[], .none _ (by simpa using h)⟩
      · rcases key E b with h | ⟨c, e, d, rfl, hc, he⟩
        · exact ⟨[], .unfinished _ _ _ (by simpa using ha) hs (by simpa using h)⟩
        · obtain ⟨cs, hcs⟩ := ih d.length (by simp at hn; omega) d rfl
          refine ⟨(s :: c ++ [e]) :: cs, ?_⟩
          have := Chunks.chunk a s c e d cs (S := fun l => S l = true) (E := fun l => E l = true)
            (by simpa using ha) hs (by simpa using hc) he hcs
          simpa using this
  obtain ⟨cs, h⟩ := this
  rw [chunkLoop_of_Chunks h]; exact h

theorem Chunks_iff (ls : List Str) (cs : List (List Str)) :
    Chunks (fun l => S l = true) (fun l => E l = true) ls cs ↔ chunkLoop S E [] none ls = cs :=
  ⟨chunkLoop_of_Chunks, fun h => h ▸ Chunks_total ls⟩

/-- re-chunking the chunks gives the same chunks -/
theorem Chunks.flatten {ls : List Str} {cs : List (List Str)}
    (h : Chunks (fun l => S l = true) (fun l => E l = true) ls cs) :
    Chunks (fun l => S l = true) (fun l => E l = true) cs.flatten cs := by
  induction h with
  | none => exact .none [] (by simp)
  | unfinished => exact .none [] (by simp)
  | chunk junk s body e rest cs hj hs hb he hrest ih =>
    have := Chunks.chunk [] s body e cs.flatten cs (S := fun l => S l = true) (E := fun l => E l = true)
      (by simp) hs hb he ih
    simpa using this

end X4
