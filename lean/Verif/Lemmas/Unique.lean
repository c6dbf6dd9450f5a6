import Verif.Model.Utilities
/-! Lemmas about `unique`. -/
namespace X4
variable {α : Type} [DecidableEq α]

theorem uniqueLoop_append (acc l : List α) :
    ∃ t, uniqueLoop acc l = acc ++ t ∧ t.Sublist l ∧ (∀ x, x ∈ t ↔ x ∈ l ∧ x ∉ acc) ∧ t.Nodup := by
  induction l generalizing acc with
  | nil => exact ⟨[], by simp [uniqueLoop], by simp, by simp, by simp⟩
  | cons x l ih =>
    simp only [uniqueLoop]
    by_cases hx : x ∈ acc
    · obtain ⟨t, h1, h2, h3, h4⟩ := ih acc
      refine ⟨t, by simp [hx, h1], h2.cons x, ?_, h4⟩
      intro y; rw [h3]; simp
      rintro hy rfl
      exact absurd hx hy
    · obtain ⟨t, h1, h2, h3, h4⟩ := ih (acc ++ [x])
      refine ⟨x :: t, by simp [hx, h1], h2.cons_cons x, ?_, ?_⟩
      · intro y; simp [h3]
        constructor
        · rintro (rfl | ⟨h, h', _⟩)
          · exact ⟨Or.inl rfl, hx⟩
          · exact ⟨Or.inr h, h'⟩
        · rintro ⟨rfl | h, h'⟩
          · exact Or.inl rfl
          · by_cases e : y = x
            · exact Or.inl e
            · exact Or.inr ⟨h, h', e⟩
      · refine List.nodup_cons.2 ⟨?_, h4⟩
        rw [h3]; simp

theorem uniqueLoop_take (acc l : List α) (l' : List α) :
    uniqueLoop acc (l ++ l') = uniqueLoop (uniqueLoop acc l) l' := by
  induction l generalizing acc with
  | nil => rfl
  | cons x l ih => simp only [List.cons_append, uniqueLoop]; exact ih _


variable {κ : Type} [DecidableEq κ]

theorem tableCols_inner (cols ks : List κ) :
    ks.foldl (fun cols k => if k ∈ cols then cols else cols ++ [k]) cols = uniqueLoop cols ks := by
  induction ks generalizing cols with
  | nil => rfl
  | cons k ks ih => simp only [List.foldl_cons, uniqueLoop]; exact ih _

end X4
