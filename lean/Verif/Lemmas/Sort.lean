import Verif.Py.Sort
import Mathlib.Data.List.Basic
import Mathlib.Data.List.Perm.Basic
/-! Lemmas about `sorted`. -/
namespace X4

theorem insertBy_perm {α} (le : α → α → Bool) (x : α) (l : List α) : (insertBy le x l).Perm (x :: l) := by
  induction l with
  | nil => simp [insertBy]
  | cons y l ih =>
    simp only [insertBy]
    split
    · exact (ih.cons y).trans (List.Perm.swap x y l)
    · exact List.Perm.refl _

theorem foldl_insertBy_perm {α} (le : α → α → Bool) (l acc : List α) :
    (l.foldl (fun acc x => insertBy le x acc) acc).Perm (l ++ acc) := by
  induction l generalizing acc with
  | nil => simp
  | cons x l ih =>
    simp only [List.foldl_cons]
    refine (ih _).trans ?_
    refine ((insertBy_perm le x acc).append_left l).trans ?_
    simp [List.perm_middle]

theorem sortBy_perm {α} (le : α → α → Bool) (l : List α) : (sortBy le l).Perm l := by
  simpa [sortBy] using foldl_insertBy_perm le l []

theorem mem_sortBy {α} {le : α → α → Bool} {l : List α} {x : α} : x ∈ sortBy le l ↔ x ∈ l :=
  (sortBy_perm le l).mem_iff

theorem insertBy_sorted {α} {le : α → α → Bool} (htot : ∀ a b, le a b = false → le b a = true)
    (htr : ∀ a b c, le a b = true → le b c = true → le a c = true)
    (x : α) {l : List α} (h : l.Pairwise (fun a b => le a b = true)) :
    (insertBy le x l).Pairwise (fun a b => le a b = true) := by
  induction l with
  | nil => simp [insertBy]
  | cons y l ih =>
    rw [List.pairwise_cons] at h
    simp only [insertBy]
    split
    · rename_i hyx
      rw [List.pairwise_cons]
      refine ⟨?_, ih h.2⟩
      intro a ha
      rw [(insertBy_perm le x l).mem_iff] at ha
      rcases List.mem_cons.1 ha with rfl | ha
      · exact hyx
      · exact h.1 a ha
    · rename_i hyx
      have hxy := htot y x (by simpa using hyx)
      rw [List.pairwise_cons]
      refine ⟨?_, List.pairwise_cons.2 h⟩
      intro a ha
      rcases List.mem_cons.1 ha with rfl | ha
      · exact hxy
      · exact htr _ _ _ hxy (h.1 a ha)

theorem sortBy_sorted {α} {le : α → α → Bool} (htot : ∀ a b, le a b = false → le b a = true)
    (htr : ∀ a b c, le a b = true → le b c = true → le a c = true) (l : List α) :
    (sortBy le l).Pairwise (fun a b => le a b = true) := by
  have : ∀ (l acc : List α), acc.Pairwise (fun a b => le a b = true) →
      (l.foldl (fun acc x => insertBy le x acc) acc).Pairwise (fun a b => le a b = true) := by
    intro l
    induction l with
    | nil => intro acc h; exact h
    | cons x l ih => intro acc h; exact ih _ (insertBy_sorted htot htr x h)
  exact this l [] List.Pairwise.nil

/-- A sorted list is left alone by `sorted`. -/
theorem sortBy_of_sorted {α} {le : α → α → Bool} {l : List α} (h : l.Pairwise (fun a b => le a b = true)) :
    sortBy le l = l := by
  have ins : ∀ (acc : List α) (x : α), (∀ a ∈ acc, le a x = true) → insertBy le x acc = acc ++ [x] := by
    intro acc x
    induction acc with
    | nil => intro _; rfl
    | cons y acc ih =>
      intro ha
      simp only [insertBy, ha y (by simp), if_true, List.cons_append]
      rw [ih (fun a h => ha a (by simp [h]))]
  have : ∀ (l acc : List α), (acc ++ l).Pairwise (fun a b => le a b = true) →
      l.foldl (fun acc x => insertBy le x acc) acc = acc ++ l := by
    intro l
    induction l with
    | nil => intro acc _; simp
    | cons x l ih =>
      intro acc h
      simp only [List.foldl_cons]
      rw [ins acc x, ih]
      · simp
      · simpa using h
      · intro a ha
        rw [List.pairwise_append] at h
        exact h.2.2 a ha x (by simp)
  simpa [sortBy] using this l [] (by simpa using h)

theorem charLe_total (a b : Char) (h : charLe a b = false) : charLe b a = true := by
  simp [charLe] at *; omega
theorem charLe_trans (a b c : Char) (h1 : charLe a b = true) (h2 : charLe b c = true) : charLe a c = true := by
  simp [charLe] at *; omega
theorem char_toNat_inj {a b : Char} (h : a.toNat = b.toNat) : a = b := by
  rw [← Char.ofNat_toNat a, h, Char.ofNat_toNat]

theorem strLe_total (a b : Str) (h : strLe a b = false) : strLe b a = true := by
  induction a generalizing b with
  | nil => simp [strLe] at h
  | cons x a ih =>
    cases b with
    | nil => simp [strLe]
    | cons y b =>
      simp only [strLe] at *
      split at h
      · simp at h
      · split at h
        · rename_i h1 h2; simp [h2]
        · rename_i h1 h2; simp [h1, h2, ih b h]

theorem strLe_refl (a : Str) : strLe a a = true := by
  induction a with
  | nil => rfl
  | cons x a ih => simp [strLe, ih]

theorem strLe_trans (a b c : Str) (h1 : strLe a b = true) (h2 : strLe b c = true) : strLe a c = true := by
  induction a generalizing b c with
  | nil => simp [strLe]
  | cons x a ih =>
    cases b with
    | nil => simp [strLe] at h1
    | cons y b =>
      cases c with
      | nil => simp [strLe] at h2
      | cons z c =>
        simp only [strLe] at *
        split at h1
        · split at h2
          · rw [if_pos (by omega)]
          · split at h2
            · simp at h2
            · rw [if_pos (by omega)]
        · split at h1
          · simp at h1
          · split at h2
            · rw [if_pos (by omega)]
            · split at h2
              · simp at h2
              · rw [if_neg (by omega), if_neg (by omega)]; exact ih b c h1 h2

theorem strLe_antisymm (a b : Str) (h1 : strLe a b = true) (h2 : strLe b a = true) : a = b := by
  induction a generalizing b with
  | nil => cases b with
    | nil => rfl
    | cons y b => simp [strLe] at h2
  | cons x a ih =>
    cases b with
    | nil => simp [strLe] at h1
    | cons y b =>
      simp only [strLe] at *
      split at h1
      · split at h2
        · omega
        · simp at h2
      · split at h1
        · simp at h1
        · rename_i k1 k2
          rw [if_neg k2, if_neg k1] at h2
          rw [char_toNat_inj (by omega : x.toNat = y.toNat), ih b h1 h2]

end X4
