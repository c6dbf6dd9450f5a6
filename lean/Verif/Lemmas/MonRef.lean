import Verif.Lemmas.Field
/-! Lemmas about MONITOR and REFERENCE fields. -/
namespace X4

theorem appendLast_snoc (ds : List Str) (x t : Str) : appendLast (ds ++ [x]) t = ds ++ [x ++ t] := by
  simp [appendLast]

theorem appendLast_flatten {ds : List Str} (h : ds ≠ []) (t : Str) : (appendLast ds t).flatten = ds.flatten ++ t := by
  rw [← List.dropLast_append_getLast h, appendLast_snoc]; simp

def nonSpace (s : Str) : Str := s.filter fun c => !isSpace c

theorem nonSpace_append (a b : Str) : nonSpace (a ++ b) = nonSpace a ++ nonSpace b := by simp [nonSpace]
theorem nonSpace_spaces {a : Str} (h : ∀ x ∈ a, isSpace x) : nonSpace a = [] := by
  simp only [nonSpace, List.filter_eq_nil_iff]
  intro x hx; simp [h x hx]
theorem nonSpace_strip (s : Str) : nonSpace (strip s) = nonSpace s := by
  obtain ⟨a, b, h, ha, hb⟩ := strip_decomp s
  conv_rhs => rw [h]
  rw [nonSpace_append, nonSpace_append, nonSpace_spaces ha, nonSpace_spaces hb]; simp

theorem flatten_singletons (s : Str) : (s.map fun c => [c]).flatten = s := by
  induction s with
  | nil => rfl
  | cons c s ih => simp [ih]

theorem monitorLoop_text (n : Nat) (ls ds out : List Str) (hn : ls.length ≤ n) (h : monitorLoop ds ls = .ok out) :
    nonSpace out.flatten = nonSpace ds.flatten ++ nonSpace ls.flatten := by
  induction n generalizing ls ds with
  | zero =>
    have : ls = [] := List.eq_nil_of_length_eq_zero (by omega)
    subst this
    simp [monitorLoop] at h
    subst h; simp [nonSpace]
  | succ n ih =>
    cases ls with
    | nil => simp [monitorLoop] at h; subst h; simp [nonSpace]
    | cons line queue =>
      simp only [List.length_cons] at hn
      rw [monitorLoop.eq_def] at h
      simp only at h
      split at h
      · split at h
        · cases queue with
          | nil => simp at h
          | cons next q =>
            simp only [List.length_cons] at hn
            rw [ih q _ (by omega) h]
            simp [nonSpace_append]
        · rw [ih queue _ (by omega) h]
          simp [nonSpace_append]
      · split at h
        · split at h
          · cases queue with
            | nil => simp at h
            | cons next q =>
              simp only [List.length_cons] at hn
              rw [ih q _ (by omega) h]
              simp [nonSpace_append, flatten_singletons]
          · rw [ih queue _ (by omega) h]
            simp [nonSpace_append]
        · split at h
          · rw [ih queue _ (by omega) h]
            simp [nonSpace_append, nonSpace_strip]
          · rename_i hne
            rw [ih queue _ (by omega) h, appendLast_flatten (by intro e; simp [e] at hne)]
            have e : nonSpace (' ' :: strip line) = nonSpace line := by
              rw [← nonSpace_strip line]; rfl
            rw [nonSpace_append, e, List.flatten_cons, nonSpace_append, List.append_assoc]

/-- with text collected so far in `x`, reading `ls` yields the text up to the next
opening line and then the following entries -/
theorem monitorLoop_entries (n : Nat) (ls : List Str) (hn : ls.length ≤ n)
    (hb : ∀ l ∈ ls, opensParen l → startsWith (strip l) "((".toList = true ∨ balanced l) (ds : List Str) (x : Str)
    (out : List Str) (h : monitorLoop (ds ++ [x]) ls = .ok out) :
    ∃ text rest es, ls = text ++ rest ∧ (∀ l ∈ text, ¬ opensParen l) ∧ (∀ l ∈ rest.head?, opensParen l) ∧
      MonEntries rest es ∧ out = ds ++ (x ++ text.flatMap fun l => ' ' :: strip l) :: es := by
  have hsub : ∀ l : Str, startsWith (strip l) "((".toList = true → opensParen l := by
    intro l hl
    simp only [startsWith, List.isPrefixOf_iff_prefix, opensParen] at *
    exact List.IsPrefix.trans (by decide) hl
  induction n generalizing ls ds x with
  | zero =>
    have : ls = [] := List.eq_nil_of_length_eq_zero (by omega)
    subst this
    simp [monitorLoop] at h
    exact ⟨[], [], [], rfl, by simp, by simp, .nil, by simp [h]⟩
  | succ n ih =>
    cases ls with
    | nil =>
      simp [monitorLoop] at h
      exact ⟨[], [], [], rfl, by simp, by simp, .nil, by simp [h]⟩
    | cons line queue =>
      simp only [List.length_cons] at hn
      rw [monitorLoop.eq_def] at h
      simp only at h
      have hq : ∀ l ∈ queue, opensParen l → startsWith (strip l) "((".toList = true ∨ balanced l :=
        fun l hl => hb l (by simp [hl])
      have one : opensParen line → balanced line → monitorLoop ((ds ++ [x]) ++ [line]) queue = .ok out → ∃ text rest es, line :: queue = text ++ rest ∧ (∀ l ∈ text, ¬ opensParen l) ∧ (∀ l ∈ rest.head?, opensParen l) ∧
          MonEntries rest es ∧ out = ds ++ (x ++ text.flatMap fun l => ' ' :: strip l) :: es := by
        intro ho hbal h
        obtain ⟨t, r, es, e1, e2, e3, e4, e5⟩ := ih queue (by omega) hq _ _ h
        refine ⟨[], line :: queue, (line ++ t.flatMap fun l => ' ' :: strip l) :: es, rfl, by simp, by simpa using ho, ?_, ?_⟩
        · have := MonEntries.entry [line] t r es (.one line ho hbal) e2 e3 e4
          simpa [e1] using this
        · simp [e5]
      split at h
      · rename_i h2
        split at h
        · rename_i hub
          cases queue with
          | nil => simp at h
          | cons next q =>
            simp only [List.length_cons] at hn
            obtain ⟨t, r, es, e1, e2, e3, e4, e5⟩ := ih q (by omega) (fun l hl => hq l (by simp [hl])) _ _ h
            refine ⟨[], line :: next :: q, ((line ++ next) ++ t.flatMap fun l => ' ' :: strip l) :: es, rfl, by simp, by simpa using hsub line h2, ?_, ?_⟩
            · have := MonEntries.entry [line, next] t r es (.two line next (hsub line h2) hub) e2 e3 e4
              simpa [e1] using this
            · simp [e5]
        · rename_i hub
          exact one (hsub line h2) (by simpa [balanced] using hub) h
      · rename_i h2
        split at h
        · rename_i h1
          split at h
          · rename_i hub
            rcases hb line (by simp) h1 with h' | h'
            · exact absurd h' h2
            · exact absurd h' hub
          · rename_i hub
            exact one h1 (by simpa [balanced] using hub) h
        · rename_i h1
          simp only [List.length_append, List.length_singleton, Nat.add_eq_zero_iff, Nat.one_ne_zero, and_false, if_false] at h
          rw [appendLast_snoc] at h
          obtain ⟨t, r, es, e1, e2, e3, e4, e5⟩ := ih queue (by omega) hq _ _ h
          refine ⟨line :: t, r, es, by simp [e1], ?_, e3, e4, by simp [e5]⟩
          intro l hl
          rcases List.mem_cons.1 hl with rfl | hl
          · exact h1
          · exact e2 l hl

theorem monitorSplit_spec (ls : List Str)
    (hb : ∀ l ∈ ls, opensParen l → startsWith (strip l) "((".toList = true ∨ balanced l)
    (out : List Str) (h : monitorSplit ls = .ok out) : MonField ls out := by
  have hsub : ∀ l : Str, startsWith (strip l) "((".toList = true → opensParen l := by
    intro l hl
    simp only [startsWith, List.isPrefixOf_iff_prefix, opensParen] at *
    exact List.IsPrefix.trans (by decide) hl
  cases ls with
  | nil => simp [monitorSplit, monitorLoop] at h; subst h; exact .coded _ _ .nil
  | cons line queue =>
    rw [monitorSplit, monitorLoop.eq_def] at h
    simp only at h
    have hq : ∀ l ∈ queue, opensParen l → startsWith (strip l) "((".toList = true ∨ balanced l :=
      fun l hl => hb l (by simp [hl])
    have one : opensParen line → balanced line → monitorLoop ([] ++ [line]) queue = .ok out → MonField (line :: queue) out := by
      intro ho hbal h
      obtain ⟨t, r, es, e1, e2, e3, e4, e5⟩ := monitorLoop_entries _ queue (Nat.le_refl _) hq _ _ _ h
      have := MonEntries.entry [line] t r es (.one line ho hbal) e2 e3 e4
      refine .coded _ _ ?_
      simpa [e1, e5] using this
    split at h
    · rename_i h2
      split at h
      · rename_i hub
        cases queue with
        | nil => simp at h
        | cons next q =>
          obtain ⟨t, r, es, e1, e2, e3, e4, e5⟩ := monitorLoop_entries _ q (Nat.le_refl _) (fun l hl => hq l (by simp [hl])) _ _ _ h
          have := MonEntries.entry [line, next] t r es (.two line next (hsub line h2) hub) e2 e3 e4
          refine .coded _ _ ?_
          simpa [e1, e5] using this
      · rename_i hub
        exact one (hsub line h2) (by simpa [balanced] using hub) h
    · rename_i h2
      split at h
      · rename_i h1
        split at h
        · rename_i hub
          rcases hb line (by simp) h1 with h' | h'
          · exact absurd h' h2
          · exact absurd h' hub
        · rename_i hub
          exact one h1 (by simpa [balanced] using hub) h
      · rename_i h1
        simp only [List.length_nil, if_true] at h
        obtain ⟨t, r, es, e1, e2, e3, e4, e5⟩ := monitorLoop_entries _ queue (Nat.le_refl _) hq _ _ _ h
        have := MonField.free line t r es h1 e2 e3 e4
        simpa [e1, e5] using this

/-! ### references -/
theorem InTautology_snoc (pre : List Str) (l : Str) :
    InTautology (pre ++ [l]) ↔ hasSub "))".toList l = false ∧ (l.take 2 = "((".toList ∨ InTautology pre) := by
  constructor
  · rintro ⟨a, m, b, e, hm, hb⟩
    have hl : l ∈ m :: b := by
      have : (m :: b).getLast? = some l := by
        have := congrArg List.getLast? e
        simpa [List.getLast?_append] using this.symm
      exact List.mem_of_getLast? this
    refine ⟨hb l hl, ?_⟩
    rcases List.eq_nil_or_concat b with rfl | ⟨b', x, rfl⟩
    · have := List.append_inj' e (by simp)
      simp at this
      left; rw [this.2]; exact hm
    · rw [List.concat_eq_append, ← List.cons_append, ← List.append_assoc] at e
      have := List.append_inj' e (by simp)
      exact .inr ⟨a, m, b', this.1, hm, fun z hz => hb z (by simp at hz ⊢; tauto)⟩
  · rintro ⟨h1, h2 | ⟨a, m, b, rfl, hm, hb⟩⟩
    · exact ⟨pre, l, [], rfl, h2, by simpa using h1⟩
    · refine ⟨a, m, b ++ [l], by simp, hm, ?_⟩
      intro z hz
      rw [← List.cons_append, List.mem_append] at hz
      rcases hz with hz | hz
      · exact hb z hz
      · simp at hz; subst hz; exact h1

/-- `groups` cuts its lines exactly where references open -/
def RefCut (groups : List (List Str)) : Prop :=
  (∀ g ∈ groups, g ≠ []) ∧
  ∀ g1 g g2, groups = g1 ++ g :: g2 → ∀ a l b, g = a ++ l :: b → (OpensRef (g1.flatten ++ a) l ↔ a = [])

theorem RefCut_new {groups : List (List Str)} (h : RefCut groups) {l : Str} (ho : OpensRef groups.flatten l) :
    RefCut (groups ++ [[l]]) := by
  refine ⟨?_, ?_⟩
  · intro g hg; simp at hg; rcases hg with hg | rfl
    · exact h.1 g hg
    · simp
  · intro g1 g g2 e a m b e2
    rcases List.eq_nil_or_concat g2 with rfl | ⟨g2', x, rfl⟩
    · have := List.append_inj' e (by simp)
      simp at this
      obtain ⟨rfl, rfl⟩ := this
      rcases List.append_eq_singleton_iff.1 e2.symm with ⟨rfl, e3⟩ | ⟨rfl, e3⟩
      · simp at e3; simp [e3.1, ho]
      · simp at e3
    · rw [List.concat_eq_append, ← List.cons_append, ← List.append_assoc] at e
      have := List.append_inj' e (by simp)
      exact h.2 g1 g g2' this.1 a m b e2

theorem RefCut_ext {groups : List (List Str)} {last : List Str} (h : RefCut (groups ++ [last])) {l : Str}
    (ho : ¬ OpensRef (groups ++ [last]).flatten l) : RefCut (groups ++ [last ++ [l]]) := by
  refine ⟨?_, ?_⟩
  · intro g hg; simp at hg; rcases hg with hg | rfl
    · exact h.1 g (by simp [hg])
    · simp
  · intro g1 g g2 e a m b e2
    rcases List.eq_nil_or_concat g2 with rfl | ⟨g2', x, rfl⟩
    · have := List.append_inj' e (by simp)
      simp at this
      obtain ⟨rfl, rfl⟩ := this
      rcases List.eq_nil_or_concat b with rfl | ⟨b', y, rfl⟩
      · have := List.append_inj' e2 (by simp)
        simp at this
        obtain ⟨rfl, rfl⟩ := this
        have hne := h.1 last (by simp)
        simp only [hne, iff_false]
        simpa using ho
      · rw [List.concat_eq_append, ← List.cons_append, ← List.append_assoc] at e2
        have := List.append_inj' e2 (by simp)
        exact h.2 groups last [] rfl a m b' this.1
    · rw [List.concat_eq_append, ← List.cons_append, ← List.append_assoc] at e
      have := List.append_inj' e (by simp)
      exact h.2 g1 g (g2' ++ [last]) (by rw [this.1]; simp) a m b e2

theorem noNl_append (a b : Str) : noNl (a ++ b) = noNl a ++ noNl b := by simp [noNl, replaceChar]

theorem refLoop_spec (ls : List Str) (groups : List (List Str)) (taut : Bool) (hg : RefCut groups)
    (ht : taut = true ↔ InTautology groups.flatten) (out : List Str)
    (h : refLoop (groups.map fun g => noNl g.flatten) taut ls = .ok out) :
    ∃ gs, RefCut gs ∧ gs.flatten = groups.flatten ++ ls ∧ out = gs.map fun g => noNl g.flatten := by
  induction ls generalizing groups taut with
  | nil =>
    simp [refLoop] at h
    exact ⟨groups, hg, by simp, h.symm⟩
  | cons l ls ih =>
    rw [refLoop.eq_def] at h
    simp only at h
    have hs2 : slice l 0 2 = l.take 2 := rfl
    have hs1 : slice l 0 1 = l.take 1 := rfl
    rw [hs2, hs1] at h
    have new : OpensRef groups.flatten l →
        refLoop ((groups.map fun g => noNl g.flatten) ++ [noNl l]) (if hasSub "))".toList l then false else if l.take 2 = "((".toList then true else taut) ls = .ok out →
        ∃ gs, RefCut gs ∧ gs.flatten = groups.flatten ++ l :: ls ∧ out = gs.map fun g => noNl g.flatten := by
      intro ho h
      obtain ⟨gs, k1, k2, k3⟩ := ih (groups ++ [[l]]) (if hasSub "))".toList l then false else if l.take 2 = "((".toList then true else taut) (RefCut_new hg ho) (by
        simp only [List.flatten_append, List.flatten_cons, List.flatten_nil, List.append_nil]
        rw [InTautology_snoc, ← ht]
        cases hasSub "))".toList l <;> by_cases h2 : List.take 2 l = "((".toList <;> simp [h2]) (by simpa using h)
      exact ⟨gs, k1, by simpa using k2, k3⟩
    split at h
    · rename_i h2
      refine new (.inl h2) ?_
      simpa [h2] using h
    · rename_i h2
      split at h
      · rename_i h1
        refine new (.inr ⟨h1.2, ?_⟩) ?_
        · rw [← ht]; simpa using h1.1
        · rw [if_neg h2]; exact h
      · rename_i h1
        split at h
        · simp at h
        · rename_i hne
          have hno : ¬ OpensRef groups.flatten l := by
            rintro (h' | ⟨h', h''⟩)
            · exact h2 h'
            · rw [← ht] at h''
              exact h1 ⟨by simpa using h'', h'⟩
          rcases List.eq_nil_or_concat groups with rfl | ⟨gs0, last, rfl⟩
          · simp at hne
          · rw [List.concat_eq_append] at *
            simp only [List.map_append, List.map_cons, List.map_nil, appendLast_snoc] at h
            obtain ⟨gs, k1, k2, k3⟩ := ih (gs0 ++ [last ++ [l]]) (if hasSub "))".toList l then false else taut) (RefCut_ext hg hno) (by
              have : (gs0 ++ [last ++ [l]]).flatten = (gs0 ++ [last]).flatten ++ [l] := by simp
              rw [this, InTautology_snoc, ← ht]
              cases hasSub "))".toList l <;> simp_all) (by simpa [noNl_append] using h)
            exact ⟨gs, k1, by simpa using k2, k3⟩

theorem refLoop_error (ls : List Str) (refs : List Str) (taut : Bool) (hr : refs ≠ []) :
    ∃ out, refLoop refs taut ls = .ok out := by
  induction ls generalizing refs taut with
  | nil => exact ⟨_, rfl⟩
  | cons l ls ih =>
    rw [refLoop.eq_def]; simp only
    split
    · exact ih _ _ (by simp)
    · split
      · exact ih _ _ (by simp)
      · refine ih _ _ ?_
        rw [← List.dropLast_append_getLast hr, appendLast_snoc]; simp

end X4
