import Verif.Py.Float
import Mathlib.Data.List.Basic
import Mathlib.Tactic.Linarith
/-! Helper lemmas about the string operations. -/
namespace X4

theorem dropWhile_all {α} {p : α → Bool} {a : List α} (b : List α) (h : ∀ x ∈ a, p x) :
    (a ++ b).dropWhile p = b.dropWhile p := by
  induction a with
  | nil => rfl
  | cons x a ih =>
    have hx := h x (by simp)
    simp [hx]
    exact ih (fun y hy => h y (by simp [hy]))

theorem takeWhile_all {α} {p : α → Bool} {a : List α} (b : List α) (h : ∀ x ∈ a, p x) :
    (a ++ b).takeWhile p = a ++ b.takeWhile p := by
  induction a with
  | nil => rfl
  | cons x a ih =>
    have hx := h x (by simp)
    simp [hx]
    exact ih (fun y hy => h y (by simp [hy]))

theorem dropWhile_eq_nil_iff' {α} {p : α → Bool} {a : List α} :
    a.dropWhile p = [] ↔ ∀ x ∈ a, p x := by
  induction a with
  | nil => simp
  | cons x a ih =>
    by_cases h : p x <;> simp [h, ih]

theorem mem_takeWhile_imp' {α} {p : α → Bool} {a : List α} {x : α} (h : x ∈ a.takeWhile p) : p x := by
  induction a with
  | nil => simp at h
  | cons y a ih =>
    by_cases hy : p y
    · simp [hy] at h
      rcases h with rfl | h
      · exact hy
      · exact ih h
    · simp [hy] at h

theorem rstrip_append_space {s b : Str} (h : ∀ x ∈ b, isSpace x) : rstrip (s ++ b) = rstrip s := by
  unfold rstrip
  rw [List.reverse_append, dropWhile_all]
  simpa using h

theorem lstrip_space_append {s b : Str} (h : ∀ x ∈ b, isSpace x) : lstrip (b ++ s) = lstrip s := by
  unfold lstrip
  exact dropWhile_all s h

/-- last element is not a space (or the string is empty) -/
def endOk (s : Str) : Prop := ∀ c, s.getLast? = some c → isSpace c = false
/-- first element is not a space (or the string is empty) -/
def headOk (s : Str) : Prop := ∀ c, s.head? = some c → isSpace c = false

theorem rstrip_of_endOk {s : Str} (h : endOk s) : rstrip s = s := by
  unfold rstrip
  rcases List.eq_nil_or_concat s with rfl | ⟨t, c, rfl⟩
  · rfl
  · have : isSpace c = false := h c (by simp)
    simp [this]

theorem lstrip_of_headOk {s : Str} (h : headOk s) : lstrip s = s := by
  cases s with
  | nil => rfl
  | cons c t =>
    have : isSpace c = false := h c (by simp)
    simp [lstrip, this]

theorem endOk_rstrip (s : Str) : endOk (rstrip s) := by
  unfold rstrip endOk
  intro c hc
  rw [List.getLast?_reverse] at hc
  generalize s.reverse = t at hc
  induction t with
  | nil => simp at hc
  | cons x t ih =>
    by_cases hx : isSpace x
    · simp only [List.dropWhile_cons, hx, if_true] at hc; exact ih hc
    · simp only [List.dropWhile_cons, hx] at hc
      simp at hc; subst hc; simpa using hx

theorem headOk_lstrip (s : Str) : headOk (lstrip s) := by
  unfold lstrip headOk
  intro c hc
  induction s with
  | nil => simp at hc
  | cons x t ih =>
    by_cases hx : isSpace x
    · simp only [List.dropWhile_cons, hx, if_true] at hc; exact ih hc
    · simp only [List.dropWhile_cons, hx] at hc
      simp at hc; subst hc; simpa using hx

theorem rstrip_decomp (s : Str) : ∃ b, s = rstrip s ++ b ∧ ∀ x ∈ b, isSpace x := by
  refine ⟨(s.reverse.takeWhile isSpace).reverse, ?_, ?_⟩
  · unfold rstrip
    rw [← List.reverse_append, List.takeWhile_append_dropWhile, List.reverse_reverse]
  · intro x hx
    rw [List.mem_reverse] at hx
    exact mem_takeWhile_imp' hx

theorem lstrip_decomp (s : Str) : ∃ b, s = b ++ lstrip s ∧ ∀ x ∈ b, isSpace x := by
  refine ⟨s.takeWhile isSpace, ?_, ?_⟩
  · exact (List.takeWhile_append_dropWhile).symm
  · intro x hx
    exact mem_takeWhile_imp' hx

theorem headOk_of_prefix {s b : Str} (h : headOk (s ++ b)) : headOk s := by
  intro c hc
  apply h
  cases s with
  | nil => simp at hc
  | cons x t => simpa using hc

theorem headOk_strip (s : Str) : headOk (strip s) := by
  unfold strip
  obtain ⟨b, hb, _⟩ := rstrip_decomp (lstrip s)
  exact headOk_of_prefix (by rw [← hb]; exact headOk_lstrip s)

theorem endOk_strip (s : Str) : endOk (strip s) := endOk_rstrip _

theorem strip_decomp (s : Str) : ∃ a b, s = a ++ strip s ++ b ∧ (∀ x ∈ a, isSpace x) ∧ ∀ x ∈ b, isSpace x := by
  obtain ⟨a, ha, ha'⟩ := lstrip_decomp s
  obtain ⟨b, hb, hb'⟩ := rstrip_decomp (lstrip s)
  refine ⟨a, b, ?_, ha', hb'⟩
  unfold strip
  rw [List.append_assoc, ← hb, ← ha]

/-- `strip` removes surrounding white space and nothing else. -/
theorem strip_surround {a s b : Str} (ha : ∀ x ∈ a, isSpace x) (hb : ∀ x ∈ b, isSpace x)
    (h1 : headOk s) (h2 : endOk s) : strip (a ++ s ++ b) = s := by
  unfold strip
  rw [List.append_assoc, lstrip_space_append ha]
  by_cases hs : s = []
  · subst hs
    obtain ⟨c, hc, _⟩ := lstrip_decomp b
    have : lstrip b = [] := dropWhile_eq_nil_iff'.2 hb
    simp [this, rstrip]
  · have : headOk (s ++ b) := by
      intro c hc
      apply h1
      cases s with
      | nil => simp at hs
      | cons x t => simpa using hc
    rw [lstrip_of_headOk this, rstrip_append_space hb, rstrip_of_endOk h2]

theorem strip_of_ok {s : Str} (h1 : headOk s) (h2 : endOk s) : strip s = s := by
  have := strip_surround (a := []) (b := []) (s := s) (by simp) (by simp) h1 h2
  simpa using this

@[simp] theorem strip_strip (s : Str) : strip (strip s) = strip s :=
  strip_of_ok (headOk_strip s) (endOk_strip s)

theorem strip_eq_nil_iff {s : Str} : strip s = [] ↔ ∀ x ∈ s, isSpace x := by
  constructor
  · intro h
    obtain ⟨a, b, hs, ha, hb⟩ := strip_decomp s
    rw [h] at hs
    rw [hs]; simp
    rintro x (hx | hx)
    · exact ha x hx
    · exact hb x hx
  · intro h
    have : lstrip s = [] := dropWhile_eq_nil_iff'.2 h
    simp [strip, this, rstrip]

theorem strip_surround_eq {a s b : Str} (ha : ∀ x ∈ a, isSpace x) (hb : ∀ x ∈ b, isSpace x) :
    strip (a ++ s ++ b) = strip s := by
  obtain ⟨a', b', hs, ha', hb'⟩ := strip_decomp s
  have : a ++ s ++ b = (a ++ a') ++ strip s ++ (b' ++ b) := by
    conv => lhs; rw [hs]
    simp
  rw [this, strip_surround _ _ (headOk_strip s) (endOk_strip s)]
  · simp; rintro x (hx | hx); exact ha x hx; exact ha' x hx
  · simp; rintro x (hx | hx); exact hb' x hx; exact hb x hx

theorem mem_strip {s : Str} {c : Char} (h : c ∈ strip s) : c ∈ s := by
  obtain ⟨a, b, hs, _, _⟩ := strip_decomp s
  rw [hs]; simp [h]

theorem length_strip_le (s : Str) : (strip s).length ≤ s.length := by
  obtain ⟨a, b, hs, _, _⟩ := strip_decomp s
  have := congrArg List.length hs
  simp at this; omega

theorem isSpace_false_of_isDig {c : Char} (h : isDig c) : isSpace c = false := by
  unfold isDig at h; unfold isSpace
  simp at h ⊢; omega

@[simp] theorem length_ljust (s : Str) (n : Nat) : (ljust s n).length = max s.length n := by
  simp [ljust]; omega
@[simp] theorem length_rjust (s : Str) (n : Nat) : (rjust s n).length = max s.length n := by
  simp [rjust]; omega

theorem strip_ljust (s : Str) (n : Nat) : strip (ljust s n) = strip s := by
  have := strip_surround_eq (a := []) (s := s) (b := List.replicate (n - s.length) ' ') (by simp)
    (by intro x hx; simp at hx; rw [hx.2]; rfl)
  simpa [ljust] using this
theorem strip_rjust (s : Str) (n : Nat) : strip (rjust s n) = strip s := by
  have := strip_surround_eq (a := List.replicate (n - s.length) ' ') (s := s) (b := [])
    (by intro x hx; simp at hx; rw [hx.2]; rfl) (by simp)
  simpa [rjust] using this

theorem splitOnP_ne_nil {α} (p : α → Bool) (s : List α) : splitOnP p s ≠ [] := by
  cases s with
  | nil => simp [splitOnP]
  | cons c cs =>
    simp only [splitOnP]
    split
    · simp
    · split <;> simp

/-- no separators inside: one piece -/
theorem splitOnP_none {α} {p : α → Bool} {s : List α} (h : ∀ x ∈ s, p x = false) : splitOnP p s = [s] := by
  induction s with
  | nil => rfl
  | cons c cs ih =>
    have hc := h c (by simp)
    simp [splitOnP, hc, ih (fun x hx => h x (by simp [hx]))]

theorem splitOnP_append_sep {α} {p : α → Bool} {a : List α} {c : α} {b : List α}
    (ha : ∀ x ∈ a, p x = false) (hc : p c) :
    splitOnP p (a ++ c :: b) = a :: splitOnP p b := by
  induction a with
  | nil => simp [splitOnP, hc]
  | cons x a ih =>
    have hx := ha x (by simp)
    simp [splitOnP, hx, ih (fun y hy => ha y (by simp [hy]))]

/-- all pieces are separator free -/
theorem splitOnP_sepfree {α} {p : α → Bool} {s w : List α} (h : w ∈ splitOnP p s) : ∀ x ∈ w, p x = false := by
  induction s generalizing w with
  | nil => simp [splitOnP] at h; simp [h]
  | cons c cs ih =>
    simp only [splitOnP] at h
    split at h
    · simp at h
      rcases h with rfl | h
      · simp
      · exact ih h
    · rename_i hc
      split at h
      · simp at h; subst h; simpa using hc
      · rename_i hd tl heq
        simp at h
        rcases h with rfl | h
        · have := ih (w := hd) (by rw [heq]; simp)
          simp at hc
          intro x hx; simp at hx
          rcases hx with rfl | hx
          · exact hc
          · exact this x hx
        · exact ih (w := w) (by rw [heq]; simp [h])

/-- splitting the joined lines gives back the lines -/
theorem splitChar_joinWith {c : Char} {ls : List Str} (h : ∀ l ∈ ls, c ∉ l) (hne : ls ≠ []) :
    splitChar c (joinWith [c] ls) = ls := by
  induction ls with
  | nil => simp at hne
  | cons x r ih =>
    have hx : ∀ y ∈ x, (fun x => x == c) y = false := by
      intro y hy; have := h x (by simp); simp; intro he; subst he; exact this hy
    cases r with
    | nil => simp [joinWith, splitChar, splitOnP_none hx]
    | cons y r =>
      have := ih (fun l hl => h l (by simp [hl])) (by simp)
      unfold splitChar at this ⊢
      simp only [joinWith, List.append_assoc, List.singleton_append]
      rw [splitOnP_append_sep hx (by simp), this]

theorem joinWith_splitChar {c : Char} (s : Str) : joinWith [c] (splitChar c s) = s := by
  unfold splitChar
  induction s with
  | nil => rfl
  | cons x s ih =>
    simp only [splitOnP]
    split
    · rename_i hx
      have hx : x = c := by simpa using hx
      rcases hq : splitOnP (fun x => x == c) s with _ | ⟨h, t⟩
      · exact absurd hq (splitOnP_ne_nil _ _)
      · rw [hq] at ih; simp [joinWith, ih, hx]
    · rcases hq : splitOnP (fun x => x == c) s with _ | ⟨h, t⟩
      · exact absurd hq (splitOnP_ne_nil _ _)
      · rw [hq] at ih
        cases t with
        | nil => simpa [joinWith] using ih
        | cons y t => simpa [joinWith] using ih

theorem slice_append_left {α} {a b : List α} {i j : Nat} (h : j ≤ a.length) :
    slice (a ++ b) i j = slice a i j := by
  unfold slice
  rw [List.take_append_of_le_length h]

theorem slice_append_right {α} {a b : List α} {i j : Nat} (h : a.length ≤ i) :
    slice (a ++ b) i j = slice b (i - a.length) (j - a.length) := by
  unfold slice
  rw [List.take_append, List.drop_append]
  simp only [List.length_take]
  by_cases hj : j ≤ a.length
  · have h1 : j - a.length = 0 := by omega
    rw [h1]; simp; omega
  · have : min j a.length = a.length := by omega
    rw [this]
    rw [List.drop_eq_nil_of_le (by simp; omega)]
    simp

end X4
