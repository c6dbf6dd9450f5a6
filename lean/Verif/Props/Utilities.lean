import Verif.Lemmas.Chunks
import Verif.Lemmas.Str
import Verif.Lemmas.Unique
import Mathlib.Algebra.Order.Field.Rat
import Mathlib.Tactic.NormNum
import Mathlib.Tactic.Linarith
import Mathlib.Tactic.Positivity
import Mathlib.Algebra.Order.AbsoluteValue.Basic
/-! Properties of `exfor_utilities.py`: C08, C60, C61, C62. -/
namespace X4

/-- a header line: the first 11 columns, stripped, are the keyword -/
def HasKeyword (kw : Str) (line : Str) : Prop := strip (line.take 11) = kw

/-- C08: the entries returned are exactly the chunks from an `ENTRY` line to the
next `ENDENTRY` line. -/
theorem C08_chunkifyX4Request (request : List Str) (entries : List (List Str)) :
    chunkifyX4Request request = entries ↔
      Chunks (HasKeyword "ENTRY".toList) (HasKeyword "ENDENTRY".toList) request entries := by
  unfold chunkifyX4Request
  rw [← Chunks_iff]
  simp only [tag11, slice, List.drop_zero, decide_eq_true_eq]
  rfl

/-- C08: cutting the concatenation of the entries again gives the same entries. -/
theorem C08_idempotent (request : List Str) :
    chunkifyX4Request (chunkifyX4Request request).flatten = chunkifyX4Request request := by
  have h := (C08_chunkifyX4Request request _).1 rfl
  unfold chunkifyX4Request at h ⊢
  exact chunkLoop_of_Chunks (Chunks_total request).flatten

example : chunkifyX4Request ["junk".toList, "ENTRY            12345".toList, "x".toList, "ENDENTRY".toList, "y".toList,
    "ENTRY   ".toList, "z".toList] = [["ENTRY            12345".toList, "x".toList, "ENDENTRY".toList]] := by decide

section unique
variable {α : Type} [DecidableEq α]

/-- C60: no duplicates. -/
theorem C60_nodup (l : List α) : (unique l).Nodup := by
  obtain ⟨t, h1, h2, h3, h4⟩ := uniqueLoop_append [] l
  unfold unique; rw [h1]; simpa using h4
/-- C60: same members. -/
theorem C60_mem (l : List α) (x : α) : x ∈ unique l ↔ x ∈ l := by
  obtain ⟨t, h1, h2, h3, h4⟩ := uniqueLoop_append [] l
  unfold unique; rw [h1]; simp [h3]
/-- C60: a subsequence of the argument. -/
theorem C60_sublist (l : List α) : (unique l).Sublist l := by
  obtain ⟨t, h1, h2, h3, h4⟩ := uniqueLoop_append [] l
  unfold unique; rw [h1]; simpa using h2
/-- C60: elements are kept at their first occurrence: the result for a prefix is
a prefix of the result, and a new element is appended iff it is new. -/
theorem C60_first_occurrence (l : List α) (x : α) :
    unique (l ++ [x]) = if x ∈ l then unique l else unique l ++ [x] := by
  unfold unique
  rw [uniqueLoop_take]
  have := C60_mem l x
  unfold unique at this
  simp only [uniqueLoop, this]
/-- C60: idempotent; more generally `unique` leaves duplicate-free lists alone. -/
theorem C60_fixed (l : List α) (h : l.Nodup) : unique l = l := by
  induction l using List.reverseRecOn with
  | nil => rfl
  | append_singleton l x ih =>
    rw [C60_first_occurrence, ih (List.Nodup.of_append_left h)]
    have : x ∉ l := by
      intro hx
      exact (List.nodup_append.1 h).2.2 x hx x (by simp) rfl
    simp [this]
theorem C60_idempotent (l : List α) : unique (unique l) = unique l := C60_fixed _ (C60_nodup l)

example : unique [3, 1, 3, 2, 1] = [3, 1, 2] := by decide
end unique

section tol
variable {K : Type} [Field K] [LinearOrder K] [IsStrictOrderedRing K]

omit [IsStrictOrderedRing K] in
/-- C61: symmetric. -/
theorem C61_symmetric (a b p t : K) : withinXPercent a b p t = withinXPercent b a p t := by
  unfold withinXPercent
  rw [add_comm a b, add_comm |a| |b|, abs_sub_comm a b]

/-- C61: reflexive (for a non-negative percentage). -/
theorem C61_reflexive (a p t : K) (hp : 0 ≤ p) : withinXPercent a a p t = true := by
  unfold withinXPercent
  split
  · rfl
  · split
    · rfl
    · simp; positivity

/-- C61 (partial): closeness is implied when the two numbers do not cancel. The
full claim (without `a + b ≠ 0`) is false, see `C61_closeness_refuted`. -/
theorem C61_closeness_partial (a b p t : K) (h : withinXPercent a b p t = true) (hne : a + b ≠ 0)
    (ht : t ≤ |a| + |b|) : |a - b| ≤ p / 100 * (|a + b| / 2) := by
  unfold withinXPercent at h
  rw [if_neg hne, if_neg (not_lt.2 ht)] at h
  simp at h
  have hpos : 0 < |a + b| := abs_pos.2 hne
  rw [div_le_iff₀ hpos] at h
  linarith

/-- C61, converse: close numbers are accepted. -/
theorem C61_accepts (a b p t : K) (h : |a - b| ≤ p / 100 * (|a + b| / 2)) :
    withinXPercent a b p t = true := by
  unfold withinXPercent
  split
  · rfl
  · rename_i hne
    split
    · rfl
    · have hpos : 0 < |a + b| := abs_pos.2 hne
      simp
      rw [div_le_iff₀ hpos]; linarith

/-- C61: opposite numbers of any size are reported to be equal within any percentage,
so the claim of closeness is false of the code. -/
theorem C61_closeness_refuted :
    ¬ ∀ a b p t : ℚ, withinXPercent a b p t = true → t ≤ |a| + |b| → |a - b| ≤ p / 100 * ((|a| + |b|) / 2) := by
  intro h
  have := h 1 (-1) 1 0 (by unfold withinXPercent; norm_num) (by norm_num)
  norm_num at this

/-- C61: lists are compared pointwise and must have the same length. -/
theorem C61_lists (as bs : List K) (p t : K) :
    allWithinXPercent as bs p t = true ↔
      as.length = bs.length ∧ ∀ (i : Nat) (h1 : i < as.length) (h2 : i < bs.length), withinXPercent as[i] bs[i] p t = true := by
  unfold allWithinXPercent
  split
  · rename_i h; simp; intro h'; exact absurd h' h
  · rename_i h
    have hl : as.length = bs.length := by simpa using h
    simp only [hl, true_and, List.all_eq_true]
    constructor
    · intro hz i h1 h2
      exact hz (as[i], bs[i]) (by
        rw [List.mem_iff_getElem]
        exact ⟨i, by simp; omega, by simp⟩)
    · intro hz x hx
      rw [List.mem_iff_getElem] at hx
      obtain ⟨i, hi, rfl⟩ := hx
      simp at hi
      simpa using hz i (by omega) hi.2

example : withinXPercent (1000 : ℚ) 1001 1 0 = true := by unfold withinXPercent; norm_num [abs_of_pos]
end tol

section table
variable {κ α : Type} [DecidableEq κ]

/-- C62: given columns are used as they are. -/
theorem C62_given_columns (ds : List (Dict κ α)) (cols : List κ) :
    (listOfDictsToTable ds (some cols)).1 = cols := rfl

/-- C62: without explicit columns, the columns are the distinct keys of all the
dictionaries, in order of first appearance. -/
theorem C62_default_columns (ds : List (Dict κ α)) :
    (listOfDictsToTable ds none).1 = unique (ds.flatMap fun d => d.keys) := by
  have : ∀ cols, ds.foldl (fun cols d => d.keys.foldl (fun cols k => if k ∈ cols then cols else cols ++ [k]) cols) cols
      = uniqueLoop cols (ds.flatMap fun d => d.keys) := by
    induction ds with
    | nil => intro cols; rfl
    | cons d ds ih =>
      intro cols
      rw [List.foldl_cons, ih, tableCols_inner, List.flatMap_cons, uniqueLoop_take]
  exact this []

/-- C62: one row per dictionary, one cell per column, holding the dictionary's value
(or `None`). -/
theorem C62_cells (ds : List (Dict κ α)) (cols : Option (List κ)) :
    (listOfDictsToTable ds cols).2.length = ds.length ∧
    ∀ i (h : i < ds.length) (h' : i < (listOfDictsToTable ds cols).2.length),
      ((listOfDictsToTable ds cols).2[i]).length = (listOfDictsToTable ds cols).1.length ∧
      ∀ j (hj : j < (listOfDictsToTable ds cols).1.length),
        ((listOfDictsToTable ds cols).2[i])[j]? = some (ds[i].get? ((listOfDictsToTable ds cols).1[j])) := by
  refine ⟨by simp [listOfDictsToTable], ?_⟩
  intro i h h'
  refine ⟨by simp [listOfDictsToTable], ?_⟩
  intro j hj
  have hj' : j < (cols.getD (tableCols ds)).length := hj
  simp [listOfDictsToTable, hj']

example : (listOfDictsToTable [[("a", 1)], [("b", 2), ("a", 3)]] none).2 = [[some 1, none], [some 3, some 2]] := by decide
end table
end X4
