import Verif.Model.Helpers
import Verif.Props.TextFields
import Verif.Props.Field
/-! Properties C108 to C110 of the helper functions `chunkifyX4TextField`, `extractX4FieldPointer` and `prettyprint_table`. -/
namespace X4
open Parser

/-! ### C108: chunks of a text field -/

/-- C108 (partial: for codes and texts made of letters, digits and the characters of words, see `wordChar`): every code in parentheses starts a chunk,
with its words in the order of writing, followed by the words of the free text behind it. -/
theorem C108_chunks_partial (l : List (Str × Str)) (hne : l ≠ []) (hl : ∀ x ∈ l, TextOf wordChar x.1 ∧ splitWs x.1 ≠ [] ∧ TextOf wordChar x.2) :
    chunkifyX4TextField (instText l) = .ok (l.map fun x => .grp (.grp ((splitWs x.1).map .str) :: (splitWs x.2).map .str)) := by
  simp only [wordChar_fun] at hl
  exact pTextField_inst l hne hl

example : chunkifyX4TextField chars!"(1USALAS) FIRST AUTHORS (1USAORL)" = .ok [.grp [.grp [.str chars!"1USALAS"], .str chars!"FIRST", .str chars!"AUTHORS"],
    .grp [.grp [.str chars!"1USAORL"]]] :=
  C108_chunks_partial [(chars!"1USALAS", chars!" FIRST AUTHORS "), (chars!"1USAORL", [])] (by simp) (by decide)

/-- C108 fails when a text contains any other character: whatever follows is lost, codes included. -/
theorem C108_punctuation_refuted (l : List (Str × Str)) (hne : l ≠ []) (hl : ∀ x ∈ l, TextOf wordChar x.1 ∧ splitWs x.1 ≠ [] ∧ TextOf wordChar x.2)
    (c : Char) (hc : wordChar c = false) (hw : isWhite c = false) (hp : c ≠ '(') (t : Str) (ht : '\t' ∉ t) :
    chunkifyX4TextField (instText l ++ c :: t) = chunkifyX4TextField (instText l) := by
  simp only [wordChar_fun] at hl hc
  unfold chunkifyX4TextField
  rw [pTextField_inst l hne hl, pTextField_tail l hne hl (c :: t) (by
    rw [List.mem_cons]
    rintro (h | h)
    · rw [← h] at hw; revert hw; decide
    · exact ht h) ⟨NW_cons.2 hw, by simpa using hc⟩ (by simpa using hp)]

example : chunkifyX4TextField chars!"(1USALAS) USA: FIRST AUTHORS (1USAORL)" = .ok [.grp [.grp [.str chars!"1USALAS"], .str chars!"USA"]] :=
  (C108_punctuation_refuted [(chars!"1USALAS", chars!" USA")] (by simp) (by decide) ':' (by decide) (by decide) (by decide)
    chars!" FIRST AUTHORS (1USAORL)" (by decide)).trans (C108_chunks_partial [(chars!"1USALAS", chars!" USA")] (by simp) (by decide))

/-! ### C109: the pointer of a field -/

theorem plainStep_head (st : Char × Dict Char (List Str)) (l : Str) (k : Char) (h : st.2.keys.head? = some k) :
    (plainStep st l).2.keys.head? = some k := by
  unfold plainStep
  simp only []
  cases hd : st.2 with
  | nil => rw [hd] at h; simp [Dict.keys] at h
  | cons a d =>
    rw [hd] at h
    have hk : a.1 = k := by simpa [Dict.keys] using h
    rw [← hk, Dict.keys_set]
    split <;> split <;> simp [Dict.keys]

theorem fold_head (ls : List Str) (st : Char × Dict Char (List Str)) (k : Char) (h : st.2.keys.head? = some k) :
    (ls.foldl plainStep st).2.keys.head? = some k := by
  induction ls generalizing st with
  | nil => exact h
  | cons l ls ih => exact ih _ (plainStep_head st l k h)

/-- C109: the pointer read from the first line of a field is the character in column 10, and nothing if that is blank; the parsed field then begins with
the texts under this pointer (the blank one if there is none). The pointer must not be another white space character. -/
theorem C109_pointer_partial (l : Str) (ls : List Str) (f : PlainField) (h : PlainField.build (l :: ls) = .ok f)
    (hw : ∀ c, l[10]? = some c → c ≠ ' ' → isSpace c = false) :
    extractX4FieldPointer (l :: ls) = .ok ((explicitPointer l).map fun c => [c]) ∧
    f.subs.keys.head? = some ((explicitPointer l).getD ' ') := by
  constructor
  · unfold extractX4FieldPointer explicitPointer
    have h0 : pyIdx (l :: ls) 0 = .ok l := rfl
    rw [h0]
    simp only []
    have hs : slice l 10 11 = l[10]?.toList := by
      unfold slice
      rw [List.drop_take, ← List.head?_drop]
      cases l.drop 10 <;> simp
    rw [hs]
    cases hc : l[10]? with
    | none => rfl
    | some c =>
      by_cases hb : c = ' '
      · subst hb
        simp [Option.toList, strip, lstrip, rstrip, show isSpace ' ' = true by decide]
      · have := hw c hc hb
        simp [Option.toList, strip, lstrip, rstrip, this, hb]
  · have h0 : pyIdx (l :: ls) 0 = .ok l := rfl
    unfold PlainField.build at h
    rw [h0] at h
    rw [← Except.ok.inj h]
    refine fold_head ls _ _ ?_
    rw [← col10_eq]
    unfold plainStep
    by_cases hb : col10 l = ' ' <;> simp [hb, Dict.set, Dict.keys]

/-- C109 fails for another white space character in the pointer column: the field is filed under it, and no pointer is reported. -/
theorem C109_tab_refuted : extractX4FieldPointer [chars!"MONITOR   \tTEXT"] = .ok none ∧
    (PlainField.build [chars!"MONITOR   \tTEXT"]).map (fun f => f.subs.keys) = .ok ['\t'] := by
  constructor <;> decide +kernel

example : extractX4FieldPointer demoField = .ok (some ['1']) := by decide +kernel

/-! ### C110: printed tables -/

theorem ljust_split (x : Str) (w : Nat) (h : x.length ≤ w) : (ljust x w).length = w := by
  simp [ljust]; omega

/-- C110 (partial: for cells not wider than the columns): in a printed line, column `j` holds cell `j`, filled up with blanks; cells without blanks at
the end are therefore read back. -/
theorem C110_cells_partial (w : Nat) (cells : List Str) (hw : ∀ x ∈ cells, x.length ≤ w) (j : Nat) (x : Str) (hx : cells[j]? = some x) :
    slice (prettyLine w cells) (j * (w + 1)) (j * (w + 1) + w) = x ++ List.replicate (w - x.length) ' ' := by
  induction cells generalizing j with
  | nil => simp at hx
  | cons y cells ih =>
    have hy : (ljust y w).length = w := ljust_split y w (hw y (by simp))
    cases j with
    | zero =>
      have : y = x := by simpa using hx
      subst this
      have he : ∃ r, prettyLine w (y :: cells) = ljust y w ++ r := by
        cases cells with
        | nil => exact ⟨[], by simp [prettyLine, joinWith]⟩
        | cons z cs => exact ⟨[' '] ++ prettyLine w (z :: cs), by simp [prettyLine, joinWith]⟩
      obtain ⟨r, he⟩ := he
      rw [he, Nat.zero_mul, Nat.zero_add]
      unfold slice
      rw [List.take_left' hy, List.drop_zero]
      rfl
    | succ j =>
      cases cells with
      | nil => simp at hx
      | cons z cs =>
        have he : prettyLine w (y :: z :: cs) = ljust y w ++ ([' '] ++ prettyLine w (z :: cs)) := by
          simp [prettyLine, joinWith]
        have := ih (fun x hx => hw x (by simp [hx])) j (by simpa using hx)
        rw [he, ← this]
        unfold slice
        rw [← List.append_assoc, List.drop_take, List.drop_take,
          show (j + 1) * (w + 1) = (ljust y w ++ [' ']).length + j * (w + 1) by
            rw [List.length_append, hy, List.length_singleton, Nat.succ_mul]; omega, List.drop_length_add_append]
        congr 1
        omega

/-- read back: the columns of a printed table -/
theorem C110_table_partial (w : Nat) (labels : List Str) (table : List (List Str))
    (hw : ∀ r ∈ labels :: table, ∀ x ∈ r, x.length ≤ w ∧ rstrip x = x) :
    (prettyTable w labels table).length = table.length + 1 ∧
    ∀ (i j : Nat) (r : List Str) (x : Str), (labels :: table)[i]? = some r → r[j]? = some x →
      ∃ line, (prettyTable w labels table)[i]? = some line ∧ rstrip (slice line (j * (w + 1)) (j * (w + 1) + w)) = x := by
  refine ⟨by simp [prettyTable], fun i j r x hi hj => ?_⟩
  have hr := hw r (List.mem_of_getElem? hi)
  refine ⟨prettyLine w r, ?_, ?_⟩
  · have : prettyTable w labels table = (labels :: table).map (prettyLine w) := rfl
    rw [this, List.getElem?_map, hi]; rfl
  · rw [C110_cells_partial w r (fun x hx => (hr x hx).1) j x hj]
    have := (hr x (List.mem_of_getElem? hj)).2
    rw [rstrip_append_space (by intro c hc; rw [(List.mem_replicate.1 hc).2]; decide), this]

example : prettyTable 6 [chars!"EN", chars!"DATA"] [[chars!"1.5", chars!"20.25"], [chars!"2", chars!"-1"]] =
    [chars!"EN     DATA  ", chars!"1.5    20.25 ", chars!"2      -1    "] := by decide +kernel
example := C110_table_partial 6 [chars!"EN", chars!"DATA"] [[chars!"1.5", chars!"20.25"], [chars!"2", chars!"-1"]] (by decide +kernel)

/-- C110 fails for wider cells: they push the following ones out of their columns, and different tables print alike. -/
theorem C110_wide_refuted : prettyLine 20 [chars!"detector efficiency, in per cent, systematic", chars!"B"] =
      prettyLine 20 [chars!"detector efficiency,", chars!"in per cent, systematic", chars!"B"] ∧
    slice (prettyLine 20 [chars!"detector efficiency, in per cent, systematic", chars!"B"]) 21 41 ≠ ljust chars!"B" 20 := by
  constructor <;> decide +kernel

end X4
