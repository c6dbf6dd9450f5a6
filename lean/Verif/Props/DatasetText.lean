import Verif.Model.DatasetText
import Verif.Spec.Csv
import Verif.Props.Metadata
/-! Printed datasets and CSV files (C75–C78). -/
namespace X4
variable {ρ N : Type}

/-! ### CSV -/

theorem csvGo_plain (s t f : Str) (r : List Str) (h : ∀ c ∈ s, csvSpecial c = false) :
    csvGo .plain f r (s ++ t) = csvGo .plain (f ++ s) r t := by
  induction s generalizing f with
  | nil => simp
  | cons c s ih =>
    have hc := h c (by simp)
    simp only [csvSpecial, Bool.or_eq_false_iff, beq_eq_false_iff_ne] at hc
    rw [List.cons_append, csvGo.eq_def]
    simp only
    rw [if_neg hc.1.1.1, if_neg hc.1.2, ih _ fun c hc => h c (by simp [hc])]
    simp

theorem csvGo_quoted (s t f : Str) (r : List Str) :
    csvGo .quoted f r ((s.flatMap fun c => if c = '"' then ['"', '"'] else [c]) ++ t) = csvGo .quoted (f ++ s) r t := by
  induction s generalizing f with
  | nil => simp
  | cons c s ih =>
    rw [List.flatMap_cons, List.append_assoc]
    by_cases hc : c = '"'
    · subst hc
      rw [if_pos rfl, List.cons_append, csvGo.eq_def]
      simp only
      rw [if_pos trivial, List.cons_append, csvGo.eq_def]
      simp only
      rw [if_pos trivial, List.nil_append, ih]
      simp
    · rw [if_neg hc, List.cons_append, csvGo.eq_def]
      simp only
      rw [if_neg hc, List.nil_append, ih]
      simp

/-- reading a field and the comma behind it -/
theorem csvGo_field_comma (s t : Str) (r : List Str) :
    csvGo .start [] r (csvField s ++ ',' :: t) = csvGo .start [] (r ++ [s]) t := by
  unfold csvField
  split
  · rw [List.append_assoc, List.append_assoc]
    simp only [List.cons_append, List.nil_append]
    rw [csvGo.eq_def]
    simp only
    rw [if_pos trivial, csvGo_quoted, csvGo.eq_def]
    simp only
    rw [if_pos trivial, csvGo.eq_def]
    simp only
    rw [if_neg (by decide), if_pos trivial]
    simp
  · rename_i hs
    simp only [Bool.not_eq_true, List.any_eq_false] at hs
    cases s with
    | nil =>
      rw [List.nil_append, csvGo.eq_def]
      simp only
      rw [if_neg (by decide), if_pos trivial]
    | cons c s =>
      have hc := hs c (by simp)
      simp only [csvSpecial, Bool.or_eq_false_iff, beq_eq_false_iff_ne] at hc
      rw [List.cons_append, csvGo.eq_def]
      simp only
      rw [if_neg hc.1.1.2, if_neg hc.1.1.1, if_neg hc.1.2, csvGo_plain s _ _ _ fun c hc => by simpa using hs c (by simp [hc]),
        csvGo.eq_def]
      simp only
      rw [if_pos trivial]
      simp

/-- reading the last field of a row and the line end -/
theorem csvGo_field_nl (s t : Str) (r : List Str) (h : r = [] → s ≠ []) :
    csvGo .start [] r (csvField s ++ '\n' :: t) = (r ++ [s]) :: csvGo .start [] [] t := by
  unfold csvField
  split
  · rw [List.append_assoc, List.append_assoc]
    simp only [List.cons_append, List.nil_append]
    rw [csvGo.eq_def]
    simp only
    rw [if_pos trivial, csvGo_quoted, csvGo.eq_def]
    simp only
    rw [if_pos trivial, csvGo.eq_def]
    simp only
    rw [if_neg (by decide), if_neg (by decide), if_pos trivial]
    simp
  · rename_i hs
    simp only [Bool.not_eq_true, List.any_eq_false] at hs
    cases s with
    | nil =>
      rw [List.nil_append, csvGo.eq_def]
      simp only
      rw [if_neg (by decide), if_neg (by decide), if_pos trivial, if_neg fun hr => h hr rfl]
    | cons c s =>
      have hc := hs c (by simp)
      simp only [csvSpecial, Bool.or_eq_false_iff, beq_eq_false_iff_ne] at hc
      rw [List.cons_append, csvGo.eq_def]
      simp only
      rw [if_neg hc.1.1.2, if_neg hc.1.1.1, if_neg hc.1.2, csvGo_plain s _ _ _ fun c hc => by simpa using hs c (by simp [hc]),
        csvGo.eq_def]
      simp only
      rw [if_neg (by decide), if_pos trivial]
      simp

theorem csvGo_row (fields : List Str) (r : List Str) (t : Str) (hne : fields ≠ []) (h : r = [] → fields ≠ [[]]) :
    csvGo .start [] r (joinWith [','] (fields.map csvField) ++ '\n' :: t) = (r ++ fields) :: csvGo .start [] [] t := by
  induction fields generalizing r with
  | nil => exact absurd rfl hne
  | cons s fields ih =>
    cases fields with
    | nil =>
      show csvGo .start [] r (csvField s ++ '\n' :: t) = _
      rw [csvGo_field_nl s t r]
      intro hr hs
      exact h hr (by rw [hs])
    | cons s2 fields =>
      rw [List.map_cons, joinWith_cons _ _ (by simp), List.append_assoc, List.append_assoc]
      rw [show [','] ++ (joinWith [','] ((s2 :: fields).map csvField) ++ '\n' :: t) =
        ',' :: (joinWith [','] ((s2 :: fields).map csvField) ++ '\n' :: t) from rfl, csvGo_field_comma]
      rw [ih (r ++ [s]) (by simp) (by simp)]
      simp

theorem readCsv_rows (rows : List (List Str)) : readCsv (rows.flatMap csvRow) = rows := by
  unfold readCsv
  induction rows with
  | nil => rfl
  | cons row rows ih =>
    rw [List.flatMap_cons]
    by_cases h1 : row = [[]]
    · subst h1
      show csvGo .start [] [] ('"' :: '"' :: '\n' :: _) = _
      rw [csvGo.eq_def]
      simp only
      rw [if_pos trivial, csvGo.eq_def]
      simp only
      rw [if_pos trivial, csvGo.eq_def]
      simp only
      rw [if_neg (by decide), if_neg (by decide), if_pos trivial]
      exact congrArg (List.cons [[]]) ih
    · have hrow : csvRow row = joinWith [','] (row.map csvField) ++ ['\n'] := by unfold csvRow; rw [if_neg h1]
      rw [hrow, List.append_assoc]
      by_cases h2 : row = []
      · subst h2
        show csvGo .start [] [] ('\n' :: _) = _
        rw [csvGo.eq_def]
        simp only
        rw [if_neg (by decide), if_neg (by decide), if_pos trivial, if_pos trivial]
        exact congrArg (List.cons []) ih
      · have := csvGo_row row [] (rows.flatMap csvRow) h2 (fun _ => h1)
        rw [show (['\n'] ++ rows.flatMap csvRow) = '\n' :: rows.flatMap csvRow from rfl, this, ih]
        rfl

/-- C78: the CSV file of a dataset reads back as its labels, its units and its rows, cell by cell, whatever the cells contain; a missing
value is an empty field. -/
theorem C78_csv (T : DsTexts ρ N) (d : DataSet ρ N) :
    readCsv (d.csv T) = [d.labels, d.units.map fun u => u.getD []] ++
      d.data.map fun row => row.map fun x => match x with
        | none => []
        | some x => T.num x := readCsv_rows _

/-- C78: the same for the CSV file of a DATA or COMMON section. -/
theorem C78_section_csv (num : FloatLit → Str) (d : DataSection) :
    readCsv (d.csv num) = [d.labels, d.units] ++ d.data.map fun row => row.map fun x => match x with
        | none => []
        | some x => num x := readCsv_rows _

example : (DataSet.csv (ρ := Unit) (N := Nat) ⟨fun _ => [], fun _ => [], natStr⟩
    { kind := .generic, info := {}, reaction := none, monitor := none, coupled := false, labels := ["EN,a".toList, "DA\"TA".toList],
      units := [some "MEV".toList, none], data := [[some 1, none]] }) = "\"EN,a\",\"DA\"\"TA\"\nMEV,\n1,\n".toList := by decide +kernel

/-! ### printed tables -/

/-- the text of a header attribute has no line end -/
structure OneLine (T : DsTexts ρ N) (d : DataSet ρ N) : Prop where
  author : ∀ a ∈ authorItems d.info.author, '\n' ∉ a
  title : '\n' ∉ d.info.record.title
  year : '\n' ∉ d.info.record.year
  institute : '\n' ∉ optFieldStr d.info.institute
  reference : '\n' ∉ optFieldStr d.info.reference
  subent : '\n' ∉ d.info.record.subent
  rx : ∀ r ∈ d.reaction, '\n' ∉ T.rx r.1 ∧ '\n' ∉ r.2
  mon : ∀ ms ∈ d.monitor, ∀ m ∈ ms, '\n' ∉ T.mon m
  frame : ∀ f ∈ d.frame, '\n' ∉ f
  labels : ∀ l ∈ d.labels, '\n' ∉ l
  units : ∀ u ∈ d.units, ∀ x ∈ u, '\n' ∉ x
  num : ∀ row ∈ d.data, ∀ x ∈ row, ∀ v ∈ x, '\n' ∉ T.num v

theorem joinWith_no_nl {sep : Str} {l : List Str} (hs : '\n' ∉ sep) (h : ∀ s ∈ l, '\n' ∉ s) : '\n' ∉ joinWith sep l := by
  intro hm
  rcases mem_joinWith_sep hm with h1 | ⟨w, hw, hc⟩
  · exact hs h1
  · exact h w hw hc

theorem ljust_no_nl {s : Str} {n : Nat} (h : '\n' ∉ s) : '\n' ∉ ljust s n := by
  unfold ljust
  simp [h]

theorem cellLine_no_nl {l : List Str} (h : ∀ s ∈ l, '\n' ∉ s) : '\n' ∉ cellLine l := by
  unfold cellLine
  simp only [List.mem_flatMap, not_exists, not_and]
  exact fun s hs => ljust_no_nl (h s hs)

/-- the comment lines of a printed dataset -/
def commentLines (T : DsTexts ρ N) (d : DataSet ρ N) (r : ρ × Str) : List Str :=
  [chars!"#  Authors:   " ++ joinWith chars!", " (authorItems d.info.author), chars!"#  Title:     " ++ d.info.record.title,
   chars!"#  Year:      " ++ d.info.record.year, chars!"#  Institute: " ++ optFieldStr d.info.institute,
   chars!"#  Reference: " ++ optFieldStr d.info.reference, chars!"#  Subent:    " ++ d.info.record.subent,
   chars!"#  Reaction:  " ++ T.rx r.1 ++ [' '] ++ r.2] ++
  (match d.monitor with | none => [] | some ms => [chars!"#  Monitor(s): " ++ joinWith [' '] (ms.map T.mon)]) ++
  (match d.frame with | none => [] | some f => [chars!"#  Frame:     " ++ f]) ++
  [chars!"#        " ++ cellLine d.labels, chars!"#        " ++ cellLine (d.units.map fun u => u.getD chars!"None")]

/-- the other lines of a printed dataset -/
def rowLines (T : DsTexts ρ N) (d : DataSet ρ N) : List Str :=
  d.data.map (fun row => chars!"        " ++ cellLine (row.map (cellText T))) ++ [chars!"        "]

theorem rows_joined (T : DsTexts ρ N) (rows : List (List (Option N))) :
    chars!"        " ++ rows.flatMap (fun row => cellLine (row.map (cellText T)) ++ chars!"\n        ") =
      joinWith ['\n'] (rows.map (fun row => chars!"        " ++ cellLine (row.map (cellText T))) ++ [chars!"        "]) := by
  induction rows with
  | nil => rfl
  | cons row rows ih =>
    have := joinWith_cons ['\n'] (chars!"        " ++ cellLine (row.map (cellText T)))
      (b := rows.map (fun row => chars!"        " ++ cellLine (row.map (cellText T))) ++ [chars!"        "]) (by simp)
    rw [← ih] at this
    refine Eq.trans ?_ this.symm
    rw [List.flatMap_cons]
    simp only [List.append_assoc]
    rfl

set_option maxRecDepth 5000 in
theorem str_lines (T : DsTexts ρ N) (d : DataSet ρ N) (r : ρ × Str) (hr : d.reaction = some r) :
    d.str T = .ok (joinWith ['\n'] (commentLines T d r ++ rowLines T d)) := by
  unfold DataSet.str DataSet.strHeader
  rw [hr]
  simp only
  refine congrArg Except.ok ?_
  rw [joinWith_append _ (by simp [commentLines]) (by simp [rowLines])]
  unfold rowLines
  rw [← rows_joined]
  unfold commentLines monitorLine frameLine MetaRec.xmgraceHeader MetaRec.lines
  cases d.monitor <;> cases d.frame <;>
    (simp only [joinWith, DsMeta.record, List.append_assoc, List.nil_append, List.cons_append])

/-- C75: in the printed form of a dataset with one-line texts, the lines of the header, the labels and the units begin with '#', and after
them there is one line for each row, beginning with blanks, and a blank line. -/
theorem C75_comments (T : DsTexts ρ N) (d : DataSet ρ N) (r : ρ × Str) (hr : d.reaction = some r) (h : OneLine T d) (s : Str)
    (hs : d.str T = .ok s) :
    ∃ cs, splitChar '\n' s = cs ++ d.data.map (fun row => chars!"        " ++ cellLine (row.map (cellText T))) ++ [chars!"        "] ∧
      (∀ l ∈ cs, l.head? = some '#') ∧ (chars!"#  Reaction:  " ++ T.rx r.1 ++ [' '] ++ r.2) ∈ cs ∧
      cs.getLast? = some (chars!"#        " ++ cellLine (d.units.map fun u => u.getD chars!"None")) := by
  refine ⟨commentLines T d r, ?_, ?_, ?_, ?_⟩
  · rw [str_lines T d r hr] at hs
    cases hs
    rw [splitChar_joinWith]
    · unfold rowLines
      simp
    · have hp : ∀ {p s : Str}, '\n' ∉ p → '\n' ∉ s → '\n' ∉ p ++ s := by
        intro p s h1 h2
        simp [h1, h2]
      intro l hl
      rcases List.mem_append.1 hl with hl | hl
      · unfold commentLines at hl
        simp only [List.mem_append, List.mem_cons, List.not_mem_nil, or_false] at hl
        rcases hl with (((hl | hl | hl | hl | hl | hl | hl) | hl) | hl) | hl | hl
        · rw [hl]; exact hp (by decide) (joinWith_no_nl (by decide) h.author)
        · rw [hl]; exact hp (by decide) h.title
        · rw [hl]; exact hp (by decide) h.year
        · rw [hl]; exact hp (by decide) h.institute
        · rw [hl]; exact hp (by decide) h.reference
        · rw [hl]; exact hp (by decide) h.subent
        · rw [hl]
          obtain ⟨h1, h2⟩ := h.rx r (by rw [hr]; rfl)
          exact hp (hp (hp (by decide) h1) (by decide)) h2
        · cases hm : d.monitor with
          | none => rw [hm] at hl; cases hl
          | some ms =>
            rw [hm] at hl
            rw [List.mem_singleton.1 hl]
            refine hp (by decide) (joinWith_no_nl (by decide) ?_)
            intro s hs
            obtain ⟨m, hm', rfl⟩ := List.mem_map.1 hs
            exact h.mon ms (by rw [hm]; rfl) m hm'
        · cases hf : d.frame with
          | none => rw [hf] at hl; cases hl
          | some f =>
            rw [hf] at hl
            rw [List.mem_singleton.1 hl]
            exact hp (by decide) (h.frame f (by rw [hf]; rfl))
        · rw [hl]; exact hp (by decide) (cellLine_no_nl h.labels)
        · rw [hl]
          refine hp (by decide) (cellLine_no_nl ?_)
          intro s hs
          obtain ⟨u, hu, rfl⟩ := List.mem_map.1 hs
          cases u with
          | none => decide
          | some x => exact h.units _ hu x rfl
      · unfold rowLines at hl
        rcases List.mem_append.1 hl with hl | hl
        · obtain ⟨row, hrow, rfl⟩ := List.mem_map.1 hl
          refine hp (by decide) (cellLine_no_nl ?_)
          intro s hs
          obtain ⟨x, hx, rfl⟩ := List.mem_map.1 hs
          cases x with
          | none => exact (by decide : '\n' ∉ chars!"None")
          | some v => exact h.num row hrow _ hx v rfl
        · rw [List.mem_singleton.1 hl]; decide
    · simp [rowLines]
  · intro l hl
    unfold commentLines at hl
    simp only [List.mem_append, List.mem_cons, List.not_mem_nil, or_false] at hl
    rcases hl with (((hl | hl | hl | hl | hl | hl | hl) | hl) | hl) | hl | hl
    all_goals first
      | (rw [hl]; rfl)
      | skip
    · cases hm : d.monitor with
      | none => rw [hm] at hl; cases hl
      | some ms => rw [hm] at hl; rw [List.mem_singleton.1 hl]; rfl
    · cases hf : d.frame with
      | none => rw [hf] at hl; cases hl
      | some f => rw [hf] at hl; rw [List.mem_singleton.1 hl]; rfl
  · unfold commentLines
    simp
  · unfold commentLines
    rw [List.getLast?_append]
    rfl

/-- a dataset for the examples -/
def textSet : DataSet Unit Nat :=
  { kind := .angular, info := { year := some chars!"1960", author := some [chars!"A.B.Smith"], title := some chars!"T" },
    reaction := some ((), chars!"free text"), monitor := none, coupled := false, labels := [chars!"EN", chars!"ANG", chars!"DATA"],
    units := [some chars!"MEV", some chars!"ADEG", some chars!"B/SR"], data := [[some 1, some 90, some 12], [some 2, none, some 13]],
    frame := some chars!"Lab" }
/-- texts for the examples -/
def textOps : DsTexts Unit Nat := ⟨fun _ => chars!"(N,EL)", fun _ => [], natStr⟩

example : textSet.str textOps = .ok (joinWith ['\n'] [
    chars!"#  Authors:   A.B.Smith", chars!"#  Title:     T", chars!"#  Year:      1960", chars!"#  Institute: None",
    chars!"#  Reference: None", chars!"#  Subent:    ????????", chars!"#  Reaction:  (N,EL) free text", chars!"#  Frame:     Lab",
    chars!"#        EN            ANG           DATA          ", chars!"#        MEV           ADEG          B/SR          ",
    chars!"        1             90            12            ", chars!"        2             None          13            ",
    chars!"        "]) := by decide +kernel

example : OneLine textOps textSet where
  author := by decide
  title := by decide
  year := by decide
  institute := by decide
  reference := by decide
  subent := by decide
  rx := by simp [textSet, textOps]
  mon := by simp [textSet]
  frame := by simp [textSet]
  labels := by decide
  units := by simp [textSet]
  num := by
    intro row _ x _ v _
    intro hm
    have := (natStr_spec v).1 _ hm
    revert this; decide

/-! ### C76 -/

theorem splitWs_cells (l : List Str) (h : ∀ s ∈ l, s ≠ [] ∧ s.length < 14 ∧ ∀ c ∈ s, isSpace c = false) :
    splitWs (cellLine l) = l := by
  induction l with
  | nil => rfl
  | cons s l ih =>
    obtain ⟨h1, h2, h3⟩ := h s (by simp)
    have hb : ∃ k, 14 - s.length = k + 1 := ⟨13 - s.length, by omega⟩
    obtain ⟨k, hk⟩ := hb
    have : cellLine (s :: l) = s ++ ' ' :: (List.replicate k ' ' ++ cellLine l) := by
      unfold cellLine
      rw [List.flatMap_cons, ljust, hk, List.replicate_succ]
      simp
    rw [this, splitWs_word h3 h1 (by decide), splitWs_spaces (fun c hc => by rw [(List.mem_replicate.1 hc).2]; decide),
      ih fun s hs => h s (by simp [hs])]

/-- C76: if the texts of all cells have 1 to 13 characters without blanks, the printed dataset reads back as its rows: the lines that do not
begin with '#', except for the last, blank one, have the texts of the cells as words. Missing: longer texts, see
`C76_columns_refuted`. -/
theorem C76_columns_partial (T : DsTexts ρ N) (d : DataSet ρ N) (r : ρ × Str) (hr : d.reaction = some r) (h : OneLine T d) (s : Str)
    (hs : d.str T = .ok s)
    (hw : ∀ row ∈ d.data, ∀ x ∈ row, ∀ v ∈ x, T.num v ≠ [] ∧ (T.num v).length < 14 ∧ ∀ c ∈ T.num v, isSpace c = false) :
    (((splitChar '\n' s).filter fun l => l.head? != some '#').dropLast).map splitWs =
      d.data.map fun row => row.map fun x => match x with
        | none => chars!"None"
        | some v => T.num v := by
  obtain ⟨cs, h1, h2, -, -⟩ := C75_comments T d r hr h s hs
  rw [h1, List.filter_append, List.filter_append, List.filter_eq_nil_iff.2 (by intro l hl; simp [h2 l hl]), List.nil_append,
    List.filter_eq_self.2 (by
      intro l hl
      obtain ⟨row, -, rfl⟩ := List.mem_map.1 hl
      rfl)]
  rw [show List.filter (fun l : Str => l.head? != some '#') [chars!"        "] = [chars!"        "] from by decide,
    List.dropLast_concat, List.map_map]
  apply List.map_congr_left
  intro row hrow
  show splitWs (chars!"        " ++ cellLine (row.map (cellText T))) = _
  rw [splitWs_spaces (by decide), splitWs_cells]
  · apply List.map_congr_left
    intro x _
    cases x <;> rfl
  · intro t ht
    obtain ⟨x, hx, rfl⟩ := List.mem_map.1 ht
    cases x with
    | none =>
      show chars!"None" ≠ [] ∧ (chars!"None").length < 14 ∧ ∀ c ∈ chars!"None", isSpace c = false
      decide
    | some v => exact hw row hrow _ hx v rfl

/-- the example has cells of that kind -/
example : ∀ row ∈ textSet.data, ∀ x ∈ row, ∀ v ∈ x,
    textOps.num v ≠ [] ∧ (textOps.num v).length < 14 ∧ ∀ c ∈ textOps.num v, isSpace c = false := by
  simp only [textSet, List.mem_cons, List.not_mem_nil, or_false, forall_eq_or_imp, forall_eq, Option.mem_def, Option.some.injEq,
    forall_eq', reduceCtorEq, false_implies, implies_true]
  decide +kernel

/-- C76 fails for a cell whose text has 14 or more characters, as the texts of converted numbers can have: it is printed without a
blank before the text of the next cell. -/
theorem C76_columns_refuted (T : DsTexts ρ N) (x y : N) (hx : 14 ≤ (T.num x).length) (hx' : ∀ c ∈ T.num x, isSpace c = false)
    (hy : T.num y ≠ []) (hy' : ∀ c ∈ T.num y, isSpace c = false) (hy2 : (T.num y).length < 14) :
    splitWs (chars!"        " ++ cellLine ([some x, some y].map (cellText T))) = [T.num x ++ T.num y] := by
  rw [splitWs_spaces (by decide)]
  have : cellLine ([some x, some y].map (cellText T)) = cellLine [T.num x] ++ cellLine [T.num y] := by
    simp [cellLine, cellText]
  rw [this]
  obtain ⟨k, hk⟩ : ∃ k, 14 - (T.num y).length = k + 1 := ⟨13 - (T.num y).length, by omega⟩
  have h1 : cellLine [T.num x] = T.num x := by
    unfold cellLine ljust
    rw [show [T.num x].flatMap (fun c => c ++ List.replicate (14 - c.length) ' ') = T.num x ++ List.replicate (14 - (T.num x).length) ' '
      from by simp, show 14 - (T.num x).length = 0 by omega]
    simp
  have h2 : cellLine [T.num y] = T.num y ++ ' ' :: List.replicate k ' ' := by
    unfold cellLine ljust
    simp [hk, List.replicate_succ]
  rw [h1, h2, ← List.append_assoc, splitWs_word (by
    intro c hc
    rcases List.mem_append.1 hc with hc | hc
    · exact hx' c hc
    · exact hy' c hc) (by simp [hy]) (by decide)]
  rw [splitWs_blank (by intro c hc; rw [(List.mem_replicate.1 hc).2]; decide)]

example : ∃ T : DsTexts Unit Nat, 14 ≤ (T.num 1).length ∧ (∀ c ∈ T.num 1, isSpace c = false) ∧ T.num 2 ≠ [] ∧
    (∀ c ∈ T.num 2, isSpace c = false) ∧ (T.num 2).length < 14 :=
  ⟨⟨fun _ => [], fun _ => [], fun n => if n = 1 then chars!"1.23456789012e-05" else chars!"2.0"⟩, by decide⟩

/-! ### C77 -/

theorem hasSub_iff (p s : Str) : hasSub p s = true ↔ ∃ a b, s = a ++ p ++ b := by
  induction s with
  | nil =>
    simp only [hasSub, List.isEmpty_iff]
    constructor
    · rintro rfl; exact ⟨[], [], rfl⟩
    · rintro ⟨a, b, h⟩
      have := h.symm
      simp only [List.append_eq_nil_iff] at this
      exact this.1.2
  | cons c s ih =>
    simp only [hasSub, Bool.or_eq_true, List.isPrefixOf_iff_prefix, ih]
    constructor
    · rintro (⟨b, hb⟩ | ⟨a, b, rfl⟩)
      · exact ⟨[], b, by rw [List.nil_append]; exact hb.symm⟩
      · exact ⟨c :: a, b, rfl⟩
    · rintro ⟨a, b, h⟩
      cases a with
      | nil => exact Or.inl ⟨b, by rw [h]; rfl⟩
      | cons x a =>
        refine Or.inr ⟨a, b, ?_⟩
        simp only [List.cons_append, List.cons.injEq] at h
        exact h.2

/-- C77: an angular or energy distribution is reported in the center of mass exactly if one of its column labels contains "-CM", and in
the laboratory otherwise; other datasets report no frame. Missing: that the label is the one of the angle or outgoing energy, see
`C77_frame_refuted`. -/
theorem C77_frame_partial [PyNum N] (rx : RxOps ρ) (kind : DsKind) (ms : List (Option (DsMeta ρ)))
    (common : List (Option (Nat × DataSection))) (reaction : Option (ρ × Str)) (monitor : Option (List (Monitor ρ)))
    (data : Option DataSection) (pointer : Option Char) (d : DataSet ρ N)
    (h : DataSet.build rx kind ms common reaction monitor data pointer = .ok d) :
    (d.frame = some chars!"Center of mass" ↔ (kind = .angular ∨ kind = .energyDist) ∧ ∃ l ∈ d.labels, ∃ a b, l = a ++ chars!"-CM" ++ b) ∧
    (d.frame = some chars!"Lab" ↔ (kind = .angular ∨ kind = .energyDist) ∧ ¬ ∃ l ∈ d.labels, ∃ a b, l = a ++ chars!"-CM" ++ b) ∧
    (d.frame = none ↔ ¬ (kind = .angular ∨ kind = .energyDist)) := by
  unfold DataSet.build at h
  have hf : ∃ t : Table N, d.labels = t.labels ∧ d.frame = frameOf kind t.labels := by
    cases data with
    | none => cases h; exact ⟨⟨[], [], []⟩, rfl, rfl⟩
    | some sec =>
      cases hd : (setData sec common pointer : Except PyErr (Table N)) with
      | error e => simp only [hd] at h; cases h
      | ok t => simp only [hd] at h; cases h; exact ⟨t, rfl, rfl⟩
  obtain ⟨t, h1, h2⟩ := hf
  have h3 : (t.labels.any (hasSub "-CM".toList) = true) ↔ ∃ l ∈ d.labels, ∃ a b, l = a ++ chars!"-CM" ++ b := by
    rw [h1, List.any_eq_true]
    simp only [hasSub_iff]
    exact Iff.rfl
  rw [h2, ← h3]
  unfold frameOf
  by_cases hk : kind = .angular ∨ kind = .energyDist
  · rw [if_pos hk]
    cases t.labels.any (hasSub "-CM".toList) <;> simp [hk]
  · rw [if_neg hk]
    simp [hk]

/-- the DATA section of the example -/
def frameSection : DataSection :=
  { tag := chars!"DATA", numcols := 3, numrows := 1, lpr := 1, labels := [chars!"EN-CM", chars!"ANG", chars!"DATA"],
    units := [chars!"MEV", chars!"ADEG", chars!"MB/SR"], pointers := [], rawData := [],
    data := [[some (.fin false 1 0), some (.fin false 90 0), some (.fin false 5 0)]] }

/-- C77 is false: angles in the laboratory are reported in the center of mass, if the incident energy is given in the center of mass. -/
theorem C77_frame_refuted (rx : RxOps ρ) : ∃ d : DataSet ρ ℝ,
    DataSet.build rx .angular [none, none] [none, none] none none (some frameSection) none = .ok d ∧
    d.labels = [chars!"EN-CM", chars!"ANG", chars!"DATA"] ∧ d.frame = some chars!"Center of mass" := by
  have h : ∃ t : Table ℝ, setData frameSection [none, none] none = .ok t ∧ t.labels = frameSection.labels := by
    refine ⟨_, rfl, ?_⟩
    rfl
  obtain ⟨t, h1, h2⟩ := h
  refine ⟨{ kind := .angular, info := mergeMeta [none, none], reaction := none, monitor := none, coupled := false,
            labels := t.labels, units := t.units, data := t.data, frame := frameOf .angular t.labels }, ?_, h2, ?_⟩
  · unfold DataSet.build
    simp only [h1]
  · show frameOf .angular t.labels = _
    rw [h2]
    decide

end X4
