import Verif.Model.EntryText
import Verif.Spec.Number
import Verif.Props.DataSection
import Verif.Props.Entry
import Verif.Props.Bib
import Verif.Lemmas.DataSets
import Verif.Lemmas.Manager
import Verif.Lemmas.Simplify
/-! Property C94: the texts (`str`) of sections, subentries and entries. -/
namespace X4

/-! ### tables -/

theorem mapE_error_of {ε α β} {f : α → Except ε β} {l : List α} {e : ε} (h : ∀ x ∈ l, (∃ y, f x = .ok y) ∨ f x = .error e)
    {x : α} (hx : x ∈ l) (hxe : f x = .error e) : mapE f l = .error e := by
  induction l with
  | nil => simp at hx
  | cons a l ih =>
    rcases h a (by simp) with ⟨y, hy⟩ | he
    · have hxl : x ∈ l := by
        rcases List.mem_cons.1 hx with rfl | h'
        · rw [hxe] at hy; cases hy
        · exact h'
      simp only [mapE, hy, ih (fun z hz => h z (by simp [hz])) hxl]
    · simp only [mapE, he]

theorem cells11_eq (cells : List Str) : cells11 cells = rowText cells := by
  simp [cells11, rowText, List.flatMap]

/-- the lines of `str` are those of `repr` of the section with the numbers' texts as raw cells -/
theorem strLines_eq (num : FloatLit → Str) (d : DataSection) :
    d.strLines num = ({ d with rawData := d.data.map fun row => row.map (sectionCell num) } : DataSection).reprLines := by
  simp only [DataSection.strLines, DataSection.reprLines, cells11_eq, List.map_map]
  rfl

/-- the numbers of a table -/
def DataSection.values (d : DataSection) : List (List (Option (Option ℚ))) := d.data.map fun r => r.map fun c => c.map FloatLit.value

/-- What re-reading a printed table does (at most six columns, no cell wider than 11 characters). -/
theorem build_str (num : FloatLit → Str) (tag : Str) (htag : tag = "DATA".toList ∨ tag = "COMMON".toList) (sec : List Str) (d : DataSection)
    (h : DataSection.build tag sec = .ok d) (hcols : 1 ≤ d.numcols) (h6 : d.numcols ≤ 6) (hrows : d.numrows < 10 ^ 10)
    (hnum : ∀ row ∈ d.data, ∀ x, some x ∈ row → CellOk (num x)) :
    DataSection.build tag (splitChar '\n' (d.str num)) =
      (mapE (mapE parseFORTRANNumber) (d.data.map fun row => row.map (sectionCell num))).map fun vals =>
        { d with rawData := d.data.map fun row => row.map (sectionCell num), data := vals } := by
  have hnn := C02_numrows_nonneg tag sec d h hcols h6
  obtain ⟨q1, q2, q3, q4, q5, q6⟩ := C02_rectangular tag sec d h
  obtain ⟨cl, cu, cr⟩ := build_cells h
  obtain ⟨n, c, hs, rows, b⟩ := build_ok h
  obtain ⟨h1, h2⟩ := build_printed_cells tag htag ({ d with rawData := d.data.map fun row => row.map (sectionCell num) } : DataSection)
    (by rw [b.eq]) (by rw [b.eq]) (by rw [b.eq]) q1 q2 (by simpa using q4) (by
      intro r hr
      simp only [List.mem_map] at hr
      obtain ⟨row, hrow, rfl⟩ := hr
      simpa using q6 row hrow) cl cu (by
      intro r hr c hc
      simp only [List.mem_map] at hr
      obtain ⟨row, hrow, rfl⟩ := hr
      simp only [List.mem_map] at hc
      obtain ⟨x, hx, rfl⟩ := hc
      cases x with
      | none => exact (⟨by decide, by decide, by decide⟩ : CellOk chars!"None")
      | some x => exact hnum row hrow x hx) hcols h6 hnn hrows
  have : d.str num = ({ d with rawData := d.data.map fun row => row.map (sectionCell num) } : DataSection).repr := by
    unfold DataSection.str DataSection.repr
    rw [strLines_eq]
  rw [this, h1, h2]

/-- C94 (partial: at most six columns, no missing cell, and texts of numbers that fit into their column): reading the printed
table gives the same headings and the same numbers. Without these restrictions the statement is false: `C94_columns_refuted`, `C94_missing_refuted`,
`C94_wide_number_refuted`. -/
theorem C94_table_partial (num : FloatLit → Str) (tag : Str) (htag : tag = "DATA".toList ∨ tag = "COMMON".toList) (sec : List Str)
    (d : DataSection) (h : DataSection.build tag sec = .ok d) (hcols : 1 ≤ d.numcols) (h6 : d.numcols ≤ 6) (hrows : d.numrows < 10 ^ 10)
    (hnum : ∀ row ∈ d.data, ∀ c ∈ row, ∃ x, c = some x ∧ strip (num x) = num x ∧ (num x).length ≤ 11 ∧ '\n' ∉ num x ∧
      ∃ y, parseFORTRANNumber (num x) = .ok (some y) ∧ y.value = x.value) :
    ∃ d', DataSection.build tag (splitChar '\n' (d.str num)) = .ok d' ∧ d'.tag = tag ∧ d'.labels = d.labels ∧ d'.units = d.units ∧
      d'.pointers = d.pointers ∧ d'.numcols = d.numcols ∧ d'.numrows = d.numrows ∧ d'.values = d.values := by
  have hcell : ∀ row ∈ d.data, ∃ vs, mapE parseFORTRANNumber (row.map (sectionCell num)) = .ok vs ∧
      vs.map (fun c => c.map FloatLit.value) = row.map fun c => c.map FloatLit.value := by
    intro row hrow
    have hr := hnum row hrow
    clear hrow
    induction row with
    | nil => exact ⟨[], rfl, rfl⟩
    | cons c row ih =>
      obtain ⟨x, rfl, -, -, -, y, hy, hv⟩ := hr c (by simp)
      obtain ⟨vs, h1, h2⟩ := ih (fun c hc => hr c (by simp [hc]))
      refine ⟨some y :: vs, ?_, ?_⟩
      · simp only [List.map_cons, mapE, sectionCell, hy, h1]
      · simp only [List.map_cons, h2, Option.map_some, hv]
  have hall : ∀ rows : List (List (Option FloatLit)), (∀ row ∈ rows, ∃ vs, mapE parseFORTRANNumber (row.map (sectionCell num)) = .ok vs ∧
      vs.map (fun c => c.map FloatLit.value) = row.map fun c => c.map FloatLit.value) →
      ∃ vals, mapE (mapE parseFORTRANNumber) (rows.map fun row => row.map (sectionCell num)) = .ok vals ∧
        (vals.map fun r => r.map fun c => c.map FloatLit.value) = rows.map fun r => r.map fun c => c.map FloatLit.value := by
    intro rows
    induction rows with
    | nil => intro _; exact ⟨[], rfl, rfl⟩
    | cons row rows ih =>
      intro hr
      obtain ⟨v, hv1, hv2⟩ := hr row (by simp)
      obtain ⟨vs, h1, h2⟩ := ih (fun r hm => hr r (by simp [hm]))
      refine ⟨v :: vs, ?_, ?_⟩
      · simp only [List.map_cons, mapE, hv1, h1]
      · simp only [List.map_cons, hv2, h2]
  obtain ⟨vals, h1, h2⟩ := hall d.data hcell
  have hb := build_str num tag htag sec d h hcols h6 hrows (by
    intro row hrow x hx
    obtain ⟨x', hx', a, b, c, -⟩ := hnum row hrow _ hx
    simp only [Option.some.injEq] at hx'
    subst hx'
    exact ⟨a, b, c⟩)
  rw [h1] at hb
  refine ⟨_, hb, ?_, rfl, rfl, rfl, rfl, rfl, h2⟩
  obtain ⟨n, c, hs, rows, b⟩ := build_ok h
  simp only
  rw [b.eq]

/-- C94 is false for tables with missing cells: `None` is printed for them, which is not a number. -/
theorem C94_missing_refuted (num : FloatLit → Str) (tag : Str) (htag : tag = "DATA".toList ∨ tag = "COMMON".toList) (sec : List Str)
    (d : DataSection) (h : DataSection.build tag sec = .ok d) (hcols : 1 ≤ d.numcols) (h6 : d.numcols ≤ 6) (hrows : d.numrows < 10 ^ 10)
    (hnum : ∀ row ∈ d.data, ∀ x, some x ∈ row → strip (num x) = num x ∧ (num x).length ≤ 11 ∧ '\n' ∉ num x ∧
      ∃ v, parseFORTRANNumber (num x) = .ok v) (hmiss : ∃ row ∈ d.data, none ∈ row) :
    DataSection.build tag (splitChar '\n' (d.str num)) = .error (.brokenNumberError chars!"None") := by
  rw [build_str num tag htag sec d h hcols h6 hrows (fun row hrow x hx => ⟨(hnum row hrow x hx).1, (hnum row hrow x hx).2.1, (hnum row hrow x hx).2.2.1⟩)]
  have hN : parseFORTRANNumber chars!"None" = .error (.brokenNumberError chars!"None") := by decide
  have hcell : ∀ row ∈ d.data, ∀ c ∈ row.map (sectionCell num),
      (∃ y, parseFORTRANNumber c = .ok y) ∨ parseFORTRANNumber c = .error (.brokenNumberError chars!"None") := by
    intro row hrow c hc
    simp only [List.mem_map] at hc
    obtain ⟨x, hx, rfl⟩ := hc
    cases x with
    | none => exact .inr hN
    | some x => exact .inl (hnum row hrow x hx).2.2.2
  have hrow' : ∀ row ∈ d.data, (∃ y, mapE parseFORTRANNumber (row.map (sectionCell num)) = .ok y) ∨
      mapE parseFORTRANNumber (row.map (sectionCell num)) = .error (.brokenNumberError chars!"None") := by
    intro row hrow
    cases hm : mapE parseFORTRANNumber (row.map (sectionCell num)) with
    | ok y => exact .inl ⟨y, rfl⟩
    | error e =>
      obtain ⟨c, hc, hce⟩ := mapE_error hm
      rcases hcell row hrow c hc with ⟨y, hy⟩ | he
      · rw [hy] at hce; cases hce
      · rw [he] at hce; simp only [Except.error.injEq] at hce; right; rw [hce]
  obtain ⟨row, hrow, hnone⟩ := hmiss
  have := mapE_error_of (f := mapE parseFORTRANNumber) (l := d.data.map fun row => row.map (sectionCell num))
    (e := .brokenNumberError chars!"None") (by
      intro x hx
      simp only [List.mem_map] at hx
      obtain ⟨r, hr, rfl⟩ := hx
      exact hrow' r hr) (x := row.map (sectionCell num)) (List.mem_map.2 ⟨row, hrow, rfl⟩)
    (mapE_error_of (hcell row hrow) (x := chars!"None") (List.mem_map.2 ⟨none, hnone, rfl⟩) hN)
  rw [this]
  rfl

/-- the numbers of the examples as Python prints them -/
def demoNum : FloatLit → Str
  | .fin false 10 (-1) => chars!"1.0"
  | .fin false 20 (-4) => chars!"0.002"
  | .fin false 3 0 => chars!"3.0"
  | .fin false 30 (-1) => chars!"3.0"
  | .fin false 1234567 (-11) => chars!"1.234567e-05"
  | .fin false 15 (-1) => chars!"1.5"
  | _ => chars!"0.0"

/-- a full table -/
def demoFull : List Str :=
  ["DATA                 2          2".toList, "EN         DATA      1".toList, "MEV        B         ".toList,
   " 1.0       2.0-3".toList, " 3         1.0".toList, "ENDDATA".toList]

example : ∃ d, DataSection.build "DATA".toList demoFull = .ok d ∧ d.numcols = 2 ∧ d.numrows = 2 ∧
    (∀ row ∈ d.data, ∀ c ∈ row, c = some (.fin false 10 (-1)) ∨ c = some (.fin false 20 (-4)) ∨ c = some (.fin false 3 0)) ∧
    (strip (demoNum (.fin false 20 (-4))) = demoNum (.fin false 20 (-4)) ∧ parseFORTRANNumber (demoNum (.fin false 20 (-4))) = .ok (some (.fin false 2 (-3)))) :=
  ⟨_, rfl, by decide +kernel⟩

/-- `demoSec` has a missing cell -/
example : ∃ d, DataSection.build "DATA".toList demoSec = .ok d ∧ (∃ row ∈ d.data, none ∈ row) ∧
    DataSection.build "DATA".toList (splitChar '\n' (d.str demoNum)) = .error (.brokenNumberError chars!"None") :=
  ⟨_, rfl, by decide +kernel⟩

/-- a number that fills its column -/
def demoLong : List Str :=
  ["DATA                 2          1".toList, "EN         DATA       ".toList, "MEV        B         ".toList,
   "1.234567E-53.0".toList, "ENDDATA".toList]

/-- C94 is false for numbers whose text is longer than 11 characters, such as 1.234567E-5 (printed as 1.234567e-05): the table
that is read from the text has other numbers, without an error. -/
theorem C94_wide_number_refuted : ∃ d d', DataSection.build "DATA".toList demoLong = .ok d ∧
    DataSection.build "DATA".toList (splitChar '\n' (d.str demoNum)) = .ok d' ∧
    d.values = [[some (some (1234567 / 100000000000)), some (some 3)]] ∧
    d'.values = [[some (some (1234567 / 1000000)), some (some 53)]] := by
  obtain ⟨d, hd, hv⟩ : ∃ d, DataSection.build "DATA".toList demoLong = .ok d ∧
      d.data = [[some (.fin false 1234567 (-11)), some (.fin false 30 (-1))]] := ⟨_, rfl, by decide +kernel⟩
  have hd' : ((DataSection.build "DATA".toList demoLong).bind fun d => DataSection.build "DATA".toList (splitChar '\n' (d.str demoNum))).map
      DataSection.data = .ok [[some (.fin false 1234567 (-6)), some (.fin false 530 (-1))]] := by decide +kernel
  rw [hd] at hd'
  simp only [Except.bind] at hd'
  cases h' : DataSection.build "DATA".toList (splitChar '\n' (d.str demoNum)) with
  | error e => rw [h'] at hd'; simp [Except.map] at hd'
  | ok d' =>
    rw [h'] at hd'
    simp only [Except.map, Except.ok.injEq] at hd'
    refine ⟨d, d', hd, h', ?_, ?_⟩
    · simp only [DataSection.values, hv, List.map_cons, List.map_nil, Option.map_some, FloatLit.value]
      norm_num
    · simp only [DataSection.values, hd', List.map_cons, List.map_nil, Option.map_some, FloatLit.value]
      norm_num

/-- C94 is false for every table of more than six columns: if the printed text can be read at all, two rows are missing. -/
theorem C94_columns_refuted (num : FloatLit → Str) (tag : Str) (htag : tag = "DATA".toList ∨ tag = "COMMON".toList) (sec : List Str)
    (d : DataSection) (h : DataSection.build tag sec = .ok d) (hcols : 7 ≤ d.numcols) (hcols' : d.numcols < 10 ^ 10) (hrows0 : 0 ≤ d.numrows) (hrows : d.numrows < 10 ^ 10)
    (d' : DataSection) (h' : DataSection.build tag (d.strLines num) = .ok d') : d'.numrows = d.numrows - 2 := by
  obtain ⟨q1, q2, q3, q4, q5, q6⟩ := C02_rectangular tag sec d h
  obtain ⟨n, c, hs, rows, b⟩ := build_ok h
  have htag' : d.tag = tag := by rw [b.eq]
  have ht : ∀ c ∈ tag, isSpace c = false ∧ c ≠ '\n' := by rcases htag with rfl | rfl <;> decide
  have htne : tag ≠ [] := by rcases htag with rfl | rfl <;> decide
  have htl : tag.length ≤ 6 := by rcases htag with rfl | rfl <;> decide
  obtain ⟨nr, hnr⟩ : ∃ m : Nat, d.numrows = m := ⟨d.numrows.toNat, by omega⟩
  obtain ⟨nc, hnc⟩ : ∃ m : Nat, d.numcols = m := ⟨d.numcols.toNat, by omega⟩
  have hlines : d.strLines num = (ljust tag 11 ++ rjust (intStr nc) 11 ++ rjust (intStr nr) 11) :: (d.strLines num).drop 1 := by
    rw [← hnr, ← hnc, ← htag']; rfl
  have hhdr : headerCounts (d.strLines num) = .ok (d.numcols, d.numrows) := by
    rw [hlines, hnc, hnr]
    exact headerCounts_repr (fun c hc => (ht c hc).1) htne (by omega) (by omega) (by omega) _
  have hlen : ((d.strLines num).length : Int) = d.numrows + 4 := by
    simp [DataSection.strLines, q4]; omega
  have hnc' : d'.numcols = d.numcols := by
    obtain ⟨n', c', hs', rows', b'⟩ := build_ok h'
    have := b'.hdr
    rw [hhdr] at this
    simpa using (congrArg Prod.fst (Except.ok.inj this)).symm
  have := C03_accepted tag _ d' d.numrows h' (by rw [hhdr, hnc']) (by omega)
  simp only at this
  have hL : (2 : Int) ≤ physLines d'.numcols.toNat := by rw [hnc']; unfold physLines; omega
  rw [hlen] at this
  rcases this with ⟨h1, _⟩ | ⟨_, _, h2⟩ | ⟨_, _, h3, _⟩
  · nlinarith
  · exact h2
  · omega

/-- Such a text is read if there are two rows: none is left. -/
example : ∃ d d', DataSection.build "DATA".toList ["DATA                 7          2".toList, "A          B          C          D          E          F".toList, "G".toList,
      "MEV        MEV        MEV        MEV        MEV        MEV".toList, "MB".toList, "1.".toList, "2.".toList, "3.".toList, "4.".toList, "ENDDATA".toList] = .ok d ∧
    7 ≤ d.numcols ∧ d.numcols < 10 ^ 10 ∧ d.numrows = 2 ∧ DataSection.build "DATA".toList (d.strLines fun _ => "1.".toList) = .ok d' ∧ d'.numrows = 0 := by
  refine ⟨_, _, rfl, ?_, ?_, ?_, rfl, ?_⟩ <;> decide +kernel

/-! ### subentries and entries are not read back -/

theorem subStr_lines {num : FloatLit → Str} {D : RxDicts} {s : SubEntry Measurement} {t acc : Str} (h : s.str num D = .ok t)
    (ha : s.accnum = some acc) : ∃ rest, t = (ljust "SUBENT".toList 11 ++ ljust acc 11) ++ '\n' :: rest := by
  unfold SubEntry.str at h
  rw [ha] at h
  simp only at h
  split at h
  · simp at h
  · simp only [Except.ok.injEq] at h
    rename_i rs _
    rw [← h]
    exact ⟨(rs.flatMap fun r => r ++ ['\n']) ++ ljust chars!"ENDSUBENT" 11, by
      simp only [List.append_assoc, List.nil_append, List.cons_append]; rfl⟩

/-- C94 is false for subentries: the accession number found in the printed text is another one, for every subentry with a number
of 8 characters. -/
theorem C94_subentry_refuted (num : FloatLit → Str) (D : RxDicts) (s : SubEntry Measurement) (t acc : Str) (h : s.str num D = .ok t)
    (ha : s.accnum = some acc) (hl : acc.length = 8) (hnl : '\n' ∉ acc) (hend : acc.getLast? ≠ some ' ') :
    accessionField t = some (acc.drop 3 ++ List.replicate 3 ' ') ∧ accessionField t ≠ s.accnum := by
  obtain ⟨rest, rfl⟩ := subStr_lines h ha
  have hsp : splitChar '\n' (ljust "SUBENT".toList 11 ++ ljust acc 11 ++ '\n' :: rest) = (ljust "SUBENT".toList 11 ++ ljust acc 11) :: splitChar '\n' rest := by
    apply splitChar_cons
    simp [ljust, hnl]
  have key : accessionField (ljust "SUBENT".toList 11 ++ ljust acc 11 ++ '\n' :: rest) = some (acc.drop 3 ++ List.replicate 3 ' ') := by
    unfold accessionField
    rw [hsp]
    have hfw : firstWord (ljust "SUBENT".toList 11 ++ ljust acc 11) = some "SUBENT".toList := by
      unfold firstWord
      have : ljust "SUBENT".toList 11 ++ ljust acc 11 = "SUBENT".toList ++ (List.replicate 5 ' ' ++ ljust acc 11) := by
        simp [ljust]
      rw [this]
      exact splitWs_ljust_head (by decide) (by decide) (by simp [List.replicate_succ]; decide)
    simp only [List.find?_cons, hfw, decide_true, Option.map_some, Option.some.injEq]
    match acc, hl with
    | [a, b, c, d, e, f, g, i], _ => rfl
  refine ⟨key, ?_⟩
  rw [key, ha]
  intro e
  simp only [Option.some.injEq] at e
  apply hend
  rw [← e]
  rw [List.getLast?_append]; rfl

/-- C94 is false for entries: reading the lines of the printed text always raises KeyError. -/
theorem C94_entry_refuted (num : FloatLit → Str) (D : RxDicts) (P : FieldParsers Measurement) (raw : List Str) (e : Entry Measurement)
    (hb : Entry.build P raw = .ok e) (t : Str) (h : e.str num D = .ok t) (hnl : '\n' ∉ e.accnum) :
    Entry.build P (splitChar '\n' t) = .error .keyError := by
  have hacc := Entry.build_accnum hb
  apply C13_no_number
  intro a ha
  unfold Entry.str at h
  split at h
  · simp at h
  · split at h
    · simp at h
    · simp only [Except.ok.injEq] at h
      rename_i rs _
      have ht : t = (ljust "ENTRY".toList 11 ++ ljust e.accnum 11) ++ '\n' :: ((rs.flatMap fun r => r ++ ['\n']) ++ ljust "ENDENTRY".toList 11) := by
        rw [← h]; simp
      rw [ht, splitChar_cons (by simp [ljust, hnl])] at ha
      have hfw : firstWord (ljust "ENTRY".toList 11 ++ ljust e.accnum 11) = some "ENTRY".toList := by
        unfold firstWord
        have : ljust "ENTRY".toList 11 ++ ljust e.accnum 11 = "ENTRY".toList ++ (List.replicate 6 ' ' ++ ljust e.accnum 11) := by
          simp [ljust]
        rw [this]
        exact splitWs_ljust_head (by decide) (by decide) (by simp [List.replicate_succ]; decide)
      rw [entryNumber, List.find?_cons] at ha
      simp only [hfw, true_or, decide_true, Option.map_some, if_true, Option.some.injEq] at ha
      rw [← ha]
      generalize e.accnum = acc at hacc
      match acc, hacc with
      | [a, b, c, d, x], _ =>
        have : (List.take 8 (List.drop 14 (ljust "ENTRY".toList 11 ++ ljust [a, b, c, d, x] 11))) = [d, x] ++ List.replicate 6 ' ' := rfl
        rw [this]
        have h1 := strip_surround_eq (a := []) (s := [d, x]) (b := List.replicate 6 ' ') (by simp) (by simp [isSpace])
        simp only [List.nil_append] at h1
        rw [h1]
        have := length_strip_le [d, x]
        simp at this; omega

/-! ### what is shown -/

/-- C94: the text of a BIB section shows, between its first and last lines, the fields in the order of the file; for a tag
that is given twice, the last one twice. -/
theorem C94_bib_text (D : RxDicts) (P : FieldParsers Measurement) (sec : List Str) (b : BibSection Measurement)
    (h : BibSection.build P sec = .ok b) (t : Str) (ht : b.str D = .ok t) :
    ∃ us n, List.Forall₂ (fun f u => ∃ v, b.fields.get? (fieldKey f) = some v ∧ v.str D = .ok u) (bibChunkify sec) us ∧
      t = chars!"BIB        " ++ rjust (natStr b.fields.length) 11 ++ rjust (natStr n) 11 ++ ['\n'] ++
        us.flatMap (fun u => u ++ ['\n']) ++ chars!"ENDBIB     " ++ rjust (natStr n) 11 := by
  obtain ⟨hk, -⟩ := C40_lookup P sec b h
  unfold BibSection.str at ht
  split at ht
  · simp at ht
  · rename_i n _
    split at ht
    · simp at ht
    · rename_i us hus
      simp only [Except.ok.injEq] at ht
      refine ⟨us, n, ?_, ht.symm⟩
      rw [mapE_ok_iff, hk, List.forall₂_map_left_iff] at hus
      refine hus.imp ?_
      intro f u hu
      unfold BibSection.fieldStr Dict.get at hu
      cases hg : b.fields.get? (fieldKey f) with
      | none => simp [hg] at hu
      | some v => simp only [hg] at hu; exact ⟨v, rfl, hu⟩

/-- the part of the printed subentry for one kind of section -/
def SectionShown (num : FloatLit → Str) (D : RxDicts) (s : SubEntry Measurement) (k part : Str) : Prop :=
  (s.sections.get? k = none ∧ part = []) ∨ ∃ v u, s.sections.get? k = some v ∧ v.str num D = .ok u ∧ part = u ++ ['\n']

theorem sections_keys {P : FieldParsers ρ} {lines : List Str} {s : SubEntry ρ} (h : SubEntry.build P lines = .ok s) :
    s.sections.keys.Nodup ∧ (∀ k ∈ s.sections.keys, k = chars!"BIB" ∨ k = chars!"COMMON" ∨ k = chars!"DATA") ∧
    s.sortedKeys = sortBy strLe s.sections.keys := by
  unfold SubEntry.build at h
  split at h
  · simp at h
  · rename_i d hd
    simp only [Except.ok.injEq] at h
    subst h
    have hty : ∀ (sec : List Str) tag, extractX4SectionType sec = some tag → tag = chars!"BIB" ∨ tag = chars!"COMMON" ∨ tag = chars!"DATA" := by
      intro sec tag
      induction sec with
      | nil => simp [extractX4SectionType]
      | cons l ls ih =>
        simp only [extractX4SectionType]
        split
        · rename_i hn
          intro e
          simp only [Option.some.injEq] at e
          rw [e] at hn
          simp only [isSectionName, Bool.or_eq_true, decide_eq_true_eq] at hn
          rcases hn with (hn | hn) | hn
          · exact .inl hn
          · exact .inr (.inr hn)
          · exact .inr (.inl hn)
        · exact ih
    have hinv := foldE_inv (I := fun d : Dict Str (Sec ρ) => d.keys.Nodup ∧ ∀ k ∈ d.keys, k = chars!"BIB" ∨ k = chars!"COMMON" ∨ k = chars!"DATA")
      (f := sectionStep P) (by
        intro d sec d' hi hs
        have hset : ∀ tag v, extractX4SectionType sec = some tag → (d.set tag v).keys.Nodup ∧
            ∀ k ∈ (d.set tag v).keys, k = chars!"BIB" ∨ k = chars!"COMMON" ∨ k = chars!"DATA" := by
          intro tag v htag
          refine ⟨Dict.nodup_keys_set hi.1 _ _, ?_⟩
          intro k hk
          rw [Dict.mem_keys_iff, Dict.get?_set] at hk
          split at hk
          · rename_i e; rw [e]; exact hty _ _ htag
          · rw [← Dict.mem_keys_iff] at hk; exact hi.2 k hk
        unfold sectionStep at hs
        split at hs
        · simp at hs
        · rename_i tag htag
          split at hs
          · split at hs
            · simp at hs
            · simp only [Except.ok.injEq] at hs
              subst hs
              exact hset _ _ htag
          · split at hs
            · simp at hs
            · simp only [Except.ok.injEq] at hs
              subst hs
              exact hset _ _ htag) ⟨by simp [Dict.keys], by simp [Dict.keys]⟩ hd
    exact ⟨hinv.1, hinv.2, rfl⟩

/-- the sections come in the order BIB, COMMON, DATA -/
theorem sections_sorted {P : FieldParsers ρ} {lines : List Str} {s : SubEntry ρ} (h : SubEntry.build P lines = .ok s) :
    s.sortedKeys = [chars!"BIB", chars!"COMMON", chars!"DATA"].filter fun k => (s.sections.get? k).isSome := by
  obtain ⟨h1, h2, h3⟩ := sections_keys h
  rw [h3]
  have hs := sortBy_sorted (le := strLe) strLe_total strLe_trans s.sections.keys
  have hn : (sortBy strLe s.sections.keys).Nodup := (sortBy_perm strLe _).nodup_iff.2 h1
  have hf : ([chars!"BIB", chars!"COMMON", chars!"DATA"].filter fun k => (s.sections.get? k).isSome).Pairwise fun a b => strLe a b = true :=
    List.Pairwise.filter _ (by decide)
  refine List.Perm.eq_of_pairwise ?_ hs hf ?_
  · intro a b _ _ hab hba
    exact strLe_antisymm a b hab hba
  · rw [List.perm_ext_iff_of_nodup hn (List.Nodup.filter _ (by decide))]
    intro k
    rw [mem_sortBy, List.mem_filter, ← Dict.mem_keys_iff]
    constructor
    · intro hk
      refine ⟨?_, hk⟩
      rcases h2 k hk with rfl | rfl | rfl <;> decide
    · exact fun hk => hk.2

/-- C94: the text of a subentry shows its sections in the order BIB, COMMON, DATA between the first and the last line. -/
theorem C94_subentry_text (num : FloatLit → Str) (D : RxDicts) (P : FieldParsers Measurement) (lines : List Str) (s : SubEntry Measurement)
    (h : SubEntry.build P lines = .ok s) (t : Str) (ht : s.str num D = .ok t) :
    ∃ acc bib common data, s.accnum = some acc ∧ SectionShown num D s chars!"BIB" bib ∧ SectionShown num D s chars!"COMMON" common ∧
      SectionShown num D s chars!"DATA" data ∧
      t = chars!"SUBENT     " ++ ljust acc 11 ++ ['\n'] ++ bib ++ common ++ data ++ chars!"ENDSUBENT  " := by
  unfold SubEntry.str at ht
  split at ht
  · simp at ht
  · rename_i acc hacc
    split at ht
    · simp at ht
    · rename_i us hus
      simp only [Except.ok.injEq] at ht
      rw [sections_sorted h] at hus
      have hone : ∀ k : Str, ∀ l us, mapE (s.secStr num D) ((k :: l).filter fun k => (s.sections.get? k).isSome) = .ok us →
          ∃ part us', SectionShown num D s k part ∧ mapE (s.secStr num D) (l.filter fun k => (s.sections.get? k).isSome) = .ok us' ∧
            us.flatMap (fun u => u ++ ['\n']) = part ++ us'.flatMap fun u => u ++ ['\n'] := by
        intro k l us hus
        cases hg : s.sections.get? k with
        | none =>
          rw [List.filter_cons_of_neg (by simp [hg])] at hus
          exact ⟨[], us, .inl ⟨hg, rfl⟩, hus, rfl⟩
        | some v =>
          rw [List.filter_cons_of_pos (by simp [hg])] at hus
          simp only [mapE] at hus
          split at hus
          · simp at hus
          · rename_i u hu
            split at hus
            · simp at hus
            · rename_i us' hus'
              simp only [Except.ok.injEq] at hus
              subst hus
              unfold SubEntry.secStr Dict.get at hu
              rw [hg] at hu
              exact ⟨u ++ ['\n'], us', .inr ⟨v, u, hg, hu, rfl⟩, hus', by simp⟩
      obtain ⟨p1, us1, s1, m1, e1⟩ := hone _ _ _ hus
      obtain ⟨p2, us2, s2, m2, e2⟩ := hone _ _ _ m1
      obtain ⟨p3, us3, s3, m3, e3⟩ := hone _ _ _ m2
      simp only [List.filter_nil, mapE, Except.ok.injEq] at m3
      subst m3
      refine ⟨acc, p1, p2, p3, hacc, s1, s2, s3, ?_⟩
      rw [← ht, e1, e2, e3]
      simp only [List.flatMap_nil, List.append_nil, List.append_assoc]
      rfl

/-- C94: the text of an entry shows every subentry once, by increasing accession number, between the first and the last line
(the accession numbers having 8 characters). -/
theorem C94_entry_text (num : FloatLit → Str) (D : RxDicts) (P : FieldParsers Measurement) (raw : List Str) (e : Entry Measurement)
    (h : Entry.build P raw = .ok e) (h8 : ∀ x ∈ raw, ∃ a, accessionField x = some a ∧ a.length = 8) (t : Str)
    (ht : e.str num D = .ok t) :
    ∃ L : List (Str × SubEntry Measurement × Str), (L.map Prod.fst).Pairwise StrLt ∧
      (∀ k s, e.subs.get? (some k) = some s ↔ ∃ u, (k, s, u) ∈ L) ∧ (∀ x ∈ L, x.2.1.str num D = .ok x.2.2) ∧
      t = chars!"ENTRY      " ++ ljust e.accnum 11 ++ ['\n'] ++ L.flatMap (fun x => x.2.2 ++ ['\n']) ++ chars!"ENDENTRY   " := by
  obtain ⟨-, -, hk, -⟩ := C13_keys P raw e h
  have hnd := (Entry.build_sound h).1
  have hkey : ∀ k ∈ e.subs.keys, ∃ a, k = some a ∧ a.length = 8 := by
    intro k hkm
    obtain ⟨x, hx, rfl⟩ := (hk k).1 hkm
    exact h8 x hx
  unfold Entry.str at ht
  split at ht
  · simp at ht
  · rename_i ks hks
    split at ht
    · simp at ht
    · rename_i us hus
      simp only [Except.ok.injEq] at ht
      unfold Entry.sortedKeys sortOptKeys at hks
      split at hks
      · simp at hks
      · simp only [Except.ok.injEq] at hks
        have hmem : ∀ k, k ∈ ks ↔ k ∈ e.subs.keys := by intro k; rw [← hks, mem_sortBy]
        have hsorted : ks.Pairwise fun a b => strLe (a.getD []) (b.getD []) = true := by
          rw [← hks]
          exact sortBy_sorted (le := fun a b : Option Str => strLe (a.getD []) (b.getD [])) (fun a b => strLe_total _ _)
            (fun a b c => strLe_trans _ _ _) _
        have hknd : ks.Nodup := by rw [← hks]; exact (sortBy_perm _ _).nodup_iff.2 hnd
        rw [mapE_ok_iff] at hus
        -- the list of shown subentries
        have hbuild : ∀ (ks : List (Option Str)) (us : List Str), (∀ k ∈ ks, k ∈ e.subs.keys) →
            List.Forall₂ (fun k u => e.keyStr num D k = .ok u) ks us →
            ∃ L : List (Str × SubEntry Measurement × Str), L.map (fun x => some x.1) = ks ∧ L.map (fun x => x.2.2) = us ∧
              ∀ x ∈ L, e.subs.get? (some x.1) = some x.2.1 ∧ x.2.1.str num D = .ok x.2.2 := by
          intro ks us hm hf
          induction hf with
          | nil => exact ⟨[], rfl, rfl, by simp⟩
          | @cons k u ks us hu _ ih =>
            obtain ⟨L, l1, l2, l3⟩ := ih (fun k hk => hm k (by simp [hk]))
            obtain ⟨a, rfl, ha8⟩ := hkey k (hm k (by simp))
            unfold Entry.keyStr Entry.getKey at hu
            simp only [getItem_full e ha8] at hu
            unfold Dict.get at hu
            cases hg : e.subs.get? (some a) with
            | none => simp [hg] at hu
            | some s =>
              simp only [hg] at hu
              refine ⟨(a, s, u) :: L, by simp [l1], by simp [l2], ?_⟩
              intro x hx
              rcases List.mem_cons.1 hx with rfl | hx
              · exact ⟨hg, hu⟩
              · exact l3 x hx
        obtain ⟨L, l1, l2, l3⟩ := hbuild ks us (fun k hk => (hmem k).1 hk) hus
        refine ⟨L, ?_, ?_, fun x hx => (l3 x hx).2, ?_⟩
        · have h1 : ks.Pairwise fun a b => strLe (a.getD []) (b.getD []) = true ∧ a ≠ b := hsorted.and hknd
          rw [← l1, List.pairwise_map] at h1
          rw [List.pairwise_map]
          refine h1.imp ?_
          intro a b hab
          exact ⟨hab.1, fun e => hab.2 (by rw [e])⟩
        · intro k s
          constructor
          · intro hg
            have : some k ∈ ks := (hmem _).2 ((Dict.mem_keys_iff _ _).2 (by simp [hg]))
            rw [← l1, List.mem_map] at this
            obtain ⟨⟨k', s', u⟩, hx, hk'⟩ := this
            simp only [Option.some.injEq] at hk'
            subst hk'
            have := (l3 _ hx).1
            simp only at this
            rw [hg] at this
            simp only [Option.some.injEq] at this
            subst this
            exact ⟨u, hx⟩
          · rintro ⟨u, hx⟩
            exact (l3 _ hx).1
        · rw [← ht, ← l2, List.flatMap_map]
          rfl

/-- An entry can be printed exactly when every subentry can. -/
theorem C94_entry_prints (num : FloatLit → Str) (D : RxDicts) (P : FieldParsers Measurement) (raw : List Str) (e : Entry Measurement)
    (h : Entry.build P raw = .ok e) (h8 : ∀ x ∈ raw, ∃ a, accessionField x = some a ∧ a.length = 8) :
    (∃ t, e.str num D = .ok t) ↔ ∀ k s, e.subs.get? k = some s → ∃ u, s.str num D = .ok u := by
  obtain ⟨-, -, hk, -⟩ := C13_keys P raw e h
  have hkey : ∀ k ∈ e.subs.keys, ∃ a, k = some a ∧ a.length = 8 := by
    intro k hkm
    obtain ⟨x, hx, rfl⟩ := (hk k).1 hkm
    exact h8 x hx
  constructor
  · rintro ⟨t, ht⟩ k s hg
    obtain ⟨L, -, l2, l3, -⟩ := C94_entry_text num D P raw e h h8 t ht
    obtain ⟨a, rfl, -⟩ := hkey k ((Dict.mem_keys_iff _ _).2 (by simp [hg]))
    obtain ⟨u, hu⟩ := (l2 a s).1 hg
    exact ⟨u, l3 _ hu⟩
  · intro hall
    unfold Entry.str Entry.sortedKeys sortOptKeys
    rw [if_neg (by
      rintro ⟨hn, -⟩
      obtain ⟨a, ha, -⟩ := hkey _ hn
      cases ha)]
    simp only
    obtain ⟨us, hus⟩ := (mapE_ok_or (e.keyStr num D) (sortBy (fun a b : Option Str => strLe (a.getD []) (b.getD [])) e.subs.keys)).2 (by
      intro k hkm
      rw [mem_sortBy] at hkm
      obtain ⟨a, rfl, ha8⟩ := hkey k hkm
      rw [Dict.mem_keys_iff, Option.isSome_iff_exists] at hkm
      obtain ⟨s, hs⟩ := hkm
      obtain ⟨u, hu⟩ := hall _ s hs
      refine ⟨u, ?_⟩
      unfold Entry.keyStr Entry.getKey
      simp only [getItem_full e ha8]
      unfold Dict.get
      simp only [hs, hu])
    rw [hus]
    exact ⟨_, rfl⟩

/-- C94: nothing is left out of the text of an entry: every table and every field of every subentry appears in it. -/
theorem C94_complete (num : FloatLit → Str) (D : RxDicts) (P : FieldParsers Measurement) (raw : List Str) (e : Entry Measurement)
    (h : Entry.build P raw = .ok e) (h8 : ∀ x ∈ raw, ∃ a, accessionField x = some a ∧ a.length = 8) (t : Str) (ht : e.str num D = .ok t)
    (k : Option Str) (s : SubEntry Measurement) (hs : e.subs.get? k = some s) :
    (∀ tag d, s.sections.get? tag = some (.data d) → d.str num <:+: t) ∧
    (∀ tag b, s.sections.get? tag = some (.bib b) → ∀ fk v, fk ∈ b.sortedKeys → b.fields.get? fk = some v →
      ∃ u, v.str D = .ok u ∧ u <:+: t) := by
  obtain ⟨-, -, hk, hb⟩ := C13_keys P raw e h
  obtain ⟨x, -, hx⟩ := (hb k s).1 hs
  obtain ⟨xr, hxr, hxk⟩ := (hk k).1 ((Dict.mem_keys_iff _ _).2 (by simp [hs]))
  obtain ⟨a, ha, -⟩ := h8 xr hxr
  rw [hxk] at ha
  subst ha
  obtain ⟨L, -, l2, l3, l4⟩ := C94_entry_text num D P raw e h h8 t ht
  obtain ⟨u, hu⟩ := (l2 a s).1 hs
  have hus := l3 _ hu
  simp only at hus
  have hut : u <:+: t := by
    obtain ⟨L1, L2, rfl⟩ := List.append_of_mem hu
    rw [l4]
    refine ⟨chars!"ENTRY      " ++ ljust e.accnum 11 ++ ['\n'] ++ L1.flatMap (fun x => x.2.2 ++ ['\n']),
      ['\n'] ++ L2.flatMap (fun x => x.2.2 ++ ['\n']) ++ chars!"ENDENTRY   ", ?_⟩
    simp [List.append_assoc]
  obtain ⟨acc, bib, common, data, -, s1, s2, s3, hu'⟩ := C94_subentry_text num D P _ s hx u hus
  obtain ⟨-, hkeys, -⟩ := sections_keys hx
  have hsec : ∀ tag v, s.sections.get? tag = some v → ∃ w, v.str num D = .ok w ∧ w <:+: u := by
    intro tag v hv
    have hpart : ∀ part, SectionShown num D s tag part → ∃ w, v.str num D = .ok w ∧ part = w ++ ['\n'] := by
      intro part hp
      rcases hp with ⟨hn, -⟩ | ⟨v', w, hv', hw, hpw⟩
      · rw [hv] at hn; cases hn
      · rw [hv] at hv'
        simp only [Option.some.injEq] at hv'
        subst hv'
        exact ⟨w, hw, hpw⟩
    rcases hkeys tag ((Dict.mem_keys_iff _ _).2 (by simp [hv])) with rfl | rfl | rfl
    · obtain ⟨w, hw, rfl⟩ := hpart _ s1
      exact ⟨w, hw, chars!"SUBENT     " ++ ljust acc 11 ++ ['\n'], ['\n'] ++ common ++ data ++ chars!"ENDSUBENT  ", by
        rw [hu']; simp [List.append_assoc]⟩
    · obtain ⟨w, hw, rfl⟩ := hpart _ s2
      exact ⟨w, hw, chars!"SUBENT     " ++ ljust acc 11 ++ ['\n'] ++ bib, ['\n'] ++ data ++ chars!"ENDSUBENT  ", by
        rw [hu']; simp [List.append_assoc]⟩
    · obtain ⟨w, hw, rfl⟩ := hpart _ s3
      exact ⟨w, hw, chars!"SUBENT     " ++ ljust acc 11 ++ ['\n'] ++ bib ++ common, ['\n'] ++ chars!"ENDSUBENT  ", by
        rw [hu']; simp [List.append_assoc]⟩
  refine ⟨?_, ?_⟩
  · intro tag d hd
    obtain ⟨w, hw, hwu⟩ := hsec tag _ hd
    simp only [Sec.str, Except.ok.injEq] at hw
    rw [hw]
    exact hwu.trans hut
  · intro tag b hb' fk v hfk hv
    obtain ⟨w, hw, hwu⟩ := hsec tag _ hb'
    simp only [Sec.str] at hw
    unfold BibSection.str at hw
    split at hw
    · simp at hw
    · split at hw
      · simp at hw
      · rename_i n hn _ us hus
        simp only [Except.ok.injEq] at hw
        obtain ⟨i, hi, hki⟩ := List.mem_iff_getElem.1 hfk
        obtain ⟨y, hy, hy'⟩ := mapE_get hus i fk (by rw [List.getElem?_eq_getElem hi, hki])
        unfold BibSection.fieldStr Dict.get at hy'
        rw [hv] at hy'
        refine ⟨y, hy', ?_⟩
        refine List.IsInfix.trans ?_ (hwu.trans hut)
        obtain ⟨u1, u2, rfl⟩ := List.append_of_mem (List.mem_of_getElem? hy)
        rw [← hw]
        refine ⟨ljust chars!"BIB" 11 ++ rjust (natStr b.fields.length) 11 ++ rjust (natStr n) 11 ++ ['\n'] ++ u1.flatMap (fun t => t ++ ['\n']),
          ['\n'] ++ u2.flatMap (fun t => t ++ ['\n']) ++ ljust chars!"ENDBIB" 11 ++ rjust (natStr n) 11, ?_⟩
        simp [List.append_assoc]

/-- parsers that accept nothing, for examples without parsed fields -/
def noParsersM : FieldParsers Measurement :=
  ⟨fun _ => .error .parseException, fun _ _ => .error .parseException, fun _ _ => [], fun _ => .error .parseException, fun _ => .error .parseException⟩

set_option maxRecDepth 20000 in
example (D : RxDicts) : ∃ e t, Entry.build noParsersM demoRaw = .ok e ∧ e.str demoNum D = .ok t ∧ '\n' ∉ e.accnum ∧
    (∀ x ∈ demoRaw, ∃ a, accessionField x = some a ∧ a.length = 8) ∧
    (∃ s, e.getItem (.int 1) = .ok s ∧ ∃ r, s.str demoNum D = .ok r ∧ s.accnum = some "10001001".toList) :=
  ⟨_, _, rfl, rfl, by decide +kernel, by
    intro x hx
    simp only [demoRaw, List.mem_cons, List.not_mem_nil, or_false] at hx
    rcases hx with rfl | rfl
    · exact ⟨"10001001".toList, by decide +kernel⟩
    · exact ⟨"10001002".toList, by decide +kernel⟩, _, rfl, _, rfl, by decide +kernel⟩

/-- C94 is false for BIB sections: the text does not show the names of the fields, so that reading it finds other fields. -/
theorem C94_bib_refuted (D : RxDicts) : ∃ b t b', BibSection.build noParsersM [chars!"METHOD     (ACTIV)"] = .ok b ∧ b.str D = .ok t ∧
    BibSection.build noParsersM (splitChar '\n' t) = .ok b' ∧ (b.fields.get? (some chars!"METHOD")).isSome = true ∧
    b'.fields.get? (some chars!"METHOD") = none ∧ b'.fields.keys = [some chars!"(ACTIV)"] :=
  ⟨_, _, _, rfl, rfl, rfl, by decide +kernel⟩

end X4
