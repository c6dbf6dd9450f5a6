import Verif.Spec.EntryDoc
import Verif.Props.DataSection
import Verif.Props.Entry
import Verif.Props.Bib
import Verif.Lemmas.Dataset
import Verif.Lemmas.TextGrammar
/-! C85: an entry written in the EXFOR format is read as what is written in it. -/
namespace X4
variable {ρ : Type}

/-! ### tables -/

theorem cellOk_of_text {c : Str} (h : CellText c) : CellOk c := ⟨h.1, h.2.1, h.2.2.1⟩

theorem length_rowLines (cells : List Str) : (cellLines cells).length = physLines cells.length := by simp [cellLines]

theorem cellLines_get {cells : List Str} {k : Nat} (hk : k < (cellLines cells).length) :
    (cellLines cells)[k] = rowText ((cells.drop (6 * k)).take 6) := by simp [cellLines, rowText]

theorem length_rowText (cells : List Str) (h : ∀ c ∈ cells, CellOk c) : (rowText cells).length = 11 * cells.length := by
  induction cells with
  | nil => rfl
  | cons c l ih =>
    have := ih (fun x hx => h x (by simp [hx]))
    have hc := (h c (by simp)).2.1
    simp only [rowText, List.map_cons, List.flatten_cons, List.length_append, length_ljust, List.length_cons] at this ⊢
    rw [this]
    omega

theorem cellLines_line {cells : List Str} (h : ∀ c ∈ cells, CellOk c) : ∀ l ∈ cellLines cells, '\n' ∉ l ∧ l.length ≤ 66 := by
  intro l hl
  obtain ⟨k, hk, rfl⟩ := List.mem_iff_getElem.1 hl
  rw [cellLines_get]
  have h' : ∀ c ∈ (cells.drop (6 * k)).take 6, CellOk c := fun c hc => h c (List.mem_of_mem_drop (List.mem_of_mem_take hc))
  refine ⟨no_nl_rowText h', ?_⟩
  rw [length_rowText _ h']
  simp
  omega

theorem field11_rowLines {cells : List Str} (h : ∀ c ∈ cells, CellOk c) {j : Nat} (hj : j < cells.length) :
    field11 ((cellLines cells).map fitLine).flatten j = cells[j] := by
  have hk : j / 6 < (cellLines cells).length := by rw [length_rowLines, physLines]; omega
  rw [field11_flatten (cellLines_line h) hk, cellLines_get]
  have h' : ∀ c ∈ (cells.drop (6 * (j / 6))).take 6, CellOk c := fun c hc => h c (List.mem_of_mem_drop (List.mem_of_mem_take hc))
  unfold rowText
  have hlen : j % 6 < ((cells.drop (6 * (j / 6))).take 6).length := by simp; omega
  rw [block_slice (w := 11) (ls := ((cells.drop (6 * (j / 6))).take 6).map fun c => ljust c 11) _ (by simpa using hlen)]
  · simp only [List.getElem_map]
    rw [strip_ljust]
    have : ((cells.drop (6 * (j / 6))).take 6)[j % 6] = cells[j] := by
      simp only [List.getElem_take, List.getElem_drop]
      congr 1
      omega
    rw [this]
    exact (h _ (List.getElem_mem hj)).1
  · intro l hl
    obtain ⟨c, hc, rfl⟩ := List.mem_map.1 hl
    have := (h' c hc).2.1
    rw [length_ljust]
    omega

theorem flatMap_get {α β : Type} (f : α → List β) (L : Nat) (l : List α) (h : ∀ a ∈ l, (f a).length = L) (r j : Nat) (hj : j < L) :
    (l.flatMap f)[r * L + j]? = (l[r]?).bind (fun a => (f a)[j]?) := by
  induction l generalizing r with
  | nil => simp
  | cons a l ih =>
    rw [List.flatMap_cons]
    have ha := h a (by simp)
    cases r with
    | zero => rw [List.getElem?_append_left (by omega)]; simp
    | succ r =>
      rw [List.getElem?_append_right (by rw [ha, Nat.add_mul]; omega), ha]
      have : (r + 1) * L + j - L = r * L + j := by rw [Nat.add_mul]; omega
      rw [this, ih (fun x hx => h x (by simp [hx]))]
      simp

theorem length_flatMap_const {α β : Type} (f : α → List β) (L : Nat) (l : List α) (h : ∀ a ∈ l, (f a).length = L) :
    (l.flatMap f).length = l.length * L := by
  induction l with
  | nil => simp
  | cons a l ih =>
    rw [List.flatMap_cons, List.length_append, ih (fun x hx => h x (by simp [hx])), h a (by simp), List.length_cons, Nat.add_mul]
    omega

/-- What a DATA or COMMON section object holds of a table. -/
structure TableHolds (t : TableDoc) (d : DataSection) : Prop where
  labels : d.labels = t.labels
  units : d.units = t.units
  raw : d.rawData = t.rows
  data : mapE (mapE parseFORTRANNumber) t.rows = .ok d.data
  numcols : d.numcols = t.labels.length
  numrows : d.numrows = t.rows.length

/-- the steps of reading a table, up to the conversion of its numbers -/
theorem table_parts (tag : Str) (htag : tag = chars!"DATA" ∨ tag = chars!"COMMON") (t : TableDoc) (ht : t.wf) :
    ∃ coll, headerCounts (t.lines tag) = .ok ((t.labels.length : Int), (t.rows.length : Int)) ∧
      reconcile (t.lines tag).length t.rows.length (linesPerRow t.labels.length) = .ok (t.rows.length : Int) ∧
      collapse (t.lines tag) (linesPerRow t.labels.length) = .ok coll ∧
      headings coll t.labels.length = .ok (t.labels.zip t.units) ∧
      ∀ i, (hi : i < t.rows.length) → mapE (rowField coll (2 + i)) (List.range t.labels.length) = .ok t.rows[i] := by
  have hsp : ∀ c ∈ tag, isSpace c = false := by rcases htag with rfl | rfl <;> decide
  have htne : tag ≠ [] := by rcases htag with rfl | rfl <;> decide
  have htl : tag.length < 11 := by rcases htag with rfl | rfl <;> decide
  set n := t.labels.length with hn
  have hn1 : 1 ≤ n := by have := List.length_pos_of_ne_nil ht.cols; omega
  set L := physLines n with hL
  have hL1 : 1 ≤ L := by rw [hL, physLines]; omega
  obtain ⟨hlpr, -⟩ := linesPerRow_pos (n := (n : Int)) (by omega)
  rw [Int.toNat_natCast, ← hL] at hlpr
  set all : List (List Str) := t.labels :: t.units :: t.rows with hall
  have hcells : ∀ r ∈ all, ∀ c ∈ r, CellOk c := by
    intro r hr c hc
    rw [hall] at hr
    simp only [List.mem_cons] at hr
    rcases hr with rfl | rfl | hr
    · exact cellOk_of_text (ht.labelCells c hc)
    · exact cellOk_of_text (ht.unitCells c hc)
    · exact cellOk_of_text (ht.rowCells r hr c hc)
  have hwidth : ∀ r ∈ all, r.length = n := by
    intro r hr
    rw [hall] at hr
    simp only [List.mem_cons] at hr
    rcases hr with rfl | rfl | hr
    · rfl
    · exact ht.units
    · exact ht.rect r hr
  have hlenL : ∀ r ∈ all, (cellLines r).length = L := fun r hr => by rw [length_rowLines, hwidth r hr]
  have hbody : t.body = all.flatMap cellLines := by simp [TableDoc.body, hall]
  have hblen : t.body.length = (t.rows.length + 2) * L := by
    rw [hbody, length_flatMap_const _ L _ hlenL, hall]
    simp
  set hdr := ljust tag 11 ++ counter n ++ counter t.rows.length
  set fin := ljust (chars!"END" ++ tag) 11 ++ counter t.body.length
  have hlines : t.lines tag = hdr :: (t.body ++ [fin]) := rfl
  have hslen : (t.lines tag).length = 2 + (t.rows.length + 2) * L := by
    rw [hlines]; simp [hblen]; omega
  let coll : List Str := all.map fun r => ((cellLines r).map fitLine).flatten
  have hcol : collapse (t.lines tag) L = .ok coll := by
    unfold collapse
    rw [if_neg (by omega), if_neg (by omega)]
    simp only [Int.toNat_natCast]
    have hcount : ((t.lines tag).length - 2 + (L - 1)) / L = t.rows.length + 2 := by
      rw [hslen]
      have : 2 + (t.rows.length + 2) * L - 2 + (L - 1) = (L - 1) + (t.rows.length + 2) * L := by omega
      rw [this, Nat.add_mul_div_right _ _ (by omega), Nat.div_eq_of_lt (by omega)]
      omega
    rw [hcount]
    have hc : coll = (List.range (t.rows.length + 2)).map fun r => (((cellLines (all[r]?.getD [])).map fitLine).flatten) := by
      apply List.ext_getElem
      · simp [coll, hall]
      · intro i h1 h2
        simp only [coll, List.getElem_map, List.getElem_range]
        rw [List.getElem?_eq_getElem (by simpa [coll] using h1)]
        rfl
    rw [hc]
    apply mapE_all_ok
    intro r hr
    rw [List.mem_range] at hr
    have hr' : r < all.length := by simp [hall]; omega
    unfold collapseRow
    have : mapE (fun j => pyIdx (t.lines tag) (1 + r * L + j)) (List.range L) = .ok (cellLines all[r]) := by
      have e : cellLines all[r] = (List.range L).map fun j => (cellLines all[r])[j]?.getD [] := by
        apply List.ext_getElem
        · simpa using hlenL _ (List.getElem_mem hr')
        · intro i h1 h2; simp [h1]
      rw [e]
      apply mapE_all_ok
      intro j hj
      rw [List.mem_range] at hj
      have hj' : j < (cellLines all[r]).length := by rw [hlenL _ (List.getElem_mem hr')]; exact hj
      have hidx : r * L + j < t.body.length := by
        rw [hblen]
        have : (r + 1) * L ≤ (t.rows.length + 2) * L := Nat.mul_le_mul_right _ (by omega)
        rw [Nat.add_mul] at this
        omega
      have : (t.lines tag)[1 + r * L + j]? = some ((cellLines all[r])[j]) := by
        rw [hlines, show 1 + r * L + j = (r * L + j) + 1 by omega, List.getElem?_cons_succ, List.getElem?_append_left hidx, hbody,
          flatMap_get cellLines L all hlenL r j hj, List.getElem?_eq_getElem hr']
        simp [List.getElem?_eq_getElem hj']
      rw [List.getElem?_eq_getElem hj']
      simpa using this
    rw [this, List.getElem?_eq_getElem hr']
    rfl
  have hrow : ∀ (r : Nat) (cells : List Str), all[r]? = some cells → ∀ j, (hj : j < n) → ∃ hj' : j < cells.length, rowField coll r j = .ok (cells[j]'hj') := by
    intro r cells hr j hj
    have hm := List.mem_of_getElem? hr
    have hj' : j < cells.length := by rw [hwidth _ hm]; exact hj
    refine ⟨hj', ?_⟩
    rw [rowField_of (row := ((cellLines cells).map fitLine).flatten) (by simp [coll, hr]), field11_rowLines (hcells _ hm)]
  let hs : List (Str × Str) := t.labels.zip t.units
  have hu := ht.units
  have hhea : headings coll n = .ok hs := by
    unfold headings
    have e : hs = (List.range n).map fun j => (t.labels[j]?.getD [], t.units[j]?.getD []) := by
      apply List.ext_getElem
      · simp [hs]; omega
      · intro i h1 h2
        have h3 : i < t.labels.length := by simp at h2; omega
        simp [hs, h3, show i < t.units.length by omega]
    rw [e]
    apply mapE_all_ok
    intro j hj
    rw [List.mem_range] at hj
    obtain ⟨h1, e1⟩ := hrow 0 t.labels (by simp [hall]) j hj
    obtain ⟨h2, e2⟩ := hrow 1 t.units (by simp [hall]) j hj
    rw [e1, e2]
    simp [h1, h2]
  refine ⟨coll, ?_, ?_, ?_, hhea, ?_⟩
  · rw [hlines]
    exact headerCounts_repr hsp htne htl ht.few.1 ht.few.2 _
  · rw [hlpr, hslen]
    unfold reconcile
    rw [if_neg (by push_cast; omega)]
  · rw [hlpr]; exact hcol
  · intro i hi
    have e : t.rows[i] = (List.range n).map fun j => t.rows[i][j]?.getD [] := by
      apply List.ext_getElem
      · simpa using ht.rect _ (List.getElem_mem hi)
      · intro i h1 h2; simp [h1]
    rw [e]
    apply mapE_all_ok
    intro j hj
    rw [List.mem_range] at hj
    obtain ⟨h1, e1⟩ := hrow (2 + i) t.rows[i] (by rw [hall, Nat.add_comm]; simp) j hj
    rw [e1, List.getElem?_eq_getElem h1]
    rfl

theorem table_read (tag : Str) (htag : tag = chars!"DATA" ∨ tag = chars!"COMMON") (t : TableDoc) (ht : t.wf) (vals : List (List (Option FloatLit)))
    (hv : mapE (mapE parseFORTRANNumber) t.rows = .ok vals) :
    ∃ d, DataSection.build tag (t.lines tag) = .ok d ∧ d.tag = tag ∧ TableHolds t d := by
  obtain ⟨coll, h1, h2, h3, h4, h5⟩ := table_parts tag htag t ht
  let hs : List (Str × Str) := t.labels.zip t.units
  have hu := ht.units
  let rows : List (List Str × List (Option FloatLit)) := t.rows.zip vals
  have hvl : vals.length = t.rows.length := mapE_length hv
  have hrows : mapE (dataRow coll t.labels.length) (List.range t.rows.length) = .ok rows := by
    have e : rows = (List.range t.rows.length).map fun i => (t.rows[i]?.getD [], vals[i]?.getD []) := by
      apply List.ext_getElem
      · simp [rows]; omega
      · intro i h1 h2
        have h3 : i < t.rows.length := by simpa using h2
        simp [rows, h3, show i < vals.length by omega]
    rw [e]
    apply mapE_all_ok
    intro i hi
    rw [List.mem_range] at hi
    obtain ⟨y, hy, hy'⟩ := mapE_get hv i t.rows[i] (by simp)
    unfold dataRow
    rw [h5 i hi]
    simp only
    rw [hy', hy, List.getElem?_eq_getElem hi]
    rfl
  refine ⟨{ tag, numcols := t.labels.length, numrows := t.rows.length, lpr := linesPerRow t.labels.length, labels := t.labels, units := t.units,
            pointers := pointersOf t.labels, rawData := t.rows, data := vals }, ?_, rfl, rfl, rfl, rfl, hv, rfl, rfl⟩
  refine build_of_Built (n := t.rows.length) (c := coll) (hs := hs) (rows := rows) ⟨h1, h2, h3, by simpa using h4, by simpa using hrows, ?_⟩
  have h1 : hs.map Prod.fst = t.labels := List.map_fst_zip (by omega)
  have h2 : hs.map Prod.snd = t.units := List.map_snd_zip (by omega)
  have h3 : rows.map Prod.fst = t.rows := List.map_fst_zip (by omega)
  have h4 : rows.map Prod.snd = vals := List.map_snd_zip (by omega)
  rw [h1, h2, h3, h4]

/-- a cell that is not a number -/
theorem table_broken (tag : Str) (htag : tag = chars!"DATA" ∨ tag = chars!"COMMON") (t : TableDoc) (ht : t.wf) (e : PyErr)
    (hv : mapE (mapE parseFORTRANNumber) t.rows = .error e) : DataSection.build tag (t.lines tag) = .error e := by
  obtain ⟨coll, h1, h2, h3, h4, h5⟩ := table_parts tag htag t ht
  have hrows : mapE (dataRow coll t.labels.length) (List.range t.rows.length) = .error e := by
    have e1 : mapE (dataRow coll t.labels.length) (List.range t.rows.length) =
        mapE (fun r => (mapE parseFORTRANNumber r).map fun v => (r, v)) ((List.range t.rows.length).map fun i => t.rows[i]?.getD []) := by
      rw [mapE_comp]
      apply mapE_congr
      intro i hi
      rw [List.mem_range] at hi
      unfold dataRow
      rw [h5 i hi, List.getElem?_eq_getElem hi]
      simp only [Option.getD_some]
      cases mapE parseFORTRANNumber t.rows[i] <;> rfl
    have e2 : ((List.range t.rows.length).map fun i => t.rows[i]?.getD []) = t.rows := by
      apply List.ext_getElem
      · simp
      · intro i h1 h2; simp [h2]
    rw [e1, e2, mapE_paired, hv]
    rfl
  unfold DataSection.build
  simp only [h1, h2, h3, Int.toNat_natCast, h4, hrows]

/-! ### keywords -/

theorem startsWith_ljust (c r w : Str) (k : Nat) (hw : ' ' ∉ w) (hk : w.length ≤ k) : startsWith (ljust c k ++ r) w = startsWith c w := by
  unfold startsWith ljust
  rw [Bool.eq_iff_iff, List.isPrefixOf_iff_prefix, List.isPrefixOf_iff_prefix, List.append_assoc]
  constructor
  · intro h
    rcases Nat.lt_or_ge c.length w.length with hl | hl
    · exfalso
      obtain ⟨t, ht⟩ := h
      have h1 := congrArg (fun l => l[c.length]?) ht
      rw [List.getElem?_append_left hl, List.getElem?_append_right (le_refl _), Nat.sub_self,
        List.getElem?_append_left (by simp; omega)] at h1
      rw [List.getElem?_replicate, if_pos (by omega)] at h1
      exact hw (List.mem_of_getElem? h1)
    · exact List.prefix_of_prefix_length_le h (List.prefix_append _ _) hl
  · exact fun h => h.trans (List.prefix_append _ _)

theorem noKeyword_ljust {c : Str} (h : NoKeyword c) (k : Nat) (hk : 8 ≤ k) (r : Str) : NoKeyword (ljust c k ++ r) := by
  intro w hw
  have hw' : ' ' ∉ w ∧ w.length ≤ 8 := by revert w; decide
  rw [startsWith_ljust c r w k hw'.1 (by omega)]
  exact h w hw

theorem noKeyword_rowLines {cells : List Str} (h : ∀ c ∈ cells, CellText c) : ∀ l ∈ cellLines cells, NoKeyword l := by
  intro l hl
  obtain ⟨k, hk, rfl⟩ := List.mem_iff_getElem.1 hl
  rw [cellLines_get]
  rw [length_rowLines, physLines] at hk
  cases hc : (cells.drop (6 * k)).take 6 with
  | nil =>
    have := congrArg List.length hc
    simp at this
    omega
  | cons c r =>
    rw [rowText, List.map_cons, List.flatten_cons]
    refine noKeyword_ljust (h c ?_).2.2.2 11 (by omega) _
    exact List.mem_of_mem_drop (List.mem_of_mem_take (hc ▸ List.mem_cons_self ..))

theorem noKeyword_field {f : FieldDoc} (h : f.wf) : ∀ l ∈ f.lines, NoKeyword l := by
  intro l hl
  rw [FieldDoc.lines] at hl
  rcases List.mem_cons.1 hl with rfl | hl
  · exact noKeyword_ljust h.tag.2.2.2.2 10 (by omega) _
  · obtain ⟨m, -, rfl⟩ := List.mem_map.1 hl
    intro w hw
    have hw' : ∃ c r, w = c :: r ∧ c ≠ ' ' := by
      simp only [List.mem_cons, List.not_mem_nil, or_false] at hw
      rcases hw with rfl | rfl | rfl | rfl <;> exact ⟨_, _, rfl, by decide⟩
    obtain ⟨c, r, rfl, hc⟩ := hw'
    simp [startsWith, List.replicate, List.isPrefixOf, hc]

theorem noKeyword_table {t : TableDoc} (h : t.wf) : ∀ l ∈ t.body, NoKeyword l := by
  intro l hl
  simp only [TableDoc.body, List.mem_append, List.mem_flatMap] at hl
  rcases hl with (hl | hl) | ⟨r, hr, hl⟩
  · exact noKeyword_rowLines h.labelCells l hl
  · exact noKeyword_rowLines h.unitCells l hl
  · exact noKeyword_rowLines (h.rowCells r hr) l hl

theorem take3_of_noKeyword {l : Str} (h : NoKeyword l) : (decide (slice l 0 3 = "END".toList)) = false := by
  have := h chars!"END" (by simp)
  rw [decide_eq_false_iff_not]
  intro he
  rw [startsWith, ← Bool.not_eq_true, List.isPrefixOf_iff_prefix, List.prefix_iff_eq_take] at this
  apply this
  simp only [slice, List.drop_zero] at he
  simpa using he.symm

/-! ### BIB sections -/

theorem tagOf_first {f : FieldDoc} (h : f.wf) : tagOf (ljust f.tag 10 ++ f.first.1 :: f.first.2) = f.tag := by
  obtain ⟨-, h2, h3, -⟩ := h.tag
  have hl : (ljust f.tag 10).length = 10 := by rw [length_ljust]; omega
  rw [tagOf, List.take_append_of_le_length (by omega), List.take_of_length_le (by omega), strip_ljust, h2]

theorem tagOf_rest (p : Char) (t : Str) : tagOf (List.replicate 10 ' ' ++ p :: t) = [] := by
  rw [tagOf, List.take_append_of_le_length (by simp), List.take_of_length_le (by simp)]
  decide

theorem bib_frame_first {f : FieldDoc} (h : f.wf) : isBibFrame (ljust f.tag 10 ++ f.first.1 :: f.first.2) = false := by
  unfold isBibFrame
  rw [tagOf_first h]
  have h1 : (f.tag == "BIB".toList) = false := by
    have := h.notBib
    simpa using this
  have h2 : (f.tag == "ENDBIB".toList) = false := by
    have := h.tag.2.2.2.2 chars!"END" (by simp)
    rw [beq_eq_false_iff_ne]
    intro he
    rw [he] at this
    revert this
    decide
  rw [h1, h2]; rfl

theorem bib_frame_field {f : FieldDoc} (h : f.wf) : ∀ l ∈ f.lines, isBibFrame l = false := by
  intro l hl
  rw [FieldDoc.lines] at hl
  rcases List.mem_cons.1 hl with rfl | hl
  · exact bib_frame_first h
  · obtain ⟨m, -, rfl⟩ := List.mem_map.1 hl
    unfold isBibFrame
    rw [tagOf_rest]
    decide

theorem isBibFrame_head (n m : Nat) : isBibFrame (ljust chars!"BIB" 11 ++ counter n ++ counter m) = true := by
  unfold isBibFrame tagOf
  rw [List.append_assoc, List.take_append_of_le_length (by decide)]
  decide
theorem isBibFrame_end (n : Nat) : isBibFrame (ljust chars!"ENDBIB" 11 ++ counter n) = true := by
  unfold isBibFrame tagOf
  rw [List.take_append_of_le_length (by decide)]
  decide

theorem bib_chunks {s : SubDoc} (h : s.wf) : bibChunkify s.bibLines = s.bib.map FieldDoc.lines := by
  have hfilter : s.bibLines.filter (fun l => !isBibFrame l) = s.bib.flatMap FieldDoc.lines := by
    rw [SubDoc.bibLines, List.filter_cons_of_neg (by rw [isBibFrame_head]; decide), List.filter_append,
      List.filter_cons_of_neg (by rw [isBibFrame_end]; decide), List.filter_nil, List.append_nil, List.filter_eq_self]
    intro l hl
    obtain ⟨f, hf, hl⟩ := List.mem_flatMap.1 hl
    rw [bib_frame_field (h.fields f hf) l hl]
    rfl
  symm
  apply C40_unique
  · obtain ⟨f, hf⟩ := List.exists_mem_of_ne_nil _ h.some
    have hm : ljust f.tag 10 ++ f.first.1 :: f.first.2 ∈ f.lines := by simp [FieldDoc.lines]
    refine ⟨_, ?_, bib_frame_field (h.fields f hf) _ hm⟩
    rw [SubDoc.bibLines]
    exact List.mem_cons_of_mem _ (List.mem_append_left _ (List.mem_flatMap.2 ⟨f, hf, hm⟩))
  · rw [hfilter]
    refine ⟨by rw [List.flatMap_def], ?_, ?_⟩
    · intro g hg
      obtain ⟨f, hf, rfl⟩ := List.mem_map.1 hg
      refine ⟨_, _, rfl, ?_⟩
      intro m hm
      obtain ⟨l, -, rfl⟩ := List.mem_map.1 hm
      rw [hasTag, tagOf_rest]
      simp
    · intro g hg l hl
      obtain ⟨f, hf, rfl⟩ := List.mem_map.1 (List.mem_of_mem_tail hg)
      simp only [FieldDoc.lines, List.head?_cons, Option.mem_some_iff] at hl
      subst hl
      rw [hasTag, tagOf_first (h.fields f hf)]
      exact (h.fields f hf).tag.1

/-- What a BIB section object holds of the written fields. -/
structure BibHolds (P : FieldParsers ρ) (fs : List FieldDoc) (b : BibSection ρ) : Prop where
  keys : b.sortedKeys = fs.map fun f => some f.tag
  fields : List.Forall₂ (fun f kv => kv.1 = some f.tag ∧ buildField P (some f.tag) f.lines = .ok kv.2) fs b.fields

theorem dict_set_new {κ α : Type} [DecidableEq κ] {d : Dict κ α} {k : κ} (h : k ∉ d.keys) (v : α) : d.set k v = d ++ [(k, v)] := by
  induction d with
  | nil => rfl
  | cons p d ih =>
    simp only [Dict.keys, List.map_cons, List.mem_cons, not_or] at h
    rw [Dict.set, if_neg (Ne.symm h.1), ih h.2]
    rfl

theorem fieldType_doc {f : FieldDoc} (h : f.wf) : extractX4FieldType f.lines = .ok (some f.tag) := by
  unfold extractX4FieldType
  have := tagOf_first h
  rw [tagOf] at this
  simp only [FieldDoc.lines, pyIdx, List.getElem?_cons_zero, slice, List.drop_zero, this, if_neg h.tag.1]

theorem bib_fold {P : FieldParsers ρ} (fs : List FieldDoc) (hw : ∀ f ∈ fs, f.wf) (hv : ∀ f ∈ fs, ∃ v, buildField P (some f.tag) f.lines = .ok v)
    (b : BibSection ρ) (hd : (fs.map fun f => some f.tag).Nodup) (hk : ∀ f ∈ fs, some f.tag ∉ b.fields.keys) :
    ∃ kvs, foldE (bibStep P) b (fs.map FieldDoc.lines) = .ok ⟨b.fields ++ kvs, b.sortedKeys ++ fs.map fun f => some f.tag⟩ ∧
      List.Forall₂ (fun f kv => kv.1 = some f.tag ∧ buildField P (some f.tag) f.lines = .ok kv.2) fs kvs := by
  induction fs generalizing b with
  | nil => exact ⟨[], by simp [foldE], .nil⟩
  | cons f fs ih =>
    obtain ⟨v, hv1⟩ := hv f (by simp)
    rw [List.map_cons, List.nodup_cons] at hd
    obtain ⟨kvs, h1, h2⟩ := ih (fun g hg => hw g (by simp [hg])) (fun g hg => hv g (by simp [hg]))
      ⟨b.fields ++ [(some f.tag, v)], b.sortedKeys ++ [some f.tag]⟩ hd.2 (by
        intro g hg hm
        simp only [Dict.keys, List.map_append, List.map_cons, List.map_nil, List.mem_append, List.mem_singleton] at hm
        rcases hm with hm | hm
        · exact hk g (by simp [hg]) hm
        · exact hd.1 (by rw [← hm]; exact List.mem_map.2 ⟨g, hg, rfl⟩))
    refine ⟨(some f.tag, v) :: kvs, ?_, .cons ⟨rfl, hv1⟩ h2⟩
    have hstep : bibStep P b f.lines = .ok ⟨b.fields ++ [(some f.tag, v)], b.sortedKeys ++ [some f.tag]⟩ := by
      unfold bibStep
      rw [fieldType_doc (hw f (by simp))]
      simp only [hv1, dict_set_new (hk f (by simp))]
    simp only [List.map_cons, foldE, hstep, h1]
    simp

theorem bib_read (P : FieldParsers ρ) {s : SubDoc} (h : s.wf) (hv : ∀ f ∈ s.bib, ∃ v, buildField P (some f.tag) f.lines = .ok v) :
    ∃ b, BibSection.build P s.bibLines = .ok b ∧ BibHolds P s.bib b := by
  have hd : (s.bib.map fun f => some f.tag).Nodup := by
    have := (List.nodup_map_iff (Option.some_injective Str)).2 h.tags
    rwa [List.map_map] at this
  obtain ⟨kvs, h1, h2⟩ := bib_fold (P := P) s.bib h.fields hv ⟨[], []⟩ hd (by simp [Dict.keys])
  refine ⟨⟨kvs, s.bib.map fun f => some f.tag⟩, ?_, rfl, h2⟩
  · unfold BibSection.build
    rw [bib_chunks h, h1]
    rfl

/-! ### subentries -/

/-- the values needed to read a document -/
structure SubDoc.Readable (P : FieldParsers ρ) (s : SubDoc) : Prop where
  fields : ∀ f ∈ s.bib, ∃ v, buildField P (some f.tag) f.lines = .ok v
  common : ∀ t ∈ s.common, ∀ r ∈ t.rows, ∀ c ∈ r, ∃ v, parseFORTRANNumber c = .ok v
  data : ∀ t ∈ s.data, ∀ r ∈ t.rows, ∀ c ∈ r, ∃ v, parseFORTRANNumber c = .ok v

/-- What a subentry object holds of a document. -/
structure SubHolds (P : FieldParsers ρ) (s : SubDoc) (S : SubEntry ρ) : Prop where
  accnum : S.accnum = some s.acc
  bib : ∃ b, S.sections.get? "BIB".toList = some (.bib b) ∧ BibHolds P s.bib b
  common : match s.common with
    | none => S.sections.get? "COMMON".toList = none
    | some t => ∃ d, S.sections.get? "COMMON".toList = some (.data d) ∧ DataSection.build chars!"COMMON" (t.lines chars!"COMMON") = .ok d ∧ TableHolds t d
  data : match s.data with
    | none => S.sections.get? "DATA".toList = none
    | some t => ∃ d, S.sections.get? "DATA".toList = some (.data d) ∧ DataSection.build chars!"DATA" (t.lines chars!"DATA") = .ok d ∧ TableHolds t d

theorem mapE_all {α β : Type} {f : α → Except PyErr β} {l : List α} (h : ∀ a ∈ l, ∃ b, f a = .ok b) : ∃ bs, mapE f l = .ok bs := by
  induction l with
  | nil => exact ⟨[], rfl⟩
  | cons a l ih =>
    obtain ⟨b, hb⟩ := h a (by simp)
    obtain ⟨bs, hbs⟩ := ih (fun x hx => h x (by simp [hx]))
    exact ⟨b :: bs, by simp [mapE, hb, hbs]⟩

theorem chunk_one {S E : Str → Bool} {hdr fin : Str} {body rest : List Str} (h1 : S hdr = true) (h2 : ∀ l ∈ body, E l = false) (h3 : E fin = true) :
    chunkLoop S E [] none (hdr :: (body ++ [fin]) ++ rest) = (hdr :: (body ++ [fin])) :: chunkLoop S E [] none rest := by
  simp only [List.cons_append, List.append_assoc, List.nil_append]
  rw [chunkLoop, if_pos h1, chunkLoop_body h2, chunkLoop]
  simp only [h3, if_true]
  rw [chunkLoop_acc]
  simp

theorem tag11_ljust {w : Str} (hw : strip w = w) (hl : w.length ≤ 11) (r : Str) : tag11 (ljust w 11 ++ r) = w := by
  unfold tag11 slice
  have : (ljust w 11).length = 11 := by rw [length_ljust]; omega
  rw [List.drop_zero, List.take_append_of_le_length (by omega), List.take_of_length_le (by omega), strip_ljust, hw]

theorem slice3_ljust {w : Str} (hl : 3 ≤ w.length) (r : Str) : slice (ljust w 11 ++ r) 0 3 = w.take 3 := by
  unfold slice ljust
  rw [List.drop_zero, List.append_assoc, List.take_append_of_le_length hl]

theorem chunk_table {tag : Str} (htag : tag = chars!"DATA" ∨ tag = chars!"COMMON") (o : Option TableDoc) (h : ∀ t ∈ o, t.wf) (rest : List Str) :
    subentryChunkify (optTable tag o ++ rest) = (o.elim [] (fun t => [t.lines tag])) ++ subentryChunkify rest := by
  have h1 : strip tag = tag ∧ tag.length ≤ 9 ∧ isSectionName tag = true ∧ strip (chars!"NO" ++ tag) = chars!"NO" ++ tag ∧ isSectionName (chars!"NO" ++ tag) = false := by
    rcases htag with rfl | rfl <;> decide
  cases o with
  | none =>
    unfold subentryChunkify
    refine chunkLoop_junk ?_ rest
    intro l hl
    simp only [optTable, List.mem_singleton] at hl
    subst hl
    beta_reduce
    rw [List.append_assoc, tag11_ljust h1.2.2.2.1 (by simp; omega)]
    exact h1.2.2.2.2
  | some t =>
    unfold subentryChunkify
    simp only [optTable, Option.elim, TableDoc.lines]
    refine chunk_one ?_ ?_ ?_
    · beta_reduce
      rw [List.append_assoc, tag11_ljust h1.1 (by omega)]
      exact h1.2.2.1
    · intro l hl
      exact take3_of_noKeyword (noKeyword_table (h t rfl) l hl)
    · beta_reduce
      rw [slice3_ljust (by simp)]
      simp

theorem chunk_bib {s : SubDoc} (h : s.wf) (rest : List Str) :
    subentryChunkify (s.bibLines ++ rest) = s.bibLines :: subentryChunkify rest := by
  unfold subentryChunkify SubDoc.bibLines
  refine chunk_one ?_ ?_ ?_
  · beta_reduce
    rw [List.append_assoc, tag11_ljust (by decide) (by decide)]
    decide
  · intro l hl
    obtain ⟨f, hf, hl⟩ := List.mem_flatMap.1 hl
    exact take3_of_noKeyword (noKeyword_field (h.fields f hf) l hl)
  · beta_reduce
    rw [slice3_ljust (by decide)]
    decide

theorem sub_chunks {s : SubDoc} (h : s.wf) : subentryChunkify (s.lines ++ [[]]) =
    s.bibLines :: (s.common.elim [] (fun t => [t.lines chars!"COMMON"]) ++ s.data.elim [] (fun t => [t.lines chars!"DATA"])) := by
  have h0 : subentryChunkify (s.lines ++ [[]]) = subentryChunkify (s.body ++ [ljust chars!"ENDSUBENT" 11 ++ counter s.body.length, []]) := by
    rw [SubDoc.lines]
    unfold subentryChunkify
    rw [List.cons_append, chunkLoop, if_neg, List.append_assoc]
    · rfl
    · beta_reduce
      have : tag11 (ljust chars!"SUBENT" 14 ++ s.acc) = chars!"SUBENT" := by
        unfold tag11 slice
        rw [List.drop_zero, List.take_append_of_le_length (by decide)]
        decide
      rw [this]
      decide
  have hend : subentryChunkify [ljust chars!"ENDSUBENT" 11 ++ counter s.body.length, []] = [] := by
    unfold subentryChunkify
    have := chunkLoop_junk (S := fun l => isSectionName (tag11 l)) (E := fun l => decide (slice l 0 3 = "END".toList)) (junk := [ljust chars!"ENDSUBENT" 11 ++ counter s.body.length, []])
      (by
        intro l hl
        simp only [List.mem_cons, List.not_mem_nil, or_false] at hl
        rcases hl with rfl | rfl
        · beta_reduce
          rw [tag11_ljust (by decide) (by decide)]
          decide
        · decide) []
    rw [List.append_nil] at this
    rw [this]
    rfl
  rw [h0]
  generalize s.body.length = n at hend ⊢
  rw [SubDoc.body, List.append_assoc, List.append_assoc, chunk_bib h, chunk_table (.inr rfl) _ h.common, chunk_table (.inl rfl) _ h.data, hend]
  simp

theorem sectionType_head {w : Str} (hw : strip w = w) (hl : w.length ≤ 10) (hn : isSectionName w = true) (r : Str) (ls : List Str) :
    extractX4SectionType ((ljust w 11 ++ r) :: ls) = some w := by
  have h : strip (slice (ljust w 11 ++ r) 0 10) = w := by
    have h1 : ljust w 11 = ljust w 10 ++ [' '] := by
      unfold ljust
      rw [show 11 - w.length = (10 - w.length) + 1 by omega, List.replicate_succ', List.append_assoc]
    have h2 : (ljust w 10).length = 10 := by rw [length_ljust]; omega
    unfold slice
    rw [List.drop_zero, h1, List.append_assoc, List.take_append_of_le_length (by omega), List.take_of_length_le (by omega), strip_ljust, hw]
  rw [extractX4SectionType, h, if_pos hn]

theorem subIndex_doc {s : SubDoc} (h : s.wf) (ls : List Str) : extractX4SubEntryIndex ((ljust chars!"SUBENT" 14 ++ s.acc) :: ls) = some s.acc := by
  have h1 : firstWord (ljust chars!"SUBENT" 14 ++ s.acc) = some "SUBENT".toList :=
    splitWs_ljust_head (w := chars!"SUBENT") (rest := List.replicate 8 ' ' ++ s.acc) (by decide) (by decide) (by intro c hc; simp at hc; subst hc; decide)
  rw [subEntryIndex_eq, List.find?_cons, h1]
  simp only [decide_true, Option.map_some, Option.some.injEq]
  rw [List.drop_append_of_le_length (by decide)]
  have : List.drop 14 (ljust chars!"SUBENT" 14) = [] := by decide
  rw [this, List.nil_append, List.take_of_length_le (by have := h.acc.1; omega)]

theorem optTable_read {tag : Str} (htag : tag = chars!"DATA" ∨ tag = chars!"COMMON") (P : FieldParsers ρ) (o : Option TableDoc) (h : ∀ t ∈ o, t.wf)
    (hv : ∀ t ∈ o, ∀ r ∈ t.rows, ∀ c ∈ r, ∃ v, parseFORTRANNumber c = .ok v) (d : Dict Str (Sec ρ)) (hd : tag ∉ d.keys) :
    ∃ e : List (Str × Sec ρ), foldE (sectionStep P) d (o.elim [] (fun t => [t.lines tag])) = .ok (d ++ e) ∧
      ((o = none ∧ e = []) ∨ ∃ t D, o = some t ∧ e = [(tag, .data D)] ∧ DataSection.build tag (t.lines tag) = .ok D ∧ TableHolds t D) := by
  cases o with
  | none => exact ⟨[], by simp [foldE], .inl ⟨rfl, rfl⟩⟩
  | some t =>
    have hm : ∀ r ∈ t.rows, ∃ vs, mapE parseFORTRANNumber r = .ok vs := fun r hr => mapE_all (hv t rfl r hr)
    obtain ⟨vals, hvals⟩ := mapE_all hm
    obtain ⟨D, h1, -, h2⟩ := table_read tag htag t (h t rfl) vals hvals
    refine ⟨[(tag, .data D)], ?_, .inr ⟨t, D, rfl, rfl, h1, h2⟩⟩
    have h3 : strip tag = tag ∧ tag.length ≤ 10 ∧ isSectionName tag = true ∧ tag ≠ "BIB".toList := by
      rcases htag with rfl | rfl <;> decide
    have h4 : sectionStep P d (t.lines tag) = .ok (d ++ [(tag, .data D)]) := by
      unfold sectionStep
      have : extractX4SectionType (t.lines tag) = some tag := by
        rw [TableDoc.lines, List.append_assoc]
        exact sectionType_head h3.1 h3.2.1 h3.2.2.1 _ _
      rw [this]
      simp only [if_neg h3.2.2.2, h1, dict_set_new hd]
    simp [foldE, h4]

theorem sub_read (P : FieldParsers ρ) {s : SubDoc} (h : s.wf) (hr : s.Readable P) :
    ∃ S, SubEntry.build P (s.lines ++ [[]]) = .ok S ∧ SubHolds P s S := by
  obtain ⟨b, hb1, hb2⟩ := bib_read P h hr.fields
  obtain ⟨e1, h1, h1'⟩ := optTable_read (tag := chars!"COMMON") (.inr rfl) P s.common h.common hr.common [("BIB".toList, .bib b)] (by simp [Dict.keys])
  have hk : chars!"DATA" ∉ Dict.keys ([("BIB".toList, Sec.bib b)] ++ e1) := by
    rcases h1' with ⟨-, rfl⟩ | ⟨t, D, -, rfl, -⟩ <;> simp [Dict.keys]
  obtain ⟨e2, h2, h2'⟩ := optTable_read (tag := chars!"DATA") (.inl rfl) P s.data h.data hr.data _ hk
  have h3 : sectionStep P [] s.bibLines = .ok [("BIB".toList, .bib b)] := by
    unfold sectionStep
    have : extractX4SectionType s.bibLines = some "BIB".toList := by
      rw [SubDoc.bibLines, List.append_assoc]
      exact sectionType_head (by decide) (by decide) (by decide) _ _
    rw [this]
    simp only [if_true, hb1]
    rfl
  have hfold : foldE (sectionStep P) [] (subentryChunkify (s.lines ++ [[]])) = .ok ([("BIB".toList, Sec.bib b)] ++ e1 ++ e2) := by
    rw [sub_chunks h]
    rw [foldE, h3]
    simp only [foldE_append, h1, h2]
  refine ⟨_, by unfold SubEntry.build; rw [hfold], ?_, ⟨b, ?_, hb2⟩, ?_, ?_⟩
  · exact subIndex_doc h _
  · simp [Dict.get?]
  · rcases h1' with ⟨hc, rfl⟩ | ⟨t, D, hc, rfl, h5, h6⟩
    · rw [hc]
      rcases h2' with ⟨-, rfl⟩ | ⟨t, D, -, rfl, -⟩ <;> simp [Dict.get?]
    · rw [hc]
      exact ⟨D, by simp [Dict.get?], h5, h6⟩
  · rcases h2' with ⟨hc, rfl⟩ | ⟨t, D, hc, rfl, h5, h6⟩
    · rw [hc]
      rcases h1' with ⟨-, rfl⟩ | ⟨t, D, -, rfl, -⟩ <;> simp [Dict.get?]
    · rw [hc]
      refine ⟨D, ?_, h5, h6⟩
      rcases h1' with ⟨-, rfl⟩ | ⟨t, D, -, rfl, -⟩ <;> simp [Dict.get?]

/-! ### entries -/

/-- what `SubEntry.build` is given of a subentry -/
def SubDoc.text (s : SubDoc) : Str := (s.lines.map (· ++ ['\n'])).flatten

theorem splitChar_lines {ls : List Str} (h : ∀ l ∈ ls, '\n' ∉ l) : splitChar '\n' (ls.map (· ++ ['\n'])).flatten = ls ++ [[]] := by
  induction ls with
  | nil => rfl
  | cons l ls ih =>
    rw [List.map_cons, List.flatten_cons, List.append_assoc, List.singleton_append, splitChar_cons (h l (by simp)), ih (fun x hx => h x (by simp [hx]))]
    rfl

theorem nl_ljust {c : Str} (h : '\n' ∉ c) (k : Nat) : '\n' ∉ ljust c k := by
  simp only [ljust, List.mem_append, List.mem_replicate, not_or, not_and]
  exact ⟨h, fun _ he => absurd he (by decide)⟩

theorem nl_counter (n : Nat) : '\n' ∉ counter n := by
  simp only [counter, rjust, List.mem_append, List.mem_replicate, not_or, not_and]
  refine ⟨fun _ he => absurd he (by decide), fun hm => ?_⟩
  have := natStr_digits n _ hm
  revert this
  decide

theorem nl_rowLines {cells : List Str} (h : ∀ c ∈ cells, CellText c) : ∀ l ∈ cellLines cells, '\n' ∉ l := by
  intro l hl hn
  simp only [cellLines, List.mem_map] at hl
  obtain ⟨k, -, rfl⟩ := hl
  obtain ⟨m, hm, hn⟩ := List.mem_flatten.1 hn
  obtain ⟨c, hc, rfl⟩ := List.mem_map.1 hm
  exact nl_ljust (h c (List.mem_of_mem_drop (List.mem_of_mem_take hc))).2.2.1 11 hn

theorem nl_table {t : TableDoc} (h : t.wf) {tag : Str} (ht : '\n' ∉ tag) : ∀ l ∈ t.lines tag, '\n' ∉ l := by
  intro l hl
  simp only [TableDoc.lines, TableDoc.body, List.mem_cons, List.mem_append, List.mem_flatMap, List.not_mem_nil, or_false] at hl
  rcases hl with rfl | ((hl | hl) | ⟨r, hr, hl⟩) | rfl
  · simp only [List.mem_append, not_or]
    exact ⟨⟨nl_ljust ht _, nl_counter _⟩, nl_counter _⟩
  · exact nl_rowLines h.labelCells l hl
  · exact nl_rowLines h.unitCells l hl
  · exact nl_rowLines (h.rowCells r hr) l hl
  · simp only [List.mem_append, not_or]
    refine ⟨nl_ljust ?_ _, nl_counter _⟩
    simp only [List.mem_append, not_or]
    exact ⟨by decide, ht⟩

theorem nl_optTable {o : Option TableDoc} (h : ∀ t ∈ o, t.wf) {tag : Str} (ht : '\n' ∉ tag) : ∀ l ∈ optTable tag o, '\n' ∉ l := by
  cases o with
  | none =>
    intro l hl
    simp only [optTable, List.mem_singleton] at hl
    subst hl
    simp only [List.mem_append, not_or]
    refine ⟨⟨nl_ljust ?_ _, nl_counter _⟩, nl_counter _⟩
    simp only [List.mem_append, not_or]
    exact ⟨by decide, ht⟩
  | some t => exact nl_table (h t rfl) ht

theorem nl_field {f : FieldDoc} (h : f.wf) : ∀ l ∈ f.lines, '\n' ∉ l := by
  intro l hl
  simp only [FieldDoc.lines, List.mem_cons, List.mem_map] at hl
  rcases hl with rfl | ⟨m, hm, rfl⟩
  · have := h.lines f.first (by simp)
    simp only [List.mem_append, List.mem_cons, not_or]
    exact ⟨nl_ljust h.tag.2.2.2.1 _, Ne.symm this.1, this.2⟩
  · have := h.lines m (by simp [hm])
    simp only [List.mem_append, List.mem_cons, not_or]
    exact ⟨by decide, Ne.symm this.1, this.2⟩

theorem nl_body {s : SubDoc} (h : s.wf) : ∀ l ∈ s.body, '\n' ∉ l := by
  intro l hl
  simp only [SubDoc.body, List.mem_append] at hl
  rcases hl with (hl | hl) | hl
  · simp only [SubDoc.bibLines, List.mem_cons, List.mem_append, List.mem_flatMap, List.not_mem_nil, or_false] at hl
    rcases hl with rfl | ⟨f, hf, hl⟩ | rfl
    · simp only [List.mem_append, not_or]
      exact ⟨⟨nl_ljust (by decide) _, nl_counter _⟩, nl_counter _⟩
    · exact nl_field (h.fields f hf) l hl
    · simp only [List.mem_append, not_or]
      exact ⟨nl_ljust (by decide) _, nl_counter _⟩
  · exact nl_optTable h.common (by decide) l hl
  · exact nl_optTable h.data (by decide) l hl

theorem nl_sub {s : SubDoc} (h : s.wf) : ∀ l ∈ s.lines, '\n' ∉ l := by
  intro l hl
  simp only [SubDoc.lines, List.mem_cons, List.mem_append, List.not_mem_nil, or_false] at hl
  rcases hl with rfl | hl | rfl
  · simp only [List.mem_append, not_or]
    refine ⟨nl_ljust (by decide) _, fun hm => ?_⟩
    have := h.acc.2 _ hm
    revert this
    decide
  · exact nl_body h l hl
  · simp only [List.mem_append, not_or]
    exact ⟨nl_ljust (by decide) _, nl_counter _⟩

/-- the lines inside a subentry are taken for no frame of an entry or subentry -/
def Inner (l : Str) : Prop := ¬ isFrame l ∧ ¬ startsWith l "SUBENT".toList ∧ ¬ startsWith l "ENDSUBENT".toList

theorem startsWith_nl (l w : Str) (hw : '\n' ∉ w) : startsWith (l ++ ['\n']) w = startsWith l w := by
  unfold startsWith
  rw [Bool.eq_iff_iff, List.isPrefixOf_iff_prefix, List.isPrefixOf_iff_prefix]
  constructor
  · intro h
    rcases List.prefix_concat_iff.1 h with h | h
    · exact absurd (h ▸ List.mem_append_right l (List.mem_singleton.2 rfl)) hw
    · exact h
  · exact fun h => h.trans (List.prefix_append _ _)

theorem inner_of {l : Str} (h : ∀ w ∈ [chars!"ENTRY", chars!"ENDENTRY", chars!"NOSUBENT", chars!"SUBENT", chars!"ENDSUBENT"], startsWith l w = false) :
    Inner (l ++ ['\n']) := by
  have h' : ∀ w ∈ [chars!"ENTRY", chars!"ENDENTRY", chars!"NOSUBENT", chars!"SUBENT", chars!"ENDSUBENT"], startsWith (l ++ ['\n']) w = false := by
    intro w hw
    rw [startsWith_nl l w (by revert w; decide)]
    exact h w hw
  simp only [Inner, isFrame, Bool.not_eq_true, not_or]
  exact ⟨⟨h' _ (by simp), h' _ (by simp), h' _ (by simp)⟩, h' _ (by simp), h' _ (by simp)⟩

theorem inner_of_noKeyword {l : Str} (h : NoKeyword l) : Inner (l ++ ['\n']) := by
  refine inner_of ?_
  have key : ∀ w, startsWith l (chars!"END" ++ w) = false := by
    intro w
    have h1 := h chars!"END" (by simp)
    rw [startsWith, ← Bool.not_eq_true, List.isPrefixOf_iff_prefix] at *
    exact fun h2 => h1 ((List.prefix_append _ _).trans h2)
  intro w hw
  simp only [List.mem_cons, List.not_mem_nil, or_false] at hw
  rcases hw with rfl | rfl | rfl | rfl | rfl
  · exact h _ (by simp)
  · exact key chars!"ENTRY"
  · exact h _ (by simp)
  · exact h _ (by simp)
  · exact key chars!"SUBENT"

theorem inner_ljust {w : Str} (h : ∀ v ∈ [chars!"ENTRY", chars!"ENDENTRY", chars!"NOSUBENT", chars!"SUBENT", chars!"ENDSUBENT"], startsWith w v = false) (r : Str) :
    Inner (ljust w 11 ++ r ++ ['\n']) := by
  refine inner_of fun v hv => ?_
  have : ' ' ∉ v ∧ v.length ≤ 11 := by clear h; revert v; decide
  rw [startsWith_ljust _ _ _ _ this.1 this.2]
  exact h v hv

theorem inner_optTable {o : Option TableDoc} (h : ∀ t ∈ o, t.wf) {tag : Str} (htag : tag = chars!"DATA" ∨ tag = chars!"COMMON") :
    ∀ l ∈ optTable tag o, Inner (l ++ ['\n']) := by
  intro l hl
  cases o with
  | none =>
    simp only [optTable, List.mem_singleton] at hl
    subst hl
    rw [List.append_assoc (ljust _ _)]
    refine inner_ljust ?_ _
    rcases htag with rfl | rfl <;> decide
  | some t =>
    simp only [optTable, TableDoc.lines, List.mem_cons, List.mem_append, List.not_mem_nil, or_false] at hl
    rcases hl with rfl | hl | rfl
    · rw [List.append_assoc (ljust _ _)]
      refine inner_ljust ?_ _
      rcases htag with rfl | rfl <;> decide
    · exact inner_of_noKeyword (noKeyword_table (h t rfl) l hl)
    · refine inner_ljust ?_ _
      rcases htag with rfl | rfl <;> decide

theorem inner_body {s : SubDoc} (h : s.wf) : ∀ l ∈ s.body, Inner (l ++ ['\n']) := by
  intro l hl
  simp only [SubDoc.body, List.mem_append] at hl
  rcases hl with (hl | hl) | hl
  · simp only [SubDoc.bibLines, List.mem_cons, List.mem_append, List.mem_flatMap, List.not_mem_nil, or_false] at hl
    rcases hl with rfl | ⟨f, hf, hl⟩ | rfl
    · rw [List.append_assoc (ljust _ _)]
      exact inner_ljust (by decide) _
    · exact inner_of_noKeyword (noKeyword_field (h.fields f hf) l hl)
    · exact inner_ljust (by decide) _
  · exact inner_optTable h.common (.inr rfl) l hl
  · exact inner_optTable h.data (.inl rfl) l hl

/-- a subentry as a stretch of an entry file -/
def SubDoc.stretch (s : SubDoc) : SubentText :=
  ⟨ljust chars!"SUBENT" 14 ++ s.acc ++ ['\n'], s.body.map (· ++ ['\n']), ljust chars!"ENDSUBENT" 11 ++ counter s.body.length ++ ['\n']⟩

theorem stretch_lines (s : SubDoc) : s.stretch.lines = s.lines.map (· ++ ['\n']) := by
  simp [SubDoc.stretch, SubentText.lines, SubDoc.lines]

theorem stretch_ok {s : SubDoc} (h : s.wf) : s.stretch.Ok := by
  refine ⟨⟨?_, ?_⟩, ?_, ?_⟩
  · simp only [SubDoc.stretch, List.append_assoc]
    rw [show "SUBENT".toList = chars!"SUBENT" from by decide, startsWith_ljust _ _ _ _ (by decide) (by decide)]
    decide
  · simp only [SubDoc.stretch, List.length_append, length_ljust, h.acc.1]
    decide
  · intro l hl
    simp only [SubDoc.stretch, List.mem_map] at hl
    obtain ⟨m, hm, rfl⟩ := hl
    exact inner_body h m hm
  · simp only [SubDoc.stretch, List.append_assoc]
    rw [show "ENDSUBENT".toList = chars!"ENDSUBENT" from by decide, startsWith_ljust _ _ _ _ (by decide) (by decide)]
    decide

theorem stretch_acc {s : SubDoc} (h : s.wf) : s.stretch.accession = s.acc := by
  have h0 : List.drop 14 (ljust chars!"SUBENT" 14) = [] := by decide
  simp only [SubentText.accession, SubDoc.stretch]
  rw [List.append_assoc, List.drop_append_of_le_length (by decide), h0, List.nil_append,
    List.take_append_of_le_length (by rw [h.acc.1]), List.take_of_length_le (by rw [h.acc.1])]
  exact strip_plain h.acc.2

theorem file_stretches (D : EntryDoc) (h : ∀ s ∈ D.subs, s.wf) : EntryFile D.file (D.subs.map SubDoc.stretch) := by
  have key : ∀ subs : List SubDoc, (∀ s ∈ subs, s.wf) → ∀ fin : Str, (¬ startsWith fin "SUBENT".toList ∧ ¬ startsWith fin "ENDSUBENT".toList) →
      EntryFile ((subs.flatMap SubDoc.lines).map (· ++ ['\n']) ++ [fin]) (subs.map SubDoc.stretch) := by
    intro subs
    induction subs with
    | nil => exact fun _ fin hf => .other fin [] [] hf .nil
    | cons s subs ih =>
      intro hs fin hf
      have := EntryFile.subent s.stretch _ _ (stretch_ok (hs s (by simp))) (ih (fun x hx => hs x (by simp [hx])) fin hf)
      rw [stretch_lines] at this
      simpa only [List.flatMap_cons, List.map_append, List.append_assoc, List.map_cons] using this
  rw [EntryDoc.file, EntryDoc.lines, List.map_cons, List.map_append]
  refine .other _ _ _ ?_ (key D.subs h _ ?_)
  all_goals
    beta_reduce
    rw [List.append_assoc, show "SUBENT".toList = chars!"SUBENT" from by decide, show "ENDSUBENT".toList = chars!"ENDSUBENT" from by decide,
      startsWith_ljust _ _ _ _ (by decide) (by decide), startsWith_ljust _ _ _ _ (by decide) (by decide)]
    decide

/-- The subentries of the entry object are those of the document. -/
structure EntryHolds (P : FieldParsers ρ) (D : EntryDoc) (subs : List SubDoc) (e : Entry ρ) : Prop where
  accnum : e.accnum = D.acc
  subs : List.Forall₂ (fun s kv => kv.1 = some s.acc ∧ SubHolds P s kv.2) subs e.subs

theorem subs_fold {P : FieldParsers ρ} (subs : List SubDoc) (hw : ∀ s ∈ subs, s.wf) (hr : ∀ s ∈ subs, s.Readable P) (d : Dict (Option Str) (SubEntry ρ))
    (hd : (subs.map SubDoc.acc).Nodup) (hk : ∀ s ∈ subs, some s.acc ∉ d.keys) :
    ∃ kvs, foldE (entryStep P) d (subs.map SubDoc.text) = .ok (d ++ kvs) ∧ List.Forall₂ (fun s kv => kv.1 = some s.acc ∧ SubHolds P s kv.2) subs kvs := by
  induction subs generalizing d with
  | nil => exact ⟨[], by simp [foldE], .nil⟩
  | cons s subs ih =>
    obtain ⟨S, h1, h2⟩ := sub_read P (hw s (by simp)) (hr s (by simp))
    rw [List.map_cons, List.nodup_cons] at hd
    obtain ⟨kvs, h3, h4⟩ := ih (fun x hx => hw x (by simp [hx])) (fun x hx => hr x (by simp [hx])) (d ++ [(some s.acc, S)]) hd.2 (by
      intro g hg hm
      simp only [Dict.keys, List.map_append, List.map_cons, List.map_nil, List.mem_append, List.mem_singleton, Option.some.injEq] at hm
      rcases hm with hm | hm
      · exact hk g (by simp [hg]) hm
      · exact hd.1 (by rw [← hm]; exact List.mem_map.2 ⟨g, hg, rfl⟩))
    refine ⟨(some s.acc, S) :: kvs, ?_, .cons ⟨rfl, h2⟩ h4⟩
    have h5 : entryStep P d s.text = .ok (d ++ [(some s.acc, S)]) := by
      unfold entryStep
      rw [SubDoc.text, splitChar_lines (nl_sub (hw s (by simp))), h1]
      simp only [h2.accnum, dict_set_new (hk s (by simp))]
    simp only [List.map_cons, foldE, h5, h3]
    simp

theorem entryNumber_doc {subs : List SubDoc} (hne : subs ≠ []) {acc : Str} (h : ∀ s ∈ subs, s.wf ∧ s.acc.take 5 = acc) :
    extractX4EntryIndex (subs.map SubDoc.text) = some acc := by
  obtain ⟨s, subs, rfl⟩ := List.exists_cons_of_ne_nil hne
  obtain ⟨h1, h2⟩ := h s (by simp)
  have ht : ∃ r, s.text = ljust chars!"SUBENT" 14 ++ (s.acc ++ r) := by
    simp only [SubDoc.text, SubDoc.lines, List.map_cons, List.flatten_cons, List.append_assoc]
    exact ⟨_, rfl⟩
  obtain ⟨r, ht⟩ := ht
  have hw : firstWord s.text = some "SUBENT".toList := by
    rw [ht]
    exact splitWs_ljust_head (w := chars!"SUBENT") (rest := List.replicate 8 ' ' ++ (s.acc ++ r)) (by decide) (by decide) (by intro c hc; simp at hc; subst hc; decide)
  have h0 : List.drop 14 (ljust chars!"SUBENT" 14) = [] := by decide
  rw [entryIndex_eq, entryNumber, List.map_cons, List.find?_cons, hw]
  simp only [or_true, decide_true, Option.map_some, Option.some.injEq, hw]
  rw [if_neg (by decide), ht, List.drop_append_of_le_length (by decide), h0, List.nil_append, List.take_append_of_le_length (by rw [h1.acc.1]; omega), h2]

/-- C85: an entry that is written as a file in EXFOR format is read as the object that holds what is written: its
number, the requested subentries in order under their numbers, each with its bibliographic fields in order, its COMMON
table and its DATA table, with labels, units and values at their places. -/
theorem C85_read (P : FieldParsers ρ) (D : EntryDoc) (h : D.wf) (subents : Option (List Str)) (hr : ∀ s ∈ D.subs, s.Readable P)
    (hs : ∃ s ∈ D.subs, requested subents s.acc) :
    ∃ e, Entry.build P (splitEntryFile subents D.file) = .ok e ∧ EntryHolds P D (D.subs.filter fun s => requested subents s.acc) e := by
  have hw : ∀ s ∈ D.subs, s.wf := fun s hs => (h.subs s hs).1
  have h1 : splitEntryFile subents D.file = (D.subs.filter fun s => requested subents s.acc).map SubDoc.text := by
    rw [C10_lossless _ _ (file_stretches D hw), List.filter_map, List.map_map]
    have : D.subs.filter ((fun s : SubentText => requested subents s.accession) ∘ SubDoc.stretch) = D.subs.filter fun s => requested subents s.acc := by
      apply List.filter_congr
      intro s hs
      rw [Function.comp, stretch_acc (hw s hs)]
    rw [this]
    apply List.map_congr_left
    intro s _
    rw [Function.comp, stretch_lines, SubDoc.text]
  generalize hf : (D.subs.filter fun s => requested subents s.acc) = subs at h1
  have hsub : ∀ s ∈ subs, s ∈ D.subs := by
    intro s hs
    rw [← hf] at hs
    exact (List.mem_filter.1 hs).1
  have hne : subs ≠ [] := by
    obtain ⟨s, hs1, hs2⟩ := hs
    exact List.ne_nil_of_mem (hf ▸ List.mem_filter.2 ⟨hs1, hs2⟩)
  have hnd : (subs.map SubDoc.acc).Nodup := by
    rw [← hf]
    exact h.distinct.sublist (List.Sublist.map _ List.filter_sublist)
  obtain ⟨kvs, h2, h3⟩ := subs_fold (P := P) subs (fun s hs => hw s (hsub s hs)) (fun s hs => hr s (hsub s hs)) [] hnd (by simp [Dict.keys])
  refine ⟨⟨D.acc, kvs⟩, ?_, rfl, h3⟩
  unfold Entry.build
  rw [h1, entryNumber_doc hne (fun s hs => h.subs s (hsub s hs)), h2]
  simp only [h.acc]
  rfl

/-- C85: without a requested subentry there is no entry object. -/
theorem C85_none (P : FieldParsers ρ) (D : EntryDoc) (h : D.wf) (subents : Option (List Str)) (hs : ∀ s ∈ D.subs, requested subents s.acc = false) :
    Entry.build P (splitEntryFile subents D.file) = .error .keyError := by
  have hw : ∀ s ∈ D.subs, s.wf := fun s hs => (h.subs s hs).1
  have h1 : splitEntryFile subents D.file = [] := by
    rw [C10_lossless _ _ (file_stretches D hw), List.map_eq_nil_iff, List.filter_eq_nil_iff]
    intro x hx
    obtain ⟨s, hs', rfl⟩ := List.mem_map.1 hx
    rw [stretch_acc (hw s hs'), hs s hs']
    decide
  rw [h1]
  rfl

/-- C85: the entry is read from the file with its number. -/
theorem C85_file (P : FieldParsers ρ) (db : DB) (D : EntryDoc) (h : D.wf) (hdb : db.read (D.acc.take 3 ++ ['/'] ++ D.acc ++ ".x4".toList) = .ok D.file)
    (subents : Option (List Str)) (hr : ∀ s ∈ D.subs, s.Readable P) (hs : ∃ s ∈ D.subs, requested subents s.acc) :
    ∃ raw e, (entryFactoryRaw db D.acc subents).2 = .ok raw ∧ Entry.build P raw = .ok e ∧
      EntryHolds P D (D.subs.filter fun s => requested subents s.acc) e := by
  obtain ⟨e, h1, h2⟩ := C85_read P D h subents hr hs
  refine ⟨_, e, ?_, h1, h2⟩
  unfold entryFactoryRaw
  rw [if_neg (by rw [h.acc]; simp)]
  simp only [slice, List.drop_zero]
  rw [hdb]

end X4
