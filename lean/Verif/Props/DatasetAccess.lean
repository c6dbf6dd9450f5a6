import Verif.Model.DatasetAccess
import Verif.Spec.ListText
import Verif.Props.SimpleRetrieval
/-! C100: the size of a dataset, its cells and its `repr`. -/
namespace X4
variable {ρ N : Type}

/-! ### cells -/

/-- the row or column meant by an index: from the front, or from the end if negative -/
def meant (n : Nat) (i : Int) : Option Nat :=
  if 0 ≤ i then (if i < n then some i.toNat else none) else if -(n : Int) ≤ i then some (n - (-i).toNat) else none

theorem intIdx_meant {α : Type} (l : List α) (i : Int) :
    intIdx l i = match meant l.length i with
      | none => .error .indexError
      | some k => match l[k]? with
        | some x => .ok x
        | none => .error .indexError := by
  unfold intIdx meant
  by_cases h0 : 0 ≤ i
  · simp only [h0, if_true]
    by_cases h1 : i < l.length
    · rw [if_pos h1]; simp only [pyIdx]; cases l[i.toNat]? <;> rfl
    · rw [if_neg h1]
      have : l[i.toNat]? = none := List.getElem?_eq_none (by omega)
      simp [pyIdx, this]
  · simp only [h0, if_false]
    by_cases h1 : -(l.length : Int) ≤ i
    · rw [if_pos h1, if_pos (by omega)]; simp only [pyIdx]; cases l[l.length - (-i).toNat]? <;> rfl
    · rw [if_neg h1, if_neg (by omega)]

theorem meant_lt {n : Nat} {i : Int} {k : Nat} (h : meant n i = some k) : k < n := by
  unfold meant at h
  split at h
  · split at h
    · simp only [Option.some.injEq] at h; omega
    · cases h
  · split at h
    · simp only [Option.some.injEq] at h; omega
    · cases h

/-- C100: in a rectangular dataset a cell can be read exactly if its row and column exist (negative numbers counting from the end), and
then it is that cell; likewise for the labels and the units. Otherwise IndexError. -/
theorem C100_cells (d : DataSet ρ N) (h : d.table.Rect) (i j : Int) :
    (∀ a b, meant d.numrows i = some a → meant d.numcols j = some b →
      ∃ row x, d.data[a]? = some row ∧ row[b]? = some x ∧ d.item (.row i) j = .ok (.value x)) ∧
    ((meant d.numrows i = none ∨ meant d.numcols j = none) → d.item (.row i) j = .error .indexError) ∧
    (∀ b, meant d.numcols j = some b → ∃ l u, d.labels[b]? = some l ∧ d.units[b]? = some u ∧
      d.item (.text chars!"LABELS") j = .ok (.label l) ∧ d.item (.text chars!"UNITS") j = .ok (.unit u)) ∧
    (meant d.numcols j = none → d.item (.text chars!"LABELS") j = .error .indexError ∧ d.item (.text chars!"UNITS") j = .error .indexError) ∧
    (∀ s, s ≠ chars!"LABELS" → s ≠ chars!"UNITS" → d.item (.text s) j = .error .keyError) := by
  unfold DataSet.numrows DataSet.numcols
  obtain ⟨hu, hr⟩ : d.units.length = d.labels.length ∧ ∀ row ∈ d.data, row.length = d.labels.length := h
  refine ⟨?_, ?_, ?_, ?_, ?_⟩
  · intro a b ha hb
    have ha' := meant_lt ha
    have hb' := meant_lt hb
    have hrow : d.data[a]? = some d.data[a] := List.getElem?_eq_getElem ha'
    have hlen := hr d.data[a] (List.getElem_mem ha')
    have hx : (d.data[a])[b]? = some ((d.data[a])[b]'(by omega)) := List.getElem?_eq_getElem (by omega)
    refine ⟨_, _, hrow, hx, ?_⟩
    unfold DataSet.item
    simp only [intIdx_meant, ha, hrow, hlen, hb, hx]
    rfl
  · intro hor
    unfold DataSet.item
    simp only [intIdx_meant]
    cases ha : meant d.data.length i with
    | none => rfl
    | some a =>
      have ha' := meant_lt ha
      have hrow : d.data[a]? = some d.data[a] := List.getElem?_eq_getElem ha'
      simp only [hrow]
      rcases hor with h | h
      · rw [ha] at h; cases h
      · rw [hr d.data[a] (List.getElem_mem ha'), h]; rfl
  · intro b hb
    have hb' := meant_lt hb
    have h1 : d.labels[b]? = some d.labels[b] := List.getElem?_eq_getElem hb'
    have h2 : d.units[b]? = some (d.units[b]'(by omega)) := List.getElem?_eq_getElem (by omega)
    refine ⟨_, _, h1, h2, ?_, ?_⟩
    · unfold DataSet.item
      simp only [if_true, intIdx_meant, hb, h1]
      rfl
    · unfold DataSet.item
      simp only [intIdx_meant, hu, hb, h2]
      rfl
  · intro hb
    constructor
    · unfold DataSet.item
      simp only [if_true, intIdx_meant, hb]
      rfl
    · unfold DataSet.item
      simp only [intIdx_meant, hu, hb]
      rfl
  · intro s h1 h2
    unfold DataSet.item
    simp only [h1, h2, if_false]


/-- C100: the datasets of a written entry are rectangular; they have as many rows as the DATA table, the columns of the two COMMON tables and
the columns of the DATA table with the pointer or none; and indexing with LABELS, UNITS or a row gives the heading, the unit or the value
that is written there. -/
theorem C100_written_partial [PyNum N] (P : FieldParsers ρ) (rx : RxOps ρ) (D : EntryDoc) (h : D.wf) (hpr : D.Printable P rx) (hr : ∀ s ∈ D.subs, s.Readable P)
    (subents : Option (List Str)) (m s : SubDoc) (hm : m ∈ D.subs) (hma : m.acc = D.acc ++ "001".toList) (hmr : requested subents m.acc)
    (hs : s ∈ D.subs) (hsa : s.acc ≠ m.acc) (hsr : requested subents s.acc) (t : TableDoc) (ht : s.data = some t) (hl : t.labels.Nodup)
    (p : Char) (hc1 : PlainDoc p m.common) (hc2 : PlainDoc p s.common) (hp : docReaction m s p ≠ []) (r : ρ × Str)
    (hrx : P.reaction (joinWith [' '] ((docReaction m s p).map strip)) = .ok r) (q : List Str) (hq : effectiveQuant rx r.1 = .ok q) :
    ∃ (e : Entry ρ) (st : DsState ρ N) (d : DataSet ρ N), Entry.build P (splitEntryFile subents D.file) = .ok e ∧ e.getDataSets rx [] = .ok st ∧
      st.datasets.get? (D.acc, some s.acc, p) = some d ∧ d.table.Rect ∧ d.numrows = t.rows.length ∧
      d.numcols = (docHeads m.common).length + (docHeads s.common).length + (pick (belongs t.labels (some p)) t.labels).length ∧
      ∀ j b, meant d.numcols j = some b →
        (∃ x, (docHeads m.common ++ docHeads s.common ++ (pick (belongs t.labels (some p)) t.labels).map head10)[b]? = some x ∧
          d.item (.text chars!"LABELS") j = .ok (.label x)) ∧
        (∃ u, (docUnits m.common ++ docUnits s.common ++ (pick (belongs t.labels (some p)) t.units).map (fun u => some (head10 u)))[b]? = some u ∧
          d.item (.text chars!"UNITS") j = .ok (.unit u)) ∧
        ∀ i a row, meant d.numrows i = some a → t.rows[a]? = some row →
          ∃ x, (docRow m.common ++ docRow s.common ++ (pick (belongs t.labels (some p)) row).map cellVal)[b]? = some x ∧
            d.item (.row i) j = .ok (.value x) := by
  obtain ⟨e, st, d, h1, h2, h3, -, -, -, h6, h7, h8⟩ :=
    C86_dataset_partial (N := N) P rx D h hpr hr subents m s hm hma hmr hs hsa hsr t ht hl p hc1 hc2 hp r hrx q hq
  have hT : d.table = docTable m s t p := by simp only [DataSet.table, docTable, h6, h7, h8]
  have hR : d.table.Rect := hT ▸ docTable_rect (h.subs m hm).1 (h.subs s hs).1 ht hc1 hc2
  refine ⟨e, st, d, h1, h2, h3, hR, by simp [DataSet.numrows, h8], by simp [DataSet.numcols, h6, Nat.add_assoc], ?_⟩
  intro j b hb
  obtain ⟨-, -, g3, -, -⟩ := C100_cells d hR 0 j
  obtain ⟨l, u, e1, e2, e3, e4⟩ := g3 b hb
  refine ⟨⟨l, h6 ▸ e1, e3⟩, ⟨u, h7 ▸ e2, e4⟩, ?_⟩
  intro i a row ha hrow
  obtain ⟨row', x, f1, f2, f3⟩ := (C100_cells d hR i j).1 a b ha hb
  rw [h8, List.getElem?_map, hrow] at f1
  simp only [Option.map_some, Option.some.injEq] at f1
  exact ⟨x, f1 ▸ f2, f3⟩

/-! ### the printed table -/

theorem lexList_inText (s : Str) (h : QuoteFree s) (w rest : Str) :
    lexList (.inText w) (s ++ '\'' :: rest) = (lexList .idle rest).map (.text (w ++ s) :: ·) := by
  induction s generalizing w with
  | nil => simp [lexList]
  | cons c s ih =>
    obtain ⟨h1, h2⟩ := h
    simp only [List.mem_cons, not_or] at h1 h2
    rw [List.cons_append, lexList, if_neg (Ne.symm h1.1), if_neg (Ne.symm h2.1), ih ⟨h1.2, h2.2⟩]
    simp

theorem lexList_texts (l : List Str) (hl : l ≠ []) (h : ∀ s ∈ l, QuoteFree s) (rest : Str) :
    lexList (.inText []) (joinWith chars!"','" l ++ '\'' :: rest) = (lexList .idle rest).map (l.map .text ++ ·) := by
  induction l with
  | nil => exact absurd rfl hl
  | cons x l ih =>
    cases l with
    | nil => simpa [joinWith] using lexList_inText x (h x (by simp)) [] rest
    | cons y l =>
      have hx := lexList_inText x (h x (by simp)) [] (',' :: '\'' :: (joinWith chars!"','" (y :: l) ++ '\'' :: rest))
      rw [joinWith, List.append_assoc, List.append_assoc]
      simp only [List.cons_append, List.nil_append] at hx ⊢
      rw [hx, lexList, if_neg (by decide), if_neg (by decide), if_pos (by decide), lexList, if_neg (by decide), if_neg (by decide),
        if_neg (by decide), if_pos rfl, ih (by simp) (fun s hs => h s (by simp only [List.mem_cons] at hs ⊢; exact .inr hs))]
      rw [Option.map_map]
      rfl

theorem lexList_quotedRow (l : List Str) (hl : l ≠ []) (h : ∀ s ∈ l, QuoteFree s) (rest : Str) :
    lexList .idle (quotedRow l ++ rest) = (lexList .idle rest).map (rowToks (l.map .text) ++ ·) := by
  have h1 := lexList_texts l hl h (']' :: rest)
  unfold quotedRow
  rw [List.append_assoc, List.append_assoc]
  simp only [List.cons_append, List.nil_append]
  rw [lexList, if_pos rfl, lexList, if_neg (by decide), if_neg (by decide), if_neg (by decide), if_pos rfl, h1, lexList, if_neg (by decide),
    if_pos rfl, Option.map_map, Option.map_map]
  congr 1
  funext t
  simp [rowToks]

theorem lexList_inWord (s : Str) (h : ∀ c ∈ s, c ∉ ['[', ']', ',', ' ', '\n', '\'']) (w rest : Str) :
    lexList (.inWord w) (s ++ rest) = lexList (.inWord (w ++ s)) rest := by
  induction s generalizing w with
  | nil => simp
  | cons c s ih =>
    have hc := h c (by simp)
    simp only [List.mem_cons, not_or, List.not_mem_nil] at hc
    rw [List.cons_append, lexList, if_neg (by simp [hc]), if_neg (by simp [hc]), ih (fun c hc => h c (by simp [hc]))]
    simp

theorem lexList_word (s : Str) (h : BareWord s) (rest : Str) : lexList .idle (s ++ rest) = lexList (.inWord s) rest := by
  obtain ⟨hs, h⟩ := h
  cases s with
  | nil => exact absurd rfl hs
  | cons c s =>
    have hc := h c (by simp)
    simp only [List.mem_cons, not_or, List.not_mem_nil] at hc
    rw [List.cons_append, lexList, if_neg (by simp [hc]), if_neg (by simp [hc]), if_neg (by simp [hc]), if_neg (by simp [hc]),
      lexList_inWord s (fun c hc => h c (by simp [hc]))]
    rfl

theorem lexList_words (l : List Str) (h : ∀ s ∈ l, BareWord s) (rest : Str) :
    lexList .idle (joinWith [','] l ++ ']' :: rest) = (lexList .idle rest).map (l.map .word ++ [.closes] ++ ·) := by
  induction l with
  | nil => simp [joinWith, lexList]
  | cons x l ih =>
    cases l with
    | nil =>
      rw [joinWith, lexList_word x (h x (by simp)), lexList, if_neg (by decide), if_pos rfl]
      rfl
    | cons y l =>
      rw [joinWith, List.append_assoc, List.append_assoc, lexList_word x (h x (by simp))]
      simp only [List.cons_append, List.nil_append]
      rw [lexList, if_pos (by decide), ih (fun s hs => h s (by simp only [List.mem_cons] at hs ⊢; exact .inr hs)), Option.map_map]
      rfl

theorem lexList_rows (rows : List (List Str)) (h : ∀ row ∈ rows, ∀ s ∈ row, BareWord s) (rest : Str) :
    lexList .idle (rows.flatMap (fun row => chars!",\n[" ++ joinWith [','] row ++ [']']) ++ rest) =
      (lexList .idle rest).map (rows.flatMap (fun row => rowToks (row.map .word)) ++ ·) := by
  induction rows with
  | nil => simp
  | cons row rows ih =>
    rw [List.flatMap_cons, List.flatMap_cons]
    simp only [List.append_assoc, List.cons_append, List.nil_append] at ih ⊢
    rw [lexList, if_neg (by decide), if_neg (by decide), if_pos (by decide), lexList, if_neg (by decide), if_neg (by decide),
      if_pos (by decide), lexList, if_pos rfl, lexList_words row (h row (by simp)), ih (fun r hr => h r (by simp [hr])), Option.map_map,
      Option.map_map]
    simp [rowToks, Function.comp_def]

theorem mapE_units (l : List Str) :
    mapE joinItem (l.map some) = .ok l := by
  induction l with
  | nil => rfl
  | cons x l ih => rw [List.map_cons, mapE, ih]; rfl

/-- C100: `repr` of a dataset is the header followed by a list literal; read as a list literal it consists of the labels, the units and the
rows of values, cell by cell, a missing value being `None`. For a dataset that has columns, with units for all of them, and texts without quotation marks and backslashes. -/
theorem C100_repr_partial (T : DsReprs ρ N) (d : DataSet ρ N) (hd : Str) (us : List Str) (hh : d.reprHeader T = .ok hd)
    (hu : d.units = us.map some) (hlen : us.length = d.labels.length) (hl : d.labels ≠ [])
    (hp : ∀ s ∈ d.labels ++ us, QuoteFree s) (hn : ∀ x, BareWord (T.num x)) :
    ∃ t, d.repr T = .ok (hd ++ t) ∧
      lexList .idle t = some (tableToks (d.labels.map .text :: us.map .text ::
        d.data.map fun row => row.map fun x => .word (x.elim chars!"None" T.num))) := by
  have hv : (fun x : Option N => x.elim chars!"None" T.num) = valueText T := by
    funext x
    cases x <;> rfl
  simp only [show ∀ x : Option N, x.elim chars!"None" T.num = valueText T x from fun x => congrFun hv x]
  have hus : us ≠ [] := by
    rintro rfl
    exact hl (List.eq_nil_of_length_eq_zero hlen.symm)
  have hw : ∀ row ∈ d.data.map (fun row => row.map (valueText T)), ∀ s ∈ row, BareWord s := by
    intro row hr s hs
    obtain ⟨r, _, rfl⟩ := List.mem_map.1 hr
    obtain ⟨x, _, rfl⟩ := List.mem_map.1 hs
    cases x with
    | none => exact ⟨by simp [valueText], by simp only [valueText]; decide⟩
    | some x => exact hn x
  refine ⟨['['] ++ quotedRow d.labels ++ chars!",\n" ++ quotedRow us ++
      (d.data.flatMap fun row => chars!",\n[" ++ joinWith [','] (row.map (valueText T)) ++ [']']) ++ [']'], ?_, ?_⟩
  · unfold DataSet.repr
    rw [hh]
    unfold DataSet.reprTable
    rw [hu, mapE_units]
  · have h1 := lexList_rows _ hw [']']
    simp only [List.append_assoc, List.cons_append, List.nil_append]
    rw [lexList, if_pos rfl, lexList_quotedRow _ hl (fun s hs => hp s (by simp [hs])), lexList, if_neg (by decide), if_neg (by decide),
      if_pos (by decide), lexList, if_neg (by decide), if_neg (by decide), if_pos (by decide),
      lexList_quotedRow _ hus (fun s hs => hp s (by simp [hs]))]
    rw [List.flatMap_map] at h1
    simp only [List.append_assoc, List.cons_append, List.nil_append] at h1
    rw [h1]
    simp [lexList, tableToks, List.flatMap_map, Function.comp_def]

/-- C100 is false for texts with quotation marks: two datasets with different numbers of columns print the same. -/
theorem C100_repr_quotes_refuted (T : DsReprs ρ N) (d : DataSet ρ N) :
    let d1 := { d with labels := [chars!"EN", chars!"DATA"], units := [some chars!"MEV", some chars!"B"], data := [] }
    let d2 := { d with labels := [chars!"EN','DATA"], units := [some chars!"MEV','B"], data := [] }
    d1.repr T = d2.repr T ∧ d1.numcols ≠ d2.numcols := by
  refine ⟨?_, by simp [DataSet.numcols]⟩
  unfold DataSet.repr
  have h1 : ∀ (a a' : List Str) (b b' : List (Option Str)) (c c' : List (List (Option N))),
      DataSet.reprHeader T { d with labels := a, units := b, data := c } = DataSet.reprHeader T { d with labels := a', units := b', data := c' } :=
    fun _ _ _ _ _ _ => rfl
  rw [h1 _ [chars!"EN','DATA"] _ [some chars!"MEV','B"] [] []]
  rfl

/-- C100 is false for datasets without columns: they print like a dataset with one column that has no heading. -/
theorem C100_repr_empty_refuted (T : DsReprs ρ N) (d : DataSet ρ N) :
    let d1 := { d with labels := [], units := [], data := [] }
    let d2 := { d with labels := [[]], units := [some []], data := [] }
    d1.repr T = d2.repr T ∧ d1.numcols ≠ d2.numcols :=
  ⟨rfl, by simp [DataSet.numcols]⟩

/-- C100 is false for datasets without a reaction: they cannot be printed. -/
theorem C100_repr_reaction_refuted (T : DsReprs ρ N) (d : DataSet ρ N) (h : d.reaction = none) : d.repr T = .error .typeError := by
  simp [DataSet.repr, DataSet.reprHeader, h]

/-- what `repr` shows of a monitor -/
def MonitorShown (T : DsReprs ρ N) (m : Monitor ρ) (s : Str) : Prop :=
  (m.reaction = none ∧ s = chars!"None") ∨ ∃ r, m.reaction = some r ∧ T.rx r = .ok s

theorem monitorRepr_ok {T : DsReprs ρ N} {m : Monitor ρ} {s : Str} : monitorRepr T m = .ok s ↔ MonitorShown T m s := by
  unfold monitorRepr MonitorShown
  cases m.reaction with
  | none => simp [eq_comm]
  | some r => simp

/-- C100: `repr` of a dataset begins with the bibliographic data, the reaction, and all monitors in their order, if there are any. -/
theorem C100_repr_header (T : DsReprs ρ N) (d : DataSet ρ N) (t : Str) (h : d.repr T = .ok t) :
    ∃ r rt ms, d.reaction = some r ∧ T.rx r.1 = .ok rt ∧ List.Forall₂ (MonitorShown T) (d.monitor.getD []) ms ∧
      d.info.record.repr ++ chars!" \nReaction:  " ++ rt ++
        (if ms = [] then [] else chars!" \nMonitor(s):[" ++ joinWith chars!", " ms ++ chars!"]") ++ chars!"\n[" <+: t := by
  unfold DataSet.repr at h
  split at h
  · simp at h
  rename_i hd hhd
  split at h
  · simp at h
  rename_i tb htb
  simp only [Except.ok.injEq] at h
  have h0 : ∃ z, tb = '[' :: z := by
    unfold DataSet.reprTable at htb
    split at htb
    · simp at htb
    · simp only [Except.ok.injEq] at htb
      rw [← htb]
      exact ⟨_, rfl⟩
  obtain ⟨z, rfl⟩ := h0
  unfold DataSet.reprHeader at hhd
  split at hhd
  · simp at hhd
  rename_i r hr
  split at hhd
  · simp at hhd
  rename_i rt hrt
  split at hhd
  · simp at hhd
  rename_i m hm
  simp only [Except.ok.injEq] at hhd
  have key : ∃ ms, List.Forall₂ (MonitorShown T) (d.monitor.getD []) ms ∧
      m = if ms = [] then [] else chars!" \nMonitor(s):[" ++ joinWith chars!", " ms ++ chars!"]" := by
    unfold monitorsLine at hm
    split at hm
    · rename_i he
      rw [he]
      exact ⟨[], .nil, by simpa using (Except.ok.inj hm).symm⟩
    · rename_i he
      rw [he]
      exact ⟨[], .nil, by simpa using (Except.ok.inj hm).symm⟩
    · rename_i l hne he
      rw [he]
      split at hm
      · simp at hm
      · rename_i ts hts
        have hf := (mapE_ok_iff.1 hts).imp fun _ _ h => monitorRepr_ok.1 h
        refine ⟨ts, hf, ?_⟩
        rw [if_neg (by
          rintro rfl
          cases hf
          exact hne rfl)]
        exact (Except.ok.inj hm).symm
  obtain ⟨ms, k1, k2⟩ := key
  refine ⟨r, rt, ms, hr, hrt, k1, z, ?_⟩
  rw [← h, ← hhd, ← k2]
  simp only [List.append_assoc, List.cons_append, List.nil_append]

/-- C100: when `repr` of a dataset can be printed: the reaction is there and can be printed, as can those of the monitors, and every
column has a unit. Monitors need not have a reaction. -/
theorem C100_repr_prints (T : DsReprs ρ N) (d : DataSet ρ N) : (∃ t, d.repr T = .ok t) ↔
    (∃ r rt, d.reaction = some r ∧ T.rx r.1 = .ok rt) ∧ (∀ m ∈ d.monitor.getD [], ∀ r, m.reaction = some r → ∃ s, T.rx r = .ok s) ∧
      none ∉ d.units := by
  constructor
  · rintro ⟨t, h⟩
    obtain ⟨r, rt, ms, h1, h2, h3, -⟩ := C100_repr_header T d t h
    refine ⟨⟨r, rt, h1, h2⟩, ?_, ?_⟩
    · clear h h1 h2
      generalize d.monitor.getD [] = l at h3
      induction h3 with
      | nil => simp
      | cons hx _ ih =>
        intro m hm q hq
        rcases List.mem_cons.1 hm with rfl | hm
        · rcases hx with ⟨hn, -⟩ | ⟨q', hq', hs⟩
          · rw [hn] at hq; cases hq
          · rw [hq] at hq'
            cases hq'
            exact ⟨_, hs⟩
        · exact ih m hm q hq
    · intro hn
      unfold DataSet.repr at h
      split at h
      · simp at h
      split at h
      · simp at h
      rename_i tb htb
      unfold DataSet.reprTable at htb
      split at htb
      · simp at htb
      rename_i us hus
      obtain ⟨i, hi, he⟩ := List.mem_iff_getElem.1 hn
      obtain ⟨y, -, hy⟩ := mapE_get hus i none (by rw [List.getElem?_eq_getElem hi, he])
      simp [joinItem] at hy
  · rintro ⟨⟨r, rt, h1, h2⟩, h3, h4⟩
    have hm : ∃ m, monitorsLine T d.monitor = .ok m := by
      unfold monitorsLine
      split
      · exact ⟨_, rfl⟩
      · exact ⟨_, rfl⟩
      · rename_i l _ he
        rw [he] at h3
        have : ∃ ts, mapE (monitorRepr T) l = .ok ts := by
          have h3' : ∀ m ∈ l, ∃ s, monitorRepr T m = .ok s := by
            intro m hm
            cases hr : m.reaction with
            | none => exact ⟨_, monitorRepr_ok.2 (.inl ⟨hr, rfl⟩)⟩
            | some q =>
              obtain ⟨s, hs⟩ := h3 m hm q hr
              exact ⟨s, monitorRepr_ok.2 (.inr ⟨q, hr, hs⟩)⟩
          clear he h3
          induction l with
          | nil => exact ⟨[], rfl⟩
          | cons m l ih =>
            obtain ⟨s, hs⟩ := h3' m (by simp)
            obtain ⟨ts, hts⟩ : ∃ ts, mapE (monitorRepr T) l = .ok ts := by
              cases l with
              | nil => exact ⟨[], rfl⟩
              | cons a l => exact ih (by simp) fun m hm => h3' m (by simp [hm])
            exact ⟨s :: ts, by simp [mapE, hs, hts]⟩
        obtain ⟨ts, hts⟩ := this
        rw [hts]
        exact ⟨_, rfl⟩
    obtain ⟨m, hm⟩ := hm
    have hu : ∃ us, mapE joinItem d.units = .ok us := by
      clear h3 hm
      generalize d.units = l at h4
      induction l with
      | nil => exact ⟨[], rfl⟩
      | cons x l ih =>
        obtain ⟨us, hus⟩ := ih (fun h => h4 (by simp [h]))
        cases x with
        | none => exact absurd (by simp) h4
        | some s => exact ⟨s :: us, by simp [mapE, joinItem, hus]⟩
    obtain ⟨us, hus⟩ := hu
    unfold DataSet.repr DataSet.reprHeader DataSet.reprTable
    simp only [h1, h2, hm, hus]
    exact ⟨_, rfl⟩

/-! ### examples -/

/-- C100_cells: a dataset with two columns and three rows -/
def accessSet : DataSet Str Nat where
  kind := .generic
  info := { title := some chars!"Capture", subent := some chars!"10001002" }
  reaction := some (chars!"95-AM-241(N,G)", [])
  monitor := some [⟨some chars!"79-AU-197(N,G)", [], none⟩]
  coupled := false
  labels := [chars!"EN", chars!"DATA"]
  units := [some chars!"MEV", some chars!"B"]
  data := [[some 1, some 10], [some 2, none], [some 3, some 30]]

/-- `str` of a small number, for the examples -/
def accessTexts : DsReprs Str Nat := ⟨.ok, natStr⟩

example : accessSet.item (.row (-1)) 1 = .ok (.value (some 30)) ∧ accessSet.item (.row 1) (-1) = .ok (.value none) ∧
    accessSet.item (.text chars!"UNITS") (-2) = .ok (.unit (some chars!"MEV")) := by
  have hR : accessSet.table.Rect := ⟨rfl, by decide⟩
  obtain ⟨_, _, h1, h2, h3⟩ := (C100_cells accessSet hR (-1) 1).1 2 1 rfl rfl
  obtain ⟨_, _, g1, g2, g3⟩ := (C100_cells accessSet hR 1 (-1)).1 1 1 rfl rfl
  obtain ⟨_, _, -, f1, -, f2⟩ := (C100_cells accessSet hR 0 (-2)).2.2.1 0 rfl
  cases h1; cases h2; cases g1; cases g2; cases f1
  exact ⟨h3, g3, f2⟩
example : accessSet.item (.row 3) 0 = .error .indexError := (C100_cells accessSet ⟨rfl, by decide⟩ 3 0).2.1 (.inl rfl)
example : accessSet.item (.row (-4)) 0 = .error .indexError := (C100_cells accessSet ⟨rfl, by decide⟩ (-4) 0).2.1 (.inl rfl)
example : accessSet.item (.text chars!"labels") 0 = .error .keyError := (C100_cells accessSet ⟨rfl, by decide⟩ 0 0).2.2.2.2 _ (by decide) (by decide)

/-- C100_repr_partial applies to it; its table prints as follows. -/
example : ∃ h t, accessSet.repr accessTexts = .ok (h ++ t) ∧ lexList .idle t = some (tableToks [[.text chars!"EN", .text chars!"DATA"],
    [.text chars!"MEV", .text chars!"B"], [.word ['1'], .word chars!"10"], [.word ['2'], .word chars!"None"], [.word ['3'], .word chars!"30"]]) := by
  have hn : ∀ n, BareWord (natStr n) := by
    intro n
    refine ⟨?_, ?_⟩
    · exact (natStr_spec n).2.1
    · intro c hc
      have := natStr_digits n c hc
      revert this
      rintro h hm
      simp only [List.mem_cons, List.not_mem_nil, or_false] at hm
      rcases hm with rfl | rfl | rfl | rfl | rfl | rfl <;> exact absurd h (by decide)
  obtain ⟨t, h1, h2⟩ := C100_repr_partial accessTexts accessSet _ [chars!"MEV", chars!"B"] rfl rfl rfl (by simp [accessSet])
    (by unfold QuoteFree; decide) hn
  exact ⟨_, t, h1, h2⟩
example : accessSet.reprTable accessTexts = .ok chars!"[['EN','DATA'],\n['MEV','B'],\n[1,10],\n[2,None],\n[3,30]]" := by decide +kernel

/-- C100_written_partial applies to the second subentry of an entry. -/
example [PyNum N] (rxd : RxDicts) (r : Measurement × Str) (q : List Str)
    (hrx : (x4Parsers metaDicts).reaction (joinWith [' '] ((docReaction docMain docSub '1').map strip)) = .ok r) (hq : effectiveQuant (x4RxOps rxd) r.1 = .ok q) :
    ∃ d : DataSet Measurement N, d.numrows = 2 ∧ d.numcols = 3 ∧ d.item (.row 0) (-1) = .ok (.value (cellVal chars!"2.5")) ∧
      d.item (.text chars!"LABELS") 2 = .ok (.label chars!"DATA") := by
  obtain ⟨e, st, d, -, -, -, -, h1, h2, h3⟩ := C100_written_partial (N := N) (x4Parsers metaDicts) (x4RxOps rxd) docEntry docEntry_wf docEntry_printable docEntry_readable none docMain docSub (by simp [docEntry])
    (by decide) rfl (by simp [docEntry]) (by decide) rfl _ rfl (by decide)
    '1' (by intro t ht; cases ht; decide) (by intro t ht; cases ht) (by decide +kernel) r hrx q hq
  have h2' : d.numcols = 3 := h2.trans (by decide +kernel)
  have h1' : d.numrows = 2 := h1
  obtain ⟨-, -, g⟩ := h3 (-1) 2 (by rw [h2']; rfl)
  obtain ⟨x, g1, g2⟩ := g 0 0 _ (by rw [h1']; rfl) rfl
  obtain ⟨⟨l, f1, f2⟩, -, -⟩ := h3 2 2 (by rw [h2']; rfl)
  refine ⟨d, h1', h2', ?_, ?_⟩
  · rw [g2]
    have : some (cellVal chars!"2.5") = some x := g1
    cases this; rfl
  · rw [f2]
    have : some (chars!"DATA") = some l := by rw [← f1]; decide +kernel
    cases this; rfl

/-- C100_repr_header and C100_repr_prints apply to it, and to the same dataset with a monitor without reaction; without the units it
cannot be printed. -/
example : (accessSet.repr accessTexts).isOk = true ∧ ({ accessSet with monitor := some [⟨none, [], none⟩] }.repr accessTexts).isOk = true ∧
    ({ accessSet with units := [some chars!"MEV", none] }.repr accessTexts).isOk = false := by decide +kernel

end X4
