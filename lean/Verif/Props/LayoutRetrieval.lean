import Verif.Props.LayoutDemo
import Verif.Props.SimpleRetrieval
import Verif.Props.Examples
/-! Databases whose files are laid out in different ways: the same objects, datasets and printed texts. -/
namespace X4
variable {ρ N : Type}

/-- Two directories with the same files, up to the layout of the files of entries. Other files, and those that are missing, are the same. -/
def SameFiles (db db' : DB) : Prop :=
  ∀ path, db.read path = db'.read path ∨
    ∃ subs F F', (∀ s ∈ subs, SubDoc.wf s) ∧ FileLayout subs F ∧ FileLayout subs F' ∧ db.read path = .ok F ∧ db'.read path = .ok F'

/-- A database directory with an index, whose files have any layout. -/
structure LaidArchive (P : FieldParsers ρ) (docs : List EntryDoc) (db : DB) (table : List Row) : Prop where
  wf : ∀ D ∈ docs, D.wf
  readable : ∀ D ∈ docs, ∀ s ∈ D.subs, s.Readable P
  distinct : (docs.map EntryDoc.acc).Nodup
  files : ∀ D ∈ docs, ∃ F, FileLayout D.subs F ∧ db.read (D.acc.take 3 ++ ['/'] ++ D.acc ++ ".x4".toList) = .ok F
  index : ∀ row ∈ table, ∃ D ∈ docs, ∃ s ∈ D.subs, row.subent = some s.acc

/-- reading the file of an entry and building the object -/
def readEntry (P : FieldParsers ρ) (db : DB) (enum : Str) (subents : Option (List Str)) : Except PyErr (Entry ρ) :=
  match (entryFactoryRaw db enum subents).2 with
  | .error e => .error e
  | .ok l => Entry.build P l

theorem readEntry_same (P : FieldParsers ρ) {db db' : DB} (h : SameFiles db db') (enum : Str) (subents : Option (List Str)) :
    readEntry P db enum subents = readEntry P db' enum subents := by
  unfold readEntry entryFactoryRaw
  by_cases h5 : enum.length ≠ 5
  · rw [if_pos h5, if_pos h5]
  · rw [if_neg h5, if_neg h5]
    simp only
    rcases h (slice enum 0 3 ++ ['/'] ++ enum ++ ".x4".toList) with h | ⟨subs, F, F', hw, h1, h2, h3, h4⟩
    · rw [h]
    · rw [h3, h4]
      exact C120_layout P subs hw F F' h1 h2 subents

theorem retrieve_readEntry (P : FieldParsers ρ) (table : List Row) (db : DB) (c : Criteria) :
    retrieve P table db c = match (query table c).2 with
      | .error e => .error e
      | .ok smap => mapE (fun kv : Str × List Str => (readEntry P db kv.1 (some kv.2)).map fun x => (kv.1, x)) smap := by
  unfold retrieve
  split
  · rename_i h; rw [h]
  · rename_i h
    rw [h]
    simp only
    congr 1
    funext kv
    unfold readEntry
    cases (entryFactoryRaw db kv.1 (some kv.2)).2 with
    | error e => rfl
    | ok l => simp only; cases Entry.build P l <;> rfl

/-- C121: what a query retrieves does not depend on the layout of the files, whether it succeeds or fails. -/
theorem C121_retrieve (P : FieldParsers ρ) (table : List Row) (db db' : DB) (h : SameFiles db db') (c : Criteria) :
    retrieve P table db c = retrieve P table db' c := by
  rw [retrieve_readEntry, retrieve_readEntry]
  simp only [readEntry_same P h]

/-- C121: nor does what indexing the manager gives. -/
theorem C121_getitem (P : FieldParsers ρ) (table : List Row) (db db' : DB) (h : SameFiles db db') (i : Index) :
    managerGetItem P table db i = managerGetItem P table db' i := by
  unfold managerGetItem
  simp only [C121_retrieve P table db db' h]

/-- C121: the program `get-entry` prints the same, whatever the options, except for the text of the file itself (`-f` with `--raw`). -/
theorem C121_program (w w' : GetWorld) (table : List Row) (h : SameFiles w.db w'.db) (hr : w.retrieve = retrieve w.P table w.db)
    (hr' : w'.retrieve = retrieve w'.P table w'.db) (hP : w.P = w'.P) (hn : w.num = w'.num) (hD : w.D = w'.D) (hs : w.sets = w'.sets)
    (hq : w.quoted = w'.quoted) (a : GetArgs) (ha : a.getFile = false ∨ a.raw = false) : getEntry w a = getEntry w' a := by
  have hret : w.retrieve = w'.retrieve := by
    rw [hr, hr', ← hP]
    funext c
    exact C121_retrieve w.P table w.db w'.db h c
  have hsr : searchResult w a = searchResult w' a := by
    unfold searchResult
    rw [hret]
    by_cases hf : a.getFile = false
    · rw [if_pos hf, if_pos hf]
    · rw [if_neg hf, if_neg hf]
      have hraw : a.raw = false := ha.resolve_left hf
      simp only [hraw, Bool.false_eq_true, if_false]
      rw [← hP]
      cases hent : a.ent
      all_goals simp only
      on_goal 1 => have hx := readEntry_same w.P h (slice (a.subent.getD []) 0 5) none
      on_goal 2 => rename_i x; have hx := readEntry_same w.P h x none
      all_goals
        unfold readEntry at hx
        revert hx
        cases (entryFactoryRaw w.db _ none).2 <;> cases (entryFactoryRaw w'.db _ none).2 <;> intro hx <;> simp only at hx ⊢
        · exact congrArg _ (Except.error.inj hx)
        · rw [← hx]
        · rw [hx]
        · rw [hx]
  unfold getEntry
  rw [hsr]
  have hex : ∀ s r, examine w a s r = examine w' a s r := by
    intro s r
    unfold examine
    rw [hn, hD, hs, hq]
  simp only [hex]

/-- the directory with the files as they are written by `EntryDoc.file` -/
def writtenDb (docs : List EntryDoc) (db : DB) : DB :=
  ⟨fun path => match docs.find? fun D => D.acc.take 3 ++ ['/'] ++ D.acc ++ ".x4".toList == path with
    | some D => .ok D.file
    | none => db.read path⟩

theorem path_inj {a b : Str} (h : a.take 3 ++ ['/'] ++ a ++ ".x4".toList = b.take 3 ++ ['/'] ++ b ++ ".x4".toList) (ha : a.length = 5) (hb : b.length = 5) : a = b := by
  have h1 := List.append_cancel_right h
  exact (List.append_inj h1 (by simp [ha, hb])).2

theorem written_same {P : FieldParsers ρ} {docs : List EntryDoc} {db : DB} {table : List Row} (h : LaidArchive P docs db table) :
    SameFiles db (writtenDb docs db) := by
  intro path
  cases hf : docs.find? fun D => D.acc.take 3 ++ ['/'] ++ D.acc ++ ".x4".toList == path with
  | none => left; simp only [writtenDb, hf]
  | some D =>
    have hD := List.mem_of_find?_eq_some hf
    have hp : D.acc.take 3 ++ ['/'] ++ D.acc ++ ".x4".toList = path := by
      have := List.find?_some hf
      exact beq_iff_eq.1 this
    obtain ⟨F, h1, h2⟩ := h.files D hD
    refine .inr ⟨D.subs, F, D.file, fun s hs => ((h.wf D hD).subs s hs).1, h1, C120_written D (h.wf D hD), hp ▸ h2, ?_⟩
    simp only [writtenDb, hf]

theorem written_archive {P : FieldParsers ρ} {docs : List EntryDoc} {db : DB} {table : List Row} (h : LaidArchive P docs db table) :
    Archive P docs (writtenDb docs db) table := by
  refine ⟨h.wf, h.readable, h.distinct, fun D hD => ?_, h.index⟩
  cases hf : docs.find? fun D' => D'.acc.take 3 ++ ['/'] ++ D'.acc ++ ".x4".toList == D.acc.take 3 ++ ['/'] ++ D.acc ++ ".x4".toList with
  | none =>
    have := List.find?_eq_none.1 hf D hD
    simp at this
  | some D' =>
    have hD' := List.mem_of_find?_eq_some hf
    have hp := List.find?_some hf
    simp only [beq_iff_eq] at hp
    have : D' = D := nodup_inj h.distinct hD' hD (path_inj hp (h.wf D' hD').acc (h.wf D hD).acc)
    subst this
    simp only [writtenDb, hf]

/-- C121: what is retrieved from a database with files in any layout are the objects that hold what is written (as in C87). -/
theorem C121_holds (P : FieldParsers ρ) (docs : List EntryDoc) (db : DB) (table : List Row) (hA : LaidArchive P docs db table) (c : Criteria)
    (hp : Plain c) (hg : c.given) :
    ∃ r, retrieve P table db c = .ok r ∧ r.keys.Pairwise StrLt ∧
      (∀ D ∈ docs, D.acc ∈ r.keys ↔ ∃ s ∈ D.subs, Hit table c s.acc) ∧
      ∀ k e, (k, e) ∈ r → ∃ D ∈ docs, D.acc = k ∧ ∃ subs, EntryHolds P D subs e ∧ subs.Sublist D.subs ∧
        ∀ s ∈ D.subs, s ∈ subs ↔ s.acc = D.acc ++ "001".toList ∨ Hit table c s.acc := by
  rw [C121_retrieve P table db _ (written_same hA)]
  exact C87_retrieve P docs _ table (written_archive hA) c hp hg

/-- The datasets of the retrieved entry have the columns, units, values and reactions that are written in its file (for tables as in C86). -/
theorem laid_datasets [PyNum N] (P : FieldParsers ρ) (rx : RxOps ρ) (docs : List EntryDoc) (db : DB) (table : List Row) (hA : LaidArchive P docs db table) (c : Criteria)
    (hp : Plain c) (hg : c.given) (D : EntryDoc) (hD : D ∈ docs) (hpr : D.Printable P rx) (m s : SubDoc) (hm : m ∈ D.subs) (hma : m.acc = D.acc ++ "001".toList) (hs : s ∈ D.subs)
    (hsa : s.acc ≠ m.acc) (hit : Hit table c s.acc)
    (t : TableDoc) (ht : s.data = some t) (hl : t.labels.Nodup) (p : Char) (hc1 : PlainDoc p m.common) (hc2 : PlainDoc p s.common) (hrp : docReaction m s p ≠ [])
    (r : ρ × Str) (hrx : P.reaction (joinWith [' '] ((docReaction m s p).map strip)) = .ok r) (q : List Str) (hq : effectiveQuant rx r.1 = .ok q) :
    ∃ (R : Dict Str (Entry ρ)) (e : Entry ρ) (st : DsState ρ N) (d : DataSet ρ N), retrieve P table db c = .ok R ∧ R.get? D.acc = some e ∧ e.getDataSets rx [] = .ok st ∧
      st.datasets.get? (D.acc, some s.acc, p) = some d ∧ d.reaction = some r ∧ d.kind = kindOf q ∧ d.simplified = false ∧ d.table = docTable m s t p := by
  rw [C121_retrieve P table db _ (written_same hA)]
  obtain ⟨R, e, st, d, g1, g2, g3, g4, g5, g6, g7, g8, g9, g10⟩ := C87_datasets_partial (N := N) P rx docs _ table (written_archive hA) c hp hg D hD hpr m s hm hma hs hsa hit
    t ht hl p hc1 hc2 hrp r hrx q hq
  exact ⟨R, e, st, d, g1, g2, g3, g4, g5, g6, g7, by simp only [DataSet.table, docTable, g8, g9, g10]⟩

/-- And the simplified cross sections are those written in the file, in MeV and barns (for tables as in C88). -/
theorem laid_simplified (P : FieldParsers ρ) (rx : RxOps ρ) (docs : List EntryDoc) (db : DB) (table : List Row) (hA : LaidArchive P docs db table) (c : Criteria)
    (hp : Plain c) (hg : c.given) (D : EntryDoc) (hD : D ∈ docs) (hpr : D.Printable P rx) (m s : SubDoc) (hm : m ∈ D.subs) (hma : m.acc = D.acc ++ "001".toList) (hs : s ∈ D.subs)
    (hsa : s.acc ≠ m.acc) (hit : Hit table c s.acc)
    (t : TableDoc) (ht : s.data = some t) (hl : t.labels.Nodup) (p : Char) (hc1 : PlainDoc p m.common) (hc2 : PlainDoc p s.common) (hrp : docReaction m s p ≠ [])
    (r : ρ × Str) (hrx : P.reaction (joinWith [' '] ((docReaction m s p).map strip)) = .ok r) (q : List Str) (hq : effectiveQuant rx r.1 = .ok q) (hk : kindOf q = .crossSection)
    (q1 q2 : Quantity) (h1 : EnergyGiven "EN".toList "Energy".toList (docTable m s t p) q1) (h2 : DataGiven unitsOfCrossSection (docTable m s t p) q2)
    (hv : ∀ q ∈ [q1, q2], ∃ row ∈ (docTable m s t p).data, q.val row ≠ none) (makeAll failMissing : Bool)
    (he : makeAll = true ∨ failMissing = false ∨ ∀ q ∈ [q1, q2], q.HasErr (docTable m s t p).data) :
    ∃ (R : Dict Str (Entry ρ)) (e : Entry ρ) (st : DsState ρ ℝ) (d d' : DataSet ρ ℝ), retrieve P table db c = .ok R ∧ R.get? D.acc = some e ∧ e.getDataSets rx [] = .ok st ∧
      st.datasets.get? (D.acc, some s.acc, p) = some d ∧ d.reaction = some r ∧ d.getSimplified makeAll failMissing = .ok d' ∧ d'.reaction = some r ∧
      d'.table = quantityTable [q1, q2] (docTable m s t p).data makeAll := by
  rw [C121_retrieve P table db _ (written_same hA)]
  exact C88_retrieved_partial P rx docs _ table (written_archive hA) c hp hg D hD hpr m s hm hma hs hsa hit t ht hl p hc1 hc2 hrp r hrx q hq hk q1 q2 h1 h2 hv makeAll failMissing he

/-! ### a database with a file in the layout of a real one -/

def row12898 : Row := ⟨some chars!"12898", some chars!"12898002", some ['2'], some chars!"Smith", some chars!"N,P", some ['N'], some chars!"V-51", some chars!"SIG"⟩
def db12898 : DB := ⟨fun p => if p = chars!"128/12898.x4" then .ok file12898 else .error .ioError⟩
def written12898 : DB := ⟨fun p => if p = chars!"128/12898.x4" then .ok entry12898.file else .error .ioError⟩

/-- C121_retrieve, C121_getitem, C121_program: the real layout and the written one. -/
theorem same12898 : SameFiles db12898 written12898 := by
  intro path
  by_cases h : path = chars!"128/12898.x4"
  · refine .inr ⟨entry12898.subs, file12898, entry12898.file, fun s hs => (entry12898_wf.subs s hs).1, file12898_layout, C120_written _ entry12898_wf, ?_, ?_⟩
    · simp only [db12898, h, if_true]
    · simp only [written12898, h, if_true]
  · exact .inl (by simp only [db12898, written12898, h, if_false])

theorem laid12898 : LaidArchive (x4Parsers metaDicts) [entry12898] db12898 [row12898] := by
  refine ⟨?_, ?_, by decide, ?_, ?_⟩
  · intro D hD
    obtain rfl := List.mem_singleton.1 hD
    exact entry12898_wf
  · intro D hD
    obtain rfl := List.mem_singleton.1 hD
    exact entry12898_readable
  · intro D hD
    obtain rfl := List.mem_singleton.1 hD
    refine ⟨_, file12898_layout, ?_⟩
    have : entry12898.acc.take 3 ++ ['/'] ++ entry12898.acc ++ ".x4".toList = chars!"128/12898.x4" := by decide
    simp only [db12898, this, if_true]
  · intro row hrow
    obtain rfl := List.mem_singleton.1 hrow
    exact ⟨entry12898, by simp, _, List.mem_cons_of_mem _ (List.mem_cons_self ..), rfl⟩

theorem hit12898 : Hit [row12898] { target := some chars!"v-51" } chars!"12898002" := by
  refine ⟨row12898, by simp, ⟨?_, ?_, ?_, ?_, ?_, ?_, ?_⟩, rfl⟩ <;> rintro a ⟨⟩
  decide
theorem plain12898 : Plain { target := some chars!"v-51" } := by
  refine ⟨?_, ?_, ?_, ?_, ?_, ?_, ?_⟩ <;> rintro a ⟨⟩
  exact ⟨by decide, by decide⟩

/-- C121_holds: the entry is found in the file in the real layout. -/
example : ∃ R, retrieve (x4Parsers metaDicts) [row12898] db12898 { target := some chars!"v-51" } = .ok R ∧ chars!"12898" ∈ R.keys := by
  obtain ⟨R, h1, -, h3, -⟩ := C121_holds _ _ _ _ laid12898 _ plain12898 (by simp [Criteria.given])
  exact ⟨R, h1, (h3 entry12898 (by simp)).2 ⟨_, List.mem_cons_of_mem _ (List.mem_cons_self ..), hit12898⟩⟩

/-- the other entry, with a line before it -/
def docDb' : DB := ⟨fun p => if p = chars!"100/10001.x4" then .ok (chars!"TRANS             1234   20211231\n" :: docEntry.file) else .error .ioError⟩

theorem docLaid : LaidArchive (x4Parsers metaDicts) [docEntry] docDb' [docRow1] := by
  refine ⟨docArchive.wf, docArchive.readable, docArchive.distinct, fun D hD => ?_, docArchive.index⟩
  obtain rfl := List.mem_singleton.1 hD
  refine ⟨chars!"TRANS             1234   20211231\n" :: docEntry.file, .other _ (by decide) (by decide) (C120_written _ docEntry_wf), ?_⟩
  have : docEntry.acc.take 3 ++ ['/'] ++ docEntry.acc ++ ".x4".toList = chars!"100/10001.x4" := by decide
  simp only [docDb', this, if_true]

/-- laid_datasets, laid_simplified: its dataset for the first pointer, simplified. -/
example (rxd : RxDicts) (r : Measurement × Str)
    (hrx : (x4Parsers metaDicts).reaction (joinWith [' '] ((docReaction docMain docSub '1').map strip)) = .ok r) (hq : effectiveQuant (x4RxOps rxd) r.1 = .ok [chars!"SIG"]) :
    ∃ (R : Dict Str (Entry Measurement)) (e : Entry Measurement) (st : DsState Measurement ℝ) (d d' : DataSet Measurement ℝ),
      retrieve (x4Parsers metaDicts) [docRow1] docDb' { target := some chars!"am-241" } = .ok R ∧ R.get? chars!"10001" = some e ∧
      e.getDataSets (x4RxOps rxd) [] = .ok st ∧ st.datasets.get? (chars!"10001", some chars!"10001002", '1') = some d ∧ d.getSimplified false false = .ok d' := by
  obtain ⟨R, e, st, d, d', h1, h2, h3, h4, h5, h6, -, h8⟩ := laid_simplified (x4Parsers metaDicts) (x4RxOps rxd) _ _ _ docLaid _ docPlain (by simp [Criteria.given])
    docEntry (by simp) docEntry_printable docMain docSub (by simp [docEntry]) (by decide) (by simp [docEntry]) (by decide) docHit docTable1 rfl (by decide)
    '1' (by intro t ht; cases ht; decide) (by intro t ht; cases ht) (by decide +kernel) r hrx _ hq (by decide +kernel) docQ1 docQ2 docQ1_given docQ2_given
    (by
      rw [docTable1_data]
      intro q hq
      simp only [List.mem_cons, List.not_mem_nil, or_false] at hq
      refine ⟨_, List.mem_cons_self .., ?_⟩
      rcases hq with rfl | rfl <;> simp [docQ1, docQ2, valueIn, cell]) false false (.inr (.inl rfl))
  exact ⟨R, e, st, d, d', h1, h2, h3, h4, h6⟩

end X4
