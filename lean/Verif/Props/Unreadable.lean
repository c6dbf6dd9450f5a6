import Verif.Props.Retrieval
/-! Property C97: what happens when something in a file cannot be read. -/
namespace X4
variable {ρ : Type}

/-! ### the first thing that cannot be read -/

/-- `c` is the first cell of the table that is not a number. -/
def BrokenCell (t : TableDoc) (c : Str) : Prop :=
  ∃ pre post, t.rows.flatten = pre ++ c :: post ∧ (∀ x ∈ pre, ∃ v, parseFORTRANNumber x = .ok v) ∧ ∀ v, parseFORTRANNumber c ≠ .ok v

/-- all cells are numbers (or blank) -/
def Numbers (t : TableDoc) : Prop := ∀ r ∈ t.rows, ∀ c ∈ r, ∃ v, parseFORTRANNumber c = .ok v

def FieldsRead (P : FieldParsers ρ) (fs : List FieldDoc) : Prop := ∀ f ∈ fs, ∃ v, buildField P (some f.tag) f.lines = .ok v

/-- The first thing in a subentry that cannot be read, and its exception: a field of the BIB section, a cell of the COMMON table,
a cell of the DATA table. -/
inductive SubDoc.Fails (P : FieldParsers ρ) (s : SubDoc) : PyErr → Prop where
  | field (pre : List FieldDoc) (f : FieldDoc) (post : List FieldDoc) (e : PyErr) (h : s.bib = pre ++ f :: post) (h1 : FieldsRead P pre)
      (h2 : buildField P (some f.tag) f.lines = .error e) : s.Fails P e
  | common (t : TableDoc) (c : Str) (h : FieldsRead P s.bib) (h1 : s.common = some t) (h2 : BrokenCell t c) : s.Fails P (.brokenNumberError c)
  | data (t : TableDoc) (c : Str) (h : FieldsRead P s.bib) (h0 : ∀ t ∈ s.common, Numbers t) (h1 : s.data = some t) (h2 : BrokenCell t c) :
      s.Fails P (.brokenNumberError c)

/-- the exception of a result -/
def errB {α : Type} : Except PyErr α → Option PyErr
  | .ok _ => none
  | .error e => some e
theorem errB_iff {α : Type} {x : Except PyErr α} {e : PyErr} : errB x = some e ↔ x = .error e := by
  cases x <;> simp [errB]

/-! ### loops that fail -/

theorem mapE_error_iff {ε α β : Type} {f : α → Except ε β} {l : List α} {e : ε} :
    mapE f l = .error e ↔ ∃ pre a post, l = pre ++ a :: post ∧ (∀ x ∈ pre, ∃ b, f x = .ok b) ∧ f a = .error e := by
  induction l with
  | nil => simp [mapE]
  | cons a l ih =>
    unfold mapE
    cases ha : f a with
    | error e' =>
      constructor
      · rintro ⟨⟩
        exact ⟨[], a, l, rfl, by simp, ha⟩
      · rintro ⟨pre, b, post, h, hpre, hb⟩
        cases pre with
        | nil =>
          obtain ⟨rfl, -⟩ := List.cons.inj h
          rw [ha] at hb
          simpa using hb
        | cons x pre =>
          obtain ⟨rfl, -⟩ := List.cons.inj h
          obtain ⟨b', hb'⟩ := hpre a (by simp)
          rw [ha] at hb'
          cases hb'
    | ok b =>
      have : (match mapE f l with | .error e => .error e | .ok bs => .ok (b :: bs) : Except ε (List β)) = .error e ↔ mapE f l = .error e := by
        cases mapE f l <;> simp
      refine this.trans (ih.trans ?_)
      constructor
      · rintro ⟨pre, c, post, rfl, hpre, hc⟩
        refine ⟨a :: pre, c, post, rfl, ?_, hc⟩
        intro x hx
        rcases List.mem_cons.1 hx with rfl | hx
        · exact ⟨b, ha⟩
        · exact hpre x hx
      · rintro ⟨pre, c, post, h, hpre, hc⟩
        cases pre with
        | nil =>
          obtain ⟨rfl, -⟩ := List.cons.inj h
          rw [ha] at hc
          cases hc
        | cons x pre =>
          obtain ⟨rfl, rfl⟩ := List.cons.inj h
          exact ⟨pre, c, post, rfl, fun x hx => hpre x (by simp [hx]), hc⟩

theorem mapE_mapE_flatten {ε α β : Type} {f : α → Except ε β} (ls : List (List α)) (e : ε) :
    mapE (mapE f) ls = .error e ↔ mapE f ls.flatten = .error e := by
  have happ : ∀ a b : List α, mapE f (a ++ b) = match mapE f a with | .error e => .error e | .ok x => (mapE f b).map (x ++ ·) := by
    intro a b
    induction a with
    | nil => simp only [List.nil_append, mapE]; cases mapE f b <;> rfl
    | cons x a ih =>
      simp only [List.cons_append, mapE, ih]
      cases f x with
      | error e => rfl
      | ok y =>
        cases mapE f a with
        | error e => rfl
        | ok ys => cases mapE f b <;> rfl
  induction ls with
  | nil => simp [mapE]
  | cons l ls ih =>
    simp only [mapE, List.flatten_cons, happ]
    cases mapE f l with
    | error e => simp
    | ok x =>
      simp only
      cases h1 : mapE (mapE f) ls <;> cases h2 : mapE f ls.flatten <;> simp_all [Except.map]

theorem parse_error {c : Str} {e : PyErr} (h : parseFORTRANNumber c = .error e) : e = .brokenNumberError c := by
  unfold parseFORTRANNumber at h
  split at h
  · cases h
  · split at h
    · cases h
    · split at h
      · cases h
      · cases h; rfl

theorem broken_iff (t : TableDoc) (e : PyErr) :
    mapE (mapE parseFORTRANNumber) t.rows = .error e ↔ ∃ c, BrokenCell t c ∧ e = .brokenNumberError c := by
  rw [mapE_mapE_flatten, mapE_error_iff]
  constructor
  · rintro ⟨pre, c, post, h1, h2, h3⟩
    exact ⟨c, ⟨pre, post, h1, h2, by rw [h3]; simp⟩, parse_error h3⟩
  · rintro ⟨c, ⟨pre, post, h1, h2, h3⟩, rfl⟩
    refine ⟨pre, c, post, h1, h2, ?_⟩
    cases h : parseFORTRANNumber c with
    | error e => rw [parse_error h]
    | ok v => exact absurd h (h3 v)

theorem numbers_or (t : TableDoc) : Numbers t ∨ ∃ c, BrokenCell t c := by
  cases h : mapE (mapE parseFORTRANNumber) t.rows with
  | error e =>
    obtain ⟨c, hc, -⟩ := (broken_iff t e).1 h
    exact .inr ⟨c, hc⟩
  | ok vs =>
    left
    intro r hr c hc
    obtain ⟨i, hi⟩ := List.mem_iff_getElem?.1 hr
    obtain ⟨y, -, hy⟩ := mapE_get h i r hi
    obtain ⟨j, hj⟩ := List.mem_iff_getElem?.1 hc
    obtain ⟨v, -, hv⟩ := mapE_get hy j c hj
    exact ⟨v, hv⟩

theorem fields_or (P : FieldParsers ρ) (fs : List FieldDoc) :
    FieldsRead P fs ∨ ∃ pre f post e, fs = pre ++ f :: post ∧ FieldsRead P pre ∧ buildField P (some f.tag) f.lines = .error e := by
  cases h : mapE (fun f : FieldDoc => buildField P (some f.tag) f.lines) fs with
  | error e =>
    obtain ⟨pre, f, post, h1, h2, h3⟩ := mapE_error_iff.1 h
    exact .inr ⟨pre, f, post, e, h1, h2, h3⟩
  | ok vs =>
    left
    intro f hf
    obtain ⟨i, hi⟩ := List.mem_iff_getElem?.1 hf
    obtain ⟨y, -, hy⟩ := mapE_get h i f hi
    exact ⟨y, hy⟩

/-- a subentry can be read, or something in it fails -/
theorem readable_or (P : FieldParsers ρ) (s : SubDoc) : s.Readable P ∨ ∃ e, s.Fails P e := by
  rcases fields_or P s.bib with h | ⟨pre, f, post, e, h1, h2, h3⟩
  · have hopt : ∀ o : Option TableDoc, (∀ t ∈ o, Numbers t) ∨ ∃ t c, o = some t ∧ BrokenCell t c := by
      intro o
      cases o with
      | none => exact .inl (by simp)
      | some t =>
        rcases numbers_or t with h | ⟨c, h⟩
        · left
          rintro t' ⟨⟩
          exact h
        · exact .inr ⟨t, c, rfl, h⟩
    rcases hopt s.common with hc | ⟨t, c, h1, h2⟩
    · rcases hopt s.data with hd | ⟨t, c, h1, h2⟩
      · exact .inl ⟨h, hc, hd⟩
      · exact .inr ⟨_, .data t c h hc h1 h2⟩
    · exact .inr ⟨_, .common t c h h1 h2⟩
  · exact .inr ⟨e, .field pre f post e h1 h2 h3⟩

/-! ### subentries -/

theorem sub_fails (P : FieldParsers ρ) {s : SubDoc} (h : s.wf) {e : PyErr} (hf : s.Fails P e) : SubEntry.build P (s.lines ++ [[]]) = .error e := by
  have hsec : extractX4SectionType s.bibLines = some "BIB".toList := by
    rw [SubDoc.bibLines, List.append_assoc]
    exact sectionType_head (by decide) (by decide) (by decide) _ _
  unfold SubEntry.build
  rw [sub_chunks h, foldE]
  have htab : ∀ (tag : Str) (htag : tag = chars!"DATA" ∨ tag = chars!"COMMON") (t : TableDoc) (ht : t.wf) (c : Str) (hc : BrokenCell t c)
      (d : Dict Str (Sec ρ)), sectionStep P d (t.lines tag) = .error (.brokenNumberError c) := by
    intro tag htag t ht c hc d
    have h3 : strip tag = tag ∧ tag.length ≤ 10 ∧ isSectionName tag = true ∧ tag ≠ "BIB".toList := by
      rcases htag with rfl | rfl <;> decide
    unfold sectionStep
    have : extractX4SectionType (t.lines tag) = some tag := by
      rw [TableDoc.lines, List.append_assoc]
      exact sectionType_head h3.1 h3.2.1 h3.2.2.1 _ _
    rw [this]
    simp only [if_neg h3.2.2.2, table_broken tag htag t ht _ ((broken_iff t _).2 ⟨c, hc, rfl⟩)]
  have hbib : FieldsRead P s.bib → ∃ b, sectionStep P [] s.bibLines = .ok [("BIB".toList, .bib b)] := by
    intro hr
    obtain ⟨b, hb1, -⟩ := bib_read P h hr
    refine ⟨b, ?_⟩
    unfold sectionStep
    rw [hsec]
    simp only [if_true, hb1]
    rfl
  cases hf with
  | field pre f post e hb h1 h2 =>
    have hd : (s.bib.map fun f => some f.tag).Nodup := by
      have := (List.nodup_map_iff (Option.some_injective Str)).2 h.tags
      rwa [List.map_map] at this
    have hbuild : BibSection.build P s.bibLines = .error e := by
      unfold BibSection.build
      rw [bib_chunks h, hb, List.map_append, foldE_append]
      rw [hb, List.map_append] at hd
      obtain ⟨kvs, hk, -⟩ := bib_fold (P := P) pre (fun f hf => h.fields f (by rw [hb]; simp [hf])) h1 ⟨[], []⟩ hd.of_append_left (by simp [Dict.keys])
      rw [hk]
      simp only [List.map_cons, foldE]
      have hft : extractX4FieldType f.lines = .ok (some f.tag) := fieldType_doc (h.fields f (by rw [hb]; simp))
      unfold bibStep
      simp only [hft, h2]
    unfold sectionStep
    rw [hsec]
    simp only [if_true, hbuild]
  | common t c hr h1 h2 =>
    obtain ⟨b, hb⟩ := hbib hr
    rw [hb]
    simp only [h1, Option.elim_some, List.singleton_append, foldE, htab _ (.inr rfl) t (h.common t h1) c h2]
  | data t c hr h0 h1 h2 =>
    obtain ⟨b, hb⟩ := hbib hr
    obtain ⟨e1, hc, -⟩ := optTable_read (tag := chars!"COMMON") (.inr rfl) P s.common h.common h0 [("BIB".toList, .bib b)] (by simp [Dict.keys])
    rw [hb]
    simp only [foldE_append, hc, h1, Option.elim_some, foldE, htab _ (.inl rfl) t (h.data t h1) c h2]

/-! ### entries -/

theorem split_file (D : EntryDoc) (h : D.wf) (subents : Option (List Str)) :
    splitEntryFile subents D.file = (D.subs.filter fun s => requested subents s.acc).map SubDoc.text := by
  have hw : ∀ s ∈ D.subs, s.wf := fun s hs => (h.subs s hs).1
  rw [C10_lossless _ _ (file_stretches D hw), List.filter_map, List.map_map]
  have : D.subs.filter ((fun s : SubentText => requested subents s.accession) ∘ SubDoc.stretch) = D.subs.filter fun s => requested subents s.acc := by
    apply List.filter_congr
    intro s hs
    rw [Function.comp, stretch_acc (hw s hs)]
  rw [this]
  apply List.map_congr_left
  intro s _
  rw [Function.comp, stretch_lines, SubDoc.text]

/-- C97: the first thing that cannot be read in the requested subentries decides: its exception is raised, and there is no object. -/
theorem C97_entry (P : FieldParsers ρ) (D : EntryDoc) (h : D.wf) (subents : Option (List Str)) (pre post : List SubDoc) (s : SubDoc) (e : PyErr)
    (hs : (D.subs.filter fun s => requested subents s.acc) = pre ++ s :: post) (hpre : ∀ s ∈ pre, s.Readable P) (hf : s.Fails P e) :
    Entry.build P (splitEntryFile subents D.file) = .error e := by
  have hsub : ∀ x ∈ pre ++ s :: post, x ∈ D.subs := by
    intro x hx
    rw [← hs] at hx
    exact (List.mem_filter.1 hx).1
  have hwf : ∀ x ∈ pre ++ s :: post, x.wf := fun x hx => (h.subs x (hsub x hx)).1
  have hnd : ((pre ++ s :: post).map SubDoc.acc).Nodup := by
    rw [← hs]
    exact h.distinct.sublist (List.Sublist.map _ List.filter_sublist)
  rw [split_file D h, hs]
  unfold Entry.build
  rw [entryNumber_doc (by simp) (fun x hx => h.subs x (hsub x hx))]
  simp only [h.acc, ne_eq, not_true_eq_false, if_false]
  rw [List.map_append, foldE_append]
  rw [List.map_append] at hnd
  obtain ⟨kvs, hk, -⟩ := subs_fold (P := P) pre (fun x hx => hwf x (by simp [hx])) hpre [] hnd.of_append_left (by simp [Dict.keys])
  rw [hk]
  simp only [List.map_cons, foldE]
  have : entryStep P ([] ++ kvs) s.text = .error e := by
    unfold entryStep
    rw [SubDoc.text, splitChar_lines (nl_sub (hwf s (by simp))), sub_fails P (hwf s (by simp)) hf]
  rw [this]

/-- C97: an entry can be read exactly if every requested subentry can be read completely (some subentry being requested). -/
theorem C97_all_or_nothing (P : FieldParsers ρ) (D : EntryDoc) (h : D.wf) (subents : Option (List Str)) (hs : ∃ s ∈ D.subs, requested subents s.acc) :
    (∃ x, Entry.build P (splitEntryFile subents D.file) = .ok x) ↔ ∀ s ∈ D.subs, requested subents s.acc → s.Readable P := by
  constructor
  · rintro ⟨x, hx⟩ s hs hreq
    by_contra hn
    have : ∃ pre s' post, (D.subs.filter fun s => requested subents s.acc) = pre ++ s' :: post ∧ (∀ s ∈ pre, s.Readable P) ∧ ¬ s'.Readable P := by
      have hmem : s ∈ D.subs.filter fun s => requested subents s.acc := List.mem_filter.2 ⟨hs, hreq⟩
      generalize (D.subs.filter fun s => requested subents s.acc) = l at hmem
      induction l with
      | nil => simp at hmem
      | cons a l ih =>
        by_cases ha : a.Readable P
        · rcases List.mem_cons.1 hmem with rfl | hm
          · exact absurd ha hn
          · obtain ⟨pre, s', post, h1, h2, h3⟩ := ih hm
            refine ⟨a :: pre, s', post, by rw [h1]; rfl, ?_, h3⟩
            intro y hy
            rcases List.mem_cons.1 hy with rfl | hy
            · exact ha
            · exact h2 y hy
        · exact ⟨[], a, l, rfl, by simp, ha⟩
    obtain ⟨pre, s', post, h1, h2, h3⟩ := this
    rcases readable_or P s' with hr | ⟨e, he⟩
    · exact h3 hr
    · rw [C97_entry P D h subents pre post s' e h1 h2 he] at hx
      cases hx
  · intro hr
    have hsub : ∀ s ∈ D.subs.filter fun s => requested subents s.acc, s ∈ D.subs ∧ requested subents s.acc := by
      intro s hs
      exact List.mem_filter.1 hs
    have hne : (D.subs.filter fun s => requested subents s.acc) ≠ [] := by
      obtain ⟨s, hs1, hs2⟩ := hs
      exact List.ne_nil_of_mem (List.mem_filter.2 ⟨hs1, hs2⟩)
    have hnd : ((D.subs.filter fun s => requested subents s.acc).map SubDoc.acc).Nodup := h.distinct.sublist (List.Sublist.map _ List.filter_sublist)
    obtain ⟨kvs, h2, -⟩ := subs_fold (P := P) _ (fun s hs => (h.subs s (hsub s hs).1).1) (fun s hs => hr s (hsub s hs).1 (hsub s hs).2) [] hnd (by simp [Dict.keys])
    rw [split_file D h]
    unfold Entry.build
    rw [entryNumber_doc hne (fun s hs => h.subs s (hsub s hs).1), h2]
    simp only [h.acc]
    exact ⟨_, rfl⟩

/-! ### queries -/

/-- a database directory with entries in EXFOR format, readable or not, and an index of subentries in it -/
structure Written (docs : List EntryDoc) (db : DB) (table : List Row) : Prop where
  wf : ∀ D ∈ docs, D.wf
  distinct : (docs.map EntryDoc.acc).Nodup
  files : ∀ D ∈ docs, db.read (D.acc.take 3 ++ ['/'] ++ D.acc ++ ".x4".toList) = .ok D.file
  index : ∀ row ∈ table, ∃ D ∈ docs, ∃ s ∈ D.subs, row.subent = some s.acc

/-- C97: one subentry that meets the criteria and cannot be read, or the first subentry of such an entry, makes the whole query fail:
nothing is retrieved, whatever else meets the criteria. -/
theorem C97_retrieve (P : FieldParsers ρ) (docs : List EntryDoc) (db : DB) (table : List Row) (hA : Written docs db table) (c : Criteria)
    (hp : Plain c) (hg : c.given) (D : EntryDoc) (hD : D ∈ docs) (hh : ∃ s ∈ D.subs, Hit table c s.acc) (s : SubDoc) (hs : s ∈ D.subs)
    (hs' : s.acc = D.acc ++ "001".toList ∨ Hit table c s.acc) (hr : ¬ s.Readable P) : ∃ e, retrieve P table db c = .error e := by
  obtain ⟨m, hm, hgr⟩ := C45_partial table c hp hg (fun row hrow => by
    obtain ⟨D, -, s, -, hs⟩ := hA.index row hrow
    rw [hs]
    simp)
  cases hret : retrieve P table db c with
  | error e => exact ⟨e, rfl⟩
  | ok r =>
    exfalso
    unfold retrieve at hret
    rw [hm] at hret
    obtain ⟨s0, hs0, hh0⟩ := hh
    have hk : D.acc ∈ m.keys := (hgr.keys D.acc).2 ⟨s0.acc, hh0, ((hA.wf D hD).subs s0 hs0).2⟩
    obtain ⟨⟨k, names⟩, hkv, hk⟩ := List.mem_map.1 hk
    simp only at hk
    subst hk
    obtain ⟨t, rfl, -, ht2⟩ := hgr.lists _ _ hkv
    have hreq : ∀ s ∈ D.subs, s.acc = D.acc ++ "001".toList ∨ Hit table c s.acc → requested (some ((D.acc ++ ['0', '0', '1']) :: t)) s.acc = true := by
      intro s hs h
      have e1 : "001".toList = ['0', '0', '1'] := by decide
      rw [e1] at h
      simp only [requested, decide_eq_true_eq, List.mem_cons]
      rw [ht2]
      rcases h with h | h
      · exact .inl h
      · by_cases h0 : s.acc = D.acc ++ ['0', '0', '1']
        · exact .inl h0
        · exact .inr ⟨h, ((hA.wf D hD).subs s hs).2, h0⟩
    obtain ⟨i, hi⟩ := List.mem_iff_getElem?.1 hkv
    obtain ⟨y, -, hy⟩ := mapE_get hret i _ hi
    have hraw : (entryFactoryRaw db D.acc (some ((D.acc ++ ['0', '0', '1']) :: t))).2 = .ok (splitEntryFile (some ((D.acc ++ ['0', '0', '1']) :: t)) D.file) := by
      unfold entryFactoryRaw
      rw [if_neg (by rw [(hA.wf D hD).acc]; simp)]
      simp only [slice, List.drop_zero]
      rw [hA.files D hD]
    simp only [hraw] at hy
    cases hb : Entry.build P (splitEntryFile (some ((D.acc ++ ['0', '0', '1']) :: t)) D.file) with
    | error e => rw [hb] at hy; cases hy
    | ok x =>
      exact hr ((C97_all_or_nothing P D (hA.wf D hD) _ ⟨s, hs, hreq s hs hs'⟩).1 ⟨x, hb⟩ s hs (hreq s hs hs'))

/-! ### which exceptions the fields raise -/

theorem reraise_error {α : Type} {e' e : PyErr} {x : Except PyErr α} :
    reraise e' x = .error e ↔ ∃ e0, x = .error e0 ∧ e = if e0 = .parseException then e' else e0 := by
  unfold reraise
  split
  · simp [eq_comm]
  · rename_i h
    constructor
    · rintro rfl
      refine ⟨e, rfl, ?_⟩
      rw [if_neg]
      rintro rfl
      exact h rfl
    · rintro ⟨e0, rfl, rfl⟩
      rw [if_neg]
      rintro rfl
      exact h rfl

theorem reraise_ok {α : Type} {e' : PyErr} {x : Except PyErr α} {a : α} : reraise e' x = .ok a ↔ x = .ok a := by
  unfold reraise
  split
  · simp
  · rfl

/-- the first pointer whose text cannot be read by a parser, and the exception of the parser -/
def FirstUnreadable {α : Type} (subs : Dict Char (List Str)) (text : List Str → Str) (parse : Str → Except PyErr α) (e : PyErr) : Prop :=
  ∃ pre p lines post, subs = pre ++ (p, lines) :: post ∧ (∀ q ls, (q, ls) ∈ pre → ∃ v, parse (text ls) = .ok v) ∧ parse (text lines) = .error e

/-- C97: a REACTION field fails with the exception of the parser for the first pointer that cannot be read; ReactionParsingError if it
does not follow the grammar. -/
theorem C97_reaction (P : FieldParsers ρ) (raw : List Str) (f : PlainField) (hf : PlainField.build raw = .ok f) (e : PyErr) :
    buildField P (some chars!"REACTION") raw = .error e ↔
      ∃ e0, FirstUnreadable f.subs (fun ls => joinWith [' '] (ls.map strip)) P.reaction e0 ∧ e = if e0 = .parseException then .reactionParsingError else e0 := by
  have h0 : buildField P (some chars!"REACTION") raw = .error e ↔ mapE (reactionOf P) f.subs = .error e := by
    unfold buildField
    rw [if_pos (by decide)]
    unfold finishField
    rw [hf]
    simp only
    cases mapE (reactionOf P) f.subs <;> simp
  have h1 : ∀ (kv : Char × List Str) e, reactionOf P kv = .error e ↔ ∃ e0, P.reaction (joinWith [' '] (kv.2.map strip)) = .error e0 ∧ e = if e0 = .parseException then .reactionParsingError else e0 := by
    intro kv e
    rw [← reraise_error (e' := .reactionParsingError)]
    unfold reactionOf
    show (match reraise PyErr.reactionParsingError (P.reaction (joinWith [' '] (kv.2.map strip))) with
      | .error e => .error e | .ok r => .ok (kv.1, r.1, r.2) : Except PyErr _) = _ ↔ _
    cases reraise PyErr.reactionParsingError (P.reaction (joinWith [' '] (kv.2.map strip))) <;> simp
  have h2 : ∀ (kv : Char × List Str), (∃ v, reactionOf P kv = .ok v) ↔ ∃ v, P.reaction (joinWith [' '] (kv.2.map strip)) = .ok v := by
    intro kv
    have := h1 kv
    cases ha : reactionOf P kv with
    | error e =>
      obtain ⟨e0, he0, -⟩ := (this e).1 ha
      simp [he0]
    | ok v =>
      cases hb : P.reaction (joinWith [' '] (kv.2.map strip)) with
      | error e0 => rw [(this _).2 ⟨e0, hb, rfl⟩] at ha; cases ha
      | ok w => simp
  rw [h0, mapE_error_iff]
  constructor
  · rintro ⟨pre, ⟨p, lines⟩, post, e1, e2, e3⟩
    obtain ⟨e0, h3, h4⟩ := (h1 _ _).1 e3
    exact ⟨e0, ⟨pre, p, lines, post, e1, fun q ls hq => (h2 _).1 (e2 _ hq), h3⟩, h4⟩
  · rintro ⟨e0, ⟨pre, p, lines, post, e1, e2, e3⟩, h4⟩
    exact ⟨pre, (p, lines), post, e1, fun x hx => (h2 _).2 (e2 x.1 x.2 hx), (h1 _ _).2 ⟨e0, e3, h4⟩⟩

/-- C97 is false for some REACTION fields: an unknown particle gives KeyError, not ReactionParsingError. -/
theorem C97_reaction_refuted : PlainField.build [chars!"REACTION   (1-H-1(N,XX)1-H-2,,SIG)"] = .ok ⟨chars!"REACTION", [(' ', [chars!"(1-H-1(N,XX)1-H-2,,SIG)"])]⟩ ∧
    errB (buildField (x4Parsers metaDicts) (some chars!"REACTION") [chars!"REACTION   (1-H-1(N,XX)1-H-2,,SIG)"]) = some .keyError ∧
    errB (buildField (x4Parsers metaDicts) (some chars!"REACTION") [chars!"REACTION   (1-H-1(N,G)1-H-2,,SIG"]) = some .reactionParsingError := by
  decide +kernel

/-- C97: an INSTITUTE field fails with the exception of the parser for the first pointer that cannot be read; InstituteParsingError if
it does not follow the grammar. -/
theorem C97_institute (P : FieldParsers ρ) (raw : List Str) (f : PlainField) (hf : PlainField.build raw = .ok f) (e : PyErr) :
    buildField P (some chars!"INSTITUTE") raw = .error e ↔
      ∃ e0, FirstUnreadable f.subs (fun ls => joinWith [' '] (ls.map strip)) P.institutes e0 ∧ e = if e0 = .parseException then .instituteParsingError else e0 := by
  have h0 : buildField P (some chars!"INSTITUTE") raw = .error e ↔ mapE (institutesOf P) f.subs = .error e := by
    unfold buildField
    rw [if_neg (by decide), if_neg (by decide), if_neg (by decide), if_neg (by decide), if_pos (by decide)]
    unfold finishField
    rw [hf]
    simp only
    cases mapE (institutesOf P) f.subs <;> simp
  rw [h0, mapE_error_iff]
  constructor
  · rintro ⟨pre, ⟨p, lines⟩, post, e1, e2, e3⟩
    obtain ⟨e0, h3, h4⟩ := reraise_error.1 e3
    exact ⟨e0, ⟨pre, p, lines, post, e1, fun q ls hq => by
      obtain ⟨v, hv⟩ := e2 _ hq
      exact ⟨v, reraise_ok.1 hv⟩, h3⟩, h4⟩
  · rintro ⟨e0, ⟨pre, p, lines, post, e1, e2, e3⟩, h4⟩
    refine ⟨pre, (p, lines), post, e1, fun x hx => ?_, reraise_error.2 ⟨e0, e3, h4⟩⟩
    obtain ⟨v, hv⟩ := e2 x.1 x.2 hx
    exact ⟨v, reraise_ok.2 hv⟩

/-- C97 is false for AUTHOR fields: one that does not follow the grammar raises TypeError, not AuthorParsingError. -/
theorem C97_author_refuted (P : FieldParsers ρ) (raw : List Str) (f : PlainField) (hf : PlainField.build raw = .ok f) (hna : isNoAuthor raw = false)
    (h : FirstUnreadable f.subs (fun ls => (ls.map strip).flatten) P.authors .parseException) :
    buildField P (some chars!"AUTHOR") raw = .error .typeError := by
  obtain ⟨pre, p, lines, post, e1, e2, e3⟩ := h
  have : mapE (authorsOf P) f.subs = .error .typeError := by
    rw [mapE_error_iff]
    refine ⟨pre, (p, lines), post, e1, fun x hx => ?_, reraise_error.2 ⟨_, e3, rfl⟩⟩
    obtain ⟨v, hv⟩ := e2 x.1 x.2 hx
    exact ⟨v, reraise_ok.2 hv⟩
  unfold buildField
  rw [if_neg (by decide), if_neg (by decide), if_neg (by decide), if_pos (by decide), if_neg (by rw [hna]; decide)]
  unfold finishField
  rw [hf]
  simp only [this]

/-- C97: a REFERENCE field never fails with ReferenceParsingError; if that occurs, the field says so. -/
theorem C97_reference (P : FieldParsers ρ) (raw : List Str) :
    buildField P (some chars!"REFERENCE") raw = .error .referenceParsingError → PlainField.build raw = .error .referenceParsingError := by
  unfold buildField
  rw [if_neg (by decide), if_neg (by decide), if_pos (by decide)]
  unfold finishField
  cases PlainField.build raw with
  | error e => intro h; simpa using h
  | ok f =>
    simp only
    have : referenceInfo P f ≠ .error .referenceParsingError := by
      unfold referenceInfo
      split
      · simp
      · assumption
    cases h : referenceInfo P f with
    | error e =>
      simp only
      rintro ⟨⟩
      exact absurd h this
    | ok v => simp

/-! ### an entry with subentries that cannot be read -/

/-- a number with its error in parentheses -/
def docBroken : SubDoc where
  acc := chars!"10001003"
  bib := docSub.bib
  common := none
  data := some ⟨[chars!"EN", chars!"DATA"], [chars!"MEV", chars!"MB"], [[chars!"1.5", chars!"2.5(3)"]]⟩
/-- a reaction with an unknown particle -/
def docUnknown : SubDoc where
  acc := chars!"10001004"
  bib := [⟨chars!"REACTION", (' ', chars!"(1-H-1(N,XX)1-H-2,,SIG)"), []⟩]
  common := none
  data := none
def docMixed : EntryDoc := ⟨chars!"10001", [docMain, docSub, docBroken, docUnknown]⟩

theorem docMixed_wf : docMixed.wf := by
  have h0 := docEntry_wf.subs
  refine ⟨by decide, by decide, ?_, by decide⟩
  intro s hs
  simp only [docMixed, List.mem_cons, List.not_mem_nil, or_false] at hs
  rcases hs with rfl | rfl | rfl | rfl
  · exact h0 docMain (by simp [docEntry])
  · exact h0 docSub (by simp [docEntry])
  · refine ⟨⟨by decide, by decide, (h0 docSub (by simp [docEntry])).1.fields, by decide, ?_, ?_⟩, by decide⟩
    · intro t ht
      cases ht
    · intro t ht
      cases ht
      exact ⟨by decide, by decide, by decide, by decide, by decide, by decide, by decide⟩
  · refine ⟨⟨by decide, by decide, ?_, by decide, ?_, ?_⟩, by decide⟩
    · intro f hf
      simp only [docUnknown, List.mem_cons, List.not_mem_nil, or_false] at hf
      rcases hf with rfl
      exact ⟨by decide, by decide, by decide⟩
    · intro t ht
      cases ht
    · intro t ht
      cases ht

theorem docBroken_fails : docBroken.Fails (x4Parsers metaDicts) (.brokenNumberError chars!"2.5(3)") := by
  have hb : errB (parseFORTRANNumber chars!"2.5(3)") = some (.brokenNumberError chars!"2.5(3)") := by decide +kernel
  have hk : ∀ c ∈ [chars!"1.5"], okB (parseFORTRANNumber c) = true := by decide +kernel
  refine .data ⟨[chars!"EN", chars!"DATA"], [chars!"MEV", chars!"MB"], [[chars!"1.5", chars!"2.5(3)"]]⟩ chars!"2.5(3)"
    (docEntry_readable docSub (by simp [docEntry])).fields (by intro t ht; cases ht) rfl ⟨[chars!"1.5"], [], rfl, fun c hc => okB_iff (hk c hc), ?_⟩
  rw [errB_iff.1 hb]
  simp

/-- C97_entry: a number that cannot be read, before a reaction that cannot be read -/
example : Entry.build (x4Parsers metaDicts) (splitEntryFile none docMixed.file) = .error (.brokenNumberError chars!"2.5(3)") :=
  C97_entry _ docMixed docMixed_wf none [docMain, docSub] [docUnknown] docBroken _ (by decide +kernel) (fun s hs => docEntry_readable s hs) docBroken_fails

/-- C97_entry: a reaction that cannot be read -/
example : Entry.build (x4Parsers metaDicts) (splitEntryFile (some [chars!"10001001", chars!"10001004"]) docMixed.file) = .error .keyError := by
  refine C97_entry _ docMixed docMixed_wf _ [docMain] [] docUnknown _ (by decide +kernel) (fun s hs => docEntry_readable s ?_)
    (.field [] ⟨chars!"REACTION", (' ', chars!"(1-H-1(N,XX)1-H-2,,SIG)"), []⟩ [] _ rfl (by intro f hf; cases hf) ?_)
  · simp only [List.mem_singleton] at hs
    simp [docEntry, hs]
  · exact errB_iff.1 (show errB (buildField (x4Parsers metaDicts) (some chars!"REACTION") [chars!"REACTION   (1-H-1(N,XX)1-H-2,,SIG)"]) = _ from
      C97_reaction_refuted.2.1)

/-- C97_all_or_nothing: the subentries before can be read if only they are requested. -/
example : (∃ x, Entry.build (x4Parsers metaDicts) (splitEntryFile (some [chars!"10001001", chars!"10001002"]) docMixed.file) = .ok x) ∧
    ¬ ∃ x, Entry.build (x4Parsers metaDicts) (splitEntryFile (some [chars!"10001002", chars!"10001003"]) docMixed.file) = .ok x := by
  constructor
  · refine (C97_all_or_nothing _ _ docMixed_wf _ ⟨docMain, by simp [docMixed], by decide⟩).2 ?_
    intro s hs hreq
    simp only [docMixed, List.mem_cons, List.not_mem_nil, or_false] at hs
    rcases hs with rfl | rfl | rfl | rfl
    · exact docEntry_readable docMain (by simp [docEntry])
    · exact docEntry_readable docSub (by simp [docEntry])
    · exact absurd hreq (by decide)
    · exact absurd hreq (by decide)
  · intro h
    have := (C97_all_or_nothing _ _ docMixed_wf _ ⟨docSub, by simp [docMixed], by decide⟩).1 h docBroken (by simp [docMixed]) (by decide)
    obtain ⟨v, hv⟩ := this.data _ rfl [chars!"1.5", chars!"2.5(3)"] (by simp) chars!"2.5(3)" (by simp)
    have hb : errB (parseFORTRANNumber chars!"2.5(3)") = some (.brokenNumberError chars!"2.5(3)") := by decide +kernel
    rw [errB_iff.1 hb] at hv
    cases hv

/-- C97_retrieve: two subentries are found, one of which has the number that cannot be read. -/
example : ∃ e, retrieve (x4Parsers metaDicts) [docRow1, { docRow1 with subent := some chars!"10001003" }]
    ⟨fun p => if p = chars!"100/10001.x4" then .ok docMixed.file else .error .ioError⟩ { target := some chars!"am-241" } = .error e := by
  have hrow : ∀ row ∈ [docRow1, { docRow1 with subent := some chars!"10001003" }], row.target = some chars!"AM-241" := by decide
  have hhit : Hit [docRow1, { docRow1 with subent := some chars!"10001003" }] { target := some chars!"am-241" } docBroken.acc := by
    refine ⟨{ docRow1 with subent := some chars!"10001003" }, by simp, ⟨?_, ?_, ?_, ?_, ?_, ?_, ?_⟩, rfl⟩ <;> try (rintro a ⟨⟩)
    rw [hrow _ (by simp)]
    decide
  refine C97_retrieve _ [docMixed] _ _ ⟨?_, by decide, ?_, ?_⟩ _ docPlain (by simp [Criteria.given]) docMixed (by simp) ⟨docBroken, by simp [docMixed], hhit⟩ docBroken
    (by simp [docMixed]) (.inr hhit) ?_
  · intro D hD
    obtain rfl := List.mem_singleton.1 hD
    exact docMixed_wf
  · intro D hD
    obtain rfl := List.mem_singleton.1 hD
    have : docMixed.acc.take 3 ++ ['/'] ++ docMixed.acc ++ ".x4".toList = chars!"100/10001.x4" := by decide
    simp only [this, if_true]
  · intro row hrow
    simp only [List.mem_cons, List.not_mem_nil, or_false] at hrow
    rcases hrow with rfl | rfl
    · exact ⟨docMixed, by simp, docSub, by simp [docMixed], rfl⟩
    · exact ⟨docMixed, by simp, docBroken, by simp [docMixed], rfl⟩
  · intro h
    obtain ⟨v, hv⟩ := h.data _ rfl [chars!"1.5", chars!"2.5(3)"] (by simp) chars!"2.5(3)" (by simp)
    have hb : errB (parseFORTRANNumber chars!"2.5(3)") = some (.brokenNumberError chars!"2.5(3)") := by decide +kernel
    rw [errB_iff.1 hb] at hv
    cases hv

/-- C97_reaction: the second pointer cannot be read. -/
example : buildField (x4Parsers metaDicts) (some chars!"REACTION") [chars!"REACTION  1(1-H-1(N,G)1-H-2,,SIG)", chars!"          2no reaction"] =
    .error .reactionParsingError := by
  have h1 : PlainField.build [chars!"REACTION  1(1-H-1(N,G)1-H-2,,SIG)", chars!"          2no reaction"] =
    .ok ⟨chars!"REACTION", [('1', [chars!"(1-H-1(N,G)1-H-2,,SIG)"]), ('2', [chars!"no reaction"])]⟩ := by decide +kernel
  have h2 : okB ((x4Parsers metaDicts).reaction chars!"(1-H-1(N,G)1-H-2,,SIG)") = true := by decide +kernel
  have h3 : errB ((x4Parsers metaDicts).reaction chars!"no reaction") = some .parseException := by decide +kernel
  refine (C97_reaction _ _ _ h1 _).2 ⟨.parseException, ⟨[('1', [chars!"(1-H-1(N,G)1-H-2,,SIG)"])], '2', [chars!"no reaction"], [], rfl, ?_, errB_iff.1 h3⟩, rfl⟩
  intro q ls hq
  simp only [List.mem_singleton, Prod.mk.injEq] at hq
  obtain ⟨rfl, rfl⟩ := hq
  exact okB_iff h2

/-- C97_institute, C97_author_refuted: a text without parentheses -/
example : buildField (x4Parsers metaDicts) (some chars!"INSTITUTE") [chars!"INSTITUTE  no institute"] = .error .instituteParsingError ∧
    buildField (x4Parsers metaDicts) (some chars!"AUTHOR") [chars!"AUTHOR     nobody"] = .error .typeError := by
  have h1 : PlainField.build [chars!"INSTITUTE  no institute"] = .ok ⟨chars!"INSTITUTE", [(' ', [chars!"no institute"])]⟩ := by decide +kernel
  have h2 : errB ((x4Parsers metaDicts).institutes chars!"no institute") = some .parseException := by decide +kernel
  have h3 : PlainField.build [chars!"AUTHOR     nobody"] = .ok ⟨chars!"AUTHOR", [(' ', [chars!"nobody"])]⟩ := by decide +kernel
  have h4 : errB ((x4Parsers metaDicts).authors chars!"nobody") = some .parseException := by decide +kernel
  exact ⟨(C97_institute _ _ _ h1 _).2 ⟨_, ⟨[], ' ', _, [], rfl, (by intro q ls h; cases h), errB_iff.1 h2⟩, rfl⟩,
    C97_author_refuted _ _ _ h3 (by decide) ⟨[], ' ', _, [], rfl, (by intro q ls h; cases h), errB_iff.1 h4⟩⟩

/-- C97_reference: a reference that cannot be read does not prevent reading. -/
example : okB (buildField (x4Parsers metaDicts) (some chars!"REFERENCE") [chars!"REFERENCE  (J,PR)"]) = true := by decide +kernel

end X4
