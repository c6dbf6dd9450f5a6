import Verif.Props.EntrySets
import Verif.Props.Manager
/-! From the database to objects: what `retrieve` gives when the files of the database are written in EXFOR format. -/
namespace X4
variable {ρ N : Type}

/-- A database directory with an index: the files are those of the documents, and every subentry in the index is in one of them. -/
structure Archive (P : FieldParsers ρ) (docs : List EntryDoc) (db : DB) (table : List Row) : Prop where
  wf : ∀ D ∈ docs, D.wf
  readable : ∀ D ∈ docs, ∀ s ∈ D.subs, s.Readable P
  distinct : (docs.map EntryDoc.acc).Nodup
  files : ∀ D ∈ docs, db.read (D.acc.take 3 ++ ['/'] ++ D.acc ++ ".x4".toList) = .ok D.file
  index : ∀ row ∈ table, ∃ D ∈ docs, ∃ s ∈ D.subs, row.subent = some s.acc

/-- a subentry that meets the criteria -/
def Hit (table : List Row) (c : Criteria) (acc : Str) : Prop := ∃ row ∈ table, Matches c row ∧ row.subent = some acc

theorem nodup_inj {α β : Type} {f : α → β} {l : List α} (h : (l.map f).Nodup) {a b : α} (ha : a ∈ l) (hb : b ∈ l) (he : f a = f b) : a = b :=
  List.inj_on_of_nodup_map h ha hb he

/-- what is retrieved when the query gives a grouped result -/
theorem retrieve_grouped (P : FieldParsers ρ) (docs : List EntryDoc) (db : DB) (table : List Row) (hA : Archive P docs db table) (c : Criteria) {S : Str → Prop}
    {m : Dict Str (List Str)} (hm : (query table c).2 = .ok m) (hgr : Grouped S m) (hS : ∀ acc, S acc → ∃ row ∈ table, row.subent = some acc) :
    ∃ r, retrieve P table db c = .ok r ∧ r.keys.Pairwise StrLt ∧
      (∀ D ∈ docs, D.acc ∈ r.keys ↔ ∃ s ∈ D.subs, S s.acc) ∧
      ∀ k e, (k, e) ∈ r → ∃ D ∈ docs, D.acc = k ∧ ∃ subs, EntryHolds P D subs e ∧ subs.Sublist D.subs ∧
        ∀ s ∈ D.subs, s ∈ subs ↔ s.acc = D.acc ++ "001".toList ∨ S s.acc := by
  -- the documents named
  have hdoc : ∀ acc, S acc → ∃ D ∈ docs, ∃ s ∈ D.subs, s.acc = acc ∧ acc.take 5 = D.acc := by
    intro acc hacc
    obtain ⟨row, hrow, hsub⟩ := hS acc hacc
    obtain ⟨D, hD, s, hs, he⟩ := hA.index row hrow
    rw [hsub] at he
    cases he
    exact ⟨D, hD, s, hs, rfl, ((hA.wf D hD).subs s hs).2⟩
  have hstep : ∀ kv ∈ m, ∃ D ∈ docs, D.acc = kv.1 ∧ ∃ e,
      (match (entryFactoryRaw db kv.1 (some kv.2)).2 with
        | .error e => .error e
        | .ok l => match Entry.build P l with
          | .error e => .error e
          | .ok x => .ok (kv.1, x) : Except PyErr (Str × Entry ρ)) = .ok (kv.1, e) ∧
      ∃ subs, EntryHolds P D subs e ∧ subs.Sublist D.subs ∧ ∀ s ∈ D.subs, s ∈ subs ↔ s.acc = D.acc ++ "001".toList ∨ S s.acc := by
    rintro ⟨k, names⟩ hkv
    obtain ⟨acc, hacc, hk⟩ := (hgr.keys k).1 (List.mem_map.2 ⟨_, hkv, rfl⟩)
    obtain ⟨D, hD, s, hs, hsa, ht⟩ := hdoc acc hacc
    have hDk : D.acc = k := by rw [← ht, hk]
    subst hDk
    obtain ⟨t, rfl, -, ht2⟩ := hgr.lists _ _ hkv
    have hreq : ∀ s ∈ D.subs, requested (some ((D.acc ++ ['0', '0', '1']) :: t)) s.acc = true ↔ s.acc = D.acc ++ "001".toList ∨ S s.acc := by
      intro s hs
      have e1 : "001".toList = ['0', '0', '1'] := by decide
      simp only [requested, decide_eq_true_eq, List.mem_cons, e1]
      rw [ht2]
      constructor
      · rintro (h | ⟨h, -, -⟩)
        · exact .inl h
        · exact .inr h
      · rintro (h | h)
        · exact .inl h
        · by_cases h0 : s.acc = D.acc ++ ['0', '0', '1']
          · exact .inl h0
          · exact .inr ⟨h, ((hA.wf D hD).subs s hs).2, h0⟩
    obtain ⟨raw, e, h1, h2, h3⟩ := C85_file P db D (hA.wf D hD) (hA.files D hD) (some ((D.acc ++ ['0', '0', '1']) :: t)) (hA.readable D hD)
      ⟨s, hs, (hreq s hs).2 (.inr (hsa ▸ hacc))⟩
    refine ⟨D, hD, rfl, e, ?_, _, h3, List.filter_sublist, ?_⟩
    · simp only [h1, h2]
    · intro s hs
      rw [List.mem_filter, hreq s hs]
      exact ⟨fun h => h.2, fun h => ⟨hs, h⟩⟩
  have hall : ∃ r, retrieve P table db c = .ok r := by
    unfold retrieve
    rw [hm]
    exact mapE_all fun kv hkv => by
      obtain ⟨D, -, -, e, he, -⟩ := hstep kv hkv
      exact ⟨_, he⟩
  obtain ⟨r, hr⟩ := hall
  have hF : List.Forall₂ (fun kv ke => ke.1 = kv.1 ∧ ∃ D ∈ docs, D.acc = kv.1 ∧ ∃ subs, EntryHolds P D subs ke.2 ∧ subs.Sublist D.subs ∧
      ∀ s ∈ D.subs, s ∈ subs ↔ s.acc = D.acc ++ "001".toList ∨ S s.acc) m r := by
    unfold retrieve at hr
    rw [hm] at hr
    have h2 := mapE_ok_iff.1 hr
    have aux : ∀ (m' : Dict Str (List Str)) (r' : Dict Str (Entry ρ)), (∀ kv ∈ m', kv ∈ m) →
        List.Forall₂ (fun kv ke => (match (entryFactoryRaw db kv.1 (some kv.2)).2 with
          | .error e => .error e
          | .ok l => match Entry.build P l with
            | .error e => .error e
            | .ok x => .ok (kv.1, x) : Except PyErr (Str × Entry ρ)) = .ok ke) m' r' →
        List.Forall₂ (fun kv ke => ke.1 = kv.1 ∧ ∃ D ∈ docs, D.acc = kv.1 ∧ ∃ subs, EntryHolds P D subs ke.2 ∧ subs.Sublist D.subs ∧
          ∀ s ∈ D.subs, s ∈ subs ↔ s.acc = D.acc ++ "001".toList ∨ S s.acc) m' r' := by
      intro m' r' hsub h
      induction h with
      | nil => exact .nil
      | @cons kv ke m' r' h1 _ ih =>
        refine .cons ?_ (ih fun x hx => hsub x (List.mem_cons_of_mem _ hx))
        obtain ⟨D, hD, hk, e, he, h3⟩ := hstep kv (hsub kv (List.mem_cons_self ..))
        rw [h1] at he
        cases he
        exact ⟨rfl, D, hD, hk, h3⟩
    exact aux m r (fun _ h => h) h2
  have hkeys : r.keys = m.keys := by
    clear hgr hstep hr hm
    induction hF with
    | nil => rfl
    | cons h _ ih => simp only [Dict.keys, List.map_cons] at ih ⊢; rw [ih, h.1]
  refine ⟨r, hr, hkeys ▸ hgr.increasing, ?_, ?_⟩
  · intro D hD
    rw [hkeys, hgr.keys]
    constructor
    · rintro ⟨acc, hacc, ht⟩
      obtain ⟨D', hD', s, hs, hsa, ht'⟩ := hdoc acc hacc
      have : D' = D := nodup_inj hA.distinct hD' hD (by rw [← ht', ht])
      subst this
      exact ⟨s, hs, hsa ▸ hacc⟩
    · rintro ⟨s, hs, hh⟩
      exact ⟨s.acc, hh, ((hA.wf D hD).subs s hs).2⟩
  · intro k e hke
    clear hgr hstep hr hm hkeys
    induction hF with
    | nil => cases hke
    | cons h _ ih =>
      rcases List.mem_cons.1 hke with rfl | hke
      · obtain ⟨h1, D, hD, h2, h3⟩ := h
        exact ⟨D, hD, h2.trans h1.symm, h3⟩
      · exact ih hke

/-- C87: what is retrieved from a database are objects that hold what is written in its files: one for each entry
with a subentry that meets all criteria, in increasing order, with the first subentry and the subentries that meet
the criteria, as they are written. -/
theorem C87_retrieve (P : FieldParsers ρ) (docs : List EntryDoc) (db : DB) (table : List Row) (hA : Archive P docs db table) (c : Criteria)
    (hp : Plain c) (hg : c.given) :
    ∃ r, retrieve P table db c = .ok r ∧ r.keys.Pairwise StrLt ∧
      (∀ D ∈ docs, D.acc ∈ r.keys ↔ ∃ s ∈ D.subs, Hit table c s.acc) ∧
      ∀ k e, (k, e) ∈ r → ∃ D ∈ docs, D.acc = k ∧ ∃ subs, EntryHolds P D subs e ∧ subs.Sublist D.subs ∧
        ∀ s ∈ D.subs, s ∈ subs ↔ s.acc = D.acc ++ "001".toList ∨ Hit table c s.acc := by
  obtain ⟨m, hm, hgr⟩ := C45_partial table c hp hg (fun row hrow => by
    obtain ⟨D, -, s, -, hs⟩ := hA.index row hrow
    rw [hs]
    simp)
  exact retrieve_grouped P docs db table hA c hm hgr fun acc ⟨row, hrow, _, hsub⟩ => ⟨row, hrow, hsub⟩

/-- C87: and the datasets of a retrieved entry have the columns, units, values and reactions that are written in its
file (for tables as in C86). -/
theorem C87_datasets_partial [PyNum N] (P : FieldParsers ρ) (rx : RxOps ρ) (docs : List EntryDoc) (db : DB) (table : List Row) (hA : Archive P docs db table) (c : Criteria)
    (hp : Plain c) (hg : c.given) (D : EntryDoc) (hD : D ∈ docs) (hpr : D.Printable P rx) (m s : SubDoc) (hm : m ∈ D.subs) (hma : m.acc = D.acc ++ "001".toList) (hs : s ∈ D.subs)
    (hsa : s.acc ≠ m.acc) (hit : Hit table c s.acc)
    (t : TableDoc) (ht : s.data = some t) (hl : t.labels.Nodup) (p : Char) (hc1 : PlainDoc p m.common) (hc2 : PlainDoc p s.common) (hrp : docReaction m s p ≠ [])
    (r : ρ × Str) (hrx : P.reaction (joinWith [' '] ((docReaction m s p).map strip)) = .ok r) (q : List Str) (hq : effectiveQuant rx r.1 = .ok q) :
    ∃ (R : Dict Str (Entry ρ)) (e : Entry ρ) (st : DsState ρ N) (d : DataSet ρ N), retrieve P table db c = .ok R ∧ R.get? D.acc = some e ∧ e.getDataSets rx [] = .ok st ∧
      st.datasets.get? (D.acc, some s.acc, p) = some d ∧ d.reaction = some r ∧ d.kind = kindOf q ∧ d.simplified = false ∧
      d.labels = docHeads m.common ++ docHeads s.common ++ (pick (belongs t.labels (some p)) t.labels).map head10 ∧
      d.units = docUnits m.common ++ docUnits s.common ++ (pick (belongs t.labels (some p)) t.units).map (fun u => some (head10 u)) ∧
      d.data = t.rows.map fun row => docRow m.common ++ docRow s.common ++ (pick (belongs t.labels (some p)) row).map cellVal := by
  obtain ⟨R, hR, -, hkeys, hent⟩ := C87_retrieve P docs db table hA c hp hg
  obtain ⟨e, he⟩ := Option.isSome_iff_exists.1 ((Dict.mem_keys_iff _ _).1 ((hkeys D hD).2 ⟨s, hs, hit⟩))
  obtain ⟨D', hD', hDa, subs, hold, hsub, hmem⟩ := hent _ e (Dict.mem_of_get? he)
  have : D' = D := nodup_inj hA.distinct hD' hD hDa
  subst this
  obtain ⟨raw, hraw, hF⟩ := (C47_parsed P table db c R).1 hR
  have hb : ∃ l, Entry.build P l = .ok e := by
    have := Dict.mem_of_get? he
    clear he hent hkeys hR hraw
    induction hF with
    | nil => cases this
    | cons h _ ih =>
      rcases List.mem_cons.1 this with rfl | h'
      · exact ⟨_, h.2⟩
      · exact ih h'
  obtain ⟨l, hb⟩ := hb
  obtain ⟨st, d, hd⟩ := doc_dataset (N := N) P rx D' (hA.wf D' hD) hpr subs hsub l e hb hold m s ((hmem m hm).2 (.inl hma)) hma ((hmem s hs).2 (.inr hit)) hsa
    t ht hl p hc1 hc2 hrp r hrx q hq
  exact ⟨R, e, st, d, hR, he, hd⟩

/-! ### a database with one entry -/

def docRow1 : Row := ⟨some chars!"10001", some chars!"10001002", some ['1'], some chars!"Block", some chars!"N,G", some ['N'], some chars!"AM-241", some chars!"SIG"⟩
def docDb : DB := ⟨fun p => if p = chars!"100/10001.x4" then .ok docEntry.file else .error .ioError⟩

theorem docArchive : Archive (x4Parsers metaDicts) [docEntry] docDb [docRow1] := by
  refine ⟨?_, ?_, by decide, ?_, ?_⟩
  · intro D hD
    obtain rfl := List.mem_singleton.1 hD
    exact docEntry_wf
  · intro D hD
    obtain rfl := List.mem_singleton.1 hD
    exact docEntry_readable
  · intro D hD
    obtain rfl := List.mem_singleton.1 hD
    have : docEntry.acc.take 3 ++ ['/'] ++ docEntry.acc ++ ".x4".toList = chars!"100/10001.x4" := by decide
    simp only [docDb, this, if_true]
  · intro row hrow
    obtain rfl := List.mem_singleton.1 hrow
    exact ⟨docEntry, by simp, docSub, by simp [docEntry], rfl⟩

theorem docHit : Hit [docRow1] { target := some chars!"am-241" } docSub.acc := by
  refine ⟨docRow1, by simp, ⟨?_, ?_, ?_, ?_, ?_, ?_, ?_⟩, rfl⟩
  · rintro a ⟨⟩
  · rintro a ⟨⟩; decide
  · rintro a ⟨⟩
  · rintro a ⟨⟩
  · rintro a ⟨⟩
  · rintro a ⟨⟩
  · rintro a ⟨⟩
theorem docPlain : Plain { target := some chars!"am-241" } := by
  refine ⟨?_, ?_, ?_, ?_, ?_, ?_, ?_⟩
  · rintro a ⟨⟩
  · rintro a ⟨⟩; exact ⟨by decide, by decide⟩
  · rintro a ⟨⟩
  · rintro a ⟨⟩
  · rintro a ⟨⟩
  · rintro a ⟨⟩
  · rintro a ⟨⟩

/-- C87_retrieve: a query for the target finds the entry, with both subentries. -/
example : ∃ R e, retrieve (x4Parsers metaDicts) [docRow1] docDb { target := some chars!"am-241" } = .ok R ∧ (chars!"10001", e) ∈ R ∧
    EntryHolds (x4Parsers metaDicts) docEntry [docMain, docSub] e := by
  obtain ⟨R, h1, -, h3, h4⟩ := C87_retrieve _ _ _ _ docArchive _ docPlain (by simp [Criteria.given])
  obtain ⟨e, he⟩ := Option.isSome_iff_exists.1 ((Dict.mem_keys_iff _ _).1 ((h3 docEntry (by simp)).2 ⟨docSub, by simp [docEntry], docHit⟩))
  have hmem := Dict.mem_of_get? he
  obtain ⟨D, hD, -, subs, h5, h6, h7⟩ := h4 _ e hmem
  obtain rfl := List.mem_singleton.1 hD
  refine ⟨R, e, h1, hmem, ?_⟩
  have : subs = [docMain, docSub] := by
    have hs : subs.length = [docMain, docSub].length := by
      refine Nat.le_antisymm h6.length_le ?_
      have h8 : docMain ∈ subs := (h7 docMain (by simp [docEntry])).2 (.inl (by decide))
      have h9 : docSub ∈ subs := (h7 docSub (by simp [docEntry])).2 (.inr docHit)
      match subs, h8, h9 with
      | [], h, _ => cases h
      | [x], h, h' => rw [List.mem_singleton] at h h'; exact absurd (h.trans h'.symm) (by decide)
      | _ :: _ :: _, _, _ => simp
    exact h6.eq_of_length hs
  rwa [this] at h5

/-- C87_datasets_partial: and the dataset of the first pointer of its second subentry is found. -/
example [PyNum N] (rxd : RxDicts) (r : Measurement × Str)
    (hrx : (x4Parsers metaDicts).reaction (joinWith [' '] ((docReaction docMain docSub '1').map strip)) = .ok r) (q : List Str) (hq : effectiveQuant (x4RxOps rxd) r.1 = .ok q) :
    ∃ (R : Dict Str (Entry Measurement)) (e : Entry Measurement) (st : DsState Measurement N) (d : DataSet Measurement N),
      retrieve (x4Parsers metaDicts) [docRow1] docDb { target := some chars!"am-241" } = .ok R ∧ R.get? chars!"10001" = some e ∧
      e.getDataSets (x4RxOps rxd) [] = .ok st ∧ st.datasets.get? (chars!"10001", some chars!"10001002", '1') = some d ∧
      d.data = [[cellVal chars!"0.1", cellVal chars!"1.5", cellVal chars!"2.5"], [cellVal chars!"0.1", cellVal chars!"2.5", none]] := by
  obtain ⟨R, e, st, d, h1, h2, h3, h4, -, -, -, -, -, h8⟩ := C87_datasets_partial (N := N) (x4Parsers metaDicts) (x4RxOps rxd) _ _ _ docArchive _ docPlain (by simp [Criteria.given])
    docEntry (by simp) docEntry_printable docMain docSub (by simp [docEntry]) (by decide) (by simp [docEntry]) (by decide) docHit _ rfl (by decide)
    '1' (by intro t ht; cases ht; decide) (by intro t ht; cases ht) (by decide +kernel) r hrx q hq
  exact ⟨R, e, st, d, h1, h2, h3, h4, h8⟩
/-- Its reaction is read. -/
example : okB ((x4Parsers metaDicts).reaction (joinWith [' '] ((docReaction docMain docSub '1').map strip))) = true := by decide +kernel

end X4
