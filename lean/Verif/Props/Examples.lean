import Verif.Model.Examples
import Verif.Props.Retrieval
import Verif.Props.Messages
import Verif.Props.EntryText
/-! Properties C95 and C96: the programs `get-entry` and `plotX4`. -/
namespace X4

/-! ### C95: get-entry -/

/-- C95: without a valid entry or subentry number nothing is printed and ValueError is raised. -/
theorem C95_arguments (w : GetWorld) (a : GetArgs)
    (h : (a.subent = none ∧ a.ent = none) ∨ (∃ s, a.subent = some s ∧ s.length ≠ 8) ∨ ∃ e, a.ent = some e ∧ e.length ≠ 5) :
    getEntry w a = ([], .error .valueError) := by
  unfold getEntry
  rcases h with h | h | h
  · rw [if_pos h]
  · split
    · rfl
    · first | rfl | rw [if_pos h]
  · split
    · rfl
    · split
      · rfl
      · first | rfl | rw [if_pos h]

/-- the program working with this database -/
structure GetWorld.On (w : GetWorld) (docs : List EntryDoc) (table : List Row) : Prop where
  archive : Archive w.P docs w.db table
  manager : w.retrieve = X4.retrieve w.P table w.db

theorem Forall₂_get {α β : Type} {R : α → β → Prop} {l : List α} {m : List β} (h : List.Forall₂ R l m) {a : α} (ha : a ∈ l) : ∃ b ∈ m, R a b := by
  induction h with
  | nil => simp at ha
  | cons h1 _ ih =>
    rcases List.mem_cons.1 ha with rfl | ha
    · exact ⟨_, by simp, h1⟩
    · obtain ⟨b, hb, hr⟩ := ih ha
      exact ⟨b, by simp [hb], hr⟩

theorem EntryHolds.keys_eq {ρ : Type} {P : FieldParsers ρ} {D : EntryDoc} {subs : List SubDoc} {e : Entry ρ} (h : EntryHolds P D subs e) :
    e.subs.keys = subs.map fun s => some s.acc := by
  have := h.subs
  unfold Dict.keys
  clear h
  generalize e.subs = l at this
  induction this with
  | nil => rfl
  | cons h1 _ ih => simp [h1.1, ih]

/-- looking up a subentry that is held -/
theorem EntryHolds.lookup {ρ : Type} {P : FieldParsers ρ} {D : EntryDoc} {subs : List SubDoc} {e : Entry ρ} (h : EntryHolds P D subs e)
    (hd : (subs.map SubDoc.acc).Nodup) {s : SubDoc} (hs : s ∈ subs) : ∃ S, e.subs.get? (some s.acc) = some S ∧ SubHolds P s S := by
  obtain ⟨⟨k, S⟩, hm, hk, hS⟩ := Forall₂_get h.subs hs
  simp only at hk hS
  subst hk
  refine ⟨S, Dict.get?_eq_some_of_mem ?_ hm, hS⟩
  rw [h.keys_eq]
  have := hd.map (f := some) (fun a b e => Option.some.inj e)
  simpa [List.map_map, Function.comp_def] using this

/-- what a subentry number finds: the entry with the first subentry and the requested one -/
theorem find_subent {ρ : Type} {P : FieldParsers ρ} {docs : List EntryDoc} {db : DB} {table : List Row} (hA : Archive P docs db table) (acc : Str)
    (hp : PlainText acc) :
    ((¬ ∃ row ∈ table, row.subent = some acc) → retrieve P table db { SUBENT := some (.str acc) } = .ok []) ∧
    ∀ D ∈ docs, ∀ s ∈ D.subs, s.acc = acc → (∃ row ∈ table, row.subent = some acc) →
      ∃ e subs, retrieve P table db { SUBENT := some (.str acc) } = .ok [(D.acc, e)] ∧ EntryHolds P D subs e ∧ subs.Sublist D.subs ∧
        ∀ s' ∈ D.subs, s' ∈ subs ↔ s'.acc = D.acc ++ "001".toList ∨ s'.acc = acc := by
  have hplain : Plain { SUBENT := some (.str acc) } := by
    refine ⟨?_, ?_, ?_, ?_, ?_, ?_, ?_⟩ <;> try (rintro a ⟨⟩)
    exact hp
  have hgiven : Criteria.given { SUBENT := some (.str acc) } := by simp [Criteria.given]
  have hhit : ∀ x, Hit table { SUBENT := some (.str acc) } x ↔ x = acc ∧ ∃ row ∈ table, row.subent = some acc := by
    intro x
    constructor
    · rintro ⟨row, hrow, hm, hx⟩
      have := hm.subent _ rfl
      simp only [Index.text] at this
      rw [this] at hx
      exact ⟨(Option.some.inj hx).symm, row, hrow, this⟩
    · rintro ⟨rfl, row, hrow, hx⟩
      refine ⟨row, hrow, ⟨?_, ?_, ?_, ?_, ?_, ?_, ?_⟩, hx⟩ <;> try (rintro a ⟨⟩)
      exact hx
  obtain ⟨r, hr, hinc, hkeys, hents⟩ := C87_retrieve P docs db table hA _ hplain hgiven
  have hrk : ∀ k e, (k, e) ∈ r → ∃ D ∈ docs, D.acc = k ∧ ∃ s ∈ D.subs, s.acc = acc ∧ ∃ row ∈ table, row.subent = some acc := by
    intro k e hke
    obtain ⟨D, hD, hDk, -⟩ := hents k e hke
    obtain ⟨s, hs, hh⟩ := (hkeys D hD).1 (by rw [hDk]; exact List.mem_map.2 ⟨_, hke, rfl⟩)
    exact ⟨D, hD, hDk, s, hs, (hhit _).1 hh⟩
  constructor
  · intro hn
    cases r with
    | nil => exact hr
    | cons p r =>
      obtain ⟨D, -, -, s, -, -, h⟩ := hrk p.1 p.2 (by simp)
      exact absurd h hn
  · intro D hD s hs hsa hrow
    have hin : D.acc ∈ r.keys := (hkeys D hD).2 ⟨s, hs, (hhit _).2 ⟨hsa, hrow⟩⟩
    have hall : ∀ k ∈ r.keys, k = D.acc := by
      intro k hk
      obtain ⟨⟨k', e⟩, hke, rfl⟩ := List.mem_map.1 hk
      obtain ⟨D', hD', hk', s', hs', hsa', -⟩ := hrk _ _ hke
      rw [← hk', ← ((hA.wf D' hD').subs s' hs').2, hsa', ← hsa, ((hA.wf D hD).subs s hs).2]
    have hone : ∃ e, r = [(D.acc, e)] := by
      match r, hin, hall, hinc with
      | [], h, _, _ => simp [Dict.keys] at h
      | [(k, e)], _, h, _ => exact ⟨e, by rw [h k (by simp [Dict.keys])]⟩
      | (k, e) :: (k', e') :: r, _, h, h' =>
        exfalso
        simp only [Dict.keys, List.map_cons, List.pairwise_cons] at h'
        exact (h'.1 k' (by simp)).2 (by rw [h k (by simp [Dict.keys]), h k' (by simp [Dict.keys])])
    obtain ⟨e, rfl⟩ := hone
    obtain ⟨D', hD', hDk, subs, h1, h2, h3⟩ := hents D.acc e (by simp)
    have : D' = D := nodup_inj hA.distinct hD' hD hDk
    subst this
    refine ⟨e, subs, hr, h1, h2, ?_⟩
    intro s' hs'
    rw [h3 s' hs', hhit]
    constructor
    · rintro (h | ⟨h, -⟩)
      · exact .inl h
      · exact .inr h
    · rintro (h | h)
      · exact .inl h
      · exact .inr ⟨h, hrow⟩

theorem getEntry_subent {w : GetWorld} {a : GetArgs} {acc : Str} (hs : a.subent = some acc) (he : a.ent = none) (h8 : acc.length = 8) :
    getEntry w a = match searchResult w a with
      | .error e => ([], .error e)
      | .ok r => examine w a acc r := by
  unfold getEntry
  rw [if_neg (by simp [hs]), if_neg (by simp [hs, h8]), if_neg (by simp [he])]
  simp only [he, hs, if_true]
  cases searchResult w a with
  | error e => rfl
  | ok r => simp [Printed.andThen]

theorem search_subent {w : GetWorld} {docs : List EntryDoc} {table : List Row} (hw : w.On docs table) {a : GetArgs} {acc : Str}
    (hs : a.subent = some acc) (he : a.ent = none) (hf : a.getFile = false) :
    searchResult w a = (retrieve w.P table w.db { SUBENT := some (.str acc) }).map fun r => r.map fun kv => (kv.1, .entry kv.2) := by
  unfold searchResult
  rw [if_pos hf, hw.manager]
  simp only [he, hs, Option.map_some]

/-- C95: `-s NUMBER --rawdata` prints the DATA table of that subentry as it is in the file (KeyError without one, after the
heading), and IndexError if the subentry is not in the index. -/
theorem C95_rawdata (w : GetWorld) (docs : List EntryDoc) (table : List Row) (hw : w.On docs table) (acc : Str) (h8 : acc.length = 8)
    (hp : PlainText acc) (hdoc : endsWith acc chars!"001" = false) :
    ((¬ ∃ row ∈ table, row.subent = some acc) →
      getEntry w { subent := some acc, rawdata := true } = ([chars!"---------- Raw Data ----------"], .error .indexError)) ∧
    ∀ D ∈ docs, ∀ s ∈ D.subs, s.acc = acc → (∃ row ∈ table, row.subent = some acc) →
      (s.data = none → getEntry w { subent := some acc, rawdata := true } = ([chars!"---------- Raw Data ----------"], .error .keyError)) ∧
      ∀ t, s.data = some t → ∃ d, DataSection.build chars!"DATA" (t.lines chars!"DATA") = .ok d ∧ TableHolds t d ∧
        getEntry w { subent := some acc, rawdata := true } =
          ([chars!"---------- Raw Data ----------", d.str w.num, chars!"---------- Errors ----------", chars!"{}"], .ok ()) := by
  obtain ⟨f1, f2⟩ := find_subent hw.archive acc hp
  have hsr := search_subent hw (a := { subent := some acc, rawdata := true }) rfl rfl rfl
  constructor
  · intro hn
    rw [getEntry_subent rfl rfl h8, hsr, f1 hn]
    simp only [Except.map, List.map_nil, examine, Dict.keys, sortBy, List.foldl_nil, List.getLast?_nil, pickEntry, if_true, hdoc, Printed.andThen, printE]
    rfl
  · intro D hD s hs hsa hrow
    obtain ⟨e, subs, hr, h1, h2, h3⟩ := f2 D hD s hs hsa hrow
    have hdist : (subs.map SubDoc.acc).Nodup := (hw.archive.wf D hD).distinct.sublist (h2.map _)
    obtain ⟨S, hS, hSh⟩ := h1.lookup hdist ((h3 s hs).2 (.inr hsa))
    have hget : e.getItem (.str acc) = .ok S := by
      rw [getItem_full e h8, ← hsa]
      unfold Dict.get
      rw [hS]
    have hex : getEntry w { subent := some acc, rawdata := true } =
        Printed.andThen ([chars!"---------- Raw Data ----------"], .ok ()) (Printed.andThen (printE (Found.dataText w.num w.D acc (.entry e)))
          ([chars!"---------- Errors ----------", chars!"{}"], .ok ())) := by
      rw [getEntry_subent rfl rfl h8, hsr, hr]
      have hb1 : banner chars!"Raw Data" = chars!"---------- Raw Data ----------" := by decide
      have hb2 : banner chars!"Errors" = chars!"---------- Errors ----------" := by decide
      simp only [Except.map, List.map_cons, List.map_nil, examine, Dict.keys, sortBy, List.foldl_cons, List.foldl_nil, insertBy,
        List.getLast?_singleton, pickEntry, Dict.get, Dict.get?, if_true, hdoc, hb1, hb2]
      unfold Printed.andThen
      cases hd : Found.dataText w.num w.D acc (.entry e) <;> simp [printE]
    constructor
    · intro hnone
      have hd := hSh.data
      rw [hnone] at hd
      rw [hex]
      simp only [Found.dataText, hget, Dict.get]
      have hd' : S.sections.get? chars!"DATA" = none := hd
      rw [hd']
      rfl
    · intro t ht
      have hd := hSh.data
      rw [ht] at hd
      obtain ⟨d, hd1, hd2, hd3⟩ := hd
      refine ⟨d, hd2, hd3, ?_⟩
      rw [hex]
      have hd' : S.sections.get? chars!"DATA" = some (.data d) := hd1
      simp only [Found.dataText, hget, Dict.get, hd', Sec.str]
      rfl

/-- C95: `-s NUMBER --rawdoc` and `--doc` print the first subentry of the entry that has that subentry (KeyError if it has none). -/
theorem C95_documentation (w : GetWorld) (docs : List EntryDoc) (table : List Row) (hw : w.On docs table) (acc : Str) (h8 : acc.length = 8)
    (hp : PlainText acc) (D : EntryDoc) (hD : D ∈ docs) (s : SubDoc) (hs : s ∈ D.subs) (hsa : s.acc = acc) (hrow : ∃ row ∈ table, row.subent = some acc) :
    (∀ s1 ∈ D.subs, s1.acc = D.acc ++ "001".toList → ∃ S1, SubHolds w.P s1 S1 ∧
      getEntry w { subent := some acc, rawdoc := true } = Printed.andThen ([chars!"\n\n"], .ok ()) (printE S1.repr) ∧
      getEntry w { subent := some acc, doc := true } = Printed.andThen ([chars!"\n\n"], .ok ()) (printE (S1.str w.num w.D))) ∧
    ((∀ s1 ∈ D.subs, s1.acc ≠ D.acc ++ "001".toList) →
      getEntry w { subent := some acc, rawdoc := true } = ([chars!"\n\n"], .error .keyError) ∧
      getEntry w { subent := some acc, doc := true } = ([chars!"\n\n"], .error .keyError)) := by
  obtain ⟨-, f2⟩ := find_subent hw.archive acc hp
  obtain ⟨e, subs, hr, h1, h2, h3⟩ := f2 D hD s hs hsa hrow
  have hdist : (subs.map SubDoc.acc).Nodup := (hw.archive.wf D hD).distinct.sublist (h2.map _)
  have hfirst : e.getItem (.int 1) = e.subs.get (some (D.acc ++ "001".toList)) := by
    have : e.getItem (.int 1) = e.getItem (.str ['1']) := rfl
    rw [this, getItem_short e (by decide), h1.accnum]
    rfl
  have hraw : getEntry w { subent := some acc, rawdoc := true } =
      Printed.andThen ([chars!"\n\n"], .ok ()) (printE (Found.first w.num w.D w.quoted true (.entry e))) := by
    rw [getEntry_subent rfl rfl h8, search_subent hw (a := { subent := some acc, rawdoc := true }) rfl rfl rfl, hr]
    simp only [Except.map, List.map_cons, List.map_nil, examine, Dict.keys, sortBy, List.foldl_cons, List.foldl_nil, insertBy,
      List.head?_cons, pickEntry, Dict.get, Dict.get?, if_true]
    unfold Printed.andThen
    cases Found.first w.num w.D w.quoted true (.entry e) <;> simp [printE]
  have hstr : getEntry w { subent := some acc, doc := true } =
      Printed.andThen ([chars!"\n\n"], .ok ()) (printE (Found.first w.num w.D w.quoted false (.entry e))) := by
    rw [getEntry_subent rfl rfl h8, search_subent hw (a := { subent := some acc, doc := true }) rfl rfl rfl, hr]
    simp only [Except.map, List.map_cons, List.map_nil, examine, Dict.keys, sortBy, List.foldl_cons, List.foldl_nil, insertBy,
      List.head?_cons, pickEntry, Dict.get, Dict.get?, if_true]
    unfold Printed.andThen
    cases Found.first w.num w.D w.quoted false (.entry e) <;> simp [printE]
  constructor
  · intro s1 hs1 ha1
    obtain ⟨S1, hS1, hSh1⟩ := h1.lookup hdist ((h3 s1 hs1).2 (.inl ha1))
    refine ⟨S1, hSh1, ?_, ?_⟩
    · rw [hraw]
      simp only [Found.first, hfirst, Dict.get]
      rw [← ha1, hS1]
      rfl
    · rw [hstr]
      simp only [Found.first, hfirst, Dict.get]
      rw [← ha1, hS1]
      rfl
  · intro hno
    have hnone : e.subs.get? (some (D.acc ++ "001".toList)) = none := by
      rw [Dict.get?_eq_none_iff, h1.keys_eq]
      intro hm
      obtain ⟨s1, hs1, he⟩ := List.mem_map.1 hm
      exact hno s1 (h2.subset hs1) (Option.some.inj he)
    constructor
    · rw [hraw]
      simp only [Found.first, hfirst, Dict.get, hnone]
      rfl
    · rw [hstr]
      simp only [Found.first, hfirst, Dict.get, hnone]
      rfl

/-- C95 is false for `-s NUMBER --raw` (without `-f`): only the accession numbers of the subentries found are printed, none of
their lines. -/
theorem C95_raw_refuted (w : GetWorld) (docs : List EntryDoc) (table : List Row) (hw : w.On docs table) (acc : Str) (h8 : acc.length = 8)
    (hp : PlainText acc) (D : EntryDoc) (hD : D ∈ docs) (s : SubDoc) (hs : s ∈ D.subs) (hsa : s.acc = acc) (hrow : ∃ row ∈ table, row.subent = some acc) :
    getEntry w { subent := some acc, raw := true } = ([chars!"\n\n", joinWith ['\n'] ((D.subs.map SubDoc.acc).filter fun x =>
      x = D.acc ++ chars!"001" || x = acc)], .ok ()) := by
  obtain ⟨-, f2⟩ := find_subent hw.archive acc hp
  obtain ⟨e, subs, hr, h1, h2, h3⟩ := f2 D hD s hs hsa hrow
  have hsubs : subs.map SubDoc.acc = (D.subs.map SubDoc.acc).filter fun x => x = D.acc ++ chars!"001" || x = acc := by
    have hnd := (hw.archive.wf D hD).distinct
    have e1 : subs = D.subs.filter fun s' => s'.acc = D.acc ++ chars!"001" || s'.acc = acc := by
      have hnd' : D.subs.Nodup := List.Nodup.of_map _ hnd
      have hsl : subs.Sublist (D.subs.filter fun s' => s'.acc = D.acc ++ chars!"001" || s'.acc = acc) := by
        have := h2.filter (fun s' : SubDoc => s'.acc = D.acc ++ chars!"001" || s'.acc = acc)
        rwa [List.filter_eq_self.2 (by
          intro x hx
          have := (h3 x (h2.subset hx)).1 hx
          have e1 : "001".toList = chars!"001" := by decide
          rw [e1] at this
          simpa using this)] at this
      refine hsl.eq_of_length_le ?_
      refine (List.Nodup.subperm (hnd'.filter _) ?_).length_le
      intro x hx
      rw [List.mem_filter] at hx
      refine (h3 x hx.1).2 ?_
      have e1 : "001".toList = chars!"001" := by decide
      rw [e1]
      simpa using hx.2
    rw [e1, List.filter_map]
    rfl
  rw [getEntry_subent rfl rfl h8, search_subent hw (a := { subent := some acc, raw := true }) rfl rfl rfl, hr]
  have hj : Found.joined (.entry e) = .ok (joinWith ['\n'] (subs.map SubDoc.acc)) := by
    unfold Found.joined Found.items
    simp only [h1.keys_eq]
    rw [show (subs.map fun s => some s.acc) = (subs.map SubDoc.acc).map some by simp, mapE_comp,
      mapE_all_ok (g := fun x => x) (fun x _ => rfl)]
    simp [Function.comp_def]
  simp only [Except.map, List.map_cons, List.map_nil, examine, Dict.keys, sortBy, List.foldl_cons, List.foldl_nil, insertBy, joinLoop,
    Dict.get, Dict.get?, if_true, hj, hsubs]
  simp [Printed.andThen, printE]

theorem raw_file {w : GetWorld} {D : EntryDoc} (hD : D.wf) (hfile : w.db.read (D.acc.take 3 ++ ['/'] ++ D.acc ++ ".x4".toList) = .ok D.file) :
    (entryFactoryRaw w.db D.acc none).2 = .ok (D.subs.map SubDoc.text) := by
  have h1 : splitEntryFile none D.file = D.subs.map SubDoc.text := by
    rw [C10_lossless _ _ (file_stretches D fun s hs => (hD.subs s hs).1)]
    simp only [requested, List.filter_true, List.map_map]
    apply List.map_congr_left
    intro s _
    rw [Function.comp, stretch_lines, SubDoc.text]
  unfold entryFactoryRaw
  rw [if_neg (by rw [hD.acc]; simp)]
  simp only [slice, List.drop_zero]
  rw [hfile, ← h1]

/-- C95: `-f -s NUMBER --raw` prints the lines of all subentries of the file, whichever is requested. -/
theorem C95_raw_file (w : GetWorld) (D : EntryDoc) (hD : D.wf) (hfile : w.db.read (D.acc.take 3 ++ ['/'] ++ D.acc ++ ".x4".toList) = .ok D.file)
    (acc : Str) (h8 : acc.length = 8) (ha : acc.take 5 = D.acc) :
    getEntry w { subent := some acc, raw := true, getFile := true } = ([chars!"\n\n", joinWith ['\n'] (D.subs.map SubDoc.text)], .ok ()) := by
  have hsr : searchResult w { subent := some acc, raw := true, getFile := true } = .ok [(D.acc, .raw (D.subs.map SubDoc.text))] := by
    unfold searchResult
    have : slice acc 0 5 = D.acc := by simpa [slice] using ha
    simp only [Option.getD_some, this, raw_file hD hfile]
    simp
  rw [getEntry_subent rfl rfl h8, hsr]
  have hj : Found.joined (.raw (D.subs.map SubDoc.text)) = .ok (joinWith ['\n'] (D.subs.map SubDoc.text)) := by
    unfold Found.joined Found.items
    simp only
    rw [mapE_comp, mapE_all_ok (g := fun x => x) (fun x _ => rfl)]
    simp [Function.comp_def]
  simp only [examine, Dict.keys, List.map_cons, List.map_nil, sortBy, List.foldl_cons, List.foldl_nil, insertBy, joinLoop,
    Dict.get, Dict.get?, if_true, hj]
  simp [Printed.andThen, printE]

theorem keepOnly_holds {P : FieldParsers Measurement} {acc : Str} {subs : List SubDoc} {d : Dict (Option Str) (SubEntry Measurement)}
    (h : List.Forall₂ (fun s kv => kv.1 = some s.acc ∧ SubHolds P s kv.2) subs d) :
    ∃ d', keepOnly acc d = .ok d' ∧
      List.Forall₂ (fun s kv => kv.1 = some s.acc ∧ SubHolds P s kv.2) (subs.filter fun s => endsWith s.acc chars!"001" || s.acc = acc) d' := by
  induction h with
  | nil => exact ⟨[], rfl, .nil⟩
  | @cons s kv subs d h1 _ ih =>
    obtain ⟨d', hd, hf⟩ := ih
    obtain ⟨k, v⟩ := kv
    obtain ⟨rfl, hv⟩ := h1
    simp only [keepOnly, hd, List.filter_cons]
    refine ⟨_, rfl, ?_⟩
    by_cases hk : (endsWith s.acc chars!"001" || decide (s.acc = acc)) = true
    · rw [if_pos hk, if_pos hk]
      exact .cons ⟨rfl, hv⟩ hf
    · rw [if_neg hk, if_neg hk]
      exact hf

/-- C95: with `-f -s NUMBER` the entry is read from its file, without the index, and holds the first subentry and the one with that
number as they are written; KeyError for a number that the file has no subentry with. -/
theorem C95_file (w : GetWorld) (D : EntryDoc) (hD : D.wf) (hr : ∀ s ∈ D.subs, s.Readable w.P)
    (hfile : w.db.read (D.acc.take 3 ++ ['/'] ++ D.acc ++ ".x4".toList) = .ok D.file) (a : GetArgs) (hf : a.getFile = true) (hraw : a.raw = false)
    (he : a.ent = none) (acc : Str) (hs : a.subent = some acc) (ha : acc.take 5 = D.acc) :
    ((∀ s ∈ D.subs, s.acc ≠ acc) → searchResult w a = .error .keyError) ∧
    ((∃ s ∈ D.subs, s.acc = acc) → ∃ e, searchResult w a = .ok [(D.acc, .entry e)] ∧
      EntryHolds w.P D (D.subs.filter fun s => endsWith s.acc chars!"001" || s.acc = acc) e) := by
  obtain ⟨s0, hs0⟩ := List.exists_mem_of_ne_nil _ hD.some
  obtain ⟨e, hb, hh⟩ := C85_read w.P D hD none hr ⟨s0, hs0, rfl⟩
  simp only [requested, List.filter_true] at hh
  have hrawf := raw_file (w := w) hD hfile
  have hb : Entry.build w.P (D.subs.map SubDoc.text) = .ok e := by
    rw [← hb]
    congr 1
    rw [C10_lossless _ _ (file_stretches D fun s hs => (hD.subs s hs).1)]
    simp only [requested, List.filter_true, List.map_map]
    apply List.map_congr_left
    intro s _
    rw [Function.comp, stretch_lines, SubDoc.text]
  have h5 : slice acc 0 5 = D.acc := by simpa [slice] using ha
  have hkeys : some acc ∈ e.subs.keys ↔ ∃ s ∈ D.subs, s.acc = acc := by
    rw [hh.keys_eq, List.mem_map]
    exact ⟨fun ⟨s, hs, h⟩ => ⟨s, hs, Option.some.inj h⟩, fun ⟨s, hs, h⟩ => ⟨s, hs, by rw [h]⟩⟩
  have hsr : searchResult w a = if some acc ∉ e.subs.keys then .error .keyError else match keepOnly acc e.subs with
      | .error e => .error e
      | .ok subs => .ok [(D.acc, .entry { e with subs := subs })] := by
    unfold searchResult
    rw [if_neg (by simp [hf])]
    simp only [he, hs, Option.getD_some, h5, hrawf, hb]
    rw [if_neg (by simp [hraw])]
    rfl
  constructor
  · intro hno
    rw [hsr, if_pos]
    rw [hkeys]
    rintro ⟨s, hs, h⟩
    exact hno s hs h
  · intro h
    obtain ⟨d', hd, hd'⟩ := keepOnly_holds (acc := acc) hh.subs
    refine ⟨{ e with subs := d' }, ?_, hh.accnum, hd'⟩
    rw [hsr, if_neg (by simpa using hkeys.2 h), hd]

/-- C95: `-f -s NUMBER --rawdata` prints the DATA table of that subentry whether or not it is in the index; KeyError for a number
that the file has no subentry with. -/
theorem C95_rawdata_file (w : GetWorld) (D : EntryDoc) (hD : D.wf) (hr : ∀ s ∈ D.subs, s.Readable w.P)
    (hfile : w.db.read (D.acc.take 3 ++ ['/'] ++ D.acc ++ ".x4".toList) = .ok D.file) (acc : Str) (h8 : acc.length = 8) (ha : acc.take 5 = D.acc)
    (hdoc : endsWith acc chars!"001" = false) :
    ((∀ s ∈ D.subs, s.acc ≠ acc) → getEntry w { subent := some acc, rawdata := true, getFile := true } = ([], .error .keyError)) ∧
    ∀ s ∈ D.subs, s.acc = acc → ∀ t, s.data = some t → ∃ d, DataSection.build chars!"DATA" (t.lines chars!"DATA") = .ok d ∧ TableHolds t d ∧
      getEntry w { subent := some acc, rawdata := true, getFile := true } =
        ([chars!"---------- Raw Data ----------", d.str w.num, chars!"---------- Errors ----------", chars!"{}"], .ok ()) := by
  obtain ⟨f1, f2⟩ := C95_file w D hD hr hfile { subent := some acc, rawdata := true, getFile := true } rfl rfl rfl acc rfl ha
  constructor
  · intro hno
    rw [getEntry_subent rfl rfl h8, f1 hno]
  · intro s hs hsa t ht
    obtain ⟨e, hsr, hh⟩ := f2 ⟨s, hs, hsa⟩
    obtain ⟨S, hS, hSh⟩ := hh.lookup (hD.distinct.sublist (List.filter_sublist.map _)) (List.mem_filter.2 ⟨hs, by simp [hsa]⟩)
    rw [hsa] at hS
    have hd := hSh.data
    rw [ht] at hd
    obtain ⟨d, hd1, hd2, hd3'⟩ := hd
    refine ⟨d, hd2, hd3', ?_⟩
    have hget : e.getItem (.str acc) = .ok S := by
      rw [getItem_full _ h8]
      unfold Dict.get
      simp only [hS]
    have hb1 : banner chars!"Raw Data" = chars!"---------- Raw Data ----------" := by decide
    have hb2 : banner chars!"Errors" = chars!"---------- Errors ----------" := by decide
    have hd' : S.sections.get? chars!"DATA" = some (.data d) := hd1
    rw [getEntry_subent rfl rfl h8, hsr]
    simp only [examine, Dict.keys, sortBy, List.map_cons, List.map_nil, List.foldl_cons, List.foldl_nil, insertBy,
      List.getLast?_singleton, pickEntry, Dict.get, Dict.get?, if_true, hdoc, hb1, hb2, Found.dataText, hget]
    rw [show Dict.get? S.sections chars!"DATA" = some (.data d) from hd']
    simp [Sec.str, Printed.andThen, printE]

/-! #### the datasets -/

/-- what is retrieved was built from lines -/
theorem retrieve_built {ρ : Type} {P : FieldParsers ρ} {table : List Row} {db : DB} {c : Criteria} {r : Dict Str (Entry ρ)} (h : retrieve P table db c = .ok r)
    {k : Str} {e : Entry ρ} (hk : (k, e) ∈ r) : ∃ raw, Entry.build P raw = .ok e := by
  obtain ⟨raw, -, hf⟩ := (C47_parsed P table db c r).1 h
  clear h
  induction hf with
  | nil => simp at hk
  | cons h1 _ ih =>
    rcases List.mem_cons.1 hk with rfl | hk
    · exact ⟨_, h1.2⟩
    · exact ih hk

/-- C95: `-s NUMBER --data` prints the datasets of that subentry (and those of the first one, if it has data), by their keys and with their
`repr`; they are those written in the file. If one of them has no `repr`, that exception follows the heading. The messages printed below are about
these subentries; a combination of reactions with different quantities is named there. -/
theorem C95_data_partial {N : Type} [PyNum N] (w : GetWorld) (docs : List EntryDoc) (table : List Row) (hw : w.On docs table) (rx : RxOps Measurement)
    (T : DsReprs Measurement N) (py : PyErr → Str) (hsets : w.sets = setsPrinted rx T py)
    (htext : ∀ r, rx.text r ≠ .error .notImplementedError) (acc : Str) (h8 : acc.length = 8)
    (hp : PlainText acc) (hdoc : endsWith acc chars!"001" = false) :
    ((¬ ∃ row ∈ table, row.subent = some acc) →
      getEntry w { subent := some acc, data := true } = ([chars!"---------- Data ----------"], .error .indexError)) ∧
    ∀ D ∈ docs, ∀ m ∈ D.subs, m.acc = D.acc ++ "001".toList → ∀ s ∈ D.subs, s.acc = acc → (∃ row ∈ table, row.subent = some acc) →
      D.Printable w.P rx → ∃ (ds : Dict DsKey (DataSet Measurement N)) (errs : Notes), ds.keys.Nodup ∧
        (∀ ts, mapE (setRepr T) ds = .ok ts → getEntry w { subent := some acc, data := true } =
          ([chars!"---------- Data ----------", braced ts, chars!"---------- Errors ----------",
            braced (errs.map fun kv => dsKeyRepr kv.1 ++ chars!": " ++ strRepr kv.2)], .ok ())) ∧
        (∀ x, mapE (setRepr T) ds = .error x → getEntry w { subent := some acc, data := true } = ([chars!"---------- Data ----------"], .error x)) ∧
        (∀ a k p, (a, k, p) ∈ ds.keys → a = D.acc ∧
          ((k = some acc ∧ s.data ≠ none ∧ docReaction m s p ≠ []) ∨ (k = some m.acc ∧ m.data ≠ none ∧ docReaction m m p ≠ []))) ∧
        (∀ a k p n, errs.get? (a, k, p) = some n → a = D.acc ∧
          ((k = some acc ∧ s.data ≠ none ∧ docReaction m s p ≠ []) ∨ (k = some m.acc ∧ m.data ≠ none ∧ docReaction m m p ≠ []))) ∧
        (s.data ≠ none → ∀ p, docReaction m s p ≠ [] → ∀ r, w.P.reaction (joinWith [' '] ((docReaction m s p).map strip)) = .ok r →
          rx.quantity r.1 = none → (∀ q, ∃ x ∈ rx.members r.1, x ≠ q) → ∀ t, rx.text r.1 = .ok t → errs.get? (D.acc, some acc, p) =
            some (chars!"Encountered NotImplementedError: Coupled data with different quantities in expression:" ++ t)) ∧
        ∀ t, s.data = some t → t.labels.Nodup → ∀ p, PlainDoc p m.common → PlainDoc p s.common → docReaction m s p ≠ [] →
          ∀ r, w.P.reaction (joinWith [' '] ((docReaction m s p).map strip)) = .ok r → ∀ q, effectiveQuant rx r.1 = .ok q →
          ∃ d, ds.get? (D.acc, some acc, p) = some d ∧ d.reaction = some r ∧
            d.labels = docHeads m.common ++ docHeads s.common ++ (pick (belongs t.labels (some p)) t.labels).map head10 ∧
            d.units = docUnits m.common ++ docUnits s.common ++ (pick (belongs t.labels (some p)) t.units).map (fun u => some (head10 u)) ∧
            d.data = t.rows.map fun row => docRow m.common ++ docRow s.common ++ (pick (belongs t.labels (some p)) row).map cellVal := by
  obtain ⟨f1, f2⟩ := find_subent hw.archive acc hp
  have hsr := search_subent hw (a := { subent := some acc, data := true }) rfl rfl rfl
  have hb1 : banner chars!"Data" = chars!"---------- Data ----------" := by decide
  have hb2 : banner chars!"Errors" = chars!"---------- Errors ----------" := by decide
  constructor
  · intro hn
    rw [getEntry_subent rfl rfl h8, hsr, f1 hn]
    simp only [Except.map, List.map_nil, examine, Dict.keys, sortBy, List.foldl_nil, List.getLast?_nil, pickEntry, if_true, hdoc, Printed.andThen, hb1]
    rfl
  · intro D hD m hm hma s hs hsa hrow hpr
    obtain ⟨e, subs, hr, h1, h2, h3⟩ := f2 D hD s hs hsa hrow
    obtain ⟨l, hb⟩ := retrieve_built hr (List.mem_singleton.2 rfl)
    have hmm := (h3 m hm).2 (.inl hma)
    have hms := (h3 s hs).2 (.inr hsa)
    have hD' := hw.archive.wf D hD
    obtain ⟨⟨st, notes⟩, hstN, hst, hnote, honly⟩ := doc_notes (N := N) htext py w.P D hD' hpr subs h2 l e hb h1 m hmm hma
    obtain ⟨-, -, -, -, hnd, -, -⟩ := doc_values (N := N) w.P rx D hD' subs h2 l e hb h1 m hmm hma st hst
    have hne : s.acc ≠ m.acc := by
      intro hc
      rw [← hsa, hc, hma] at hdoc
      revert hdoc
      have : endsWith (D.acc ++ "001".toList) chars!"001" = true := by
        rw [endsWith, List.isSuffixOf_iff_suffix]
        exact ⟨D.acc, by rw [show "001".toList = chars!"001" by decide]⟩
      rw [this]
      decide
    have hex : getEntry w { subent := some acc, data := true } =
        Printed.andThen ([chars!"---------- Data ----------"], .ok ()) (printSets w.sets (.entry e)) := by
      rw [getEntry_subent rfl rfl h8, hsr, hr]
      simp only [Except.map, List.map_cons, List.map_nil, examine, Dict.keys, sortBy, List.foldl_cons, List.foldl_nil, insertBy,
        List.getLast?_singleton, pickEntry, Dict.get, Dict.get?, if_true, hdoc, hb1]
      unfold Printed.andThen
      rfl
    refine ⟨st.datasets, notes, hnd, ?_, ?_, ?_, ?_, ?_, ?_⟩
    · intro ts hts
      rw [hex, hsets]
      simp only [printSets, setsPrinted, hstN, hts, hb2, Printed.andThen]
      rfl
    · intro x hx
      rw [hex, hsets]
      simp only [printSets, setsPrinted, hstN, hx, Printed.andThen]
      rfl
    · intro a k p hk
      obtain ⟨d, hd⟩ := Option.isSome_iff_exists.1 ((Dict.mem_keys_iff _ _).1 hk)
      obtain ⟨g1, s', hs', hk', hdat, hrx⟩ := doc_only w.P rx D hD' subs h2 l e hb h1 m hmm hma st hst a k p d hd
      refine ⟨g1, ?_⟩
      have hinj := hD'.distinct
      rcases (h3 s' (h2.subset hs')).1 hs' with ha | ha
      · have : s' = m := nodup_inj hinj (h2.subset hs') hm (ha.trans hma.symm)
        subst this
        exact .inr ⟨hk', hdat, hrx⟩
      · have : s' = s := nodup_inj hinj (h2.subset hs') hs (ha.trans hsa.symm)
        subst this
        exact .inl ⟨by rw [hk', ha], hdat, hrx⟩
    · intro a k p n hn
      obtain ⟨g1, s', hs', hk', hdat, hrx⟩ := honly a k p n hn
      refine ⟨g1, ?_⟩
      have hinj := hD'.distinct
      rcases (h3 s' (h2.subset hs')).1 hs' with ha | ha
      · have : s' = m := nodup_inj hinj (h2.subset hs') hm (ha.trans hma.symm)
        subst this
        exact .inr ⟨hk', hdat, hrx⟩
      · have : s' = s := nodup_inj hinj (h2.subset hs') hs (ha.trans hsa.symm)
        subst this
        exact .inl ⟨by rw [hk', ha], hdat, hrx⟩
    · intro hdat p hp r hr hq hqs t ht
      rw [← hsa]
      exact hnote s hms hdat p hp r hr hq hqs t ht
    · intro t ht hl p hc1 hc2 hrp r hrx q hq
      obtain ⟨st', d, g1, g2, g3, -, -, g6, g7, g8⟩ := doc_dataset (N := N) w.P rx D hD' hpr subs h2 l e hb h1 m s hmm hma hms hne t ht hl p hc1 hc2 hrp r hrx q hq
      rw [hst] at g1
      cases g1
      exact ⟨d, by rw [← hsa]; exact g2, g3, g6, g7, g8⟩

/-- C95: for a first subentry it is a ValueError. -/
theorem C95_data_first (w : GetWorld) (acc : Str) (h8 : acc.length = 8) (hdoc : endsWith acc chars!"001" = true) (getFile : Bool)
    (r : Dict Str Found) (hr : searchResult w { subent := some acc, data := true, getFile := getFile } = .ok r) :
    getEntry w { subent := some acc, data := true, getFile := getFile } = ([], .error .valueError) := by
  rw [getEntry_subent rfl rfl h8, hr]
  simp [examine, hdoc, Printed.andThen]

/-! #### the list of subentries -/

theorem listLine_plain {acc : Str} (h8 : acc.length = 8) (hs : ∀ c ∈ acc, isSpace c = false) : listLine acc = chars!"    " ++ acc := by
  have hn : '\n' ∉ acc := fun h => by have := hs _ h; revert this; decide
  have h1 : splitChar '\n' acc = [acc] := by
    have := splitChar_joinWith (c := '\n') (ls := [acc]) (by simpa using hn) (by simp)
    simpa [joinWith] using this
  unfold listLine
  rw [h1]
  simp only [List.headD_cons, slice, List.drop_zero]
  rw [List.take_of_length_le (by rw [h8]; decide)]

theorem listLoop_plain (l : List SubDoc) (h : ∀ s ∈ l, s.wf) :
    listLoop (l.map fun s => some s.acc) = (l.map fun s => chars!"    " ++ s.acc, .ok ()) := by
  induction l with
  | nil => rfl
  | cons s l ih =>
    have h1 := h s (by simp)
    simp only [List.map_cons, listLoop, ih (fun s hs => h s (by simp [hs])), Printed.andThen, listLine_plain h1.acc.1 h1.acc.2]
    rfl

/-- C95: `-e NUMBER` lists the entry and, below it, its first subentry and its subentries in the index, in the order of the file;
IndexError if the index has none of its subentries. -/
theorem C95_listing (w : GetWorld) (docs : List EntryDoc) (table : List Row) (hw : w.On docs table) (hrows : ∀ row ∈ table, ∀ a, row.subent = some a → row.entry = some (a.take 5))
    (D : EntryDoc) (hD : D ∈ docs) (hp : PlainText D.acc) :
    ((∀ s ∈ D.subs, ∀ row ∈ table, row.subent ≠ some s.acc) → getEntry w { ent := some D.acc } = ([], .error .indexError)) ∧
    ((∃ s ∈ D.subs, ∃ row ∈ table, row.subent = some s.acc) → ∃ subs : List SubDoc, subs.Sublist D.subs ∧
      (∀ s ∈ D.subs, s ∈ subs ↔ s.acc = D.acc ++ "001".toList ∨ ∃ row ∈ table, row.subent = some s.acc) ∧
      getEntry w { ent := some D.acc } = ((chars!"This ENTRY:       " ++ D.acc) :: subs.map (fun s => chars!"    " ++ s.acc), .ok ())) := by
  have hA := hw.archive
  have hplain : Plain { ENTRY := some (.str D.acc) } := by
    refine ⟨?_, ?_, ?_, ?_, ?_, ?_, ?_⟩ <;> try (rintro a ⟨⟩)
    exact hp
  have hgiven : Criteria.given { ENTRY := some (.str D.acc) } := by simp [Criteria.given]
  have hhit : ∀ x, Hit table { ENTRY := some (.str D.acc) } x ↔ x.take 5 = D.acc ∧ ∃ row ∈ table, row.subent = some x := by
    intro x
    constructor
    · rintro ⟨row, hrow, hm, hx⟩
      have := hm.entry _ rfl
      rw [hrows row hrow x hx] at this
      exact ⟨Option.some.inj this, row, hrow, hx⟩
    · rintro ⟨hx5, row, hrow, hx⟩
      refine ⟨row, hrow, ⟨?_, ?_, ?_, ?_, ?_, ?_, ?_⟩, hx⟩ <;> try (rintro a ⟨⟩)
      rw [hrows row hrow x hx, hx5]
      rfl
  obtain ⟨r, hr, hinc, hkeys, hents⟩ := C87_retrieve w.P docs w.db table hA _ hplain hgiven
  have hrk : ∀ k e, (k, e) ∈ r → k = D.acc ∧ ∃ s ∈ D.subs, ∃ row ∈ table, row.subent = some s.acc := by
    intro k e hke
    obtain ⟨D', hD', hDk, -⟩ := hents k e hke
    obtain ⟨s, hs, hh⟩ := (hkeys D' hD').1 (by rw [hDk]; exact List.mem_map.2 ⟨_, hke, rfl⟩)
    obtain ⟨h5, hrow⟩ := (hhit _).1 hh
    have : D' = D := nodup_inj hA.distinct hD' hD (by rw [← h5, ((hA.wf D' hD').subs s hs).2])
    subst this
    exact ⟨hDk.symm, s, hs, hrow⟩
  have hsr : searchResult w { ent := some D.acc } = .ok (r.map fun kv => (kv.1, .entry kv.2)) := by
    unfold searchResult
    rw [if_pos rfl, hw.manager]
    simp only [hr, Except.map]
  have hge : getEntry w { ent := some D.acc } = Printed.andThen (printSubentries (r.map fun kv => (kv.1, .entry kv.2))) ([], .ok ()) := by
    unfold getEntry
    rw [if_neg (by simp), if_neg (by simp), if_neg (by simp [(hA.wf D hD).acc]), hsr]
    simp only [reduceCtorEq, if_false]
  constructor
  · intro hno
    have : r = [] := by
      cases r with
      | nil => rfl
      | cons p r =>
        obtain ⟨-, s, hs, row, hrow, h⟩ := hrk p.1 p.2 (by simp)
        exact absurd h (hno s hs row hrow)
    rw [hge, this]
    rfl
  · rintro ⟨s, hs, hrow⟩
    have hin : D.acc ∈ r.keys := (hkeys D hD).2 ⟨s, hs, (hhit _).2 ⟨((hA.wf D hD).subs s hs).2, hrow⟩⟩
    obtain ⟨⟨k, e⟩, hke, hk⟩ := List.mem_map.1 hin
    simp only at hk
    subst hk
    have hone : r = [(D.acc, e)] := by
      match r, hke, hrk, hinc with
      | [p], h, _, _ => rw [List.mem_singleton] at h; rw [h]
      | (k, e) :: (k', e') :: r, _, h, h' =>
        exfalso
        simp only [Dict.keys, List.map_cons, List.pairwise_cons] at h'
        exact (h'.1 k' (by simp)).2 (by rw [(h k e (by simp)).1, (h k' e' (by simp)).1])
    obtain ⟨D', hD', hDk, subs, h1, h2, h3⟩ := hents D.acc e hke
    have : D' = D := nodup_inj hA.distinct hD' hD hDk
    subst this
    refine ⟨subs, h2, ?_, ?_⟩
    · intro s' hs'
      rw [h3 s' hs', hhit]
      simp only [((hA.wf D' hD').subs s' hs').2, true_and]
    · rw [hge, hone]
      simp only [List.map_cons, List.map_nil, printSubentries, Found.items, h1.keys_eq,
        listLoop_plain subs (fun s hs => ((hA.wf D' hD').subs s (h2.subset hs)).1), Printed.andThen]
      simp

theorem listLoop_lines (l : List SubDoc) (h : ∀ s ∈ l, s.wf) :
    listLoop (l.map fun s => some s.text) = (l.map fun s => chars!"    SUBENT        " ++ s.acc, .ok ()) := by
  induction l with
  | nil => rfl
  | cons s l ih =>
    have h1 := h s (by simp)
    have hn : '\n' ∉ ljust chars!"SUBENT" 14 ++ s.acc := by
      intro hm
      rcases List.mem_append.1 hm with hm | hm
      · revert hm; decide
      · have := h1.acc.2 _ hm; revert this; decide
    have hl : listLine s.text = chars!"    SUBENT        " ++ s.acc := by
      unfold listLine SubDoc.text SubDoc.lines
      simp only [List.map_cons, List.flatten_cons]
      rw [List.append_assoc (ljust _ _ ++ _), List.singleton_append, splitChar_cons hn]
      simp only [List.headD_cons, slice, List.drop_zero]
      rw [List.take_of_length_le (by rw [List.length_append, h1.acc.1]; decide), ← List.append_assoc]
      rfl
    simp only [List.map_cons, listLoop, ih (fun s hs => h s (by simp [hs])), Printed.andThen, hl]
    rfl

/-- C95: `-f -e NUMBER` lists all subentries of the file, whether or not they are in the index; with `--raw` it lists the lines they
begin with. -/
theorem C95_listing_file (w : GetWorld) (D : EntryDoc) (hD : D.wf)
    (hfile : w.db.read (D.acc.take 3 ++ ['/'] ++ D.acc ++ ".x4".toList) = .ok D.file) :
    ((∀ s ∈ D.subs, s.Readable w.P) → getEntry w { ent := some D.acc, getFile := true } =
      ((chars!"This ENTRY:       " ++ D.acc) :: D.subs.map (fun s => chars!"    " ++ s.acc), .ok ())) ∧
    getEntry w { ent := some D.acc, getFile := true, raw := true } =
      ((chars!"This ENTRY:       " ++ D.acc) :: D.subs.map (fun s => chars!"    SUBENT        " ++ s.acc), .ok ()) := by
  have hwf : ∀ s ∈ D.subs, s.wf := fun s hs => (hD.subs s hs).1
  have hrawf := raw_file (w := w) hD hfile
  constructor
  · intro hr
    obtain ⟨s0, hs0⟩ := List.exists_mem_of_ne_nil _ hD.some
    obtain ⟨e, hb, hh⟩ := C85_read w.P D hD none hr ⟨s0, hs0, rfl⟩
    simp only [requested, List.filter_true] at hh
    have hb : Entry.build w.P (D.subs.map SubDoc.text) = .ok e := by
      rw [← hb]
      congr 1
      rw [C10_lossless _ _ (file_stretches D hwf)]
      simp only [requested, List.filter_true, List.map_map]
      apply List.map_congr_left
      intro s _
      rw [Function.comp, stretch_lines, SubDoc.text]
    have hsr : searchResult w { ent := some D.acc, getFile := true } = .ok [(D.acc, .entry e)] := by
      unfold searchResult
      simp only [hrawf, hb]
      simp
    unfold getEntry
    rw [if_neg (by simp), if_neg (by simp), if_neg (by simp [hD.acc]), hsr]
    simp only [reduceCtorEq, if_false, printSubentries, Found.items, hh.keys_eq, listLoop_plain D.subs hwf, Printed.andThen]
    simp
  · have hsr : searchResult w { ent := some D.acc, getFile := true, raw := true } = .ok [(D.acc, .raw (D.subs.map SubDoc.text))] := by
      unfold searchResult
      simp only [hrawf]
      simp
    unfold getEntry
    rw [if_neg (by simp), if_neg (by simp), if_neg (by simp [hD.acc]), hsr]
    simp only [reduceCtorEq, if_false, printSubentries, Found.items, List.map_map, Function.comp_def, listLoop_lines D.subs hwf, Printed.andThen]
    simp

/-! ### C96: plotX4 -/

theorem entryIndexOfKeys_short {l : List (Option Str)} (h : ∀ k ∈ l, ∀ s, k = some s → s.length ≤ 14) :
    entryIndexOfKeys l = .ok none ∨ entryIndexOfKeys l = .ok (some []) ∨ entryIndexOfKeys l = .error .attributeError := by
  induction l with
  | nil => exact .inl rfl
  | cons k l ih =>
    have ih := ih fun k hk => h k (by simp [hk])
    cases k with
    | none => exact .inr (.inr rfl)
    | some s =>
      have hs := h _ (by simp) s rfl
      have h0 : slice s 14 22 = [] := by
        unfold slice
        rw [List.drop_eq_nil_iff, List.length_take]
        omega
      simp only [entryIndexOfKeys, h0]
      split
      · exact ih
      · split
        · exact .inr (.inl rfl)
        · split
          · exact .inr (.inl rfl)
          · exact ih

theorem entryOfEntry_fails {P : FieldParsers Measurement} {raw : List Str} {e : Entry Measurement} (h : Entry.build P raw = .ok e) :
    (∃ err, entryOfEntry P e = .error err) ∧ (none ∉ e.subs.keys → entryOfEntry P e = .error .keyError) := by
  obtain ⟨-, -, hk, -⟩ := C13_keys P raw e h
  have hshort : ∀ k ∈ e.subs.keys, ∀ s, k = some s → s.length ≤ 14 := by
    rintro k hke s rfl
    obtain ⟨x, -, hx⟩ := (hk _).1 hke
    unfold accessionField at hx
    cases hf : ((splitChar '\n' x).find? fun l => firstWord l = some "SUBENT".toList) with
    | none => rw [hf] at hx; simp at hx
    | some l =>
      rw [hf] at hx
      simp only [Option.map_some, Option.some.injEq] at hx
      subst hx
      simp only [List.length_take]
      omega
  constructor
  · rcases entryIndexOfKeys_short hshort with h1 | h1 | h1 <;> unfold entryOfEntry <;> rw [h1]
    · exact ⟨_, rfl⟩
    · exact ⟨_, rfl⟩
    · exact ⟨_, rfl⟩
  · intro hn
    have hne : ∀ l : List (Option Str), none ∉ l → entryIndexOfKeys l ≠ .error .attributeError := by
      intro l
      induction l with
      | nil => intro _ h; cases h
      | cons k l ih =>
        intro h
        cases k with
        | none => simp at h
        | some s =>
          simp only [entryIndexOfKeys]
          have := ih (fun hm => h (by simp [hm]))
          split
          · exact this
          · split
            · simp
            · split
              · simp
              · exact this
    rcases entryIndexOfKeys_short hshort with h1 | h1 | h1
    · unfold entryOfEntry; rw [h1]
    · unfold entryOfEntry; rw [h1]; rfl
    · exact absurd h1 (hne _ hn)

theorem plotLoop_fails {P : FieldParsers Measurement} {simple : Entry Measurement → Except PyErr (List Str)} {r : Dict Str (Entry Measurement)}
    (hr : ∀ k e, r.get? k = some e → ∃ raw, Entry.build P raw = .ok e) (ks : List Str) :
    plotLoop P simple r [] ks = .ok [] ∨ ∃ err, plotLoop P simple r [] ks = .error err := by
  induction ks with
  | nil => exact .inl rfl
  | cons k ks ih =>
    unfold plotLoop
    split
    · exact ih
    · right
      unfold Dict.get
      cases hg : r.get? k with
      | none => exact ⟨_, rfl⟩
      | some e =>
        obtain ⟨raw, hraw⟩ := hr k e hg
        obtain ⟨⟨err, herr⟩, -⟩ := entryOfEntry_fails hraw
        simp only [herr]
        exact ⟨_, rfl⟩

/-- C96 is false of the code: with no database, isotope and reaction is anything plotted. -/
theorem C96_refuted (P : FieldParsers Measurement) (table : List Row) (db : DB) (shown : Dict Str (Entry Measurement) → Except PyErr Unit)
    (simple : Entry Measurement → Except PyErr (List Str)) (isotope reaction : Str) (files : List Str) :
    plotX4 P (retrieve P table db) shown simple isotope reaction ≠ .ok (.plotted files) := by
  unfold plotX4
  cases hr : retrieve P table db { target := some isotope, reaction := some reaction, quantity := some chars!"CS" } with
  | error e => simp
  | ok r =>
    simp only
    cases shown r with
    | error e => simp
    | ok u =>
      rcases plotLoop_fails (P := P) (simple := simple) (r := r) (fun k e hg => retrieve_built hr (Dict.mem_of_get? hg)) r.keys with h | ⟨err, h⟩
      · simp only [h, if_true, ne_eq, Except.ok.injEq, reduceCtorEq, not_false_eq_true]
      · simp only [h, ne_eq, reduceCtorEq, not_false_eq_true]

/-- C96: an entry that meets the criteria, other than 22208, ends the program with KeyError; with none it exits with status 1. -/
theorem C96_outcome (P : FieldParsers Measurement) (docs : List EntryDoc) (db : DB) (table : List Row) (hA : Archive P docs db table)
    (shown : Dict Str (Entry Measurement) → Except PyErr Unit) (hshown : ∀ r, shown r = .ok ())
    (simple : Entry Measurement → Except PyErr (List Str)) (isotope reaction : Str)
    (hp : Plain { target := some isotope, reaction := some reaction, quantity := some chars!"CS" }) :
    plotX4 P (retrieve P table db) shown simple isotope reaction =
      (open Classical in
      if ∃ D ∈ docs, D.acc ≠ chars!"22208" ∧ ∃ s ∈ D.subs, Hit table { target := some isotope, reaction := some reaction, quantity := some chars!"CS" } s.acc then
        .error .keyError else .ok .exit1) := by
  obtain ⟨r, hr, hinc, hkeys, hents⟩ := C87_retrieve P docs db table hA _ hp (by simp [Criteria.given])
  have hnd : r.keys.Nodup := hinc.imp fun h => h.2
  have hent : ∀ k e, (k, e) ∈ r → entryOfEntry P e = .error .keyError := by
    intro k e hke
    obtain ⟨D, -, -, subs, h1, -⟩ := hents k e hke
    obtain ⟨raw, hraw⟩ := retrieve_built hr hke
    refine (entryOfEntry_fails hraw).2 ?_
    rw [h1.keys_eq]
    simp
  have hloop : ∀ ks : List Str, (∀ k ∈ ks, k ∈ r.keys) → plotLoop P simple r [] ks =
      if ∃ k ∈ ks, k ≠ chars!"22208" then .error .keyError else .ok [] := by
    intro ks
    induction ks with
    | nil => intro _; rw [if_neg (by simp)]; rfl
    | cons k ks ih =>
      intro hks
      unfold plotLoop
      by_cases hk : k = chars!"22208"
      · rw [if_pos hk, ih fun k hk => hks k (by simp [hk])]
        simp only [List.mem_cons, exists_eq_or_imp, hk, ne_eq, not_true_eq_false, false_or]
      · rw [if_neg hk, if_pos ⟨k, by simp, hk⟩]
        obtain ⟨⟨k', e⟩, hke, rfl⟩ := List.mem_map.1 (hks k (by simp))
        unfold Dict.get
        simp only [Dict.get?_eq_some_of_mem hnd hke, hent _ e hke]
  have hiff : (∃ k ∈ r.keys, k ≠ chars!"22208") ↔ ∃ D ∈ docs, D.acc ≠ chars!"22208" ∧ ∃ s ∈ D.subs,
      Hit table { target := some isotope, reaction := some reaction, quantity := some chars!"CS" } s.acc := by
    constructor
    · rintro ⟨k, hk, hne⟩
      obtain ⟨⟨k', e⟩, hke, rfl⟩ := List.mem_map.1 hk
      obtain ⟨D, hD, hDk, -⟩ := hents _ _ hke
      exact ⟨D, hD, by rw [hDk]; exact hne, (hkeys D hD).1 (by rw [hDk]; exact hk)⟩
    · rintro ⟨D, hD, hne, h⟩
      exact ⟨D.acc, (hkeys D hD).2 h, hne⟩
  unfold plotX4
  rw [hr]
  simp only [hshown, hloop r.keys fun k hk => hk]
  by_cases h : ∃ k ∈ r.keys, k ≠ chars!"22208"
  · rw [if_pos h, if_pos (hiff.1 h)]
  · rw [if_neg h, if_neg (fun h' => h (hiff.2 h'))]
    simp

/-! ### the programs on the database with one entry -/

/-- the program on the database of `docArchive` -/
def docWorld : GetWorld where
  retrieve := retrieve (x4Parsers metaDicts) [docRow1] docDb
  P := x4Parsers metaDicts
  db := docDb
  num := fun _ => chars!"1.0"
  D := ⟨[], [], []⟩
  sets := fun _ => .ok ([], [])
  quoted := id

theorem docWorld_on : docWorld.On [docEntry] [docRow1] := ⟨docArchive, rfl⟩
theorem docIndexed : ∃ row ∈ [docRow1], row.subent = some docSub.acc := ⟨docRow1, by simp, rfl⟩

/-- C95_arguments -/
example : getEntry docWorld { ent := some chars!"1000" } = ([], .error .valueError) :=
  C95_arguments _ _ (.inr (.inr ⟨_, rfl, by decide⟩))

/-- C95_rawdata, of a subentry in the index and of one that is not -/
example : (∃ t d, docSub.data = some t ∧ TableHolds t d ∧ getEntry docWorld { subent := some chars!"10001002", rawdata := true } =
      ([chars!"---------- Raw Data ----------", d.str docWorld.num, chars!"---------- Errors ----------", chars!"{}"], .ok ())) ∧
    getEntry docWorld { subent := some chars!"10001003", rawdata := true } = ([chars!"---------- Raw Data ----------"], .error .indexError) := by
  constructor
  · obtain ⟨-, h⟩ := C95_rawdata docWorld _ _ docWorld_on chars!"10001002" (by decide) ⟨by decide, by decide⟩ (by decide)
    obtain ⟨t, ht⟩ := Option.isSome_iff_exists.1 (show docSub.data.isSome = true by decide)
    obtain ⟨d, -, hd, h'⟩ := (h docEntry (by simp) docSub (by simp [docEntry]) (by decide) docIndexed).2 t ht
    exact ⟨t, d, ht, hd, h'⟩
  · obtain ⟨h, -⟩ := C95_rawdata docWorld _ _ docWorld_on chars!"10001003" (by decide) ⟨by decide, by decide⟩ (by decide)
    refine h ?_
    rintro ⟨row, hrow, h⟩
    obtain rfl := List.mem_singleton.1 hrow
    exact absurd h (by decide)

/-- C95_data_partial: the values of the dataset with pointer 1 -/
example [PyNum N] (rxd : RxDicts) (T : DsReprs Measurement N) (py : PyErr → Str)
    (hq : ∀ r, docWorld.P.reaction (joinWith [' '] ((docReaction docMain docSub '1').map strip)) = .ok r → ∃ q, effectiveQuant (x4RxOps rxd) r.1 = .ok q) :
    ∃ (ds : Dict DsKey (DataSet Measurement N)) (d : DataSet Measurement N), ds.get? (chars!"10001", some chars!"10001002", '1') = some d ∧
      d.data = [[cellVal chars!"0.1", cellVal chars!"1.5", cellVal chars!"2.5"], [cellVal chars!"0.1", cellVal chars!"2.5", none]] ∧
      ∀ ts, mapE (setRepr T) ds = .ok ts → ∃ errs, getEntry { docWorld with sets := setsPrinted (x4RxOps rxd) T py } { subent := some chars!"10001002", data := true } =
        ([chars!"---------- Data ----------", braced ts, chars!"---------- Errors ----------", errs], .ok ()) := by
  obtain ⟨-, h⟩ := C95_data_partial { docWorld with sets := setsPrinted (x4RxOps rxd) T py } _ _ ⟨docArchive, rfl⟩ (x4RxOps rxd) T py rfl (x4Rx_text rxd) chars!"10001002" (by decide)
    ⟨by decide, by decide⟩ (by decide)
  obtain ⟨ds, errs, -, h1, -, -, -, -, h4⟩ := h docEntry (by simp) docMain (by simp [docEntry]) (by decide) docSub (by simp [docEntry]) (by decide) docIndexed
    docEntry_printable
  have hok : okB (docWorld.P.reaction (joinWith [' '] ((docReaction docMain docSub '1').map strip))) = true := by decide +kernel
  cases hr : docWorld.P.reaction (joinWith [' '] ((docReaction docMain docSub '1').map strip)) with
  | error e => rw [hr] at hok; cases hok
  | ok r =>
    obtain ⟨q, hq⟩ := hq r hr
    obtain ⟨d, g1, -, -, -, g5⟩ := h4 _ rfl (by decide) '1' (by intro t ht; cases ht; decide) (by intro t ht; cases ht) (by decide +kernel) r hr q hq
    exact ⟨ds, d, g1, g5, fun ts hts => ⟨_, h1 ts hts⟩⟩

/-- C95_data_first -/
example : getEntry docWorld { subent := some chars!"10001001", data := true, getFile := true } = ([], .error .valueError) := by
  obtain ⟨e, h1, -⟩ := (C95_file docWorld docEntry docEntry_wf docEntry_readable (docArchive.files docEntry (by simp))
    { subent := some chars!"10001001", data := true, getFile := true } rfl rfl rfl chars!"10001001" rfl (by decide)).2 ⟨docMain, by simp [docEntry], by decide⟩
  exact C95_data_first docWorld _ (by decide) (by decide) true _ h1

/-- C95_documentation -/
example : ∃ S1, SubHolds docWorld.P docMain S1 ∧
    getEntry docWorld { subent := some chars!"10001002", rawdoc := true } = Printed.andThen ([chars!"\n\n"], .ok ()) (printE S1.repr) := by
  obtain ⟨S1, h1, h2, -⟩ := (C95_documentation docWorld _ _ docWorld_on chars!"10001002" (by decide) ⟨by decide, by decide⟩ docEntry (by simp)
    docSub (by simp [docEntry]) (by decide) docIndexed).1 docMain (by simp [docEntry]) (by decide)
  exact ⟨S1, h1, h2⟩

/-- C95_raw_refuted: two numbers are all that is printed. -/
example : getEntry docWorld { subent := some chars!"10001002", raw := true } = ([chars!"\n\n", chars!"10001001\n10001002"], .ok ()) := by
  rw [C95_raw_refuted docWorld _ _ docWorld_on chars!"10001002" (by decide) ⟨by decide, by decide⟩ docEntry (by simp)
    docSub (by simp [docEntry]) (by decide) docIndexed]
  decide

/-- C95_raw_file: the first subentry is requested, and both are printed. -/
example : getEntry docWorld { subent := some chars!"10001001", raw := true, getFile := true } =
    ([chars!"\n\n", docMain.text ++ ['\n'] ++ docSub.text], .ok ()) := by
  rw [C95_raw_file docWorld docEntry docEntry_wf (docArchive.files docEntry (by simp)) chars!"10001001" (by decide) (by decide)]
  simp [docEntry, joinWith]

/-- C95_file, C95_rawdata_file: a number that the file does not have -/
example : getEntry docWorld { subent := some chars!"10001005", rawdata := true, getFile := true } = ([], .error .keyError) :=
  (C95_rawdata_file docWorld docEntry docEntry_wf docEntry_readable (docArchive.files docEntry (by simp)) chars!"10001005" (by decide) (by decide)
    (by decide)).1 (by simp only [docEntry]; decide)
example : ∃ e, searchResult docWorld { subent := some chars!"10001002", getFile := true } = .ok [(chars!"10001", .entry e)] ∧
    EntryHolds docWorld.P docEntry [docMain, docSub] e := by
  obtain ⟨e, h1, h2⟩ := (C95_file docWorld docEntry docEntry_wf docEntry_readable (docArchive.files docEntry (by simp))
    { subent := some chars!"10001002", getFile := true } rfl rfl rfl chars!"10001002" rfl (by decide)).2 ⟨docSub, by simp [docEntry], by decide⟩
  refine ⟨e, h1, ?_⟩
  rwa [show (docEntry.subs.filter fun s => endsWith s.acc chars!"001" || s.acc = chars!"10001002") = [docMain, docSub] by decide +kernel] at h2

/-- C95_listing_file -/
example : getEntry docWorld { ent := some chars!"10001", getFile := true, raw := true } =
    ([chars!"This ENTRY:       10001", chars!"    SUBENT        10001001", chars!"    SUBENT        10001002"], .ok ()) := by
  rw [show chars!"10001" = docEntry.acc by decide, (C95_listing_file docWorld docEntry docEntry_wf (docArchive.files docEntry (by simp))).2]
  decide +kernel

/-- C95_listing -/
example : getEntry docWorld { ent := some chars!"10001" } =
    ([chars!"This ENTRY:       10001", chars!"    10001001", chars!"    10001002"], .ok ()) := by
  obtain ⟨subs, h1, h2, h3⟩ := (C95_listing docWorld _ _ docWorld_on (by
      intro row hrow a ha
      obtain rfl := List.mem_singleton.1 hrow
      obtain rfl := Option.some.inj ha
      decide) docEntry (by simp) ⟨by decide, by decide⟩).2 ⟨docSub, by simp [docEntry], docIndexed⟩
  have h4 : docMain ∈ subs := (h2 docMain (by simp [docEntry])).2 (.inl (by decide))
  have h5 : docSub ∈ subs := (h2 docSub (by simp [docEntry])).2 (.inr docIndexed)
  have : subs = [docMain, docSub] := by
    refine h1.eq_of_length (Nat.le_antisymm h1.length_le ?_)
    match subs, h4, h5 with
    | [], h, _ => cases h
    | [x], h, h' => rw [List.mem_singleton] at h h'; exact absurd (h.trans h'.symm) (by decide)
    | _ :: _ :: _, _, _ => simp [docEntry]
  subst this
  exact h3.trans (by decide)

/-- C96_outcome: cross sections of neutron capture on 241Am -/
example : plotX4 (x4Parsers metaDicts) (retrieve (x4Parsers metaDicts) [docRow1] docDb) (fun _ => .ok ()) (fun _ => .ok [])
    chars!"AM-241" chars!"N,G" = .error .keyError := by
  rw [C96_outcome _ _ _ _ docArchive _ (fun _ => rfl) _ _ _ (by
    refine ⟨?_, ?_, ?_, ?_, ?_, ?_, ?_⟩
    · rintro a ⟨⟩
    · rintro a ⟨⟩; exact ⟨by decide, by decide⟩
    · rintro a ⟨⟩; exact ⟨⟨by decide, by decide⟩, by decide⟩
    · rintro a ⟨⟩
    · rintro a ⟨⟩; exact ⟨by decide, by decide⟩
    · rintro a ⟨⟩
    · rintro a ⟨⟩), if_pos]
  refine ⟨docEntry, by simp, by decide, docSub, by simp [docEntry], docRow1, by simp, ⟨?_, ?_, ?_, ?_, ?_, ?_, ?_⟩, rfl⟩
  · rintro a ⟨⟩
  · rintro a ⟨⟩; decide
  · rintro a ⟨⟩; unfold ReactionMatches; rw [if_neg (by decide)]; decide
  · rintro a ⟨⟩
  · rintro a ⟨⟩; decide
  · rintro a ⟨⟩
  · rintro a ⟨⟩

end X4
