import Verif.Props.ColumnOrder
import Verif.Props.EntryRows
/-! C117 on written entries: the order of the columns in the file, and whether they are in COMMON or DATA, do not matter. -/
namespace X4
variable {ρ N : Type} [PyNum N]

/-- a column as it is written: heading without pointer, unit, and the text for every row of the data (`none` where a COMMON table has
no row for it) -/
abbrev WrittenColumn := Str × Str × List (Option Str)

/-- the columns of a COMMON table, for `n` rows of data -/
def commonWritten (n : Nat) (o : Option TableDoc) : List WrittenColumn := o.elim [] fun c =>
  (List.range c.labels.length).map fun j =>
    (head10 (c.labels[j]?.getD []), head10 (c.units[j]?.getD []), (List.range n).map fun i => (commonRow c.rows i).bind fun r => r[j]?)

/-- the columns of a DATA table without pointer or with pointer `p` -/
def dataWritten (p : Char) (t : TableDoc) : List WrittenColumn :=
  ((List.range t.labels.length).filter (belongs t.labels (some p))).map fun j =>
    (head10 (t.labels[j]?.getD []), head10 (t.units[j]?.getD []), t.rows.map fun r => r[j]?)

/-- all columns for a dataset: COMMON table of the first subentry, COMMON table and DATA table of the subentry -/
def writtenColumns (m s : SubDoc) (t : TableDoc) (p : Char) : List WrittenColumn :=
  commonWritten t.rows.length m.common ++ commonWritten t.rows.length s.common ++ dataWritten p t

/-- the column with numbers in place of texts -/
def wholeOf (w : WrittenColumn) : WholeColumn N := (w.1, some (some w.2.1), w.2.2.map fun x => some (x.elim (some PyNum.zero) cellVal))

theorem columnsOf_hcat (l1 l2 : List Str) (u1 u2 : List (Option Str)) (n : Nat) (A B : Nat → List (Option N)) (hu : u1.length = l1.length)
    (hA : ∀ i < n, (A i).length = l1.length) :
    columnsOf ⟨l1 ++ l2, u1 ++ u2, (List.range n).map fun i => A i ++ B i⟩ =
      columnsOf ⟨l1, u1, (List.range n).map A⟩ ++ columnsOf ⟨l2, u2, (List.range n).map B⟩ := by
  apply List.ext_getElem?
  intro j
  have hl : (columnsOf ⟨l1, u1, (List.range n).map A⟩).length = l1.length := columnsOf_length _
  rw [List.getElem?_append (l₁ := columnsOf _), hl, columnsOf_get, columnsOf_get, columnsOf_get]
  by_cases hj : j < l1.length
  · simp only [if_pos hj]
    rw [List.getElem?_append_left hj, List.getElem?_append_left (by omega)]
    have : (List.map (fun r => r[j]?) (List.map (fun i => A i ++ B i) (List.range n))) = List.map (fun r => r[j]?) (List.map A (List.range n)) := by
      rw [List.map_map, List.map_map]
      apply List.map_congr_left
      intro i hi
      simp only [Function.comp]
      rw [List.getElem?_append_left (by rw [hA i (List.mem_range.1 hi)]; exact hj)]
    rw [this]
  · simp only [if_neg hj]
    rw [List.getElem?_append_right (by omega), List.getElem?_append_right (by omega), hu]
    have : (List.map (fun r => r[j]?) (List.map (fun i => A i ++ B i) (List.range n))) = List.map (fun r => r[j - l1.length]?) (List.map B (List.range n)) := by
      rw [List.map_map, List.map_map]
      apply List.map_congr_left
      intro i hi
      have := hA i (List.mem_range.1 hi)
      simp only [Function.comp]
      rw [List.getElem?_append_right (by omega), this]
    rw [this]

theorem commonRow_mem {rows : List (List Str)} {i : Nat} {r : List Str} (h : commonRow rows i = some r) : r ∈ rows := by
  unfold commonRow at h
  split at h
  · cases h; simp
  · exact List.mem_of_getElem? h

/-- the columns of a COMMON table -/
theorem columnsOf_common (n : Nat) (o : Option TableDoc) (h : ∀ t ∈ o, t.wf) :
    columnsOf ⟨docHeads o, docUnits o, (List.range n).map (docBlock (N := N) o)⟩ = (commonWritten n o).map wholeOf ∧
    (docUnits o).length = (docHeads o).length ∧ ∀ i, (docBlock (N := N) o i).length = (docHeads o).length := by
  cases o with
  | none => exact ⟨rfl, rfl, fun _ => rfl⟩
  | some t =>
    have hw := h t rfl
    have hrow : ∀ i, (docBlock (N := N) (some t) i).length = (docHeads (some t)).length := by
      intro i
      simp only [docBlock, docHeads, Option.elim_some, List.length_map]
      cases hc : commonRow t.rows i with
      | none => simp
      | some r => simpa using hw.rect r (commonRow_mem hc)
    refine ⟨?_, by simp [docUnits, docHeads, hw.units], hrow⟩
    apply List.ext_getElem?
    intro j
    rw [columnsOf_get]
    simp only [docHeads, docUnits, commonWritten, Option.elim_some, List.getElem?_map]
    by_cases hj : j < t.labels.length
    · have hj' : j < t.units.length := by rw [hw.units]; exact hj
      rw [List.getElem?_range hj]
      simp only [List.getElem?_eq_getElem hj, List.getElem?_eq_getElem hj', Option.map_some, Option.getD_some, wholeOf, List.map_map]
      congr 3
      apply List.map_congr_left
      intro i _
      simp only [Function.comp, docBlock, Option.elim_some]
      cases hc : commonRow t.rows i with
      | none => simp [hj]
      | some r =>
        have : j < r.length := by rw [hw.rect r (commonRow_mem hc)]; exact hj
        simp [List.getElem?_eq_getElem this]
    · rw [List.getElem?_eq_none (l := t.labels) (by omega), List.getElem?_eq_none (l := List.range t.labels.length) (by simpa using hj)]
      rfl

theorem zipIdx_range {α : Type} (d : α) (l : List α) : l.zipIdx = (List.range l.length).map fun i => (l[i]?.getD d, i) := by
  apply List.ext_getElem (by simp)
  intro i h1 h2
  have : i < l.length := by simpa using h1
  simp [List.getElem?_eq_getElem this]

theorem pick_range {α : Type} (d : α) (sel : Nat → Bool) (l : List α) : pick sel l = ((List.range l.length).filter sel).map fun i => l[i]?.getD d := by
  unfold pick
  rw [zipIdx_range d, List.filter_map, List.map_map]
  rfl

/-- the columns of a DATA table -/
theorem columnsOf_data (p : Char) (t : TableDoc) (hw : t.wf) :
    columnsOf ⟨(pick (belongs t.labels (some p)) t.labels).map head10, (pick (belongs t.labels (some p)) t.units).map (fun u => some (head10 u)),
      (List.range t.rows.length).map fun i => (pick (belongs t.labels (some p)) (t.rows[i]?.getD [])).map (cellVal (N := N))⟩ = (dataWritten p t).map wholeOf := by
  apply List.ext_getElem?
  intro k
  rw [columnsOf_get]
  simp only [List.getElem?_map, dataWritten]
  rw [pick_range [] _ t.labels, pick_range [] _ t.units, hw.units]
  simp only [List.getElem?_map]
  cases hk : ((List.range t.labels.length).filter (belongs t.labels (some p)))[k]? with
  | none => rfl
  | some j =>
    have hj : j < t.labels.length := List.mem_range.1 (List.mem_filter.1 (List.mem_of_getElem? hk)).1
    simp only [Option.map_some, wholeOf, List.map_map]
    congr 3
    apply List.ext_getElem (by simp)
    intro i h1 h2
    have hi : i < t.rows.length := by simpa using h1
    have hlen := hw.rect _ (List.getElem_mem hi)
    simp only [List.getElem_map, List.getElem_range, Function.comp, List.getElem?_eq_getElem hi, Option.getD_some]
    rw [pick_range [] _ t.rows[i], hlen]
    simp [hk, List.getElem?_eq_getElem (show j < t.rows[i].length by omega)]

/-- the columns of a dataset are the written ones -/
theorem columnsOf_written {m s : SubDoc} {t : TableDoc} {p : Char} (hm : ∀ c ∈ m.common, c.wf) (hs : ∀ c ∈ s.common, c.wf) (ht : t.wf) (hne : s ≠ m)
    {d : DataSet ρ N} (hl : d.labels = docHeads m.common ++ docHeads s.common ++ (pick (belongs t.labels (some p)) t.labels).map head10)
    (hu : d.units = docUnits m.common ++ docUnits s.common ++ (pick (belongs t.labels (some p)) t.units).map (fun u => some (head10 u)))
    (hd : d.data = t.rows.mapIdx fun i row => docBlock m.common i ++ secondBlock m s i ++ (pick (belongs t.labels (some p)) row).map cellVal) :
    columnsOf d.table = (writtenColumns m s t p).map wholeOf ∧ d.labels = (writtenColumns m s t p).map fun w => w.1 := by
  obtain ⟨a1, a2, a3⟩ := columnsOf_common (N := N) t.rows.length m.common hm
  obtain ⟨b1, b2, b3⟩ := columnsOf_common (N := N) t.rows.length s.common hs
  have hdat : d.data = (List.range t.rows.length).map fun i =>
      (docBlock m.common i ++ docBlock s.common i) ++ (pick (belongs t.labels (some p)) (t.rows[i]?.getD [])).map cellVal := by
    rw [hd]
    apply List.ext_getElem (by simp)
    intro i h1 h2
    have hi : i < t.rows.length := by simpa using h1
    simp [secondBlock, hne, List.getElem?_eq_getElem hi]
  have hcol : columnsOf d.table = (writtenColumns m s t p).map wholeOf := by
    unfold DataSet.table
    rw [hl, hu, hdat, columnsOf_hcat _ _ _ _ _ (fun i => docBlock m.common i ++ docBlock s.common i) _ (by simp [a2, b2]) (fun i _ => by simp [a3, b3]),
      columnsOf_hcat _ _ _ _ _ _ _ a2 (fun i _ => a3 i), a1, b1, columnsOf_data p t ht]
    simp [writtenColumns]
  refine ⟨hcol, ?_⟩
  have : d.labels = (columnsOf d.table).map fun c => c.1 := by
    unfold columnsOf
    rw [List.map_map]
    exact (List.zipIdx_map_fst 0 d.labels).symm
  rw [this, hcol, List.map_map]
  rfl

/-- C117 on written entries: two entries in which the same columns of interest are written for a dataset, in any order, and in any of
the tables (COMMON of the first subentry, COMMON or DATA of the subentry), give the same simplified dataset. -/
theorem C117_places_partial (P : FieldParsers ρ) (rx : RxOps ρ) (D D' : EntryDoc) (h : D.wf) (h' : D'.wf) (hpr : D.Printable P rx) (hpr' : D'.Printable P rx)
    (hr : ∀ s ∈ D.subs, s.Readable P) (hr' : ∀ s ∈ D'.subs, s.Readable P) (subents subents' : Option (List Str))
    (m s m' s' : SubDoc) (hm : m ∈ D.subs) (hm' : m' ∈ D'.subs) (hma : m.acc = D.acc ++ "001".toList) (hma' : m'.acc = D'.acc ++ "001".toList)
    (hmr : requested subents m.acc) (hmr' : requested subents' m'.acc) (hs : s ∈ D.subs) (hs' : s' ∈ D'.subs) (hne : s ≠ m) (hne' : s' ≠ m')
    (hsr : requested subents s.acc) (hsr' : requested subents' s'.acc) (t t' : TableDoc) (ht : s.data = some t) (ht' : s'.data = some t')
    (hl : t.labels.Nodup) (hl' : t'.labels.Nodup) (p p' : Char) (hc1 : OwnPointers p m.common) (hc2 : OwnPointers p s.common)
    (hc1' : OwnPointers p' m'.common) (hc2' : OwnPointers p' s'.common) (hp : docReaction m s p ≠ []) (hp' : docReaction m' s' p' ≠ [])
    (r r' : ρ × Str) (hrx : P.reaction (joinWith [' '] ((docReaction m s p).map strip)) = .ok r)
    (hrx' : P.reaction (joinWith [' '] ((docReaction m' s' p').map strip)) = .ok r') (q q' : List Str) (hq : effectiveQuant rx r.1 = .ok q)
    (hq' : effectiveQuant rx r'.1 = .ok q') (hk : kindOf q = kindOf q') (hkp : (parserMapOf (kindOf q)).isSome)
    (hrows : t.rows.length = t'.rows.length)
    (hcols : ((writtenColumns m s t p).filter fun w => ofInterest (kindOf q) w.1).Perm ((writtenColumns m' s' t' p').filter fun w => ofInterest (kindOf q) w.1))
    (hone : OneEach (kindOf q) ((writtenColumns m s t p).map fun w => w.1)) :
    ∃ (e e' : Entry ρ) (st st' : DsState ρ N) (d d' : DataSet ρ N),
      Entry.build P (splitEntryFile subents D.file) = .ok e ∧ Entry.build P (splitEntryFile subents' D'.file) = .ok e' ∧
      e.getDataSets rx [] = .ok st ∧ e'.getDataSets rx [] = .ok st' ∧
      st.datasets.get? (D.acc, some s.acc, p) = some d ∧ st'.datasets.get? (D'.acc, some s'.acc, p') = some d' ∧
      ∀ makeAll failMissing, (d.getSimplified makeAll failMissing).map DataSet.table = (d'.getSimplified makeAll failMissing).map DataSet.table := by
  obtain ⟨e, st, d, g1, g2, g3, -, g5, g6, g7, g8, g9⟩ := C86_rows_partial (N := N) P rx D h hpr hr subents m s hm hma hmr hs hsr t ht hl p hc1 hc2 hp r hrx q hq
  obtain ⟨e', st', d', k1, k2, k3, -, k5, k6, k7, k8, k9⟩ :=
    C86_rows_partial (N := N) P rx D' h' hpr' hr' subents' m' s' hm' hma' hmr' hs' hsr' t' ht' hl' p' hc1' hc2' hp' r' hrx' q' hq'
  refine ⟨e, e', st, st', d, d', g1, k1, g2, k2, g3, k3, fun makeAll failMissing => ?_⟩
  have w := (h.subs m hm).1
  have w1 := (h.subs s hs).1
  have w' := (h'.subs m' hm').1
  have w1' := (h'.subs s' hs').1
  obtain ⟨c1, c2⟩ := columnsOf_written w.common w1.common (w1.data t ht) hne g7 g8 g9
  obtain ⟨c1', c2'⟩ := columnsOf_written w'.common w1'.common (w1'.data t' ht') hne' k7 k8 k9
  apply C117_order_partial d d' makeAll failMissing (by rw [g5, k5, hk]) (by rw [g5]; exact hkp) g6 k6 (by rw [g9, k9]; simpa using hrows)
  · rw [c1, c1', g5, List.filter_map, List.filter_map]
    exact hcols.map _
  · rw [c2, g5]
    exact hone

/-! ### An entry with two subentries that have the same columns at different places -/

def placesMain : SubDoc where
  acc := chars!"10001001"
  bib := [⟨chars!"TITLE", (' ', chars!"CAPTURE IN AMERICIUM"), []⟩, ⟨chars!"REACTION", ('1', chars!"(95-AM-241(N,G)95-AM-242-M,,SIG)"), []⟩]
  common := none
  data := none
def placesSub : SubDoc where
  acc := chars!"10001002"
  bib := [⟨chars!"HISTORY", (' ', chars!"(19991231C)"), []⟩]
  common := some ⟨[chars!"EN-RSL"], [chars!"MEV"], [[chars!"0.1"]]⟩
  data := some ⟨[chars!"EN", chars!"DATA      1", chars!"DATA      2"], [chars!"MEV", chars!"MB", chars!"MB"],
    [[chars!"1.5", chars!"2.5", chars!"3.5"], [chars!"2.5", [], chars!"1.+1"]]⟩
def placesSub' : SubDoc where
  acc := chars!"10001003"
  bib := [⟨chars!"HISTORY", (' ', chars!"(19991231C)"), []⟩]
  common := none
  data := some ⟨[chars!"DATA      1", chars!"MISC", chars!"EN", chars!"EN-RSL"], [chars!"MB", chars!"NO-DIM", chars!"MEV", chars!"MEV"],
    [[chars!"2.5", chars!"7", chars!"1.5", chars!"0.1"], [[], chars!"8", chars!"2.5", chars!"0.1"]]⟩
def placesEntry : EntryDoc := ⟨chars!"10001", [placesMain, placesSub, placesSub']⟩

theorem placesEntry_wf : placesEntry.wf := by
  refine ⟨by decide, by decide, ?_, by decide⟩
  intro s hs
  simp only [placesEntry, List.mem_cons, List.not_mem_nil, or_false] at hs
  have hb : ∀ s ∈ placesEntry.subs, ∀ f ∈ s.bib, f.wf := by
    intro s hs f hf
    have hf : f ∈ placesEntry.subs.flatMap SubDoc.bib := List.mem_flatMap.2 ⟨s, hs, hf⟩
    simp only [placesEntry, placesMain, placesSub, placesSub', List.flatMap_cons, List.flatMap_nil, List.cons_append, List.nil_append, List.append_nil, List.mem_cons,
      List.not_mem_nil, or_false] at hf
    rcases hf with rfl | rfl | rfl | rfl <;> exact ⟨by decide, by decide, by decide⟩
  have hb' := hb s (by simpa [placesEntry] using hs)
  rcases hs with rfl | rfl | rfl
  · exact ⟨⟨by decide, by decide, hb', by decide, fun t ht => (nomatch ht), fun t ht => (nomatch ht)⟩, by decide⟩
  · refine ⟨⟨by decide, by decide, hb', by decide, ?_, ?_⟩, by decide⟩ <;>
    · intro t ht
      cases ht
      exact ⟨by decide, by decide, by decide, by decide, by decide, by decide, by decide⟩
  · refine ⟨⟨by decide, by decide, hb', by decide, fun t ht => (nomatch ht), ?_⟩, by decide⟩
    intro t ht
    cases ht
    exact ⟨by decide, by decide, by decide, by decide, by decide, by decide, by decide⟩

theorem placesEntry_readable : ∀ s ∈ placesEntry.subs, s.Readable (x4Parsers metaDicts) := by
  intro s hs
  have key : (∀ s ∈ placesEntry.subs, ∀ f ∈ s.bib, okB (buildField (x4Parsers metaDicts) (some f.tag) f.lines) = true) ∧
    (∀ s ∈ placesEntry.subs, ∀ t ∈ s.common.toList ++ s.data.toList, ∀ r ∈ t.rows, ∀ c ∈ r, okB (parseFORTRANNumber c) = true) := by decide +kernel
  refine ⟨fun f hf => okB_iff (key.1 s hs f hf), fun t ht r hr c hc => okB_iff (key.2 s hs t ?_ r hr c hc), fun t ht r hr c hc => okB_iff (key.2 s hs t ?_ r hr c hc)⟩
  · rw [Option.mem_def] at ht; simp [ht]
  · rw [Option.mem_def] at ht; simp [ht]

theorem placesEntry_printable {rxd : RxDicts} : placesEntry.Printable (x4Parsers metaDicts) (x4RxOps rxd) := by
  intro s hs p r hp hr hq
  have key : ∀ s ∈ placesEntry.subs, ∀ p, s.reactionText p ≠ [] → p = '1' := by
    intro s hs p hp
    have key1 : ∀ s ∈ placesEntry.subs, ∀ f ∈ s.bib, f.tag = chars!"REACTION" →
        ∀ q ∈ (List.range f.lines.length).map fun k => pointerInForce (f.lines.take (k + 1)), q = '1' := by decide +kernel
    unfold SubDoc.reactionText at hp
    cases hf : s.bib.find? fun f => decide (f.tag = chars!"REACTION") with
    | none => rw [hf] at hp; exact absurd rfl hp
    | some f =>
      rw [hf] at hp
      exact key1 s hs f (List.mem_of_find?_eq_some hf) (by simpa using List.find?_some hf) p (textUnder_pointer hp)
  have key2 : ∀ s ∈ placesEntry.subs, isSingle ((x4Parsers metaDicts).reaction (joinWith [' '] ((s.reactionText '1').map strip))) = true := by decide +kernel
  have := key2 s hs
  rw [key s hs p hp] at hr
  rw [hr] at this
  obtain ⟨m, t⟩ := r
  cases m <;> simp_all [isSingle, x4RxOps]

/-- a single reaction with a cross section -/
def isCross : Except PyErr (Measurement × Str) → Bool
  | .ok (.rx R, _) => decide (kindOf (quantTexts R.quantity) = .crossSection)
  | _ => false

/-- C117_places_partial: the two subentries give the same simplified dataset. -/
example (rxd : RxDicts) : ∃ (e : Entry Measurement) (st : DsState Measurement N) (d d' : DataSet Measurement N),
    Entry.build (x4Parsers metaDicts) (splitEntryFile none placesEntry.file) = .ok e ∧ e.getDataSets (x4RxOps rxd) [] = .ok st ∧
    st.datasets.get? (chars!"10001", some chars!"10001002", '1') = some d ∧ st.datasets.get? (chars!"10001", some chars!"10001003", '1') = some d' ∧
    (d.getSimplified false false).map DataSet.table = (d'.getSimplified false false).map DataSet.table := by
  have key : isCross ((x4Parsers metaDicts).reaction (joinWith [' '] ((docReaction placesMain placesSub '1').map strip))) = true := by decide +kernel
  have key' : docReaction placesMain placesSub' '1' = docReaction placesMain placesSub '1' := by decide +kernel
  cases hrx : (x4Parsers metaDicts).reaction (joinWith [' '] ((docReaction placesMain placesSub '1').map strip)) with
  | error x => rw [hrx] at key; simp [isCross] at key
  | ok r =>
    rw [hrx] at key
    obtain ⟨M, tx⟩ := r
    cases M with
    | rx R =>
      have hk : kindOf (quantTexts R.quantity) = .crossSection := by simpa [isCross] using key
      obtain ⟨e, e', st, st', d, d', h1, h1', h2, h2', h3, h3', h4⟩ := C117_places_partial (N := N) (x4Parsers metaDicts) (x4RxOps rxd) placesEntry placesEntry placesEntry_wf
        placesEntry_wf placesEntry_printable placesEntry_printable placesEntry_readable placesEntry_readable none none placesMain placesSub placesMain placesSub'
        (by simp [placesEntry]) (by simp [placesEntry]) (by decide) (by decide) rfl rfl (by simp [placesEntry]) (by simp [placesEntry]) (by decide) (by decide) rfl rfl
        _ _ rfl rfl (by decide) (by decide) '1' '1' (fun t ht => (nomatch ht)) (by intro t ht; cases ht; decide) (fun t ht => (nomatch ht)) (fun t ht => (nomatch ht))
        (by decide +kernel) (by rw [key']; decide +kernel) _ _ hrx (by rw [key']; exact hrx) (quantTexts R.quantity) (quantTexts R.quantity) rfl rfl rfl (by rw [hk]; rfl) rfl
        (by rw [hk]; decide +kernel) (by rw [hk]; unfold OneEach; decide +kernel)
      rw [h1] at h1'
      obtain rfl := Except.ok.inj h1'
      rw [h2] at h2'
      obtain rfl := Except.ok.inj h2'
      exact ⟨e, st, d, d', h1, h2, h3, h3', h4 false false⟩
    | _ => simp [isCross] at key

end X4
