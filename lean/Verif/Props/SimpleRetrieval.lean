import Verif.Props.Simple
import Verif.Props.Retrieval
/-! From the written file to MeV and barns: simplified datasets of retrieved entries. -/
namespace X4
variable {ρ N : Type}

/-- the table that a file gives for a pointer: the columns of the COMMON tables of the first subentry and of the subentry, and those
of the DATA table with the pointer or none -/
def docTable [PyNum N] (m s : SubDoc) (t : TableDoc) (p : Char) : Table N :=
  { labels := docHeads m.common ++ docHeads s.common ++ (pick (belongs t.labels (some p)) t.labels).map head10
    units := docUnits m.common ++ docUnits s.common ++ (pick (belongs t.labels (some p)) t.units).map fun u => some (head10 u)
    data := t.rows.map fun row => docRow m.common ++ docRow s.common ++ (pick (belongs t.labels (some p)) row).map cellVal }

theorem pick_length {α β : Type} (sel : Nat → Bool) {a : List α} {b : List β} (h : a.length = b.length) : (pick sel a).length = (pick sel b).length := by
  have e : ∀ {γ : Type} (l : List γ), (pick sel l).length = ((List.range l.length).filter sel).length := by
    intro γ l
    unfold pick
    rw [List.length_map, List.range_eq_range', ← List.zipIdx_map_snd 0 l, List.filter_map, List.length_map]
    rfl
  rw [e, e, h]

theorem docTable_rect [PyNum N] {m s : SubDoc} {t : TableDoc} {p : Char} (hm : m.wf) (hs : s.wf) (ht : s.data = some t) (hc1 : PlainDoc p m.common) (hc2 : PlainDoc p s.common) :
    (docTable (N := N) m s t p).Rect := by
  have hu : ∀ d : SubDoc, d.wf → (docUnits d.common).length = (docHeads d.common).length := by
    intro d hd
    unfold docUnits docHeads
    cases h : d.common with
    | none => rfl
    | some c => simp [(hd.common c h).units]
  have hrw : ∀ d : SubDoc, d.wf → PlainDoc p d.common → (docRow (N := N) d.common).length = (docHeads d.common).length := by
    intro d hd hp
    unfold docRow docHeads
    cases h : d.common with
    | none => rfl
    | some c =>
      obtain ⟨r, hr⟩ := List.length_eq_one_iff.1 (hp c h).2
      have := (hd.common c h).rect r (by rw [hr]; simp)
      simp [hr, this]
  have htw := hs.data t ht
  refine ⟨?_, ?_⟩
  · simp only [docTable, List.length_append, List.length_map, hu m hm, hu s hs, pick_length _ htw.units]
  · intro row hrow
    simp only [docTable, List.mem_map] at hrow
    obtain ⟨r, hr, rfl⟩ := hrow
    simp only [docTable, List.length_append, List.length_map, hrw m hm hc1, hrw s hs hc2, pick_length _ (htw.rect r hr)]

/-- C88, from the file to MeV and barns: a query finds the subentry, and its simplified cross sections are those written in the file. -/
theorem C88_retrieved_partial (P : FieldParsers ρ) (rx : RxOps ρ) (docs : List EntryDoc) (db : DB) (table : List Row) (hA : Archive P docs db table) (c : Criteria)
    (hp : Plain c) (hg : c.given) (D : EntryDoc) (hD : D ∈ docs) (hpr : D.Printable P rx) (m s : SubDoc) (hm : m ∈ D.subs) (hma : m.acc = D.acc ++ "001".toList) (hs : s ∈ D.subs)
    (hsa : s.acc ≠ m.acc) (hit : Hit table c s.acc)
    (t : TableDoc) (ht : s.data = some t) (hl : t.labels.Nodup) (p : Char) (hc1 : PlainDoc p m.common) (hc2 : PlainDoc p s.common) (hrp : docReaction m s p ≠ [])
    (r : ρ × Str) (hrx : P.reaction (joinWith [' '] ((docReaction m s p).map strip)) = .ok r) (q : List Str) (hq : effectiveQuant rx r.1 = .ok q) (hk : kindOf q = .crossSection)
    (q1 q2 : Quantity) (h1 : EnergyGiven "EN".toList "Energy".toList (docTable m s t p) q1) (h2 : DataGiven unitsOfCrossSection (docTable m s t p) q2)
    (hv : ∀ q ∈ [q1, q2], ∃ row ∈ (docTable m s t p).data, q.val row ≠ none) (makeAll failMissing : Bool)
    (he : makeAll = true ∨ failMissing = false ∨ ∀ q ∈ [q1, q2], q.HasErr (docTable m s t p).data) :
    ∃ (R : Dict Str (Entry ρ)) (e : Entry ρ) (st : DsState ρ ℝ) (d d' : DataSet ρ ℝ), retrieve P table db c = .ok R ∧ R.get? D.acc = some e ∧ e.getDataSets rx [] = .ok st ∧
      st.datasets.get? (D.acc, some s.acc, p) = some d ∧ d.reaction = some r ∧ d.getSimplified makeAll failMissing = .ok d' ∧ d'.reaction = some r ∧
      d'.table = quantityTable [q1, q2] (docTable m s t p).data makeAll := by
  obtain ⟨R, e, st, d, g1, g2, g3, g4, g5, g6, g7, g8, g9, g10⟩ := C87_datasets_partial (N := ℝ) P rx docs db table hA c hp hg D hD hpr m s hm hma hs hsa hit t ht hl p hc1 hc2 hrp r hrx q hq
  have hT : d.table = docTable m s t p := by simp only [DataSet.table, docTable, g8, g9, g10]
  have hd : d.data = (docTable (N := ℝ) m s t p).data := by rw [← hT]; rfl
  have hw := hA.wf D hD
  have := C88_cross_section_partial d (g6.trans hk) g7 (hT ▸ docTable_rect (hw.subs m hm).1 (hw.subs s hs).1 ht hc1 hc2) q1 q2 (hT ▸ h1) (hT ▸ h2) (hd ▸ hv) makeAll failMissing (hd ▸ he)
  refine ⟨R, e, st, d, _, g1, g2, g3, g4, g5, this, g5, ?_⟩
  rw [← hd]
  rfl

/-! ### the entry of C86 and C87: EN-RSL in COMMON; EN in MeV and DATA in mb for the first pointer -/

def docTable1 : TableDoc := ⟨[chars!"EN", chars!"DATA      1", chars!"DATA      2"], [chars!"MEV", chars!"MB", chars!"MB"],
    [[chars!"1.5", chars!"2.5", chars!"3.5"], [chars!"2.5", [], chars!"1.+1"]]⟩
noncomputable def docQ1 : Quantity := ⟨"Energy".toList, "MeV".toList, valueIn 1 "MEV".toList, fun row => firstSome [errorIn (valueIn 1 "MEV".toList row) none 1 row,
  errorIn (valueIn 1 "MEV".toList row) (some (0, "MEV".toList)) (1 / 2) row, errorIn (valueIn 1 "MEV".toList row) none 1 row]⟩
noncomputable def docQ2 : Quantity := ⟨"Data".toList, "barns".toList, valueIn 2 "MB".toList, fun row => firstSome [errorIn (valueIn 2 "MB".toList row) none 1 row,
  inQuadrature (errorIn (valueIn 2 "MB".toList row) none 1 row) (errorIn (valueIn 2 "MB".toList row) none 1 row)]⟩

theorem docTable1_labels : (docTable (N := ℝ) docMain docSub docTable1 '1').labels = ["EN-RSL".toList, "EN".toList, "DATA".toList] := by
  show docHeads docMain.common ++ docHeads docSub.common ++ (pick (belongs docTable1.labels (some '1')) docTable1.labels).map head10 = _
  decide +kernel
theorem docTable1_units : (docTable (N := ℝ) docMain docSub docTable1 '1').units = [some "MEV".toList, some "MEV".toList, some "MB".toList] := by
  show docUnits docMain.common ++ docUnits docSub.common ++ (pick (belongs docTable1.labels (some '1')) docTable1.units).map (fun u => some (head10 u)) = _
  decide +kernel
theorem docTable1_data : (docTable (N := ℝ) docMain docSub docTable1 '1').data = [[some 0.1, some 1.5, some 2.5], [some 0.1, some 2.5, none]] := by
  have e : (docTable (N := ℝ) docMain docSub docTable1 '1').data = [[cellVal chars!"0.1", cellVal chars!"1.5", cellVal chars!"2.5"], [cellVal chars!"0.1", cellVal chars!"2.5", none]] := rfl
  have h1 : parseFORTRANNumber chars!"0.1" = .ok (some (.fin false 1 (-1))) := by decide +kernel
  have h2 : parseFORTRANNumber chars!"1.5" = .ok (some (.fin false 15 (-1))) := by decide +kernel
  have h3 : parseFORTRANNumber chars!"2.5" = .ok (some (.fin false 25 (-1))) := by decide +kernel
  rw [e]
  simp only [cellVal, h1, h2, h3]
  simp [cellNum, Except.toOption, PyNum.ofLit, litReal]
  norm_num

theorem docQ1_given : EnergyGiven "EN".toList "Energy".toList (docTable docMain docSub docTable1 '1') docQ1 :=
  .points 1 "EN".toList "MEV".toList none (some (0, "MEV".toList)) none (firstCol_of docTable1_labels docTable1_units (by decide)) (by decide) (by decide)
    (noCol_of docTable1_labels (by decide)) ⟨⟨"EN-RSL".toList, firstCol_of docTable1_labels docTable1_units (by decide)⟩, by decide⟩ (noCol_of docTable1_labels (by decide))
    (noCol_of docTable1_labels (by decide))
theorem docQ2_given : DataGiven unitsOfCrossSection (docTable docMain docSub docTable1 '1') docQ2 :=
  .points 2 "DATA".toList "MB".toList none none none (oneCol_of docTable1_labels docTable1_units (by decide)) (by decide) (by decide)
    (noCol_of docTable1_labels (by decide)) (noCol_of docTable1_labels (by decide)) (noCol_of docTable1_labels (by decide)) trivial (noCol_of docTable1_labels (by decide))

/-- A query for the target finds the entry; its cross sections at 1.5 and 2.5 MeV, with half of the resolution of 0.1 MeV as uncertainty. -/
example (rxd : RxDicts) (r : Measurement × Str)
    (hrx : (x4Parsers metaDicts).reaction (joinWith [' '] ((docReaction docMain docSub '1').map strip)) = .ok r) (hq : effectiveQuant (x4RxOps rxd) r.1 = .ok [chars!"SIG"]) :
    ∃ (R : Dict Str (Entry Measurement)) (e : Entry Measurement) (st : DsState Measurement ℝ) (d d' : DataSet Measurement ℝ),
      retrieve (x4Parsers metaDicts) [docRow1] docDb { target := some chars!"am-241" } = .ok R ∧ R.get? chars!"10001" = some e ∧
      e.getDataSets (x4RxOps rxd) [] = .ok st ∧ st.datasets.get? (chars!"10001", some chars!"10001002", '1') = some d ∧ d.getSimplified false false = .ok d' ∧
      d'.labels = ["Energy".toList, "Data".toList, "d(Energy)".toList] ∧ d'.units = [some "MeV".toList, some "barns".toList, some "MeV".toList] ∧
      d'.data = [[some (1.5 : ℝ), some 0.0025, some 0.05], [some 2.5, none, some 0.05]] := by
  obtain ⟨R, e, st, d, d', h1, h2, h3, h4, h5, h6, -, h8⟩ := C88_retrieved_partial (x4Parsers metaDicts) (x4RxOps rxd) _ _ _ docArchive _ docPlain (by simp [Criteria.given])
    docEntry (by simp) docEntry_printable docMain docSub (by simp [docEntry]) (by decide) (by simp [docEntry]) (by decide) docHit docTable1 rfl (by decide)
    '1' (by intro t ht; cases ht; decide) (by intro t ht; cases ht) (by decide +kernel) r hrx _ hq (by decide +kernel) docQ1 docQ2 docQ1_given docQ2_given
    (by
      rw [docTable1_data]
      intro q hq
      simp only [List.mem_cons, List.not_mem_nil, or_false] at hq
      refine ⟨_, List.mem_cons_self .., ?_⟩
      rcases hq with rfl | rfl <;> simp [docQ1, docQ2, valueIn, cell]) false false (.inr (.inl rfl))
  rw [docTable1_data] at h8
  have e1 : docQ1.HasErr [[some 0.1, some 1.5, some 2.5], [some 0.1, some 2.5, none]] := ⟨_, List.mem_cons_self .., by simp [docQ1, errorIn, cell, firstSome]⟩
  have e2 : ¬ docQ2.HasErr [[some 0.1, some 1.5, some 2.5], [some 0.1, some 2.5, none]] := by
    rintro ⟨row, -, h⟩
    exact h rfl
  have e3 : withUncertainty [docQ1, docQ2] [[some 0.1, some 1.5, some 2.5], [some 0.1, some 2.5, none]] false = [docQ1] := by
    simp [withUncertainty, e1, e2]
  have f1 : unitFactor ['M', 'E', 'V'] = 1 := by
    have h : lookupUnit ['M', 'E', 'V'] = some (['M', 'E', 'V'], "MeV".toList, some (1, 0)) := by decide
    unfold unitFactor; rw [h]; norm_num
  have f2 : unitFactor ['M', 'B'] = 10 ^ (-3 : ℤ) := knownUnit_mb
  unfold quantityTable at h8
  rw [e3] at h8
  refine ⟨R, e, st, d, d', h1, h2, h3, h4, h6, ?_, ?_, ?_⟩
  · show d'.table.labels = _
    rw [h8]; rfl
  · show d'.table.units = _
    rw [h8]; rfl
  · show d'.table.data = _
    rw [h8]
    simp only [List.map_cons, List.map_nil, List.cons_append, List.nil_append, if_pos e1]
    simp [docQ1, docQ2, valueIn, errorIn, cell, firstSome, f1, f2]
    norm_num

end X4
