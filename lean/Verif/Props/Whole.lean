import Verif.Spec.Whole
import Verif.Props.Missing
import Verif.Props.Spectrum
import Verif.Props.Wildcards
import Verif.Props.LayoutRetrieval
import Verif.Props.EntryRows
import Verif.Props.Rounding
/-! From a search in a directory of EXFOR files to energies, angles and cross sections in common units. -/
namespace X4
variable {ρ N : Type}

/-- C126: the simplified dataset of each kind holds the quantities as they are written, in the common units. -/
theorem C126_simplified_partial (d : DataSet ρ ℝ) (hs : d.simplified = false) (hr : d.table.Rect) (qs : List Quantity) (h : QuantitiesGiven d.table d.kind qs)
    (hv : ∀ q ∈ qs, ∃ row ∈ d.data, q.val row ≠ none) (makeAll failMissing : Bool) (he : makeAll = true ∨ failMissing = false ∨ ∀ q ∈ qs, q.HasErr d.data) :
    d.getSimplified makeAll failMissing = .ok (d.with qs makeAll) := by
  generalize hk : d.kind = k at h
  cases h with
  | crossSection h1 h2 => exact C88_cross_section_partial d hk hs hr _ _ h1 h2 hv makeAll failMissing he
  | nubar h1 h2 => exact C88_nubar_partial d hk hs hr _ _ h1 h2 hv makeAll failMissing he
  | spectrumAve h1 h2 => exact C91_spectrum_partial d hk hs hr _ _ h1 h2 hv makeAll failMissing he
  | angular h1 h2 h3 => exact C88_angular_partial d hk hs hr _ _ _ h1 h2 h3 hv makeAll failMissing he
  | energyDist h1 h2 h3 => exact C88_energy_distribution_partial d hk hs hr _ _ _ h1 h2 h3 hv makeAll failMissing he

/-- C126: what a search with any criteria finds in a directory of files in any layout: the entries with a subentry that meets them, each with
its first subentry and those that meet them, holding what is written in the files. -/
theorem C126_holds (P : FieldParsers ρ) (docs : List EntryDoc) (db : DB) (table : List Row) (hA : LaidArchive P docs db table) (c : Criteria)
    (hp : ∀ t ∈ c.texts, PlainText t) (hg : c.given) :
    ∃ r, retrieve P table db c = .ok r ∧ r.keys.Pairwise StrLt ∧
      (∀ D ∈ docs, D.acc ∈ r.keys ↔ ∃ s ∈ D.subs, WildHit table c s.acc) ∧
      ∀ k e, (k, e) ∈ r → ∃ D ∈ docs, D.acc = k ∧ ∃ subs, EntryHolds P D subs e ∧ subs.Sublist D.subs ∧
        ∀ s ∈ D.subs, s ∈ subs ↔ s.acc = D.acc ++ "001".toList ∨ WildHit table c s.acc := by
  rw [C121_retrieve P table db _ (written_same hA)]
  have := C124_retrieve P docs _ table (written_archive hA) c (fun t ht => (hp t ht).2) hg
  rwa [doubled_self fun t ht => (hp t ht).1] at this

/-- The table that a file gives for a pointer: the columns of the COMMON tables of the first subentry and of the subentry, and those of the
DATA table with the pointer or none. -/
def rowsTable [PyNum N] (m s : SubDoc) (t : TableDoc) (p : Char) : Table N :=
  { labels := docHeads m.common ++ docHeads s.common ++ (pick (belongs t.labels (some p)) t.labels).map head10
    units := docUnits m.common ++ docUnits s.common ++ (pick (belongs t.labels (some p)) t.units).map fun u => some (head10 u)
    data := t.rows.mapIdx fun i row => docBlock m.common i ++ secondBlock m s i ++ (pick (belongs t.labels (some p)) row).map cellVal }

theorem rowsTable_rect [PyNum N] {m s : SubDoc} {t : TableDoc} {p : Char} (hm : m.wf) (hs : s.wf) (ht : s.data = some t) : (rowsTable (N := N) m s t p).Rect := by
  have hu : ∀ d : SubDoc, d.wf → (docUnits d.common).length = (docHeads d.common).length := by
    intro d hd
    unfold docUnits docHeads
    cases h : d.common with
    | none => rfl
    | some c => simp [(hd.common c h).units]
  have hb : ∀ d : SubDoc, d.wf → ∀ i, (docBlock (N := N) d.common i).length = (docHeads d.common).length := by
    intro d hd i
    unfold docBlock docHeads
    cases h : d.common with
    | none => rfl
    | some c =>
      simp only [Option.elim_some, List.length_map]
      cases h' : commonRow c.rows i with
      | none => simp
      | some r =>
        have hr : r ∈ c.rows := by
          unfold commonRow at h'
          split at h'
          · rename_i x hx
            cases h'
            rw [hx]
            simp
          · exact List.mem_of_getElem? h'
        simp [(hd.common c h).rect r hr]
  have h2 : ∀ i, (secondBlock (N := N) m s i).length = (docHeads s.common).length := by
    intro i
    unfold secondBlock
    split
    · simp
    · exact hb s hs i
  have htw := hs.data t ht
  refine ⟨?_, ?_⟩
  · simp only [rowsTable, List.length_append, List.length_map, hu m hm, hu s hs, pick_length _ htw.units]
  · intro row hrow
    simp only [rowsTable, List.mem_mapIdx] at hrow
    obtain ⟨i, hi, rfl⟩ := hrow
    simp only [rowsTable, List.length_append, List.length_map, hb m hm, h2, pick_length _ (htw.rect _ (List.getElem_mem hi))]

/-- C126: the dataset of a subentry that the search finds, or of the first subentry of a found entry, has the columns, units, values and
reaction that are written in the file (for tables as in C86), whatever the layout of the file. -/
theorem C126_datasets_partial [PyNum N] (P : FieldParsers ρ) (rx : RxOps ρ) (docs : List EntryDoc) (db : DB) (table : List Row) (hA : LaidArchive P docs db table) (c : Criteria)
    (hp : ∀ t ∈ c.texts, PlainText t) (hg : c.given) (D : EntryDoc) (hD : D ∈ docs) (hpr : D.Printable P rx) (m s : SubDoc) (hm : m ∈ D.subs) (hma : m.acc = D.acc ++ "001".toList)
    (hs : s ∈ D.subs) (hany : ∃ s' ∈ D.subs, WildHit table c s'.acc) (hit : s = m ∨ WildHit table c s.acc)
    (t : TableDoc) (ht : s.data = some t) (hl : t.labels.Nodup) (p : Char) (hc1 : OwnPointers p m.common) (hc2 : OwnPointers p s.common) (hrp : docReaction m s p ≠ [])
    (r : ρ × Str) (hrx : P.reaction (joinWith [' '] ((docReaction m s p).map strip)) = .ok r) (q : List Str) (hq : effectiveQuant rx r.1 = .ok q) :
    ∃ (R : Dict Str (Entry ρ)) (e : Entry ρ) (st : DsState ρ N) (d : DataSet ρ N), retrieve P table db c = .ok R ∧ R.get? D.acc = some e ∧ e.getDataSets rx [] = .ok st ∧
      st.datasets.get? (D.acc, some s.acc, p) = some d ∧ d.reaction = some r ∧ d.kind = kindOf q ∧ d.simplified = false ∧ d.table = rowsTable m s t p ∧ d.table.Rect := by
  obtain ⟨R, hR, -, hkeys, hent⟩ := C126_holds P docs db table hA c hp hg
  obtain ⟨e, he⟩ := Option.isSome_iff_exists.1 ((Dict.mem_keys_iff _ _).1 ((hkeys D hD).2 hany))
  obtain ⟨D', hD', hDa, subs, hold, hsub, hmem⟩ := hent _ e (Dict.mem_of_get? he)
  have : D' = D := nodup_inj hA.distinct hD' hD hDa
  subst this
  obtain ⟨raw, hraw, hF⟩ := (C47_parsed P table db c R).1 hR
  have hb : ∃ l, Entry.build P l = .ok e := by
    have := Dict.mem_of_get? he
    clear he hent hkeys hR hraw
    induction hF with
    | nil => cases this
    | cons h _ ih =>
      rcases List.mem_cons.1 this with rfl | h'
      · exact ⟨_, h.2⟩
      · exact ih h'
  obtain ⟨l, hb⟩ := hb
  have hms : s ∈ subs := (hmem s hs).2 (hit.imp (fun h => by rw [h, hma]) id)
  obtain ⟨st, d, g3, g4, g5, g6, g7, g8, g9, g10⟩ := doc_rows (N := N) P rx D' (hA.wf D' hD) hpr subs hsub l e hb hold m s ((hmem m hm).2 (.inl hma)) hma
    hms t ht hl p hc1 hc2 hrp r hrx q hq
  have hT : d.table = rowsTable m s t p := by simp only [DataSet.table, rowsTable, g8, g9, g10]
  have hw := hA.wf D' hD
  exact ⟨R, e, st, d, hR, he, g3, g4, g5, g6, g7, hT, hT ▸ rowsTable_rect (hw.subs m hm).1 (hw.subs s hs).1 ht⟩

/-- C126: and its simplified dataset holds the quantities in MeV, degrees, barns and so on that the file gives, for each kind of dataset. -/
theorem C126_whole_partial (P : FieldParsers ρ) (rx : RxOps ρ) (docs : List EntryDoc) (db : DB) (table : List Row) (hA : LaidArchive P docs db table) (c : Criteria)
    (hp : ∀ t ∈ c.texts, PlainText t) (hg : c.given) (D : EntryDoc) (hD : D ∈ docs) (hpr : D.Printable P rx) (m s : SubDoc) (hm : m ∈ D.subs) (hma : m.acc = D.acc ++ "001".toList)
    (hs : s ∈ D.subs) (hany : ∃ s' ∈ D.subs, WildHit table c s'.acc) (hit : s = m ∨ WildHit table c s.acc)
    (t : TableDoc) (ht : s.data = some t) (hl : t.labels.Nodup) (p : Char) (hc1 : OwnPointers p m.common) (hc2 : OwnPointers p s.common) (hrp : docReaction m s p ≠ [])
    (r : ρ × Str) (hrx : P.reaction (joinWith [' '] ((docReaction m s p).map strip)) = .ok r) (q : List Str) (hq : effectiveQuant rx r.1 = .ok q)
    (qs : List Quantity) (h : QuantitiesGiven (rowsTable m s t p) (kindOf q) qs)
    (hv : ∀ q ∈ qs, ∃ row ∈ (rowsTable m s t p).data, q.val row ≠ none) (makeAll failMissing : Bool)
    (he : makeAll = true ∨ failMissing = false ∨ ∀ q ∈ qs, q.HasErr (rowsTable m s t p).data) :
    ∃ (R : Dict Str (Entry ρ)) (e : Entry ρ) (st : DsState ρ ℝ) (d d' : DataSet ρ ℝ), retrieve P table db c = .ok R ∧ R.get? D.acc = some e ∧ e.getDataSets rx [] = .ok st ∧
      st.datasets.get? (D.acc, some s.acc, p) = some d ∧ d.reaction = some r ∧ d.getSimplified makeAll failMissing = .ok d' ∧ d'.reaction = some r ∧ d'.simplified = true ∧
      d'.table = quantityTable qs (rowsTable m s t p).data makeAll := by
  obtain ⟨R, e, st, d, g1, g2, g3, g4, g5, g6, g7, hT, hrect⟩ := C126_datasets_partial (N := ℝ) P rx docs db table hA c hp hg D hD hpr m s hm hma hs hany hit t ht hl p hc1 hc2 hrp r hrx q hq
  have hd : d.data = (rowsTable (N := ℝ) m s t p).data := by rw [← hT]; rfl
  have := C126_simplified_partial d g7 hrect qs (hT ▸ g6 ▸ h) (hd ▸ hv) makeAll failMissing (hd ▸ he)
  refine ⟨R, e, st, d, _, g1, g2, g3, g4, g5, this, g5, rfl, ?_⟩
  rw [← hd]
  rfl

/-- C126, in the arithmetic of the computer: with 53 binary digits the same quantities and units come out, and each number differs from the
exact one by at most 1e-14 of its magnitude and of twice the largest magnitude in its row (tables without cosines of angles, as in C112). -/
theorem C126_double_partial (P : FieldParsers ρ) (rx : RxOps ρ) (docs : List EntryDoc) (db : DB) (table : List Row) (hA : LaidArchive P docs db table) (c : Criteria)
    (hp : ∀ t ∈ c.texts, PlainText t) (hg : c.given) (D : EntryDoc) (hD : D ∈ docs) (hpr : D.Printable P rx) (m s : SubDoc) (hm : m ∈ D.subs) (hma : m.acc = D.acc ++ "001".toList)
    (hs : s ∈ D.subs) (hany : ∃ s' ∈ D.subs, WildHit table c s'.acc) (hit : s = m ∨ WildHit table c s.acc)
    (t : TableDoc) (ht : s.data = some t) (hl : t.labels.Nodup) (p : Char) (hc1 : OwnPointers p m.common) (hc2 : OwnPointers p s.common) (hrp : docReaction m s p ≠ [])
    (r : ρ × Str) (hrx : P.reaction (joinWith [' '] ((docReaction m s p).map strip)) = .ok r) (q : List Str) (hq : effectiveQuant rx r.1 = .ok q)
    (hcos : kindOf q = .angular → ∀ l ∈ (rowsTable (N := ℝ) m s t p).labels, ¬ "COS".toList <:+: l)
    (qs : List Quantity) (h : QuantitiesGiven (rowsTable m s t p) (kindOf q) qs)
    (hv : ∀ q ∈ qs, ∃ row ∈ (rowsTable m s t p).data, q.val row ≠ none) (makeAll failMissing : Bool)
    (he : makeAll = true ∨ failMissing = false ∨ ∀ q ∈ qs, q.HasErr (rowsTable m s t p).data) :
    ∃ (R : Dict Str (Entry ρ)) (e : Entry ρ) (st : DsState ρ (Fl doubleRounding)) (d d' : DataSet ρ (Fl doubleRounding)), retrieve P table db c = .ok R ∧ R.get? D.acc = some e ∧
      e.getDataSets rx [] = .ok st ∧ st.datasets.get? (D.acc, some s.acc, p) = some d ∧ d.getSimplified makeAll failMissing = .ok d' ∧ d'.reaction = some r ∧
      d'.labels = (quantityTable qs (rowsTable m s t p).data makeAll).labels ∧ d'.units = (quantityTable qs (rowsTable m s t p).data makeAll).units ∧
      d'.data.length = t.rows.length ∧
      ∀ (i : Nat) row a b, (rowsTable m s t p).data[i]? = some row → d'.data[i]? = some a → (quantityTable qs (rowsTable m s t p).data makeAll).data[i]? = some b →
        List.Forall₂ (Approx (1 / 10 ^ 14) (rowSize (rowsTable (N := ℝ) m s t p).units row)) a b := by
  obtain ⟨R, e, st, d, g1, g2, g3, g4, g5, g6, g7, hT, hrect⟩ := C126_datasets_partial (N := ℝ) P rx docs db table hA c hp hg D hD hpr m s hm hma hs hany hit t ht hl p hc1 hc2 hrp r hrx q hq
  have hd : d.data = (rowsTable (N := ℝ) m s t p).data := by rw [← hT]; rfl
  have hlab : d.labels = (rowsTable (N := ℝ) m s t p).labels := by rw [← hT]; rfl
  have hun : d.units = (rowsTable (N := ℝ) m s t p).units := by rw [← hT]; rfl
  have := C126_simplified_partial d g7 hrect qs (hT ▸ g6 ▸ h) (hd ▸ hv) makeAll failMissing (hd ▸ he)
  obtain ⟨st', k1, -, -, -, k2⟩ := (C112_read doubleRounding rx e []).2 st g3
  obtain ⟨d', j1, j2⟩ := C112_double_partial d (fun hk => hlab ▸ hcos (g6.symm.trans hk)) makeAll failMissing _ this
  have hdat : (d.with qs makeAll).data = (quantityTable qs (rowsTable (N := ℝ) m s t p).data makeAll).data := by rw [← hd]; rfl
  refine ⟨R, e, st', _, d', g1, g2, k1, (k2 _).trans (congrArg _ g4), j1, (congrArg DataSet.reaction j2.attrs).trans g5, (congrArg DataSet.labels j2.attrs).trans ?_,
    (congrArg DataSet.units j2.attrs).trans ?_, ?_, fun i row a b h1 h2 h3 => ?_⟩
  · rw [← hd]; rfl
  · rw [← hd]; rfl
  · rw [j2.rows.1, j2.rows.2, hd]
    simp [rowsTable]
  · rw [← hun]
    exact j2.cells i row a b (hd ▸ h1) h2 (hdat ▸ h3)

/-- C126: if the file has no readable column for one of the quantities, the dataset is found and cannot be simplified; without energies the error says so. -/
theorem C126_missing_partial [PyNum N] (P : FieldParsers ρ) (rx : RxOps ρ) (docs : List EntryDoc) (db : DB) (table : List Row) (hA : LaidArchive P docs db table) (c : Criteria)
    (hp : ∀ t ∈ c.texts, PlainText t) (hg : c.given) (D : EntryDoc) (hD : D ∈ docs) (hpr : D.Printable P rx) (m s : SubDoc) (hm : m ∈ D.subs) (hma : m.acc = D.acc ++ "001".toList)
    (hs : s ∈ D.subs) (hany : ∃ s' ∈ D.subs, WildHit table c s'.acc) (hit : s = m ∨ WildHit table c s.acc)
    (t : TableDoc) (ht : s.data = some t) (hl : t.labels.Nodup) (p : Char) (hc1 : OwnPointers p m.common) (hc2 : OwnPointers p s.common) (hrp : docReaction m s p ≠ [])
    (r : ρ × Str) (hrx : P.reaction (joinWith [' '] ((docReaction m s p).map strip)) = .ok r) (q : List Str) (hq : effectiveQuant rx r.1 = .ok q)
    (x : Str × List (List Str × List Str)) (hx : x ∈ quantitiesOf (kindOf q)) (hn : Nowhere (rowsTable (N := N) m s t p) x.2) (makeAll failMissing : Bool) :
    ∃ (R : Dict Str (Entry ρ)) (e : Entry ρ) (st : DsState ρ N) (d : DataSet ρ N), retrieve P table db c = .ok R ∧ R.get? D.acc = some e ∧ e.getDataSets rx [] = .ok st ∧
      st.datasets.get? (D.acc, some s.acc, p) = some d ∧ d.table = rowsTable m s t p ∧ (∀ d', d.getSimplified makeAll failMissing ≠ .ok d') ∧
      (x.1 = "Energy".toList → d.getSimplified makeAll failMissing = .error (.noValuesGivenError "Energy".toList)) := by
  obtain ⟨R, e, st, d, g1, g2, g3, g4, -, g6, g7, hT, -⟩ := C126_datasets_partial (N := N) P rx docs db table hA c hp hg D hD hpr m s hm hma hs hany hit t ht hl p hc1 hc2 hrp r hrx q hq
  rw [← g6] at hx
  rw [← hT] at hn
  refine ⟨R, e, st, d, g1, g2, g3, g4, hT, C125_never d g7 x hx hn makeAll failMissing, fun hE => C125_energy d g7 x ?_ hn makeAll failMissing⟩
  obtain ⟨n, cs⟩ := x
  subst hE
  revert hx
  generalize d.kind = k
  intro hx
  cases k
  all_goals first
    | exact (List.not_mem_nil hx).elim
    | (rcases List.mem_cons.1 hx with h | hx
       · cases h; rfl
       · exfalso
         have : "Energy".toList ∈ (List.map Prod.fst (_ : List (Str × List (List Str × List Str)))) := List.mem_map_of_mem (f := Prod.fst) hx
         revert this
         simp only [List.map_cons, List.map_nil]
         decide)

/-! ### an entry with an angular distribution and with one without angles, in a file that begins with other lines -/

def wholeMain : SubDoc where
  acc := chars!"10002001"
  bib := [⟨chars!"TITLE", (' ', chars!"SCATTERING"), []⟩]
  common := some ⟨[chars!"EN"], [chars!"KEV"], [[chars!"1500."]]⟩
  data := none
def wholeTable : TableDoc := ⟨[chars!"ANG", chars!"DATA", chars!"DATA-ERR"], [chars!"ADEG", chars!"MB/SR", chars!"PER-CENT"],
    [[chars!"30.", chars!"20.", chars!"5."], [chars!"60.", chars!"10.", []]]⟩
def wholeSub : SubDoc where
  acc := chars!"10002002"
  bib := [⟨chars!"REACTION", (' ', chars!"(26-FE-56(N,EL)26-FE-56,,DA)"), []⟩]
  common := none
  data := some wholeTable
def bareTable : TableDoc := ⟨[chars!"DATA"], [chars!"MB/SR"], [[chars!"20."]]⟩
def wholeBare : SubDoc where
  acc := chars!"10002003"
  bib := [⟨chars!"REACTION", (' ', chars!"(26-FE-56(N,INL)26-FE-56,,DA)"), []⟩]
  common := none
  data := some bareTable
def wholeEntry : EntryDoc := ⟨chars!"10002", [wholeMain, wholeSub, wholeBare]⟩
def wholeDb : DB := ⟨fun p => if p = chars!"100/10002.x4" then .ok (chars!"TRANS             1234   20211231\n" :: wholeEntry.file) else .error .ioError⟩
def wholeRow (sub rx : Str) : Row := ⟨some chars!"10002", some sub, some [], some chars!"Smith", some rx, some ['N'], some chars!"FE-56", some chars!"DA"⟩
def wholeRows : List Row := [wholeRow chars!"10002002" chars!"N,EL", wholeRow chars!"10002003" chars!"N,INL"]

theorem wholeEntry_wf : wholeEntry.wf := by
  refine ⟨by decide, by decide, ?_, by decide⟩
  intro s hs
  simp only [wholeEntry, List.mem_cons, List.not_mem_nil, or_false] at hs
  rcases hs with rfl | rfl | rfl
  · refine ⟨⟨by decide, by decide, ?_, by decide, ?_, ?_⟩, by decide⟩
    · intro f hf
      simp only [wholeMain, List.mem_cons, List.not_mem_nil, or_false] at hf
      rcases hf with rfl; exact ⟨by decide, by decide, by decide⟩
    · intro t ht
      cases ht
      exact ⟨by decide, by decide, by decide, by decide, by decide, by decide, by decide⟩
    · intro t ht
      cases ht
  all_goals
    refine ⟨⟨by decide, by decide, ?_, by decide, ?_, ?_⟩, by decide⟩
    · intro f hf
      simp only [wholeSub, wholeBare, List.mem_cons, List.not_mem_nil, or_false] at hf
      rcases hf with rfl; exact ⟨by decide, by decide, by decide⟩
    · intro t ht
      cases ht
    · intro t ht
      cases ht
      exact ⟨by decide, by decide, by decide, by decide, by decide, by decide, by decide⟩

theorem wholeEntry_readable : ∀ s ∈ wholeEntry.subs, s.Readable (x4Parsers metaDicts) := by
  intro s hs
  have key : (∀ s ∈ wholeEntry.subs, ∀ f ∈ s.bib, okB (buildField (x4Parsers metaDicts) (some f.tag) f.lines) = true) ∧
    (∀ s ∈ wholeEntry.subs, ∀ t ∈ s.common.toList ++ s.data.toList, ∀ r ∈ t.rows, ∀ c ∈ r, okB (parseFORTRANNumber c) = true) := by decide +kernel
  refine ⟨fun f hf => okB_iff (key.1 s hs f hf), fun t ht r hr c hc => okB_iff (key.2 s hs t ?_ r hr c hc), fun t ht r hr c hc => okB_iff (key.2 s hs t ?_ r hr c hc)⟩
  · rw [Option.mem_def] at ht; simp [ht]
  · rw [Option.mem_def] at ht; simp [ht]

theorem wholeEntry_printable {rxd : RxDicts} : wholeEntry.Printable (x4Parsers metaDicts) (x4RxOps rxd) := by
  intro s hs p r hp hr hq
  have key : ∀ s ∈ wholeEntry.subs, ∀ p, s.reactionText p ≠ [] → p = ' ' := by
    intro s hs p hp
    have key1 : ∀ s ∈ wholeEntry.subs, ∀ f ∈ s.bib, f.tag = chars!"REACTION" →
        ∀ q ∈ (List.range f.lines.length).map fun k => pointerInForce (f.lines.take (k + 1)), q = ' ' := by decide +kernel
    unfold SubDoc.reactionText at hp
    cases hf : s.bib.find? fun f => decide (f.tag = chars!"REACTION") with
    | none => rw [hf] at hp; exact absurd rfl hp
    | some f =>
      rw [hf] at hp
      exact key1 s hs f (List.mem_of_find?_eq_some hf) (by simpa using List.find?_some hf) p (textUnder_pointer hp)
  have key2 : ∀ s ∈ wholeEntry.subs, isSingle ((x4Parsers metaDicts).reaction (joinWith [' '] ((s.reactionText ' ').map strip))) = true := by decide +kernel
  have := key2 s hs
  obtain rfl := key s hs p hp
  rw [hr] at this
  obtain ⟨m, t⟩ := r
  cases m <;> simp_all [isSingle, x4RxOps]

theorem wholeLaid : LaidArchive (x4Parsers metaDicts) [wholeEntry] wholeDb wholeRows := by
  refine ⟨?_, ?_, by decide, fun D hD => ?_, ?_⟩
  · intro D hD
    obtain rfl := List.mem_singleton.1 hD
    exact wholeEntry_wf
  · intro D hD
    obtain rfl := List.mem_singleton.1 hD
    exact wholeEntry_readable
  · obtain rfl := List.mem_singleton.1 hD
    refine ⟨chars!"TRANS             1234   20211231\n" :: wholeEntry.file, .other _ (by decide) (by decide) (C120_written _ wholeEntry_wf), ?_⟩
    have : wholeEntry.acc.take 3 ++ ['/'] ++ wholeEntry.acc ++ ".x4".toList = chars!"100/10002.x4" := by decide
    simp only [wholeDb, this, if_true]
  · intro row hrow
    simp only [wholeRows, List.mem_cons, List.not_mem_nil, or_false] at hrow
    rcases hrow with rfl | rfl
    · exact ⟨wholeEntry, by simp, wholeSub, by simp [wholeEntry], rfl⟩
    · exact ⟨wholeEntry, by simp, wholeBare, by simp [wholeEntry], rfl⟩

/-- whether a text is read as a single reaction with the quantity given -/
def quantIs (x : Except PyErr (Measurement × Str)) (q : List Str) : Bool :=
  match x with
  | .ok (.rx r, _) => decide (quantTexts r.quantity = q)
  | _ => false
theorem quantIs_iff {x : Except PyErr (Measurement × Str)} {q : List Str} (h : quantIs x q = true) (rxd : RxDicts) :
    ∃ r, x = .ok r ∧ effectiveQuant (x4RxOps rxd) r.1 = .ok q := by
  cases x with
  | error e => cases h
  | ok r =>
    obtain ⟨m, t⟩ := r
    cases m with
    | rx R => exact ⟨_, rfl, congrArg Except.ok (of_decide_eq_true h)⟩
    | comb _ => cases h
    | iso _ => cases h

theorem wholeTable_labels : (rowsTable (N := ℝ) wholeMain wholeSub wholeTable ' ').labels = ["EN".toList, "ANG".toList, "DATA".toList, "DATA-ERR".toList] := by
  show docHeads wholeMain.common ++ docHeads wholeSub.common ++ (pick (belongs wholeTable.labels (some ' ')) wholeTable.labels).map head10 = _
  decide +kernel
theorem wholeTable_units : (rowsTable (N := ℝ) wholeMain wholeSub wholeTable ' ').units = [some "KEV".toList, some "ADEG".toList, some "MB/SR".toList, some "PER-CENT".toList] := by
  show docUnits wholeMain.common ++ docUnits wholeSub.common ++ (pick (belongs wholeTable.labels (some ' ')) wholeTable.units).map (fun u => some (head10 u)) = _
  decide +kernel
theorem wholeTable_data : (rowsTable (N := ℝ) wholeMain wholeSub wholeTable ' ').data = [[some 1500, some 30, some 20, some 5], [some 1500, some 60, some 10, none]] := by
  have e : (rowsTable (N := ℝ) wholeMain wholeSub wholeTable ' ').data =
    [[cellVal chars!"1500.", cellVal chars!"30.", cellVal chars!"20.", cellVal chars!"5."], [cellVal chars!"1500.", cellVal chars!"60.", cellVal chars!"10.", none]] := rfl
  have h1 : parseFORTRANNumber chars!"1500." = .ok (some (.fin false 1500 0)) := by decide +kernel
  have h2 : parseFORTRANNumber chars!"30." = .ok (some (.fin false 30 0)) := by decide +kernel
  have h3 : parseFORTRANNumber chars!"20." = .ok (some (.fin false 20 0)) := by decide +kernel
  have h4 : parseFORTRANNumber chars!"5." = .ok (some (.fin false 5 0)) := by decide +kernel
  have h5 : parseFORTRANNumber chars!"60." = .ok (some (.fin false 60 0)) := by decide +kernel
  have h6 : parseFORTRANNumber chars!"10." = .ok (some (.fin false 10 0)) := by decide +kernel
  rw [e]
  simp only [cellVal, h1, h2, h3, h4, h5, h6]
  simp [cellNum, Except.toOption, PyNum.ofLit, litReal]

noncomputable def wholeQ1 : Quantity := ⟨"Energy".toList, "MeV".toList, valueIn 0 "KEV".toList, fun row => firstSome [errorIn (valueIn 0 "KEV".toList row) none 1 row,
  errorIn (valueIn 0 "KEV".toList row) none (1 / 2) row, errorIn (valueIn 0 "KEV".toList row) none 1 row]⟩
noncomputable def wholeQ2 : Quantity := ⟨"Angle".toList, "degrees".toList, valueIn 1 "ADEG".toList, fun row =>
  firstSome [errorIn (valueIn 1 "ADEG".toList row) none 1 row, errorIn (valueIn 1 "ADEG".toList row) none (1 / 2) row]⟩
noncomputable def wholeQ3 : Quantity := ⟨"Data".toList, canonUnit "MB/SR".toList, valueIn 2 "MB/SR".toList, fun row =>
  errorIn (valueIn 2 "MB/SR".toList row) (some (3, "PER-CENT".toList)) 1 row⟩

theorem wholeGiven : QuantitiesGiven (rowsTable wholeMain wholeSub wholeTable ' ') .angular [wholeQ1, wholeQ2, wholeQ3] :=
  .angular
    (.points 0 "EN".toList "KEV".toList none none none (firstCol_of wholeTable_labels wholeTable_units (by decide)) (by decide) (by decide)
      (noCol_of wholeTable_labels (by decide)) (noCol_of wholeTable_labels (by decide)) (noCol_of wholeTable_labels (by decide)) (noCol_of wholeTable_labels (by decide)))
    (.points 1 "ANG".toList "ADEG".toList none none (firstCol_of wholeTable_labels wholeTable_units (by decide)) (by decide) (by decide)
      (noCol_of wholeTable_labels (by decide)) (noCol_of wholeTable_labels (by decide)) (noCol_of wholeTable_labels (by decide)))
    (.points 2 "DATA".toList "MB/SR".toList (some (3, "PER-CENT".toList)) (firstCol_of wholeTable_labels wholeTable_units (by decide)) (by decide)
      ⟨⟨"DATA-ERR".toList, firstCol_of wholeTable_labels wholeTable_units (by decide)⟩, by decide⟩)

/-- the criteria of the example: any reaction of one particle in which something comes out whose name ends with L -/
def wholeCriteria : Criteria := { reaction := some chars!"_,*l", target := some chars!"fe-56" }

theorem wholeHit : ∀ row ∈ wholeRows, ∀ acc, row.subent = some acc → WildHit wholeRows wholeCriteria acc := by
  intro row hrow acc hacc
  refine ⟨row, hrow, ⟨?_, ?_, ?_, ?_, ?_, ?_, ?_, ?_⟩, hacc⟩
  · rintro a ⟨⟩
  · rintro a ⟨⟩
    have : ∀ row ∈ wholeRows, row.target = some (upper chars!"fe-56") := by decide
    exact this row hrow
  · rintro a ⟨⟩ -
    simp only [wholeRows, List.mem_cons, List.not_mem_nil, or_false] at hrow
    rcases hrow with rfl | rfl
    · exact ⟨_, rfl, .one 'N' (.char ',' (by decide) (by decide) (by decide) (.text ['E'] (.inl rfl) (.char 'L' (by decide) (by decide) (by decide) .nil)))⟩
    · exact ⟨_, rfl, .one 'N' (.char ',' (by decide) (by decide) (by decide) (.text ['I', 'N'] (.inl rfl) (.char 'L' (by decide) (by decide) (by decide) .nil)))⟩
  · rintro a ⟨⟩ h
    exact absurd h (by decide)
  · rintro a ⟨⟩
  · rintro a ⟨⟩
  · rintro a ⟨⟩
  · rintro a ⟨⟩

theorem wholePlain : ∀ t ∈ wholeCriteria.texts, PlainText t := by
  intro t ht
  have ht : t ∈ [chars!"fe-56", chars!"_,*l"] := ht
  simp only [List.mem_cons, List.not_mem_nil, or_false] at ht
  rcases ht with rfl | rfl <;> exact ⟨by decide, by decide⟩

/-- C126_whole_partial: the angular distribution at 1.5 MeV, in barns per steradian, with an uncertainty of 5 percent for the first angle. -/
example (rxd : RxDicts) : ∃ (R : Dict Str (Entry Measurement)) (e : Entry Measurement) (st : DsState Measurement ℝ) (d d' : DataSet Measurement ℝ),
      retrieve (x4Parsers metaDicts) wholeRows wholeDb wholeCriteria = .ok R ∧ R.get? chars!"10002" = some e ∧
      e.getDataSets (x4RxOps rxd) [] = .ok st ∧ st.datasets.get? (chars!"10002", some chars!"10002002", ' ') = some d ∧ d.getSimplified false false = .ok d' ∧
      d'.table = quantityTable [wholeQ1, wholeQ2, wholeQ3] [[some 1500, some 30, some 20, some 5], [some 1500, some 60, some 10, none]] false := by
  obtain ⟨r, hrx, hq⟩ := quantIs_iff (x := (x4Parsers metaDicts).reaction (joinWith [' '] ((docReaction wholeMain wholeSub ' ').map strip))) (q := [chars!"DA"]) (by decide +kernel) rxd
  obtain ⟨R, e, st, d, d', h1, h2, h3, h4, -, h6, -, -, h9⟩ := C126_whole_partial (x4Parsers metaDicts) (x4RxOps rxd) _ _ _ wholeLaid _ wholePlain (by simp [Criteria.given, wholeCriteria])
    wholeEntry (by simp) wholeEntry_printable wholeMain wholeSub (by simp [wholeEntry]) (by decide) (by simp [wholeEntry]) ⟨wholeSub, by simp [wholeEntry], wholeHit _ (.head _) _ rfl⟩ (.inr (wholeHit _ (.head _) _ rfl)) wholeTable rfl (by decide)
    ' ' (by intro t ht; cases ht; decide) (by intro t ht; cases ht) (by decide +kernel) r hrx _ hq _ wholeGiven
    (by
      rw [wholeTable_data]
      intro q hq
      simp only [List.mem_cons, List.not_mem_nil, or_false] at hq
      refine ⟨_, List.mem_cons_self .., ?_⟩
      rcases hq with rfl | rfl | rfl <;> simp [wholeQ1, wholeQ2, wholeQ3, valueIn, cell]) false false (.inr (.inl rfl))
  rw [wholeTable_data] at h9
  exact ⟨R, e, st, d, d', h1, h2, h3, h4, h6, h9⟩

/-- C126_double_partial: the same in the arithmetic of the computer. -/
example (rxd : RxDicts) : ∃ (R : Dict Str (Entry Measurement)) (e : Entry Measurement) (st : DsState Measurement (Fl doubleRounding)) (d d' : DataSet Measurement (Fl doubleRounding)),
      retrieve (x4Parsers metaDicts) wholeRows wholeDb wholeCriteria = .ok R ∧ R.get? chars!"10002" = some e ∧
      e.getDataSets (x4RxOps rxd) [] = .ok st ∧ st.datasets.get? (chars!"10002", some chars!"10002002", ' ') = some d ∧ d.getSimplified true false = .ok d' ∧ d'.data.length = 2 := by
  obtain ⟨r, hrx, hq⟩ := quantIs_iff (x := (x4Parsers metaDicts).reaction (joinWith [' '] ((docReaction wholeMain wholeSub ' ').map strip))) (q := [chars!"DA"]) (by decide +kernel) rxd
  obtain ⟨R, e, st, d, d', h1, h2, h3, h4, h5, -, -, -, h9, -⟩ := C126_double_partial (x4Parsers metaDicts) (x4RxOps rxd) _ _ _ wholeLaid _ wholePlain (by simp [Criteria.given, wholeCriteria])
    wholeEntry (by simp) wholeEntry_printable wholeMain wholeSub (by simp [wholeEntry]) (by decide) (by simp [wholeEntry]) ⟨wholeSub, by simp [wholeEntry], wholeHit _ (.head _) _ rfl⟩
    (.inr (wholeHit _ (.head _) _ rfl)) wholeTable rfl (by decide)
    ' ' (by intro t ht; cases ht; decide) (by intro t ht; cases ht) (by decide +kernel) r hrx _ hq
    (by
      intro _ l hl
      rw [wholeTable_labels] at hl
      have key : ∀ l ∈ ["EN".toList, "ANG".toList, "DATA".toList, "DATA-ERR".toList], ¬ "COS".toList <:+: l := by decide
      exact key l hl) _ wholeGiven
    (by
      rw [wholeTable_data]
      intro q hq
      simp only [List.mem_cons, List.not_mem_nil, or_false] at hq
      refine ⟨_, List.mem_cons_self .., ?_⟩
      rcases hq with rfl | rfl | rfl <;> simp [wholeQ1, wholeQ2, wholeQ3, valueIn, cell]) true false (.inl rfl)
  exact ⟨R, e, st, d, d', h1, h2, h3, h4, h5, h9⟩

/-- C126_missing_partial: the other distribution is found by the same search and cannot be simplified. -/
example (rxd : RxDicts) : ∃ (R : Dict Str (Entry Measurement)) (e : Entry Measurement) (st : DsState Measurement ℝ) (d : DataSet Measurement ℝ),
      retrieve (x4Parsers metaDicts) wholeRows wholeDb wholeCriteria = .ok R ∧ R.get? chars!"10002" = some e ∧
      e.getDataSets (x4RxOps rxd) [] = .ok st ∧ st.datasets.get? (chars!"10002", some chars!"10002003", ' ') = some d ∧ ∀ d', d.getSimplified true false ≠ .ok d' := by
  obtain ⟨r, hrx, hq⟩ := quantIs_iff (x := (x4Parsers metaDicts).reaction (joinWith [' '] ((docReaction wholeMain wholeBare ' ').map strip))) (q := [chars!"DA"]) (by decide +kernel) rxd
  have hL : (rowsTable (N := ℝ) wholeMain wholeBare bareTable ' ').labels = ["EN".toList, "DATA".toList] := by
    show docHeads wholeMain.common ++ docHeads wholeBare.common ++ (pick (belongs bareTable.labels (some ' ')) bareTable.labels).map head10 = _
    decide +kernel
  obtain ⟨R, e, st, d, h1, h2, h3, h4, -, h6, -⟩ := C126_missing_partial (x4Parsers metaDicts) (x4RxOps rxd) _ _ _ wholeLaid _ wholePlain (by simp [Criteria.given, wholeCriteria])
    wholeEntry (by simp) wholeEntry_printable wholeMain wholeBare (by simp [wholeEntry]) (by decide) (by simp [wholeEntry]) ⟨wholeSub, by simp [wholeEntry], wholeHit _ (.head _) _ rfl⟩ (.inr (wholeHit _ (.tail _ (.head _)) _ rfl)) bareTable rfl (by decide)
    ' ' (by intro t ht; cases ht; decide) (by intro t ht; cases ht) (by decide +kernel) r hrx _ hq ("Angle".toList, angleColumns) (.tail _ (.head _))
    (by
      intro i l u h1 _ c hc hl
      rw [hL] at h1
      have key : ∀ l ∈ ["EN".toList, "DATA".toList], ∀ c ∈ angleColumns, l ∉ c.1 := by decide +kernel
      exact absurd hl (key l (List.mem_of_getElem? h1) c hc)) true false
  exact ⟨R, e, st, d, h1, h2, h3, h4, h6⟩

end X4
