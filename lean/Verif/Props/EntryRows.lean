import Verif.Props.EntrySets
import Verif.Props.Retrieval
/-! C86, C87: the datasets of any written subentry, for COMMON tables of any number of rows, the first subentry included. -/
namespace X4
variable {ρ N : Type} [PyNum N]

omit [PyNum N] in
theorem mapE_id {α : Type} {f : α → Except PyErr α} {l : List α} (h : ∀ a ∈ l, f a = .ok a) : mapE f l = .ok l := by
  induction l with
  | nil => rfl
  | cons a l ih => rw [mapE, h a (by simp), ih (fun b hb => h b (by simp [hb]))]

/-- writing a COMMON section a second time to the same place -/
theorem commonStep_again {common : List (Option (Nat × DataSection))} {offs : List Nat} {cid : Nat} {c : DataSection} {off : Nat}
    (wf : c.WF) (hoff : pyIdx offs (common.findIdx fun x => x.map Prod.fst == some cid) = .ok off) (m : Nat)
    (pre post : Nat → List (Option N)) (hpre : ∀ i < m, (pre i).length = off) :
    commonStep common offs ((List.range m).map fun i => pre i ++ commonBlock (some (cid, c)) i ++ post i) (some (cid, c)) =
      .ok ((List.range m).map fun i => pre i ++ commonBlock (some (cid, c)) i ++ post i) := by
  unfold commonStep
  simp only [hoff]
  have hlen : ∀ i, (commonBlock (N := N) (some (cid, c)) i).length = c.labels.length := by
    intro i
    simp only [commonBlock]
    split
    · rename_i h1
      have : 0 < c.data.length := by rw [← wf.rows, h1]; decide
      rw [List.getElem?_eq_getElem this]
      simp [wf.rect _ (List.getElem_mem this)]
    · split
      · rename_i h2
        rw [List.getElem?_eq_getElem h2]
        simp [wf.rect _ (List.getElem_mem h2)]
      · simp
  split
  · rename_i h1
    have h1' : c.data.length = 1 := by rw [← wf.rows, h1]; rfl
    rw [mapE_map]
    rw [mapE_prefix _ (fun i => pre i ++ commonBlock (some (cid, c)) i ++ post i)]
    intro i hi
    have hz : c.data[0]? = some c.data[0] := List.getElem?_eq_getElem (by omega)
    rw [← hpre i hi, writeCommon_eq wf hz _ _ _ (hlen i)]
    simp only [commonBlock, h1, if_true, hz, Option.getD_some]
  · rename_i h1
    rw [wf.rows]
    have e1 : ((List.range m).map fun i => pre i ++ commonBlock (N := N) (some (cid, c)) i ++ post i).zipIdx.take c.data.length
        = (List.range (min c.data.length m)).map fun i =>
          (pre i ++ commonBlock (some (cid, c)) i ++ post i, i) := by
      apply List.ext_getElem
      · simp
      · intro i h1 h2; simp
    rw [e1, ← List.map_drop, mapE_map]
    rw [mapE_prefix _ (fun i => pre i ++ commonBlock (some (cid, c)) i ++ post i)]
    · simp only
      rw [← List.map_append]
      congr 2
      conv_rhs => rw [← List.take_append_drop c.data.length (List.range m)]
      rw [List.take_range]
    · intro i hi
      have hz : c.data[i]? = some c.data[i] := List.getElem?_eq_getElem (by omega)
      simp only
      rw [← hpre i (by omega), writeCommon_eq wf hz _ _ _ (hlen i)]
      simp only [commonBlock]
      rw [if_neg h1, if_pos (by omega), hz]
      rfl

/-- the whole of `setData` when both COMMON sections are the same object -/
theorem setData_same {d : DataSection} {c : Option (Nat × DataSection)} {p : Option Char} (wf : d.WF) (h1 : CommonOk p c) :
    setData (N := N) d [c, c] p = .ok
      { labels := commonLabels c ++ commonLabels c ++ (pick (keepCol d p) d.labels).map head10
        units := commonUnits c ++ commonUnits c ++ (pick (keepCol d p) d.units).map fun u => some (head10 u)
        data := (List.range d.data.length).map fun i =>
          commonBlock c i ++ List.replicate (commonCols c) (some PyNum.zero) ++ (pick (keepCol d p) (d.data[i]?.getD [])).map cellNum } := by
  unfold setData
  have e1 : mapE (optHeads p) [c, c] = .ok [commonHeads c, commonHeads c] := by
    simp only [mapE, optHeads_eq h1]
  rw [e1, secHeads_eq wf]
  simp only [List.cons_append, List.nil_append, offsetsFrom, Nat.zero_add, commonHeads_filter h1]
  have hn : ∀ i < d.data.length, newRow (N := N) d
      ([commonHeads c, commonHeads c, headsOf d (keepCol d p)].flatten.map Option.isSome)
      [0, commonCols c, commonCols c + commonCols c] i =
      .ok (List.replicate (commonCols c + commonCols c) (some PyNum.zero) ++
        (pick (keepCol d p) (d.data[i]?.getD [])).map cellNum) := by
    intro i hi
    unfold newRow
    have hr : d.data[i].length = d.labels.length := wf.rect _ (List.getElem_mem hi)
    have := filterRow_eq (keepCol d p) ((commonHeads c ++ commonHeads c).map Option.isSome) d.data[i]
    rw [List.length_map, List.length_append, commonHeads_len h1, hr, ← headsOf_isSome d _ wf] at this
    have ef : [commonHeads c, commonHeads c, headsOf d (keepCol d p)].flatten.map Option.isSome =
      (commonHeads c ++ commonHeads c).map Option.isSome ++ (headsOf d (keepCol d p)).map Option.isSome := by simp
    rw [ef]
    simp only [pyIdx, List.getElem?_eq_getElem hi, List.getElem?_cons_succ, List.getElem?_cons_zero, this, Option.getD_some]
  rw [wf.rows, mapE_prefix _ _ _ hn]
  simp only [foldE]
  have hoff : ∀ x ∈ c, pyIdx [0, commonCols c, commonCols c + commonCols c] ([c, c].findIdx fun y => y.map Prod.fst == some x.1) = .ok 0 := by
    intro x hx
    have : c = some x := hx
    subst this
    simp [pyIdx, List.findIdx_cons]
  have s1 := commonStep_opt (N := N) (common := [c, c]) (offs := [0, commonCols c, commonCols c + commonCols c]) (off := 0)
    h1 hoff d.data.length (fun _ => [])
      (fun i => List.replicate (commonCols c) (some PyNum.zero) ++ (pick (keepCol d p) (d.data[i]?.getD [])).map cellNum)
      (fun _ _ => rfl)
  have er : ∀ i : Nat, List.replicate (commonCols c + commonCols c) (some (PyNum.zero : N)) ++
        (pick (keepCol d p) (d.data[i]?.getD [])).map cellNum =
      [] ++ List.replicate (commonCols c) (some PyNum.zero) ++ (List.replicate (commonCols c) (some PyNum.zero) ++
        (pick (keepCol d p) (d.data[i]?.getD [])).map cellNum) := by
    intro i
    rw [List.replicate_add, List.nil_append, List.append_assoc]
  simp only [er, s1]
  have s2 : commonStep [c, c] [0, commonCols c, commonCols c + commonCols c] ((List.range d.data.length).map fun i => [] ++ commonBlock (N := N) c i ++
      (List.replicate (commonCols c) (some PyNum.zero) ++ (pick (keepCol d p) (d.data[i]?.getD [])).map cellNum)) c = .ok ((List.range d.data.length).map fun i => [] ++ commonBlock (N := N) c i ++
      (List.replicate (commonCols c) (some PyNum.zero) ++ (pick (keepCol d p) (d.data[i]?.getD [])).map cellNum)) := by
    cases c with
    | none => rfl
    | some x => exact commonStep_again (h1 x rfl).1 (hoff x rfl) _ (fun _ => []) _ (fun _ _ => rfl)
  rw [s2]
  have eh : [commonHeads c, commonHeads c, headsOf d (keepCol d p)].flatten.filterMap id =
      (commonHeads c).filterMap id ++ (commonHeads c).filterMap id ++ (headsOf d (keepCol d p)).filterMap id := by simp
  simp only
  rw [eh, List.map_append, List.map_append, List.map_append, List.map_append, commonHeads_labels h1,
    commonHeads_units h1, headsOf_filterMap, List.map_map, List.map_map]
  have a := pick_zip_fst d.labels d.units wf.units (keepCol d p)
  have b := pick_zip_snd d.labels d.units wf.units (keepCol d p)
  simp only [Function.comp_def, a, b, List.nil_append, List.append_assoc]

/-! ### written tables -/

/-- the row of a COMMON table that goes with row `i` of the data: its only row, or its row `i` -/
def commonRow (rows : List (List Str)) (i : Nat) : Option (List Str) :=
  match rows with
  | [r] => some r
  | rows => rows[i]?

theorem tableRow_many {rows : List (List Str)} {i : Nat} (h : rows.length ≠ 1) : commonRow rows i = rows[i]? := by
  unfold commonRow
  split
  · exact absurd rfl h
  · rfl

/-- what a COMMON table gives for row `i` of the data: the row that goes with it, or zeros if there is none -/
def docBlock (o : Option TableDoc) (i : Nat) : List (Option N) := o.elim [] fun t =>
  (commonRow t.rows i).elim (List.replicate t.labels.length (some PyNum.zero)) fun r => r.map cellVal

/-- the columns of a COMMON table have no pointers, or that of the dataset -/
def OwnPointers (p : Char) (o : Option TableDoc) : Prop := ∀ t ∈ o, ∀ l ∈ t.labels, headPointer l = none ∨ headPointer l = some p

theorem docCommon_rows {o : Option TableDoc} {P : FieldParsers ρ} {S : SubEntry ρ} (h : match o with
    | none => S.sections.get? "COMMON".toList = none
    | some t => ∃ d, S.sections.get? "COMMON".toList = some (.data d) ∧ DataSection.build chars!"COMMON" (t.lines chars!"COMMON") = .ok d ∧ TableHolds t d)
    {p : Char} (hp : OwnPointers p o) (n : Nat) :
    (∀ c ∈ S.common, PlainCommon (some p) c) ∧ commonLabels (S.common.map fun c => (n, c)) = docHeads o ∧ commonUnits (S.common.map fun c => (n, c)) = docUnits o ∧
      commonCols (S.common.map fun c => (n, c)) = (docHeads o).length ∧
      ∀ i, commonBlock (N := N) (S.common.map fun c => (n, c)) i = docBlock o i := by
  cases o with
  | none =>
    simp only at h
    have : S.common = none := by unfold SubEntry.common; rw [h]
    rw [this]
    exact ⟨by simp, rfl, rfl, rfl, fun i => rfl⟩
  | some t =>
    obtain ⟨d, h1, h2, h3⟩ := h
    have hl := hp t rfl
    have : S.common = some d := by unfold SubEntry.common; rw [h1]
    rw [this]
    refine ⟨?_, ?_, ?_, ?_, ?_⟩
    · intro c hc
      cases hc
      exact ⟨⟨_, h2⟩, by rw [h3.labels]; exact hl⟩
    · simp [commonLabels, docHeads, h3.labels]
    · simp [commonUnits, docUnits, h3.units]
    · simp [commonCols, docHeads, h3.labels]
    · intro i
      have hlen : d.data.length = t.rows.length := mapE_length h3.data
      have hrow : ∀ j : Nat, (d.data[j]?).map (fun (r : List (Option FloatLit)) => r.map (cellNum (N := N))) = (t.rows[j]?).map fun (r : List Str) => r.map cellVal := by
        intro j
        cases hj : t.rows[j]? with
        | none =>
          rw [List.getElem?_eq_none (by rw [hlen]; exact List.getElem?_eq_none_iff.1 hj)]
          rfl
        | some r =>
          obtain ⟨v, hv1, hv2⟩ := mapE_get h3.data j _ hj
          rw [hv1, Option.map_some, Option.map_some, cells_val hv2]
      have hn : d.numrows = 1 ↔ t.rows.length = 1 := by rw [h3.numrows]; omega
      simp only [Option.map_some, commonBlock, docBlock, Option.elim_some]
      by_cases h1 : t.rows.length = 1
      · obtain ⟨r, hr⟩ := List.length_eq_one_iff.1 h1
        rw [if_pos (hn.2 h1)]
        have h0 := hrow 0
        simp only [hr, List.getElem?_cons_zero, Option.map_some, commonRow, Option.elim_some] at h0 ⊢
        cases hd : d.data[0]? with
        | none => rw [hd] at h0; cases h0
        | some v => rw [hd] at h0; exact Option.some.inj h0
      · rw [if_neg (fun h => h1 (hn.1 h)), h3.labels]
        rw [tableRow_many h1]
        have h0 := hrow i
        split
        · rename_i hi
          have hi' : i < t.rows.length := by omega
          rw [List.getElem?_eq_getElem hi] at h0 ⊢
          rw [List.getElem?_eq_getElem hi'] at h0 ⊢
          exact Option.some.inj h0
        · rename_i hi
          rw [List.getElem?_eq_none (by omega)]
          rfl

/-- what the COMMON table of the subentry gives: nothing but zeros, if it is the first subentry -/
def secondBlock (m s : SubDoc) (i : Nat) : List (Option N) :=
  if s = m then List.replicate (docHeads s.common).length (some PyNum.zero) else docBlock s.common i

/-- the dataset for a table of an entry that was read -/
theorem doc_rows (P : FieldParsers ρ) (rx : RxOps ρ) (D : EntryDoc) (h : D.wf) (hpr : D.Printable P rx) (subs : List SubDoc) (hsub : subs.Sublist D.subs) (raw : List Str) (e : Entry ρ)
    (he : Entry.build P raw = .ok e) (hold : EntryHolds P D subs e)
    (m s : SubDoc) (hm : m ∈ subs) (hma : m.acc = D.acc ++ "001".toList) (hs : s ∈ subs)
    (t : TableDoc) (ht : s.data = some t) (hl : t.labels.Nodup) (p : Char) (hc1 : OwnPointers p m.common) (hc2 : OwnPointers p s.common)
    (hp : docReaction m s p ≠ [])
    (r : ρ × Str) (hrx : P.reaction (joinWith [' '] ((docReaction m s p).map strip)) = .ok r) (q : List Str) (hq : effectiveQuant rx r.1 = .ok q) :
    ∃ (st : DsState ρ N) (d : DataSet ρ N), e.getDataSets rx [] = .ok st ∧
      st.datasets.get? (D.acc, some s.acc, p) = some d ∧ d.reaction = some r ∧ d.kind = kindOf q ∧ d.simplified = false ∧
      d.labels = docHeads m.common ++ docHeads s.common ++ (pick (belongs t.labels (some p)) t.labels).map head10 ∧
      d.units = docUnits m.common ++ docUnits s.common ++ (pick (belongs t.labels (some p)) t.units).map (fun u => some (head10 u)) ∧
      d.data = t.rows.mapIdx fun i row => docBlock m.common i ++ secondBlock m s i ++ (pick (belongs t.labels (some p)) row).map cellVal := by
  obtain ⟨st, hst⟩ := doc_returns (N := N) P rx D h hpr subs hsub raw e he hold m hm hma
  obtain ⟨M, main, hMh, hmain, -, hgets, hval⟩ := doc_values (N := N) P rx D h subs hsub raw e he hold m hm hma st hst
  have hacc := hold.accnum
  have hmk : e.mainKey = some m.acc := by rw [Entry.mainKey, hacc, hma]
  obtain ⟨S, hS, hSh⟩ := hgets s hs
  have hsD : s ∈ D.subs := hsub.subset hs
  have hmD : m ∈ D.subs := hsub.subset hm
  have hdata := hSh.data
  rw [ht] at hdata
  obtain ⟨dsec, hd1, hd2, hd3⟩ := hdata
  have hSd : S.data = some dsec := by unfold SubEntry.data; rw [hd1]
  obtain ⟨i, hi⟩ := info_total (fun b hb => by
    obtain ⟨lines, hl⟩ := entry_subs he hS
    exact sub_bib hl hb) (S.accnum.getD "None".toList)
  have hdi : e.dataOf (some s.acc) = some (dsec, i.1) := by
    unfold Entry.dataOf
    rw [hS]
    simp only [hSd, hi]
  -- the table
  have hsel : ∀ j < t.labels.length, keepCol dsec (some p) j = belongs t.labels (some p) j := by
    intro j hj
    rw [keepCol_eq hd2 (by rw [hd3.labels]; exact hl) (some p) (by rw [hd3.labels]; exact hj), hd3.labels]
  have htwf := (h.subs s hsD).1.data t ht
  have hcells : ∀ (B : Nat → List (Option N)), (List.range dsec.data.length).map (fun j => B j ++ (pick (keepCol dsec (some p)) (dsec.data[j]?.getD [])).map cellNum) =
      t.rows.mapIdx fun i row => B i ++ (pick (belongs t.labels (some p)) row).map cellVal := by
    intro B
    have hlen : dsec.data.length = t.rows.length := (mapE_length hd3.data)
    apply List.ext_getElem?
    intro j
    rcases Nat.lt_or_ge j t.rows.length with hj | hj
    · rw [range_map_get _ (by omega), List.getElem?_mapIdx, List.getElem?_eq_getElem hj, Option.map_some]
      obtain ⟨v, hv1, hv2⟩ := mapE_get hd3.data j _ (List.getElem?_eq_getElem hj)
      rw [hv1, Option.getD_some, ← pick_map, cells_val hv2, pick_map]
      rw [pick_congr t.rows[j] (by rw [htwf.rect _ (List.getElem_mem hj)]; exact hsel)]
    · rw [List.getElem?_eq_none (by simp; omega), List.getElem?_eq_none (by simp; omega)]
  obtain ⟨tab, htab, hlab, hunit, hdat⟩ : ∃ tab : Table N, setData dsec (commonList e.mainKey (some s.acc) main.1.common i.1.common) (some p) = .ok tab ∧
      tab.labels = docHeads m.common ++ docHeads s.common ++ (pick (belongs t.labels (some p)) t.labels).map head10 ∧
      tab.units = docUnits m.common ++ docUnits s.common ++ (pick (belongs t.labels (some p)) t.units).map (fun u => some (head10 u)) ∧
      tab.data = t.rows.mapIdx fun i row => docBlock m.common i ++ secondBlock m s i ++ (pick (belongs t.labels (some p)) row).map cellVal := by
    rw [info_common hmain, info_common hi, commonList, hmk]
    obtain ⟨p1, l1, u1, n1, b1⟩ := docCommon_rows (N := N) (P := P) hMh.common hc1 0
    by_cases hsm : s = m
    · subst hsm
      have hSM : M.common = S.common := by
        have h1 := hMh.common
        have h2 := hSh.common
        unfold SubEntry.common
        cases hc : s.common with
        | none => rw [hc] at h1 h2; rw [h1, h2]
        | some tc =>
          rw [hc] at h1 h2
          obtain ⟨c1, e1, g1, -⟩ := h1
          obtain ⟨c2, e2, g2, -⟩ := h2
          rw [e1, e2]
          rw [g1] at g2
          rw [Except.ok.inj g2]
      rw [if_pos rfl, ← hSM]
      have hok : CommonOk (some p) (M.common.map fun c => (0, c)) := by
        intro x hx
        obtain ⟨c, hc, rfl⟩ := Option.map_eq_some_iff.1 hx
        exact (p1 c hc).ok
      refine ⟨_, setData_same (wf_of_build hd2) hok, ?_, ?_, ?_⟩
      · simp only [l1, hd3.labels, pick_congr t.labels hsel]
      · simp only [u1, hd3.units, pick_congr t.units (by rw [htwf.units]; exact hsel)]
      · simp only [b1, n1, secondBlock, if_pos]
        exact hcells fun i => docBlock s.common i ++ List.replicate (docHeads s.common).length (some PyNum.zero)
    · have hsa : s.acc ≠ m.acc := fun h0 => hsm (List.inj_on_of_nodup_map h.distinct hsD hmD h0)
      rw [if_neg (by simpa using hsa)]
      obtain ⟨p2, l2, u2, -, b2⟩ := docCommon_rows (N := N) (P := P) hSh.common hc2 1
      refine ⟨_, setData_plain (N := N) hd2 (some p) p1 p2, ?_, ?_, ?_⟩
      · simp only [l1, l2, hd3.labels, pick_congr t.labels hsel]
      · simp only [u1, u2, hd3.units, pick_congr t.units (by rw [htwf.units]; exact hsel)]
      · simp only [b1, b2, secondBlock, if_neg hsm]
        exact hcells fun i => docBlock m.common i ++ docBlock s.common i
  -- the dataset
  have hval := hval e.accnum (some s.acc) p
  rw [if_pos rfl, goodOf, hdi] at hval
  unfold docReaction at hp hrx
  by_cases hown : s.reactionText p ≠ []
  · rw [if_pos hown] at hrx
    obtain ⟨r', hr1, hr2⟩ := (doc_reactions (h.subs s hsD).1 hSh hi p).2 hown
    rw [hrx] at hr1
    cases hr1
    simp only [ownAttempt, attempt, hr2, Option.map_some, dataSetFactory, hq, DataSet.build, htab, okPart, Option.some_or] at hval
    rw [hacc] at hval
    exact ⟨st, _, hst, hval, rfl, rfl, rfl, hlab, hunit, hdat⟩
  · rw [if_neg hown] at hrx hp
    have hr2 := (doc_reactions (h.subs s hsD).1 hSh hi p).1 (not_not.1 hown)
    obtain ⟨r', hr1, hr3⟩ := (doc_reactions (h.subs m hmD).1 hMh hmain p).2 hp
    rw [hrx] at hr1
    cases hr1
    simp only [ownAttempt, mainAttempt, attempt, hr2, hr3, Option.map_some, Option.map_none, dataSetFactory, hq, DataSet.build, htab, okPart, Option.none_or] at hval
    rw [hacc] at hval
    exact ⟨st, _, hst, hval, rfl, rfl, rfl, hlab, hunit, hdat⟩

/-- C86 for any requested subentry, the first one included, and COMMON tables with any number of rows: with one row, it
goes with every row of the data; otherwise row by row, and zeros after the last. -/
theorem C86_rows_partial (P : FieldParsers ρ) (rx : RxOps ρ) (D : EntryDoc) (h : D.wf) (hpr : D.Printable P rx) (hr : ∀ s ∈ D.subs, s.Readable P) (subents : Option (List Str))
    (m s : SubDoc) (hm : m ∈ D.subs) (hma : m.acc = D.acc ++ "001".toList) (hmr : requested subents m.acc) (hs : s ∈ D.subs)
    (hsr : requested subents s.acc) (t : TableDoc) (ht : s.data = some t) (hl : t.labels.Nodup) (p : Char) (hc1 : OwnPointers p m.common) (hc2 : OwnPointers p s.common)
    (hp : docReaction m s p ≠ [])
    (r : ρ × Str) (hrx : P.reaction (joinWith [' '] ((docReaction m s p).map strip)) = .ok r) (q : List Str) (hq : effectiveQuant rx r.1 = .ok q) :
    ∃ (e : Entry ρ) (st : DsState ρ N) (d : DataSet ρ N), Entry.build P (splitEntryFile subents D.file) = .ok e ∧ e.getDataSets rx [] = .ok st ∧
      st.datasets.get? (D.acc, some s.acc, p) = some d ∧ d.reaction = some r ∧ d.kind = kindOf q ∧ d.simplified = false ∧
      d.labels = docHeads m.common ++ docHeads s.common ++ (pick (belongs t.labels (some p)) t.labels).map head10 ∧
      d.units = docUnits m.common ++ docUnits s.common ++ (pick (belongs t.labels (some p)) t.units).map (fun u => some (head10 u)) ∧
      d.data = t.rows.mapIdx fun i row => docBlock m.common i ++ secondBlock m s i ++ (pick (belongs t.labels (some p)) row).map cellVal := by
  obtain ⟨e, he, hold⟩ := C85_read P D h subents hr ⟨m, hm, hmr⟩
  obtain ⟨st, d, hd⟩ := doc_rows (N := N) P rx D h hpr _ List.filter_sublist _ e he hold m s (List.mem_filter.2 ⟨hm, hmr⟩) hma (List.mem_filter.2 ⟨hs, hsr⟩)
    t ht hl p hc1 hc2 hp r hrx q hq
  exact ⟨e, st, d, he, hd⟩

/-- C86 is false for data in the first subentry, if it has a COMMON table: the headings of that table are in the dataset
twice, and the second time there are zeros below them in every row, whatever is written. -/
theorem C86_first_refuted (P : FieldParsers ρ) (rx : RxOps ρ) (D : EntryDoc) (h : D.wf) (hpr : D.Printable P rx) (hr : ∀ s ∈ D.subs, s.Readable P) (subents : Option (List Str))
    (m : SubDoc) (hm : m ∈ D.subs) (hma : m.acc = D.acc ++ "001".toList) (hmr : requested subents m.acc) (c t : TableDoc) (hc : m.common = some c) (ht : m.data = some t)
    (hl : t.labels.Nodup) (p : Char) (hc1 : OwnPointers p m.common) (hp : m.reactionText p ≠ [])
    (r : ρ × Str) (hrx : P.reaction (joinWith [' '] ((m.reactionText p).map strip)) = .ok r) (q : List Str) (hq : effectiveQuant rx r.1 = .ok q) :
    ∃ (e : Entry ρ) (st : DsState ρ N) (d : DataSet ρ N), Entry.build P (splitEntryFile subents D.file) = .ok e ∧ e.getDataSets rx [] = .ok st ∧
      st.datasets.get? (D.acc, some m.acc, p) = some d ∧
      (∀ j < c.labels.length, d.labels[j]? = (c.labels[j]?).map head10 ∧ d.labels[c.labels.length + j]? = (c.labels[j]?).map head10) ∧
      d.data.length = t.rows.length ∧ ∀ row ∈ d.data, ∀ j < c.labels.length, row[c.labels.length + j]? = some (some PyNum.zero) := by
  have hd : docReaction m m p = m.reactionText p := by unfold docReaction; rw [if_pos hp]
  obtain ⟨e, st, d, h1, h2, h3, -, -, -, h4, -, h5⟩ := C86_rows_partial (N := N) P rx D h hpr hr subents m m hm hma hmr hm hmr t ht hl p hc1 hc1
    (by rw [hd]; exact hp) r (by rw [hd]; exact hrx) q hq
  refine ⟨e, st, d, h1, h2, h3, ?_, by rw [h5, List.length_mapIdx], ?_⟩
  · intro j hj
    have hh : docHeads m.common = c.labels.map head10 := by rw [hc]; rfl
    have hlen : (docHeads m.common).length = c.labels.length := by rw [hh, List.length_map]
    rw [h4, List.append_assoc, List.getElem?_append_left (by omega), List.getElem?_append_right (by omega), hlen, Nat.add_sub_cancel_left,
      List.getElem?_append_left (by omega), hh, List.getElem?_map]
    exact ⟨rfl, rfl⟩
  · intro row hrow j hj
    rw [h5] at hrow
    obtain ⟨i, hi, rfl⟩ := List.mem_mapIdx.1 hrow
    have hb : (docBlock (N := N) m.common i).length = c.labels.length := by
      have hw := (h.subs m hm).1.common c hc
      rw [hc]
      simp only [docBlock, Option.elim_some]
      cases hcr : commonRow c.rows i with
      | none => simp
      | some v =>
        have : v ∈ c.rows := by
          unfold commonRow at hcr
          split at hcr
          · rename_i v' hv'
            rw [hv', ← Option.some.inj hcr]; exact List.mem_singleton.2 rfl
          · exact List.mem_of_getElem? hcr
        simp [hw.rect v this]
    rw [List.append_assoc, List.getElem?_append_right (by omega), hb, Nat.add_sub_cancel_left, secondBlock, if_pos rfl, hc]
    have : (docHeads (some c)).length = c.labels.length := by simp [docHeads]
    rw [this, List.getElem?_append_left (by simpa using hj), List.getElem?_replicate, if_pos hj]

/-- C87 with the tables of C86_rows_partial: the datasets of every retrieved subentry, the first one included. -/
theorem C87_rows_partial (P : FieldParsers ρ) (rx : RxOps ρ) (docs : List EntryDoc) (db : DB) (table : List Row) (hA : Archive P docs db table) (c : Criteria)
    (hp : Plain c) (hg : c.given) (D : EntryDoc) (hD : D ∈ docs) (hpr : D.Printable P rx) (m s : SubDoc) (hm : m ∈ D.subs) (hma : m.acc = D.acc ++ "001".toList) (hs : s ∈ D.subs)
    (hany : ∃ s' ∈ D.subs, Hit table c s'.acc) (hit : s = m ∨ Hit table c s.acc)
    (t : TableDoc) (ht : s.data = some t) (hl : t.labels.Nodup) (p : Char) (hc1 : OwnPointers p m.common) (hc2 : OwnPointers p s.common) (hrp : docReaction m s p ≠ [])
    (r : ρ × Str) (hrx : P.reaction (joinWith [' '] ((docReaction m s p).map strip)) = .ok r) (q : List Str) (hq : effectiveQuant rx r.1 = .ok q) :
    ∃ (R : Dict Str (Entry ρ)) (e : Entry ρ) (st : DsState ρ N) (d : DataSet ρ N), retrieve P table db c = .ok R ∧ R.get? D.acc = some e ∧ e.getDataSets rx [] = .ok st ∧
      st.datasets.get? (D.acc, some s.acc, p) = some d ∧ d.reaction = some r ∧ d.kind = kindOf q ∧ d.simplified = false ∧
      d.labels = docHeads m.common ++ docHeads s.common ++ (pick (belongs t.labels (some p)) t.labels).map head10 ∧
      d.units = docUnits m.common ++ docUnits s.common ++ (pick (belongs t.labels (some p)) t.units).map (fun u => some (head10 u)) ∧
      d.data = t.rows.mapIdx fun i row => docBlock m.common i ++ secondBlock m s i ++ (pick (belongs t.labels (some p)) row).map cellVal := by
  obtain ⟨R, hR, -, hkeys, hent⟩ := C87_retrieve P docs db table hA c hp hg
  obtain ⟨e, he⟩ := Option.isSome_iff_exists.1 ((Dict.mem_keys_iff _ _).1 ((hkeys D hD).2 hany))
  obtain ⟨D', hD', hDa, subs, hold, hsub, hmem⟩ := hent _ e (Dict.mem_of_get? he)
  have : D' = D := nodup_inj hA.distinct hD' hD hDa
  subst this
  obtain ⟨raw, hraw, hF⟩ := (C47_parsed P table db c R).1 hR
  have hb : ∃ l, Entry.build P l = .ok e := by
    have := Dict.mem_of_get? he
    clear he hent hkeys hR hraw
    induction hF with
    | nil => cases this
    | cons h _ ih =>
      rcases List.mem_cons.1 this with rfl | h'
      · exact ⟨_, h.2⟩
      · exact ih h'
  obtain ⟨l, hb⟩ := hb
  have hms : s ∈ subs := (hmem s hs).2 (hit.imp (fun h => by rw [h, hma]) id)
  obtain ⟨st, d, hd⟩ := doc_rows (N := N) P rx D' (hA.wf D' hD) hpr subs hsub l e hb hold m s ((hmem m hm).2 (.inl hma)) hma hms
    t ht hl p hc1 hc2 hrp r hrx q hq
  exact ⟨R, e, st, d, hR, he, hd⟩

/-! ### which datasets there are -/

/-- under pointer `p`, the subentry has a reaction with a quantity -/
def Usable (P : FieldParsers ρ) (rx : RxOps ρ) (x : SubDoc) (p : Char) : Prop :=
  x.reactionText p ≠ [] ∧ ∃ r q, P.reaction (joinWith [' '] ((x.reactionText p).map strip)) = .ok r ∧ effectiveQuant rx r.1 = .ok q

/-- a section of a subentry that was read makes a dataset iff its reaction is usable, if the table can be put together -/
theorem attempt_usable {P : FieldParsers ρ} {rx : RxOps ρ} {x : SubDoc} (hw : x.wf) {S : SubEntry ρ} (hS : SubHolds P x S) {a : Str}
    {i : SubInfo ρ × SubEntry ρ} (hi : S.info a = .ok i) {ms : List (Option (DsMeta ρ))} {common : List (Option (Nat × DataSection))} {data : DataSection}
    {p : Char} : ((okPart (attempt (N := N) rx ms common data i.1 p)).isSome → Usable P rx x p) ∧
      ∀ tab : Table N, setData data common (some p) = .ok tab → Usable P rx x p → (okPart (attempt (N := N) rx ms common data i.1 p)).isSome := by
  obtain ⟨g1, g2⟩ := doc_reactions hw hS hi p
  unfold attempt dataSetFactory DataSet.build
  constructor
  · intro h
    by_cases ht : x.reactionText p = []
    · rw [g1 ht] at h; cases h
    · obtain ⟨r, e1, e2⟩ := g2 ht
      rw [e2] at h
      refine ⟨ht, r, ?_⟩
      cases hq : effectiveQuant rx r.1 with
      | error y => rw [Option.map_some, hq] at h; cases h
      | ok q => exact ⟨q, e1, rfl⟩
  · rintro tab htab ⟨ht, r, q, e1, hq⟩
    obtain ⟨r', e3, e2⟩ := g2 ht
    rw [e1] at e3
    cases e3
    simp only [e2, Option.map_some, hq, htab]
    rfl

/-- C86 and C17: which datasets a written entry has. There is one for a requested subentry with data and a pointer only if a reaction with
a quantity is written under that pointer in the subentry or in the first one; and, if no COMMON column has another pointer, whenever it is. -/
theorem C86_keys_partial (P : FieldParsers ρ) (rx : RxOps ρ) (D : EntryDoc) (h : D.wf) (hpr : D.Printable P rx) (hr : ∀ s ∈ D.subs, s.Readable P) (subents : Option (List Str))
    (m : SubDoc) (hm : m ∈ D.subs) (hma : m.acc = D.acc ++ "001".toList) (hmr : requested subents m.acc) :
    ∃ (e : Entry ρ) (st : DsState ρ N), Entry.build P (splitEntryFile subents D.file) = .ok e ∧ e.getDataSets rx [] = .ok st ∧
      ∀ s ∈ D.subs, ∀ p, ((D.acc, some s.acc, p) ∈ st.datasets.keys → requested subents s.acc ∧ s.data ≠ none ∧ (Usable P rx s p ∨ Usable P rx m p)) ∧
        (requested subents s.acc → s.data ≠ none → (Usable P rx s p ∨ Usable P rx m p) → OwnPointers p m.common → OwnPointers p s.common →
          (D.acc, some s.acc, p) ∈ st.datasets.keys) := by
  obtain ⟨e, he, hold⟩ := C85_read P D h subents hr ⟨m, hm, hmr⟩
  have hmf : m ∈ D.subs.filter fun s => requested subents s.acc := List.mem_filter.2 ⟨hm, hmr⟩
  obtain ⟨st, hst⟩ := doc_returns (N := N) P rx D h hpr _ List.filter_sublist _ e he hold m hmf hma
  obtain ⟨M, main, hMh, hmain, -, hgets, hval⟩ := doc_values (N := N) P rx D h _ List.filter_sublist _ e he hold m hmf hma st hst
  have hacc := hold.accnum
  have hmk : e.mainKey = some m.acc := by rw [Entry.mainKey, hacc, hma]
  refine ⟨e, st, he, hst, fun s hs p => ?_⟩
  -- a requested subentry with data
  have key : ∀ t, requested subents s.acc → s.data = some t →
      ((D.acc, some s.acc, p) ∈ st.datasets.keys → Usable P rx s p ∨ Usable P rx m p) ∧
      ((Usable P rx s p ∨ Usable P rx m p) → OwnPointers p m.common → OwnPointers p s.common → (D.acc, some s.acc, p) ∈ st.datasets.keys) := by
    intro t hsr ht
    obtain ⟨S, hS, hSh⟩ := hgets s (List.mem_filter.2 ⟨hs, hsr⟩)
    have hdata := hSh.data
    rw [ht] at hdata
    obtain ⟨dsec, hd1, hd2, hd3⟩ := hdata
    have hSd : S.data = some dsec := by unfold SubEntry.data; rw [hd1]
    obtain ⟨i, hi⟩ := info_total (fun b hb => by
      obtain ⟨lines, hl⟩ := entry_subs he hS
      exact sub_bib hl hb) (S.accnum.getD "None".toList)
    have hdi : e.dataOf (some s.acc) = some (dsec, i.1) := by
      unfold Entry.dataOf
      rw [hS]
      simp only [hSd, hi]
    obtain ⟨o1, o2⟩ := attempt_usable (N := N) (rx := rx) (h.subs s hs).1 hSh hi (ms := [main.1.info, i.1.info]) (common := commonList e.mainKey (some s.acc) main.1.common i.1.common) (data := dsec) (p := p)
    obtain ⟨f1, f2⟩ := attempt_usable (N := N) (rx := rx) (h.subs m hm).1 hMh hmain (ms := [main.1.info, i.1.info]) (common := commonList e.mainKey (some s.acc) main.1.common i.1.common) (data := dsec) (p := p)
    rw [Dict.mem_keys_iff, hval, if_pos hacc.symm, goodOf, hdi]
    simp only [ownAttempt, mainAttempt, Option.isSome_or, Bool.or_eq_true]
    refine ⟨fun h0 => h0.imp o1 f1, fun h0 hc1 hc2 => ?_⟩
    obtain ⟨tab, htab⟩ : ∃ tab : Table N, setData dsec (commonList e.mainKey (some s.acc) main.1.common i.1.common) (some p) = .ok tab := by
      rw [info_common hmain, info_common hi, commonList, hmk]
      obtain ⟨p1, -⟩ := docCommon_rows (N := N) (P := P) hMh.common hc1 0
      by_cases hsm : s = m
      · subst hsm
        have hSM : M.common = S.common := by
          have h1 := hMh.common
          have h2 := hSh.common
          unfold SubEntry.common
          cases hc : s.common with
          | none => rw [hc] at h1 h2; rw [h1, h2]
          | some tc =>
            rw [hc] at h1 h2
            obtain ⟨c1, e1, g1, -⟩ := h1
            obtain ⟨c2, e2, g2, -⟩ := h2
            rw [e1, e2]
            rw [g1] at g2
            rw [Except.ok.inj g2]
        rw [if_pos rfl, ← hSM]
        exact ⟨_, setData_same (wf_of_build hd2) (fun x hx => by
          obtain ⟨c, hc, rfl⟩ := Option.map_eq_some_iff.1 hx
          exact (p1 c hc).ok)⟩
      · have hsa : s.acc ≠ m.acc := fun h0 => hsm (List.inj_on_of_nodup_map h.distinct hs hm h0)
        rw [if_neg (by simpa using hsa)]
        obtain ⟨p2, -⟩ := docCommon_rows (N := N) (P := P) hSh.common hc2 1
        exact ⟨_, setData_plain (N := N) hd2 (some p) p1 p2⟩
    exact h0.imp (o2 tab htab) (f2 tab htab)
  constructor
  · intro hk
    obtain ⟨d, hd⟩ := Option.isSome_iff_exists.1 ((Dict.mem_keys_iff _ _).1 hk)
    obtain ⟨-, s', hs', hss, hne, -⟩ := doc_only P rx D h _ List.filter_sublist _ e he hold m hmf hma st hst _ _ p d hd
    obtain ⟨hs0, hsr⟩ := List.mem_filter.1 hs'
    have : s = s' := List.inj_on_of_nodup_map h.distinct hs hs0 (Option.some.inj hss)
    subst this
    obtain ⟨t, ht⟩ := Option.ne_none_iff_exists'.1 hne
    exact ⟨hsr, hne, (key t hsr ht).1 hk⟩
  · intro hsr hne hu hc1 hc2
    obtain ⟨t, ht⟩ := Option.ne_none_iff_exists'.1 hne
    exact (key t hsr ht).2 hu hc1 hc2

/-! ### an entry with two rows in the COMMON table of its first subentry, and data in both subentries -/

def rowsMain : SubDoc where
  acc := chars!"10001001"
  bib := [⟨chars!"TITLE", (' ', chars!"CAPTURE IN AMERICIUM"), []⟩, ⟨chars!"REACTION", ('1', chars!"(95-AM-241(N,G)95-AM-242-M,,SIG)"), []⟩]
  common := some ⟨[chars!"EN-RSL"], [chars!"MEV"], [[chars!"0.1"], [chars!"0.2"]]⟩
  data := some ⟨[chars!"EN", chars!"DATA      1"], [chars!"MEV", chars!"MB"], [[chars!"7.5", chars!"8.5"]]⟩
def rowsSub : SubDoc where
  acc := chars!"10001002"
  bib := [⟨chars!"HISTORY", (' ', chars!"(19991231C)"), []⟩]
  common := some ⟨[chars!"ANG"], [chars!"ADEG"], [[chars!"90."]]⟩
  data := some ⟨[chars!"EN", chars!"DATA      1", chars!"DATA      2"], [chars!"MEV", chars!"MB", chars!"MB"],
    [[chars!"1.5", chars!"2.5", chars!"3.5"], [chars!"2.5", [], chars!"1.+1"], [chars!"3.5", chars!"4.5", chars!"1.+1"]]⟩
def rowsEntry : EntryDoc := ⟨chars!"10001", [rowsMain, rowsSub]⟩

theorem rowsEntry_wf : rowsEntry.wf := by
  refine ⟨by decide, by decide, ?_, by decide⟩
  intro s hs
  simp only [rowsEntry, List.mem_cons, List.not_mem_nil, or_false] at hs
  rcases hs with rfl | rfl
  · refine ⟨⟨by decide, by decide, ?_, by decide, ?_, ?_⟩, by decide⟩
    · intro f hf
      simp only [rowsMain, List.mem_cons, List.not_mem_nil, or_false] at hf
      rcases hf with rfl | rfl <;> exact ⟨by decide, by decide, by decide⟩
    · intro t ht
      cases ht
      exact ⟨by decide, by decide, by decide, by decide, by decide, by decide, by decide⟩
    · intro t ht
      cases ht
      exact ⟨by decide, by decide, by decide, by decide, by decide, by decide, by decide⟩
  · refine ⟨⟨by decide, by decide, ?_, by decide, ?_, ?_⟩, by decide⟩
    · intro f hf
      simp only [rowsSub, List.mem_cons, List.not_mem_nil, or_false] at hf
      rcases hf with rfl <;> exact ⟨by decide, by decide, by decide⟩
    · intro t ht
      cases ht
      exact ⟨by decide, by decide, by decide, by decide, by decide, by decide, by decide⟩
    · intro t ht
      cases ht
      exact ⟨by decide, by decide, by decide, by decide, by decide, by decide, by decide⟩

theorem rowsEntry_readable : ∀ s ∈ rowsEntry.subs, s.Readable (x4Parsers metaDicts) := by
  intro s hs
  have key : (∀ s ∈ rowsEntry.subs, ∀ f ∈ s.bib, okB (buildField (x4Parsers metaDicts) (some f.tag) f.lines) = true) ∧
    (∀ s ∈ rowsEntry.subs, ∀ t ∈ s.common.toList ++ s.data.toList, ∀ r ∈ t.rows, ∀ c ∈ r, okB (parseFORTRANNumber c) = true) := by decide +kernel
  refine ⟨fun f hf => okB_iff (key.1 s hs f hf), fun t ht r hr c hc => okB_iff (key.2 s hs t ?_ r hr c hc), fun t ht r hr c hc => okB_iff (key.2 s hs t ?_ r hr c hc)⟩
  · rw [Option.mem_def] at ht; simp [ht]
  · rw [Option.mem_def] at ht; simp [ht]

theorem rowsEntry_printable {rxd : RxDicts} : rowsEntry.Printable (x4Parsers metaDicts) (x4RxOps rxd) := by
  intro s hs p r hp hr hq
  have key : ∀ s ∈ rowsEntry.subs, ∀ p, s.reactionText p ≠ [] → p = '1' := by
    intro s hs p hp
    have key1 : ∀ s ∈ rowsEntry.subs, ∀ f ∈ s.bib, f.tag = chars!"REACTION" →
        ∀ q ∈ (List.range f.lines.length).map fun k => pointerInForce (f.lines.take (k + 1)), q = '1' := by decide +kernel
    unfold SubDoc.reactionText at hp
    cases hf : s.bib.find? fun f => decide (f.tag = chars!"REACTION") with
    | none => rw [hf] at hp; exact absurd rfl hp
    | some f =>
      rw [hf] at hp
      exact key1 s hs f (List.mem_of_find?_eq_some hf) (by simpa using List.find?_some hf) p (textUnder_pointer hp)
  have key2 : ∀ s ∈ rowsEntry.subs, isSingle ((x4Parsers metaDicts).reaction (joinWith [' '] ((s.reactionText '1').map strip))) = true := by decide +kernel
  have := key2 s hs
  rw [key s hs p hp] at hr
  rw [hr] at this
  obtain ⟨m, t⟩ := r
  cases m <;> simp_all [isSingle, x4RxOps]

/-- C86_rows_partial: the dataset of the second subentry has zeros in the third row, where the COMMON table of the first has none. -/
example (rxd : RxDicts) (r : Measurement × Str)
    (hrx : (x4Parsers metaDicts).reaction (joinWith [' '] ((docReaction rowsMain rowsSub '1').map strip)) = .ok r) (q : List Str) (hq : effectiveQuant (x4RxOps rxd) r.1 = .ok q) :
    ∃ (st : DsState Measurement N) (d : DataSet Measurement N), st.datasets.get? (chars!"10001", some chars!"10001002", '1') = some d ∧
      d.labels = [chars!"EN-RSL", chars!"ANG", chars!"EN", chars!"DATA"] ∧
      d.data = [[cellVal chars!"0.1", cellVal chars!"90.", cellVal chars!"1.5", cellVal chars!"2.5"], [cellVal chars!"0.2", cellVal chars!"90.", cellVal chars!"2.5", none],
        [some PyNum.zero, cellVal chars!"90.", cellVal chars!"3.5", cellVal chars!"4.5"]] := by
  obtain ⟨e, st, d, -, -, h3, -, -, -, h6, -, h8⟩ := C86_rows_partial (N := N) (x4Parsers metaDicts) (x4RxOps rxd) rowsEntry rowsEntry_wf rowsEntry_printable rowsEntry_readable none
    rowsMain rowsSub (by simp [rowsEntry]) (by decide) rfl (by simp [rowsEntry]) rfl _ rfl (by decide) '1'
    (by intro t ht; cases ht; decide) (by intro t ht; cases ht; decide) (by decide +kernel) r hrx q hq
  refine ⟨st, d, h3, ?_, ?_⟩
  · rw [h6]; decide +kernel
  · rw [h8]; simp only [secondBlock, if_neg (show rowsSub ≠ rowsMain by decide)]; rfl
/-- C86_first_refuted: and that of the first has the only column of that table twice. -/
example (rxd : RxDicts) (r : Measurement × Str)
    (hrx : (x4Parsers metaDicts).reaction (joinWith [' '] ((rowsMain.reactionText '1').map strip)) = .ok r) (q : List Str) (hq : effectiveQuant (x4RxOps rxd) r.1 = .ok q) :
    ∃ (st : DsState Measurement N) (d : DataSet Measurement N), st.datasets.get? (chars!"10001", some chars!"10001001", '1') = some d ∧
      d.labels[0]? = some chars!"EN-RSL" ∧ d.labels[1]? = some chars!"EN-RSL" ∧ ∀ row ∈ d.data, row[1]? = some (some PyNum.zero) := by
  obtain ⟨e, st, d, -, -, h3, h4, -, h5⟩ := C86_first_refuted (N := N) (x4Parsers metaDicts) (x4RxOps rxd) rowsEntry rowsEntry_wf rowsEntry_printable rowsEntry_readable none
    rowsMain (by simp [rowsEntry]) (by decide) rfl _ _ rfl rfl (by decide) '1' (by intro t ht; cases ht; decide) (by decide +kernel) r hrx q hq
  exact ⟨st, d, h3, (h4 0 (by decide)).1, (h4 0 (by decide)).2, fun row hrow => h5 row hrow 0 (by decide)⟩
/-- The reaction is read. -/
example : okB ((x4Parsers metaDicts).reaction (joinWith [' '] ((docReaction rowsMain rowsSub '1').map strip))) = true ∧
    okB ((x4Parsers metaDicts).reaction (joinWith [' '] ((rowsMain.reactionText '1').map strip))) = true := by decide +kernel

/-- its only reaction is usable, as it is a single one -/
theorem rowsMain_usable (rxd : RxDicts) : Usable (x4Parsers metaDicts) (x4RxOps rxd) rowsMain '1' := by
  have key : isSingle ((x4Parsers metaDicts).reaction (joinWith [' '] ((rowsMain.reactionText '1').map strip))) = true ∧
    okB ((x4Parsers metaDicts).reaction (joinWith [' '] ((rowsMain.reactionText '1').map strip))) = true := by decide +kernel
  refine ⟨by decide +kernel, ?_⟩
  obtain ⟨r, hr⟩ := okB_iff key.2
  have h1 := key.1
  rw [hr] at h1
  obtain ⟨m, t⟩ := r
  cases m with
  | rx R => exact ⟨_, _, hr, rfl⟩
  | _ => simp [isSingle] at h1
/-- C86_keys_partial: pointer 2 is in the DATA table of the second subentry, but in no REACTION field, so there is no dataset for it; pointer 1 has
one, with the reaction of the first subentry. -/
example (rxd : RxDicts) :
    ∃ (e : Entry Measurement) (st : DsState Measurement N), Entry.build (x4Parsers metaDicts) (splitEntryFile none rowsEntry.file) = .ok e ∧
      e.getDataSets (x4RxOps rxd) [] = .ok st ∧ (chars!"10001", some chars!"10001002", '1') ∈ st.datasets.keys ∧ (chars!"10001", some chars!"10001002", '2') ∉ st.datasets.keys := by
  obtain ⟨e, st, h1, h2, h3⟩ := C86_keys_partial (N := N) (x4Parsers metaDicts) (x4RxOps rxd) rowsEntry rowsEntry_wf rowsEntry_printable rowsEntry_readable none
    rowsMain (by simp [rowsEntry]) (by decide) rfl
  have hs : rowsSub ∈ rowsEntry.subs := by simp [rowsEntry]
  refine ⟨e, st, h1, h2, (h3 rowsSub hs '1').2 rfl (by decide) (.inr (rowsMain_usable rxd)) (by intro t ht; cases ht; decide) (by intro t ht; cases ht; decide), fun hk => ?_⟩
  have key : rowsSub.reactionText '2' = [] ∧ rowsMain.reactionText '2' = [] := by decide +kernel
  rcases ((h3 rowsSub hs '2').1 hk).2.2 with h0 | h0
  · exact h0.1 key.1
  · exact h0.1 key.2

def rowsDb : DB := ⟨fun p => if p = chars!"100/10001.x4" then .ok rowsEntry.file else .error .ioError⟩

theorem rowsArchive : Archive (x4Parsers metaDicts) [rowsEntry] rowsDb [docRow1] := by
  refine ⟨?_, ?_, by decide, ?_, ?_⟩
  · intro D hD
    obtain rfl := List.mem_singleton.1 hD
    exact rowsEntry_wf
  · intro D hD
    obtain rfl := List.mem_singleton.1 hD
    exact rowsEntry_readable
  · intro D hD
    obtain rfl := List.mem_singleton.1 hD
    have : rowsEntry.acc.take 3 ++ ['/'] ++ rowsEntry.acc ++ ".x4".toList = chars!"100/10001.x4" := by decide
    simp only [rowsDb, this, if_true]
  · intro row hrow
    obtain rfl := List.mem_singleton.1 hrow
    exact ⟨rowsEntry, by simp, rowsSub, by simp [rowsEntry], rfl⟩

/-- C87_rows_partial: a query which only the second subentry meets gives the dataset of the first one, too. -/
example (rxd : RxDicts) (r : Measurement × Str)
    (hrx : (x4Parsers metaDicts).reaction (joinWith [' '] ((docReaction rowsMain rowsMain '1').map strip)) = .ok r) (q : List Str) (hq : effectiveQuant (x4RxOps rxd) r.1 = .ok q) :
    ∃ (R : Dict Str (Entry Measurement)) (e : Entry Measurement) (st : DsState Measurement N) (d : DataSet Measurement N),
      retrieve (x4Parsers metaDicts) [docRow1] rowsDb { target := some chars!"am-241" } = .ok R ∧ R.get? chars!"10001" = some e ∧
      e.getDataSets (x4RxOps rxd) [] = .ok st ∧ st.datasets.get? (chars!"10001", some chars!"10001001", '1') = some d ∧
      d.data = [[cellVal chars!"0.1", some PyNum.zero, cellVal chars!"7.5", cellVal chars!"8.5"]] := by
  obtain ⟨R, e, st, d, h1, h2, h3, h4, -, -, -, -, -, h8⟩ := C87_rows_partial (N := N) (x4Parsers metaDicts) (x4RxOps rxd) _ _ _ rowsArchive _ docPlain (by simp [Criteria.given])
    rowsEntry (by simp) rowsEntry_printable rowsMain rowsMain (by simp [rowsEntry]) (by decide) (by simp [rowsEntry]) ⟨rowsSub, by simp [rowsEntry], docHit⟩ (.inl rfl) _ rfl (by decide)
    '1' (by intro t ht; cases ht; decide) (by intro t ht; cases ht; decide) (by decide +kernel) r hrx q hq
  refine ⟨R, e, st, d, h1, h2, h3, h4, ?_⟩
  rw [h8]
  simp only [secondBlock, if_true]
  rfl

end X4
