import Verif.Props.Percent
import Verif.Props.UnitEntries
/-! C119 on written entries: uncertainties in the file in percent or in a unit. -/
namespace X4
variable {ρ : Type}

/-- C119 on written entries: two entries in which the same columns are written for a dataset, but uncertainties in percent in the one and
in a unit in the other, give the same simplified dataset, in exact arithmetic. -/
theorem C119_entries_partial (P : FieldParsers ρ) (rx : RxOps ρ) (D D' : EntryDoc) (h : D.wf) (h' : D'.wf) (hpr : D.Printable P rx) (hpr' : D'.Printable P rx)
    (hr : ∀ s ∈ D.subs, s.Readable P) (hr' : ∀ s ∈ D'.subs, s.Readable P) (subents subents' : Option (List Str))
    (m s m' s' : SubDoc) (hm : m ∈ D.subs) (hm' : m' ∈ D'.subs) (hma : m.acc = D.acc ++ "001".toList) (hma' : m'.acc = D'.acc ++ "001".toList)
    (hmr : requested subents m.acc) (hmr' : requested subents' m'.acc) (hs : s ∈ D.subs) (hs' : s' ∈ D'.subs) (hne : s ≠ m) (hne' : s' ≠ m')
    (hsr : requested subents s.acc) (hsr' : requested subents' s'.acc) (t t' : TableDoc) (ht : s.data = some t) (ht' : s'.data = some t')
    (hl : t.labels.Nodup) (hl' : t'.labels.Nodup) (p p' : Char) (hc1 : OwnPointers p m.common) (hc2 : OwnPointers p s.common)
    (hc1' : OwnPointers p' m'.common) (hc2' : OwnPointers p' s'.common) (hp : docReaction m s p ≠ []) (hp' : docReaction m' s' p' ≠ [])
    (r r' : ρ × Str) (hrx : P.reaction (joinWith [' '] ((docReaction m s p).map strip)) = .ok r)
    (hrx' : P.reaction (joinWith [' '] ((docReaction m' s' p').map strip)) = .ok r') (q q' : List Str) (hq : effectiveQuant rx r.1 = .ok q)
    (hq' : effectiveQuant rx r'.1 = .ok q') (hk : kindOf q = kindOf q') (hkp : (parserMapOf (kindOf q)).isSome)
    (hrows : t.rows.length = t'.rows.length)
    (hcols : List.Forall₂ (fun w w' => w = w' ∨ ∃ v ∈ writtenColumns m s t p, InPercent (wholeOf v) (wholeOf w) (wholeOf w'))
      (writtenColumns m s t p) (writtenColumns m' s' t' p'))
    (hx : NotMixed ((writtenColumns m s t p).map wholeOf)) (hx' : NotMixed ((writtenColumns m' s' t' p').map wholeOf))
    (hone : OneEach (kindOf q) ((writtenColumns m s t p).map fun w => w.1)) :
    ∃ (e e' : Entry ρ) (st st' : DsState ρ ℝ) (d d' : DataSet ρ ℝ),
      Entry.build P (splitEntryFile subents D.file) = .ok e ∧ Entry.build P (splitEntryFile subents' D'.file) = .ok e' ∧
      e.getDataSets rx [] = .ok st ∧ e'.getDataSets rx [] = .ok st' ∧
      st.datasets.get? (D.acc, some s.acc, p) = some d ∧ st'.datasets.get? (D'.acc, some s'.acc, p') = some d' ∧
      ∀ makeAll failMissing, (d.getSimplified makeAll failMissing).map DataSet.table = (d'.getSimplified makeAll failMissing).map DataSet.table := by
  obtain ⟨e, st, d, g1, g2, g3, -, g5, g6, g7, g8, g9⟩ := C86_rows_partial (N := ℝ) P rx D h hpr hr subents m s hm hma hmr hs hsr t ht hl p hc1 hc2 hp r hrx q hq
  obtain ⟨e', st', d', k1, k2, k3, -, k5, k6, k7, k8, k9⟩ :=
    C86_rows_partial (N := ℝ) P rx D' h' hpr' hr' subents' m' s' hm' hma' hmr' hs' hsr' t' ht' hl' p' hc1' hc2' hp' r' hrx' q' hq'
  refine ⟨e, e', st, st', d, d', g1, k1, g2, k2, g3, k3, fun makeAll failMissing => ?_⟩
  have w := (h.subs m hm).1
  have w1 := (h.subs s hs).1
  have w' := (h'.subs m' hm').1
  have w1' := (h'.subs s' hs').1
  obtain ⟨c1, c2⟩ := columnsOf_written w.common w1.common (w1.data t ht) hne g7 g8 g9
  obtain ⟨c1', c2'⟩ := columnsOf_written w'.common w1'.common (w1'.data t' ht') hne' k7 k8 k9
  refine C119_percent_partial d d' makeAll failMissing (by rw [g5, k5, hk]) (by rw [g5]; exact hkp) g6 k6 (by rw [g9, k9]; simpa using hrows) ?_ (by rw [c2, g5]; exact hone)
    (by rw [c1]; exact hx) (by rw [c1']; exact hx')
  rw [c1, c1']
  refine List.forall₂_map_left_iff.2 (List.forall₂_map_right_iff.2 (hcols.imp fun w w' h => ?_))
  rcases h with h | ⟨v, hv, h⟩
  · exact .inl (congrArg wholeOf h)
  · exact .inr ⟨wholeOf v, List.mem_map_of_mem hv, h⟩

/-! ### An entry with two subentries that have the same uncertainties in percent and in a unit -/

def percentSub : SubDoc where
  acc := chars!"10001002"
  bib := [⟨chars!"HISTORY", (' ', chars!"(19991231C)"), []⟩]
  common := some ⟨[chars!"EN"], [chars!"MEV"], [[chars!"1.5"]]⟩
  data := some ⟨[chars!"DATA      1", chars!"DATA-ERR  1"], [chars!"B", chars!"PER-CENT"], [[chars!"2.5", chars!"4."], [chars!"3.", []], [[], chars!"4."]]⟩
def absoluteSub : SubDoc where
  acc := chars!"10001003"
  bib := [⟨chars!"HISTORY", (' ', chars!"(19991231C)"), []⟩]
  common := some ⟨[chars!"EN"], [chars!"MEV"], [[chars!"1.5"]]⟩
  data := some ⟨[chars!"DATA      1", chars!"DATA-ERR  1"], [chars!"B", chars!"MB"], [[chars!"2.5", chars!"100."], [chars!"3.", []], [[], []]]⟩
def percentEntry : EntryDoc := ⟨chars!"10001", [placesMain, percentSub, absoluteSub]⟩

theorem percentEntry_wf : percentEntry.wf := by
  refine ⟨by decide, by decide, ?_, by decide⟩
  intro s hs
  simp only [percentEntry, List.mem_cons, List.not_mem_nil, or_false] at hs
  have hb : ∀ s ∈ percentEntry.subs, ∀ f ∈ s.bib, f.wf := by
    intro s hs f hf
    have hf : f ∈ percentEntry.subs.flatMap SubDoc.bib := List.mem_flatMap.2 ⟨s, hs, hf⟩
    simp only [percentEntry, placesMain, percentSub, absoluteSub, List.flatMap_cons, List.flatMap_nil, List.cons_append, List.nil_append, List.append_nil, List.mem_cons,
      List.not_mem_nil, or_false] at hf
    rcases hf with rfl | rfl | rfl | rfl <;> exact ⟨by decide, by decide, by decide⟩
  have hb' := hb s (by simpa [percentEntry] using hs)
  rcases hs with rfl | rfl | rfl
  · exact ⟨⟨by decide, by decide, hb', by decide, fun t ht => (nomatch ht), fun t ht => (nomatch ht)⟩, by decide⟩
  · refine ⟨⟨by decide, by decide, hb', by decide, ?_, ?_⟩, by decide⟩ <;>
    · intro t ht
      cases ht
      exact ⟨by decide, by decide, by decide, by decide, by decide, by decide, by decide⟩
  · refine ⟨⟨by decide, by decide, hb', by decide, ?_, ?_⟩, by decide⟩ <;>
    · intro t ht
      cases ht
      exact ⟨by decide, by decide, by decide, by decide, by decide, by decide, by decide⟩

theorem percentEntry_readable : ∀ s ∈ percentEntry.subs, s.Readable (x4Parsers metaDicts) := by
  intro s hs
  have key : (∀ s ∈ percentEntry.subs, ∀ f ∈ s.bib, okB (buildField (x4Parsers metaDicts) (some f.tag) f.lines) = true) ∧
    (∀ s ∈ percentEntry.subs, ∀ t ∈ s.common.toList ++ s.data.toList, ∀ r ∈ t.rows, ∀ c ∈ r, okB (parseFORTRANNumber c) = true) := by decide +kernel
  refine ⟨fun f hf => okB_iff (key.1 s hs f hf), fun t ht r hr c hc => okB_iff (key.2 s hs t ?_ r hr c hc), fun t ht r hr c hc => okB_iff (key.2 s hs t ?_ r hr c hc)⟩
  · rw [Option.mem_def] at ht; simp [ht]
  · rw [Option.mem_def] at ht; simp [ht]

theorem percentEntry_printable {rxd : RxDicts} : percentEntry.Printable (x4Parsers metaDicts) (x4RxOps rxd) := by
  intro s hs p r hp hr hq
  have key : ∀ s ∈ percentEntry.subs, ∀ p, s.reactionText p ≠ [] → p = '1' := by
    intro s hs p hp
    have key1 : ∀ s ∈ percentEntry.subs, ∀ f ∈ s.bib, f.tag = chars!"REACTION" →
        ∀ q ∈ (List.range f.lines.length).map fun k => pointerInForce (f.lines.take (k + 1)), q = '1' := by decide +kernel
    unfold SubDoc.reactionText at hp
    cases hf : s.bib.find? fun f => decide (f.tag = chars!"REACTION") with
    | none => rw [hf] at hp; exact absurd rfl hp
    | some f =>
      rw [hf] at hp
      exact key1 s hs f (List.mem_of_find?_eq_some hf) (by simpa using List.find?_some hf) p (textUnder_pointer hp)
  have key2 : ∀ s ∈ percentEntry.subs, isSingle ((x4Parsers metaDicts).reaction (joinWith [' '] ((s.reactionText '1').map strip))) = true := by decide +kernel
  have := key2 s hs
  rw [key s hs p hp] at hr
  rw [hr] at this
  obtain ⟨m, t⟩ := r
  cases m <;> simp_all [isSingle, x4RxOps]

/-- the uncertainties are the same -/
theorem percent_same : List.Forall₂ (fun w w' => w = w' ∨
      ∃ v ∈ writtenColumns placesMain percentSub ⟨[chars!"DATA      1", chars!"DATA-ERR  1"], [chars!"B", chars!"PER-CENT"],
        [[chars!"2.5", chars!"4."], [chars!"3.", []], [[], chars!"4."]]⟩ '1', InPercent (wholeOf v) (wholeOf w) (wholeOf w'))
    (writtenColumns placesMain percentSub ⟨[chars!"DATA      1", chars!"DATA-ERR  1"], [chars!"B", chars!"PER-CENT"],
        [[chars!"2.5", chars!"4."], [chars!"3.", []], [[], chars!"4."]]⟩ '1')
    (writtenColumns placesMain absoluteSub ⟨[chars!"DATA      1", chars!"DATA-ERR  1"], [chars!"B", chars!"MB"],
        [[chars!"2.5", chars!"100."], [chars!"3.", []], [[], []]]⟩ '1') := by
  have w1 : writtenColumns placesMain percentSub ⟨[chars!"DATA      1", chars!"DATA-ERR  1"], [chars!"B", chars!"PER-CENT"],
        [[chars!"2.5", chars!"4."], [chars!"3.", []], [[], chars!"4."]]⟩ '1' =
      [(chars!"EN", chars!"MEV", [some chars!"1.5", some chars!"1.5", some chars!"1.5"]), (chars!"DATA", chars!"B", [some chars!"2.5", some chars!"3.", some []]),
       (chars!"DATA-ERR", chars!"PER-CENT", [some chars!"4.", some [], some chars!"4."])] := by decide +kernel
  have w2 : writtenColumns placesMain absoluteSub ⟨[chars!"DATA      1", chars!"DATA-ERR  1"], [chars!"B", chars!"MB"],
        [[chars!"2.5", chars!"100."], [chars!"3.", []], [[], []]]⟩ '1' =
      [(chars!"EN", chars!"MEV", [some chars!"1.5", some chars!"1.5", some chars!"1.5"]), (chars!"DATA", chars!"B", [some chars!"2.5", some chars!"3.", some []]),
       (chars!"DATA-ERR", chars!"MB", [some chars!"100.", some [], some []])] := by decide +kernel
  rw [w1, w2]
  have l1 := cellVal_lit (c := chars!"2.5") (m := 25) (e := -1) (by decide +kernel)
  have l2 := cellVal_lit (c := chars!"3.") (m := 3) (e := 0) (by decide +kernel)
  have l3 := cellVal_lit (c := chars!"4.") (m := 4) (e := 0) (by decide +kernel)
  have l4 := cellVal_lit (c := chars!"100.") (m := 100) (e := 0) (by decide +kernel)
  refine .cons (.inl rfl) (.cons (.inl rfl) (.cons (.inr ⟨_, List.mem_cons_of_mem _ (List.mem_cons_self ..), ?_⟩) .nil))
  refine ⟨rfl, ⟨show ¬ hasSub "COS".toList chars!"DATA" = true by decide, show ¬ hasSub "COS".toList chars!"DATA-ERR" = true by decide⟩,
    ⟨(["DATA-ERR", "RATIO-ERR", "ERR-T"], dataFamilies.headD []), by decide +kernel, show inFamily ["DATA-ERR", "RATIO-ERR", "ERR-T"] chars!"DATA-ERR" = true by decide +kernel,
      show inFamily (dataFamilies.headD []) chars!"DATA" = true by decide +kernel⟩, rfl,
    chars!"B", .barn, 0, chars!"MB", .barn, -3, [(cellVal chars!"2.5", cellVal chars!"4.", cellVal chars!"100."), (cellVal chars!"3.", cellVal [], cellVal []),
      (cellVal [], cellVal chars!"4.", cellVal [])], rfl, rfl, rfl, by decide +kernel, by decide +kernel, by decide +kernel, by decide +kernel, rfl, ?_⟩
  intro r hr
  simp only [List.mem_cons, List.not_mem_nil, or_false] at hr
  rcases hr with rfl | rfl | rfl
  · rw [l1, l3, l4]
    refine ⟨_, rfl, ?_⟩
    norm_num
    ring
  · rw [l2, cellVal_empty]; rfl
  · rw [l3, cellVal_empty]; rfl

theorem notMixed_of {ws : List WrittenColumn} (h : chars!"ERR" ∉ ws.map fun w => w.1) : NotMixed (ws.map wholeOf) := by
  intro c hc e _ h1 _
  obtain ⟨w, hw, rfl⟩ := List.mem_map.1 hc
  exact absurd (List.mem_map.2 ⟨w, hw, h1⟩) h

/-- C119_entries_partial: the two subentries give the same simplified dataset. -/
example (rxd : RxDicts) : ∃ (e : Entry Measurement) (st : DsState Measurement ℝ) (d d' : DataSet Measurement ℝ),
    Entry.build (x4Parsers metaDicts) (splitEntryFile none percentEntry.file) = .ok e ∧ e.getDataSets (x4RxOps rxd) [] = .ok st ∧
    st.datasets.get? (chars!"10001", some chars!"10001002", '1') = some d ∧ st.datasets.get? (chars!"10001", some chars!"10001003", '1') = some d' ∧
    (d.getSimplified false false).map DataSet.table = (d'.getSimplified false false).map DataSet.table := by
  have key : isCross ((x4Parsers metaDicts).reaction (joinWith [' '] ((docReaction placesMain percentSub '1').map strip))) = true := by decide +kernel
  have key' : docReaction placesMain absoluteSub '1' = docReaction placesMain percentSub '1' := by decide +kernel
  cases hrx : (x4Parsers metaDicts).reaction (joinWith [' '] ((docReaction placesMain percentSub '1').map strip)) with
  | error x => rw [hrx] at key; simp [isCross] at key
  | ok r =>
    rw [hrx] at key
    obtain ⟨M, tx⟩ := r
    cases M with
    | rx R =>
      have hk : kindOf (quantTexts R.quantity) = .crossSection := by simpa [isCross] using key
      obtain ⟨e, e', st, st', d, d', h1, h1', h2, h2', h3, h3', h4⟩ := C119_entries_partial (x4Parsers metaDicts) (x4RxOps rxd) percentEntry percentEntry percentEntry_wf
        percentEntry_wf percentEntry_printable percentEntry_printable percentEntry_readable percentEntry_readable none none placesMain percentSub placesMain absoluteSub
        (by simp [percentEntry]) (by simp [percentEntry]) (by decide) (by decide) rfl rfl (by simp [percentEntry]) (by simp [percentEntry]) (by decide) (by decide) rfl rfl
        _ _ rfl rfl (by decide) (by decide) '1' '1' (fun t ht => (nomatch ht)) (by intro t ht; cases ht; decide) (fun t ht => (nomatch ht)) (by intro t ht; cases ht; decide)
        (by decide +kernel) (by rw [key']; decide +kernel) _ _ hrx (by rw [key']; exact hrx) (quantTexts R.quantity) (quantTexts R.quantity) rfl rfl rfl (by rw [hk]; rfl) rfl
        percent_same (notMixed_of (by decide +kernel)) (notMixed_of (by decide +kernel)) (by rw [hk]; unfold OneEach; decide +kernel)
      rw [h1] at h1'
      obtain rfl := Except.ok.inj h1'
      rw [h2] at h2'
      obtain rfl := Except.ok.inj h2'
      exact ⟨e, st, d, d', h1, h2, h3, h3', h4 false false⟩
    | _ => simp [isCross] at key

end X4
