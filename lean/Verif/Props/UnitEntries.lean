import Verif.Props.UnitChoice
import Verif.Props.ColumnPlaces
/-! C118 on written entries: the units in the file do not matter. -/
namespace X4
variable {ρ : Type}

/-- C118 on written entries: two entries in which the same physical quantities are written for a dataset, in units of choice, in any
order, and in any of the tables (COMMON of the first subentry, COMMON or DATA of the subentry), give the same simplified dataset, in
exact arithmetic. -/
theorem C118_entries_partial (P : FieldParsers ρ) (rx : RxOps ρ) (D D' : EntryDoc) (h : D.wf) (h' : D'.wf) (hpr : D.Printable P rx) (hpr' : D'.Printable P rx)
    (hr : ∀ s ∈ D.subs, s.Readable P) (hr' : ∀ s ∈ D'.subs, s.Readable P) (subents subents' : Option (List Str))
    (m s m' s' : SubDoc) (hm : m ∈ D.subs) (hm' : m' ∈ D'.subs) (hma : m.acc = D.acc ++ "001".toList) (hma' : m'.acc = D'.acc ++ "001".toList)
    (hmr : requested subents m.acc) (hmr' : requested subents' m'.acc) (hs : s ∈ D.subs) (hs' : s' ∈ D'.subs) (hne : s ≠ m) (hne' : s' ≠ m')
    (hsr : requested subents s.acc) (hsr' : requested subents' s'.acc) (t t' : TableDoc) (ht : s.data = some t) (ht' : s'.data = some t')
    (hl : t.labels.Nodup) (hl' : t'.labels.Nodup) (p p' : Char) (hc1 : OwnPointers p m.common) (hc2 : OwnPointers p s.common)
    (hc1' : OwnPointers p' m'.common) (hc2' : OwnPointers p' s'.common) (hp : docReaction m s p ≠ []) (hp' : docReaction m' s' p' ≠ [])
    (r r' : ρ × Str) (hrx : P.reaction (joinWith [' '] ((docReaction m s p).map strip)) = .ok r)
    (hrx' : P.reaction (joinWith [' '] ((docReaction m' s' p').map strip)) = .ok r') (q q' : List Str) (hq : effectiveQuant rx r.1 = .ok q)
    (hq' : effectiveQuant rx r'.1 = .ok q') (hk : kindOf q = kindOf q') (hkp : (parserMapOf (kindOf q)).isSome)
    (hrows : t.rows.length = t'.rows.length)
    (ws : List WrittenColumn) (hws : ((writtenColumns m s t p).filter fun w => ofInterest (kindOf q) w.1).Perm ws)
    (hcols : List.Forall₂ (fun w w' => SameQuantities (wholeOf w) (wholeOf w')) ws ((writtenColumns m' s' t' p').filter fun w => ofInterest (kindOf q) w.1))
    (hone : OneEach (kindOf q) ((writtenColumns m s t p).map fun w => w.1)) :
    ∃ (e e' : Entry ρ) (st st' : DsState ρ ℝ) (d d' : DataSet ρ ℝ),
      Entry.build P (splitEntryFile subents D.file) = .ok e ∧ Entry.build P (splitEntryFile subents' D'.file) = .ok e' ∧
      e.getDataSets rx [] = .ok st ∧ e'.getDataSets rx [] = .ok st' ∧
      st.datasets.get? (D.acc, some s.acc, p) = some d ∧ st'.datasets.get? (D'.acc, some s'.acc, p') = some d' ∧
      ∀ makeAll failMissing, (d.getSimplified makeAll failMissing).map DataSet.table = (d'.getSimplified makeAll failMissing).map DataSet.table := by
  obtain ⟨e, st, d, g1, g2, g3, -, g5, g6, g7, g8, g9⟩ := C86_rows_partial (N := ℝ) P rx D h hpr hr subents m s hm hma hmr hs hsr t ht hl p hc1 hc2 hp r hrx q hq
  obtain ⟨e', st', d', k1, k2, k3, -, k5, k6, k7, k8, k9⟩ :=
    C86_rows_partial (N := ℝ) P rx D' h' hpr' hr' subents' m' s' hm' hma' hmr' hs' hsr' t' ht' hl' p' hc1' hc2' hp' r' hrx' q' hq'
  refine ⟨e, e', st, st', d, d', g1, k1, g2, k2, g3, k3, fun makeAll failMissing => ?_⟩
  have w := (h.subs m hm).1
  have w1 := (h.subs s hs).1
  have w' := (h'.subs m' hm').1
  have w1' := (h'.subs s' hs').1
  obtain ⟨c1, c2⟩ := columnsOf_written w.common w1.common (w1.data t ht) hne g7 g8 g9
  obtain ⟨c1', c2'⟩ := columnsOf_written w'.common w1'.common (w1'.data t' ht') hne' k7 k8 k9
  apply C118_order_partial d d' makeAll failMissing (by rw [g5, k5, hk]) (by rw [g5]; exact hkp) g6 k6 (by rw [g9, k9]; simpa using hrows) (ws.map wholeOf)
  · rw [c1, g5, List.filter_map]
    exact hws.map _
  · rw [c1', g5, List.filter_map]
    exact List.forall₂_map_left_iff.2 (List.forall₂_map_right_iff.2 hcols)
  · rw [c2, g5]
    exact hone

/-! ### An entry with two subentries that have the same quantities in different units -/

def unitsSub : SubDoc where
  acc := chars!"10001003"
  bib := [⟨chars!"HISTORY", (' ', chars!"(19991231C)"), []⟩]
  common := none
  data := some ⟨[chars!"DATA      1", chars!"EN", chars!"EN-RSL"], [chars!"B", chars!"KEV", chars!"EV"],
    [[chars!"2.5E-3", chars!"1500", chars!"1.+5"], [[], chars!"2500.", chars!"100000"]]⟩
def unitsEntry : EntryDoc := ⟨chars!"10001", [placesMain, placesSub, unitsSub]⟩

theorem unitsEntry_wf : unitsEntry.wf := by
  refine ⟨by decide, by decide, ?_, by decide⟩
  intro s hs
  simp only [unitsEntry, List.mem_cons, List.not_mem_nil, or_false] at hs
  have hb : ∀ s ∈ unitsEntry.subs, ∀ f ∈ s.bib, f.wf := by
    intro s hs f hf
    have hf : f ∈ unitsEntry.subs.flatMap SubDoc.bib := List.mem_flatMap.2 ⟨s, hs, hf⟩
    simp only [unitsEntry, placesMain, placesSub, unitsSub, List.flatMap_cons, List.flatMap_nil, List.cons_append, List.nil_append, List.append_nil, List.mem_cons,
      List.not_mem_nil, or_false] at hf
    rcases hf with rfl | rfl | rfl | rfl <;> exact ⟨by decide, by decide, by decide⟩
  have hb' := hb s (by simpa [unitsEntry] using hs)
  rcases hs with rfl | rfl | rfl
  · exact ⟨⟨by decide, by decide, hb', by decide, fun t ht => (nomatch ht), fun t ht => (nomatch ht)⟩, by decide⟩
  · refine ⟨⟨by decide, by decide, hb', by decide, ?_, ?_⟩, by decide⟩ <;>
    · intro t ht
      cases ht
      exact ⟨by decide, by decide, by decide, by decide, by decide, by decide, by decide⟩
  · refine ⟨⟨by decide, by decide, hb', by decide, fun t ht => (nomatch ht), ?_⟩, by decide⟩
    intro t ht
    cases ht
    exact ⟨by decide, by decide, by decide, by decide, by decide, by decide, by decide⟩

theorem unitsEntry_readable : ∀ s ∈ unitsEntry.subs, s.Readable (x4Parsers metaDicts) := by
  intro s hs
  have key : (∀ s ∈ unitsEntry.subs, ∀ f ∈ s.bib, okB (buildField (x4Parsers metaDicts) (some f.tag) f.lines) = true) ∧
    (∀ s ∈ unitsEntry.subs, ∀ t ∈ s.common.toList ++ s.data.toList, ∀ r ∈ t.rows, ∀ c ∈ r, okB (parseFORTRANNumber c) = true) := by decide +kernel
  refine ⟨fun f hf => okB_iff (key.1 s hs f hf), fun t ht r hr c hc => okB_iff (key.2 s hs t ?_ r hr c hc), fun t ht r hr c hc => okB_iff (key.2 s hs t ?_ r hr c hc)⟩
  · rw [Option.mem_def] at ht; simp [ht]
  · rw [Option.mem_def] at ht; simp [ht]

theorem unitsEntry_printable {rxd : RxDicts} : unitsEntry.Printable (x4Parsers metaDicts) (x4RxOps rxd) := by
  intro s hs p r hp hr hq
  have key : ∀ s ∈ unitsEntry.subs, ∀ p, s.reactionText p ≠ [] → p = '1' := by
    intro s hs p hp
    have key1 : ∀ s ∈ unitsEntry.subs, ∀ f ∈ s.bib, f.tag = chars!"REACTION" →
        ∀ q ∈ (List.range f.lines.length).map fun k => pointerInForce (f.lines.take (k + 1)), q = '1' := by decide +kernel
    unfold SubDoc.reactionText at hp
    cases hf : s.bib.find? fun f => decide (f.tag = chars!"REACTION") with
    | none => rw [hf] at hp; exact absurd rfl hp
    | some f =>
      rw [hf] at hp
      exact key1 s hs f (List.mem_of_find?_eq_some hf) (by simpa using List.find?_some hf) p (textUnder_pointer hp)
  have key2 : ∀ s ∈ unitsEntry.subs, isSingle ((x4Parsers metaDicts).reaction (joinWith [' '] ((s.reactionText '1').map strip))) = true := by decide +kernel
  have := key2 s hs
  rw [key s hs p hp] at hr
  rw [hr] at this
  obtain ⟨m, t⟩ := r
  cases m <;> simp_all [isSingle, x4RxOps]

/-- the columns of the first of the two subentries, in the order of the second -/
def unitsColumns : List WrittenColumn :=
  [(chars!"DATA", chars!"MB", [some chars!"2.5", some []]), (chars!"EN", chars!"MEV", [some chars!"1.5", some chars!"2.5"]),
   (chars!"EN-RSL", chars!"MEV", [some chars!"0.1", some chars!"0.1"])]

theorem cellVal_lit {c : Str} {m : Nat} {e : Int} (h : parseFORTRANNumber c = .ok (some (.fin false m e))) :
    (cellVal c : Option ℝ) = some (1 * (m : ℝ) * 10 ^ e) := by
  unfold cellVal
  rw [h]
  rfl
theorem cellVal_empty : (cellVal [] : Option ℝ) = none := by
  unfold cellVal
  rw [show parseFORTRANNumber [] = .ok none by decide]
  rfl

/-- the quantities are the same -/
theorem units_same : List.Forall₂ (fun w w' => SameQuantities (wholeOf w) (wholeOf w')) unitsColumns
    ((writtenColumns placesMain unitsSub ⟨[chars!"DATA      1", chars!"EN", chars!"EN-RSL"], [chars!"B", chars!"KEV", chars!"EV"],
      [[chars!"2.5E-3", chars!"1500", chars!"1.+5"], [[], chars!"2500.", chars!"100000"]]⟩ '1').filter fun w => ofInterest .crossSection w.1) := by
  have hw : ((writtenColumns placesMain unitsSub ⟨[chars!"DATA      1", chars!"EN", chars!"EN-RSL"], [chars!"B", chars!"KEV", chars!"EV"],
      [[chars!"2.5E-3", chars!"1500", chars!"1.+5"], [[], chars!"2500.", chars!"100000"]]⟩ '1').filter fun w => ofInterest .crossSection w.1) =
      [(chars!"DATA", chars!"B", [some chars!"2.5E-3", some []]), (chars!"EN", chars!"KEV", [some chars!"1500", some chars!"2500."]),
       (chars!"EN-RSL", chars!"EV", [some chars!"1.+5", some chars!"100000"])] := by decide +kernel
  rw [hw]
  have l1 := cellVal_lit (c := chars!"2.5") (m := 25) (e := -1) (by decide +kernel)
  have l2 := cellVal_lit (c := chars!"2.5E-3") (m := 25) (e := -4) (by decide +kernel)
  have l3 := cellVal_lit (c := chars!"1.5") (m := 15) (e := -1) (by decide +kernel)
  have l4 := cellVal_lit (c := chars!"1500") (m := 1500) (e := 0) (by decide +kernel)
  have l5 := cellVal_lit (c := chars!"2500.") (m := 2500) (e := 0) (by decide +kernel)
  have l6 := cellVal_lit (c := chars!"0.1") (m := 1) (e := -1) (by decide +kernel)
  have l7 := cellVal_lit (c := chars!"1.+5") (m := 1) (e := 5) (by decide +kernel)
  have l8 := cellVal_lit (c := chars!"100000") (m := 100000) (e := 0) (by decide +kernel)
  refine .cons (.inr ⟨rfl, show ¬ hasSub "COS".toList chars!"DATA" = true by decide, chars!"MB", .barn, -3, chars!"B", .barn, 0, rfl, rfl, by decide +kernel, by decide +kernel,
      by decide +kernel, by decide +kernel, rfl, ?_⟩) (.cons (.inr ⟨rfl, show ¬ hasSub "COS".toList chars!"EN" = true by decide, chars!"MEV", .electronvolt, 6, chars!"KEV",
      .electronvolt, 3, rfl, rfl, by decide +kernel, by decide +kernel, by decide +kernel, by decide +kernel, rfl, ?_⟩) (.cons (.inr ⟨rfl,
      show ¬ hasSub "COS".toList chars!"EN-RSL" = true by decide, chars!"MEV", .electronvolt, 6, chars!"EV", .electronvolt, 0, rfl, rfl, by decide +kernel, by decide +kernel,
      by decide +kernel, by decide +kernel, rfl, ?_⟩) .nil))
  · show List.Forall₂ _ [some (cellVal chars!"2.5"), some (cellVal [])] [some (cellVal chars!"2.5E-3"), some (cellVal [])]
    rw [l1, l2, cellVal_empty]
    refine .cons ?_ (.cons rfl .nil)
    simp only [SameSize]
    norm_num
    try ring
  · show List.Forall₂ _ [some (cellVal chars!"1.5"), some (cellVal chars!"2.5")] [some (cellVal chars!"1500"), some (cellVal chars!"2500.")]
    rw [l3, l1, l4, l5]
    refine .cons ?_ (.cons ?_ .nil) <;> simp only [SameSize] <;> norm_num <;> ring
  · show List.Forall₂ _ [some (cellVal chars!"0.1"), some (cellVal chars!"0.1")] [some (cellVal chars!"1.+5"), some (cellVal chars!"100000")]
    rw [l6, l7, l8]
    refine .cons ?_ (.cons ?_ .nil) <;> simp only [SameSize] <;> norm_num <;> ring

/-- C118_entries_partial: the two subentries give the same simplified dataset. -/
example (rxd : RxDicts) : ∃ (e : Entry Measurement) (st : DsState Measurement ℝ) (d d' : DataSet Measurement ℝ),
    Entry.build (x4Parsers metaDicts) (splitEntryFile none unitsEntry.file) = .ok e ∧ e.getDataSets (x4RxOps rxd) [] = .ok st ∧
    st.datasets.get? (chars!"10001", some chars!"10001002", '1') = some d ∧ st.datasets.get? (chars!"10001", some chars!"10001003", '1') = some d' ∧
    (d.getSimplified false false).map DataSet.table = (d'.getSimplified false false).map DataSet.table := by
  have key : isCross ((x4Parsers metaDicts).reaction (joinWith [' '] ((docReaction placesMain placesSub '1').map strip))) = true := by decide +kernel
  have key' : docReaction placesMain unitsSub '1' = docReaction placesMain placesSub '1' := by decide +kernel
  cases hrx : (x4Parsers metaDicts).reaction (joinWith [' '] ((docReaction placesMain placesSub '1').map strip)) with
  | error x => rw [hrx] at key; simp [isCross] at key
  | ok r =>
    rw [hrx] at key
    obtain ⟨M, tx⟩ := r
    cases M with
    | rx R =>
      have hk : kindOf (quantTexts R.quantity) = .crossSection := by simpa [isCross] using key
      obtain ⟨e, e', st, st', d, d', h1, h1', h2, h2', h3, h3', h4⟩ := C118_entries_partial (x4Parsers metaDicts) (x4RxOps rxd) unitsEntry unitsEntry unitsEntry_wf
        unitsEntry_wf unitsEntry_printable unitsEntry_printable unitsEntry_readable unitsEntry_readable none none placesMain placesSub placesMain unitsSub
        (by simp [unitsEntry]) (by simp [unitsEntry]) (by decide) (by decide) rfl rfl (by simp [unitsEntry]) (by simp [unitsEntry]) (by decide) (by decide) rfl rfl
        _ _ rfl rfl (by decide) (by decide) '1' '1' (fun t ht => (nomatch ht)) (by intro t ht; cases ht; decide) (fun t ht => (nomatch ht)) (fun t ht => (nomatch ht))
        (by decide +kernel) (by rw [key']; decide +kernel) _ _ hrx (by rw [key']; exact hrx) (quantTexts R.quantity) (quantTexts R.quantity) rfl rfl rfl (by rw [hk]; rfl) rfl
        unitsColumns (by rw [hk]; decide +kernel) (by rw [hk]; exact units_same) (by rw [hk]; unfold OneEach; decide +kernel)
      rw [h1] at h1'
      obtain rfl := Except.ok.inj h1'
      rw [h2] at h2'
      obtain rfl := Except.ok.inj h2'
      exact ⟨e, st, d, d', h1, h2, h3, h3', h4 false false⟩
    | _ => simp [isCross] at key

end X4
