import Verif.Props.Layout
import Verif.Props.EntrySets
import Verif.Props.Metadata
/-! C120: a file in the layout of a real one, and what is not covered. -/
namespace X4

/-- checks that the lines show the cells -/
def rowShown (cells : List Str) (ls : List Str) : Bool :=
  ls.length == physLines cells.length && (decide (cells.length ≤ 6) || ls.all fun l => decide (l.length ≤ 66)) &&
    ls.zipIdx.all fun lk => !lk.1.contains '\n' &&
      ((cells.drop (6 * lk.2)).take 6).zipIdx.all fun cj => strip ((lk.1.drop (11 * cj.2)).take 11) == cj.1

theorem showsRow_of {cells ls : List Str} (h : rowShown cells ls = true) : ShowsRow cells ls := by
  unfold rowShown at h
  rw [Bool.and_eq_true, Bool.and_eq_true, beq_iff_eq, Bool.or_eq_true, decide_eq_true_iff] at h
  obtain ⟨⟨h1, h2⟩, h3⟩ := h
  refine ⟨h1, fun k l hk => ?_, h2.imp_right fun h2 l hl => ?_⟩
  · have hm : (l, k) ∈ ls.zipIdx := List.mk_mem_zipIdx_iff_getElem?.2 hk
    have := List.all_eq_true.1 h3 _ hm
    rw [Bool.and_eq_true] at this
    refine ⟨by simpa using this.1, fun j c hj => ?_⟩
    have := List.all_eq_true.1 this.2 (c, j) (List.mk_mem_zipIdx_iff_getElem?.2 hj)
    simpa using this
  · simpa using List.all_eq_true.1 h2 l hl

/-- checks that the first 11 columns hold the word -/
def keywordShown (w l : Str) : Bool := !l.contains '\n' && w.isPrefixOf l && ((l.drop w.length).take (11 - w.length)).all (· == ' ')

theorem keywordLine_of {w l : Str} (h : keywordShown w l = true) : KeywordLine w l := by
  unfold keywordShown at h
  rw [Bool.and_eq_true, Bool.and_eq_true, List.isPrefixOf_iff_prefix] at h
  obtain ⟨⟨h1, r, rfl⟩, h2⟩ := h
  refine ⟨by simpa using h1, r, rfl, fun c hc => ?_⟩
  rw [List.drop_left] at h2
  simpa using List.all_eq_true.1 h2 c hc

/-- the beginning of the entry 12898 (subentries 1 and 2) -/
def entry12898 : EntryDoc where
  acc := chars!"12898"
  subs := [
    { acc := chars!"12898001"
      bib := [⟨chars!"TITLE", (' ', chars!"MEASURED ACTIVATION CROSS SECTIONS BELOW 10 MEV FOR THE"), [(' ', chars!" 51-V(N,P)51-TI AND 51-V(N,ALPHA)48-SC REACTIONS.")]⟩,
        ⟨chars!"METHOD", (' ', chars!"(ACTIV)"), []⟩]
      common := none, data := none },
    { acc := chars!"12898002"
      bib := [⟨chars!"REACTION", ('1', chars!"((23-V-51(N,P)22-TI-51,,SIG)/(92-U-238(N,F),,SIG))"), [('2', chars!"(23-V-51(N,P)22-TI-51,,SIG)")]⟩,
        ⟨chars!"INC-SOURCE", (' ', chars!"(P-LI7)"), []⟩]
      common := none
      data := some ⟨[chars!"EN", chars!"EN-RSL-FW", chars!"DATA      1", chars!"ERR-S", chars!"ERR-1     1", chars!"ERR-T     1", chars!"MONIT     2",
          chars!"MONIT-ERR 2", chars!"DATA      2", chars!"ERR-T     2"],
        [chars!"MEV", chars!"MEV", chars!"NO-DIM", chars!"PER-CENT", chars!"PER-CENT", chars!"PER-CENT", chars!"MB", chars!"PER-CENT", chars!"MB", chars!"PER-CENT"],
        [[chars!"2.856", chars!"0.095", chars!"9.075  -06", chars!"47.9", chars!"15.6", chars!"50.4", chars!"528.8", chars!"3.0", chars!"0.004799", chars!"50.5"],
         [chars!"2.957", chars!"0.094", chars!"1.966  -05", chars!"20.6", chars!"9.2", chars!"22.6", chars!"524.4", chars!"3.0", chars!"0.01031", chars!"22.8"]]⟩ }]

/-- its lines in the layout of `x4i3/tests/12898.x4` -/
def sub1Lines : List Str :=
  [chars!"SUBENT        12898001     860114              20050926       0000",
   chars!"BIB                 17         44",
   chars!"TITLE      MEASURED ACTIVATION CROSS SECTIONS BELOW 10 MEV FOR THE12898001   42",
   chars!"            51-V(N,P)51-TI AND 51-V(N,ALPHA)48-SC REACTIONS.",
   chars!"METHOD     (ACTIV)    ",
   chars!"ENDBIB              44",
   chars!"NOCOMMON             0          0 3",
   chars!"ENDSUBENT           47"]
def sub2Lines : List Str :=
  [chars!"SUBENT        12898002     860114              20050926       0000",
   chars!"BIB                  2          3",
   chars!"REACTION  1((23-V-51(N,P)22-TI-51,,SIG)/(92-U-238(N,F),,SIG))",
   chars!"          2(23-V-51(N,P)22-TI-51,,SIG)",
   chars!"INC-SOURCE (P-LI7)",
   chars!"ENDBIB               3",
   chars!"NOCOMMON             0          0",
   chars!"DATA                10          2 the rest is no counter",
   chars!"EN         EN-RSL-FW  DATA      1ERR-S      ERR-1     1ERR-T     1",
   chars!"MONIT     2MONIT-ERR 2DATA      2ERR-T     2",
   chars!"MEV        MEV        NO-DIM     PER-CENT   PER-CENT   PER-CENT",
   chars!"MB         PER-CENT   MB         PER-CENT",
   chars!" 2.856      0.095      9.075  -06 47.9       15.6       50.4",
   chars!" 528.8      3.0        0.004799   50.5",
   chars!" 2.957      0.094      1.966  -05 20.6        9.2       22.6",
   chars!" 524.4      3.0        0.01031    22.8",
   chars!"ENDDATA             40",
   chars!"ENDSUBENT           48"]
def file12898 : List Str :=
  chars!"ENTRY            12898     860114              20050926       0000\n" :: (sub1Lines.map (· ++ ['\n']) ++
    chars!"NOSUBENT      12898009     860114\n" :: (sub2Lines.map (· ++ ['\n']) ++ [chars!"ENDENTRY             3"]))

theorem fieldLayout_of {f : FieldDoc} {ls : List Str} (h1 : f.lines.length = ls.length) (h2 : ∀ p ∈ f.lines.zip ls, '\n' ∉ p.2 ∧ (ljust p.1 66).take 66 = (ljust p.2 66).take 66)
    (h3 : f.tag ≠ chars!"AUTHOR") : FieldLayout f ls := by
  unfold FieldLayout
  rw [List.forall₂_iff_zip]
  exact ⟨h1, fun {a b} h => ⟨(h2 _ h).1, (h2 _ h).2, fun ha => absurd ha h3⟩⟩

set_option maxRecDepth 20000 in
theorem file12898_layout : FileLayout entry12898.subs file12898 := by
  refine .other _ (by decide) (by decide) (.sub (lines := sub1Lines) ?_ (.other _ (by decide) (by decide) (.sub (lines := sub2Lines) ?_ (.other _ (by decide) (by decide) .nil))))
  · refine ⟨_, (sub1Lines.drop 1).take 5, (sub1Lines.drop 6).take 1, [], _, rfl, by decide, ⟨_, [(sub1Lines.drop 2).take 2, (sub1Lines.drop 4).take 1], _, rfl, keywordLine_of (by decide), ?_, keywordLine_of (by decide)⟩,
      .inr ⟨_, rfl, keywordLine_of (by decide)⟩, .inl rfl, keywordLine_of (by decide)⟩
    exact .cons (fieldLayout_of rfl (by decide +kernel) (by decide)) (.cons (fieldLayout_of rfl (by decide +kernel) (by decide)) .nil)
  · refine ⟨_, (sub2Lines.drop 1).take 5, (sub2Lines.drop 6).take 1, (sub2Lines.drop 7).take 10, _, rfl, by decide, ⟨_, [(sub2Lines.drop 2).take 2, (sub2Lines.drop 4).take 1], _, rfl, keywordLine_of (by decide), ?_, keywordLine_of (by decide)⟩,
      .inr ⟨_, rfl, keywordLine_of (by decide)⟩, ?_, keywordLine_of (by decide)⟩
    · exact .cons (fieldLayout_of rfl (by decide +kernel) (by decide)) (.cons (fieldLayout_of rfl (by decide +kernel) (by decide)) .nil)
    · refine ⟨_, 2, [(sub2Lines.drop 8).take 2, (sub2Lines.drop 10).take 2, (sub2Lines.drop 12).take 2, (sub2Lines.drop 14).take 2], _, rfl, keywordLine_of (by decide),
        by decide +kernel, .inl rfl, ?_, keywordLine_of (by decide)⟩
      exact .cons (showsRow_of (by decide +kernel)) (.cons (showsRow_of (by decide +kernel)) (.cons (showsRow_of (by decide +kernel)) (.cons (showsRow_of (by decide +kernel)) .nil)))

theorem entry12898_wf : entry12898.wf := by
  refine ⟨by decide, by decide, ?_, by decide⟩
  intro s hs
  have hb : ∀ s ∈ entry12898.subs, ∀ f ∈ s.bib, f.wf := by
    intro s hs f hf
    have hf : f ∈ entry12898.subs.flatMap SubDoc.bib := List.mem_flatMap.2 ⟨s, hs, hf⟩
    simp only [entry12898, List.flatMap_cons, List.flatMap_nil, List.cons_append, List.nil_append, List.append_nil, List.mem_cons, List.not_mem_nil, or_false] at hf
    rcases hf with rfl | rfl | rfl | rfl <;> exact ⟨by decide, by decide, by decide⟩
  have hb' := hb s hs
  simp only [entry12898, List.mem_cons, List.not_mem_nil, or_false] at hs
  rcases hs with rfl | rfl
  · exact ⟨⟨by decide, by decide, hb', by decide, fun t ht => (nomatch ht), fun t ht => (nomatch ht)⟩, by decide⟩
  · refine ⟨⟨by decide, by decide, hb', by decide, fun t ht => (nomatch ht), ?_⟩, by decide⟩
    intro t ht
    cases ht
    exact ⟨by decide, by decide, by decide, by decide, by decide, by decide, by decide⟩

theorem entry12898_readable : ∀ s ∈ entry12898.subs, s.Readable (x4Parsers metaDicts) := by
  intro s hs
  have key : (∀ s ∈ entry12898.subs, ∀ f ∈ s.bib, okB (buildField (x4Parsers metaDicts) (some f.tag) f.lines) = true) ∧
    (∀ s ∈ entry12898.subs, ∀ t ∈ s.common.toList ++ s.data.toList, ∀ r ∈ t.rows, ∀ c ∈ r, okB (parseFORTRANNumber c) = true) := by decide +kernel
  refine ⟨fun f hf => okB_iff (key.1 s hs f hf), fun t ht r hr c hc => okB_iff (key.2 s hs t ?_ r hr c hc), fun t ht r hr c hc => okB_iff (key.2 s hs t ?_ r hr c hc)⟩
  · rw [Option.mem_def] at ht; simp [ht]
  · rw [Option.mem_def] at ht; simp [ht]

/-- C120_layout and C120_read apply to a file with dates, sequence numbers, a NOSUBENT line and cells that are not at the left of their columns. -/
example : file12898 ≠ entry12898.file ∧
    Entry.build (x4Parsers metaDicts) (splitEntryFile none file12898) = Entry.build (x4Parsers metaDicts) (splitEntryFile none entry12898.file) ∧
    ∃ e, Entry.build (x4Parsers metaDicts) (splitEntryFile none file12898) = .ok e ∧ EntryHolds (x4Parsers metaDicts) entry12898 entry12898.subs e := by
  refine ⟨by decide +kernel, C120_layout _ entry12898.subs (fun s hs => (entry12898_wf.subs s hs).1) _ _ file12898_layout (C120_written _ entry12898_wf) none, ?_⟩
  obtain ⟨e, h1, h2⟩ := C120_read _ entry12898 entry12898_wf _ file12898_layout none entry12898_readable ⟨_, List.mem_cons_self, rfl⟩
  have e1 : (entry12898.subs.filter fun s => requested none s.acc) = entry12898.subs := List.filter_eq_self.2 (fun s _ => rfl)
  rw [e1] at h2
  exact ⟨e, h1, h2⟩

/-- the COMMON section of the entry 22914, whose second counter counts lines -/
def common22914 : TableDoc :=
  ⟨[chars!"EN", chars!"EN-RSL-FW", chars!"ANG-ERR", chars!"ERR-1", chars!"ERR-2", chars!"ERR-3", chars!"ERR-4"],
   [chars!"MEV", chars!"MEV", chars!"ADEG", chars!"PER-CENT", chars!"PER-CENT", chars!"PER-CENT", chars!"PER-CENT"],
   [[chars!"94.8", chars!"2.7", chars!"0.5", chars!"4.", chars!"2.", chars!"3.", chars!"10."]]⟩

/-- its lines (`x4i3/tests/data/db/229/22914.x4`) with the given counter -/
def common22914Lines (counter : Str) : List Str :=
  [chars!"COMMON               7          " ++ counter,
   chars!"EN         EN-RSL-FW  ANG-ERR    ERR-1      ERR-2      ERR-3",
   chars!"ERR-4",
   chars!"MEV        MEV        ADEG       PER-CENT   PER-CENT   PER-CENT",
   chars!"PER-CENT",
   chars!"94.8        2.7        0.5           4.         2.         3.",
   chars!" 10.",
   chars!"ENDCOMMON            6"]

theorem common22914_wf : common22914.wf := ⟨by decide, by decide, by decide, by decide, by decide, by decide, by decide⟩

/-- The three ways of counting the rows are layouts of the same table. -/
theorem common22914_layout : TableLayout chars!"COMMON" common22914 (common22914Lines chars!"6") ∧
    TableLayout chars!"COMMON" common22914 (common22914Lines chars!"3") ∧ TableLayout chars!"COMMON" common22914 (common22914Lines chars!"1") := by
  have rows : List.Forall₂ ShowsRow (common22914.labels :: common22914.units :: common22914.rows)
      [((common22914Lines []).drop 1).take 2, ((common22914Lines []).drop 3).take 2, ((common22914Lines []).drop 5).take 2] :=
    .cons (showsRow_of (by decide +kernel)) (.cons (showsRow_of (by decide +kernel)) (.cons (showsRow_of (by decide +kernel)) .nil))
  exact ⟨⟨_, 6, _, _, rfl, keywordLine_of (by decide), by decide +kernel, .inr (.inr rfl), rows, keywordLine_of (by decide)⟩,
    ⟨_, 3, _, _, rfl, keywordLine_of (by decide), by decide +kernel, .inr (.inl rfl), rows, keywordLine_of (by decide)⟩,
    ⟨_, 1, _, _, rfl, keywordLine_of (by decide), by decide +kernel, .inl rfl, rows, keywordLine_of (by decide)⟩⟩

example : DataSection.build chars!"COMMON" (common22914Lines chars!"6") = DataSection.build chars!"COMMON" (common22914Lines chars!"1") ∧
    DataSection.build chars!"COMMON" (common22914Lines chars!"3") = DataSection.build chars!"COMMON" (common22914Lines chars!"1") := by
  have h := fun ls (hl : TableLayout chars!"COMMON" common22914 ls) => table_same (.inr rfl) common22914_wf hl
  obtain ⟨h1, h2, h3⟩ := common22914_layout
  exact ⟨(h _ h1).symm.trans (h _ h3), (h _ h2).symm.trans (h _ h3)⟩

/-- C120 needs a right counter: a table that is announced with another number of rows is not read, although all of it is there. -/
theorem C120_counter_refuted : ∃ (t : TableDoc) (ls ls' : List Str), t.wf ∧ TableLayout chars!"COMMON" t ls ∧ ls.tail = ls'.tail ∧
    (ls.head?.map fun l => (splitWs l).take 2) = (ls'.head?.map fun l => (splitWs l).take 2) ∧
    (DataSection.build chars!"COMMON" ls).toOption.isSome ∧ DataSection.build chars!"COMMON" ls' = .error .indexError :=
  ⟨common22914, common22914Lines chars!"6", common22914Lines chars!"5", common22914_wf, common22914_layout.1, rfl, by decide +kernel, by decide +kernel,
    by rfl⟩

/-- C120 needs the limit of 66 columns for the rows that take several lines: blanks up to column 80, which nobody sees, move the numbers of the
second line of a row into other columns. -/
theorem C120_blanks_refuted : ∃ (t : TableDoc) (ls ls' : List Str), t.wf ∧ TableLayout chars!"DATA" t ls ∧
    List.Forall₂ UpToBlanks ls ls' ∧
    (DataSection.build chars!"DATA" ls).map DataSection.data = .ok [[some (.fin false 1 0), some (.fin false 2 0), some (.fin false 3 0), some (.fin false 4 0), some (.fin false 5 0), some (.fin false 6 0), some (.fin false 12345678901 0)]] ∧
    (DataSection.build chars!"DATA" ls').map DataSection.data = .ok [[some (.fin false 1 0), some (.fin false 2 0), some (.fin false 3 0), some (.fin false 4 0), some (.fin false 5 0), some (.fin false 6 0), some (.fin false 1234567890 0)]] := by
  let t : TableDoc := ⟨[chars!"C1", chars!"C2", chars!"C3", chars!"C4", chars!"C5", chars!"C6", chars!"C7"],
    [chars!"U1", chars!"U2", chars!"U3", chars!"U4", chars!"U5", chars!"U6", chars!"U7"],
    [[chars!"1", chars!"2", chars!"3", chars!"4", chars!"5", chars!"6", chars!"12345678901"]]⟩
  have ht : t.wf := ⟨by decide, by decide, by decide, by decide, by decide, by decide, by decide⟩
  have hblank : ∀ n l, UpToBlanks l (l ++ List.replicate n ' ') := fun n l => ⟨l, 0, n, by simp, rfl⟩
  refine ⟨t, t.lines chars!"DATA", (t.lines chars!"DATA").map (· ++ List.replicate 14 ' '), ht, opt_written (.inl rfl) (some t) (fun x hx => by cases hx; exact ht), ?_, by decide +kernel, by decide +kernel⟩
  rw [List.forall₂_map_right_iff, List.forall₂_same]
  exact fun l _ => hblank 14 l

/-- C120 needs the condition on the lists of authors: a remark after column 66 makes the authors disappear. -/
theorem C120_author_refuted : ∃ (ls ls' : List Str) (f : PlainField), List.Forall₂ SameColumns ls ls' ∧ buildField anyParsers (some chars!"AUTHOR") ls = .ok (.author f [chars!"(A.B.SMITH)"]) ∧
    buildField anyParsers (some chars!"AUTHOR") ls' = .ok .noAuthor :=
  ⟨[chars!"AUTHOR     (A.B.SMITH)"], [chars!"AUTHOR     (A.B.SMITH)                                            No author given before"], _,
    .cons (show SameColumns _ _ by unfold SameColumns; decide +kernel) .nil, rfl, by decide +kernel⟩

end X4
