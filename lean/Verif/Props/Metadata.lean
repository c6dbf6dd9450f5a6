import Verif.Model.Metadata
import Verif.Spec.Metadata
import Verif.Props.TextFields
import Verif.Props.Bib
import Verif.Props.Entry
/-! The printed metadata (C72–C74). -/
namespace X4
open Parser
variable {ρ : Type}

theorem authorString_eq (l : List Str) : authorString l = namedAuthors l := by
  match l with
  | [] => rfl
  | [a] => rfl
  | [a, b] => rfl
  | a :: b :: c :: l =>
    unfold authorString
    rw [if_pos (by simp)]
    rfl

/-- what `buildField` makes of an AUTHOR field -/
theorem buildField_author (P : FieldParsers ρ) (raw : List Str) (f : PlainField) (as : List Str) (hno : isNoAuthor raw = false)
    (hf : PlainField.build raw = .ok f) (has : mapE (authorsOf P) f.subs = .ok [as]) :
    buildField P (some chars!"AUTHOR") raw = .ok (.author f as) := by
  unfold buildField
  rw [if_neg (by decide), if_neg (by decide), if_neg (by decide), if_pos (by decide), hno]
  simp only [Bool.false_eq_true, if_false, finishField, hf, has]
  simp

/-- what `buildField` makes of a REFERENCE field -/
theorem buildField_reference (P : FieldParsers ρ) (raw : List Str) (f : PlainField) (i : RefInfo)
    (hf : PlainField.build raw = .ok f) (hi : referenceInfo P f = .ok i) :
    buildField P (some chars!"REFERENCE") raw = .ok (.reference f i) := by
  unfold buildField
  rw [if_neg (by decide), if_neg (by decide), if_pos (by decide)]
  simp only [finishField, hf, hi]

/-- the metadata of a section with authors and a reference -/
theorem meta_of_fields (b : BibSection ρ) (subent : Str) (fa fr : PlainField) (as : List Str) (i : RefInfo)
    (ha : b.fields.get? (some chars!"AUTHOR") = some (.author fa as))
    (hr : b.fields.get? (some chars!"REFERENCE") = some (.reference fr i)) :
    ∃ m, b.meta subent = .ok (m, b.defaultTitle) ∧ m.author = some as ∧ m.reference = some (.reference fr i) ∧
      m.pubType = some i.pubtype ∧ m.year = some i.pubyear ∧ m.subent = subent := by
  have h1 : b.metaAuthor = .ok (some as) := by
    unfold BibSection.metaAuthor
    rw [show "AUTHOR".toList = chars!"AUTHOR" from rfl, ha]
    rfl
  unfold BibSection.meta
  rw [h1]
  simp only
  rw [show "REFERENCE".toList = chars!"REFERENCE" from rfl, hr]
  exact ⟨_, rfl, rfl, rfl, rfl, rfl, rfl⟩

/-- C72: for a BIB section whose last AUTHOR field lists authors in the form `(…)` and whose last REFERENCE field can be read, the legend
shows the year of the main reference and names the authors; the citation names the authors, all references, the subentry and the date. -/
theorem C72_named_partial (D : TextDicts) (sec : List Str) (b : BibSection Measurement) (hb : BibSection.build (x4Parsers D) sec = .ok b)
    (preA postA preR postR : List (List Str)) (rawA rawR : List Str)
    (hA : bibChunkify sec = preA ++ rawA :: postA) (hkA : fieldKey rawA = some chars!"AUTHOR")
    (hlA : ∀ g ∈ postA, fieldKey g ≠ some chars!"AUTHOR")
    (hR : bibChunkify sec = preR ++ rawR :: postR) (hkR : fieldKey rawR = some chars!"REFERENCE")
    (hlR : ∀ g ∈ postR, fieldKey g ≠ some chars!"REFERENCE")
    (fa : PlainField) (hfa : PlainField.build rawA = .ok fa) (hno : isNoAuthor rawA = false)
    (pa : Char) (lines : List Str) (s c : Str) (hsub : fa.subs = [(pa, lines)])
    (htext : (lines.map strip).flatten = '(' :: (s ++ ')' :: c)) (hs : UnquotedText s)
    (fr : PlainField) (hfr : PlainField.build rawR = .ok fr) (p : Char) (x : RefLine) (l : List RefLine)
    (more : List (Char × List RefLine)) (pt : Str)
    (hf : fr.subs = (p, (x :: l).map RefLine.line) :: more.map fun kv => (kv.1, kv.2.map RefLine.line))
    (hx : ∀ y ∈ x :: l, y.wf D.all) (hmore : ∀ kv ∈ more, ∀ y ∈ kv.2, y.wf D.all)
    (hpt : pubTypeMap.get x.code.reftype = .ok pt) (subent : Str) :
    ∃ m b', b.meta subent = .ok (m, b') ∧ m.pubType = some pt ∧ m.year = some x.code.pubyear ∧
      m.record.legend = ['('] ++ x.code.pubyear ++ chars!") " ++ namedAuthors ((splitChar ',' s).map fun q => title (squash q)) ∧
      m.record.citation = .ok (namedAuthors ((splitChar ',' s).map fun q => title (squash q)) ++ chars!", " ++
        joinWith chars!"; " (((p, x :: l) :: more).map fun kv =>
          (if kv.1 = ' ' then [] else ['[', kv.1, ']']) ++ joinWith chars!"; " (kv.2.map fun y => y.code.str)) ++
        citationTail subent x.code.date) := by
  obtain ⟨-, hget⟩ := C40_lookup _ sec b hb
  have ha : buildField (x4Parsers D) (some chars!"AUTHOR") rawA =
      .ok (.author fa ((splitChar ',' s).map fun q => title (squash q))) := by
    refine buildField_author _ _ _ _ hno hfa ?_
    rw [hsub]
    unfold mapE authorsOf
    simp only
    rw [htext, show (x4Parsers D).authors = authorsOfText from rfl, C67_authors_partial s c hs]
    rfl
  have hr := buildField_reference _ rawR fr _ hfr (C70_main_partial D fr p x l more pt hf hx hmore hpt)
  obtain ⟨m, hm, m1, m2, m3, m4, m5⟩ := meta_of_fields b subent fa fr _ _
    ((hget _ _).2 ⟨preA, rawA, postA, hA, hkA, hlA, ha⟩) ((hget _ _).2 ⟨preR, rawR, postR, hR, hkR, hlR, hr⟩)
  refine ⟨m, _, hm, m3, m4, ?_, ?_⟩
  · unfold MetaRec.legend BibMeta.record
    simp only [m1, m4, authorItems, authorString_eq, Option.getD_some]
  · unfold MetaRec.citation BibMeta.record
    simp only [m1, m2, m5, authorItems, authorString_eq, refDate, optFieldStr, BibField.metaStr]
    congr 1
    have : refsStr ((p, (x :: l).map RefLine.code) :: more.map fun kv => (kv.1, kv.2.map RefLine.code)) =
        joinWith chars!"; " (((p, x :: l) :: more).map fun kv =>
          (if kv.1 = ' ' then [] else ['[', kv.1, ']']) ++ joinWith chars!"; " (kv.2.map fun y => y.code.str)) := by
      unfold refsStr
      congr 1
      simp only [List.map_cons, List.map_map, pointerRefs]
      congr 1
      refine List.map_congr_left fun kv _ => ?_
      simp [pointerRefs, Function.comp_def]
    rw [this]
    unfold citationTail
    simp only [List.append_assoc]

theorem infix_joinWith {sep x : Str} {l : List Str} (h : x ∈ l) : ∃ a b, joinWith sep l = a ++ x ++ b := by
  induction l with
  | nil => cases h
  | cons y l ih =>
    cases l with
    | nil =>
      rw [List.mem_singleton] at h
      subst h
      exact ⟨[], [], by simp [joinWith]⟩
    | cons z l =>
      rcases List.mem_cons.1 h with rfl | h
      · exact ⟨[], sep ++ joinWith sep (z :: l), by simp [joinWith]⟩
      · obtain ⟨a, b, hab⟩ := ih h
        exact ⟨y ++ sep ++ a, b, by rw [show joinWith sep (y :: z :: l) = y ++ sep ++ joinWith sep (z :: l) from rfl, hab]; simp⟩

/-- C72: every reference of a field is shown with its name, its details (volume, page, …) separated by commas, and its year; in
particular each of the details is shown. -/
theorem C72_references (refs : Dict Char (List RefCode)) (p : Char) (rs : List RefCode) (r : RefCode) (hp : (p, rs) ∈ refs) (hr : r ∈ rs) :
    (∃ a b ds, refsStr refs = a ++ r.prettyName ++ ds ++ chars!" (" ++ r.pubyear ++ [')'] ++ b ∧ ds = joinWith chars!", " (r.details.map strip)) ∧
    ∀ d ∈ r.details, ∃ a b, refsStr refs = a ++ strip d ++ b := by
  obtain ⟨a1, b1, h1⟩ := infix_joinWith (sep := chars!"; ") (List.mem_map_of_mem (f := pointerRefs) hp)
  obtain ⟨a2, b2, h2⟩ := infix_joinWith (sep := chars!"; ") (List.mem_map_of_mem (f := RefCode.str) hr)
  have key : refsStr refs = (a1 ++ (if p = ' ' then [] else ['[', p, ']']) ++ a2) ++ r.str ++ (b2 ++ b1) := by
    rw [refsStr, h1, pointerRefs, h2]
    simp
  refine ⟨⟨(a1 ++ (if p = ' ' then [] else ['[', p, ']']) ++ a2), b2 ++ b1, _, by rw [key, RefCode.str]; simp only [List.append_assoc], rfl⟩, ?_⟩
  intro d hd
  obtain ⟨a3, b3, h3⟩ := infix_joinWith (sep := chars!", ") (List.mem_map_of_mem (f := strip) hd)
  exact ⟨(a1 ++ (if p = ' ' then [] else ['[', p, ']']) ++ a2) ++ r.prettyName ++ a3, b3 ++ (chars!" (" ++ r.pubyear ++ [')']) ++ (b2 ++ b1),
    by rw [key, RefCode.str, h3]; simp only [List.append_assoc]⟩

/-- the details of a reference -/
example : ∃ a b, refsStr [(' ', [⟨chars!"J", chars!"PR", [chars!"120", chars!"556"], chars!"196010", chars!"1960", chars!"Physical Review "⟩])] = a ++ chars!"556" ++ b :=
  (C72_references _ ' ' _ _ List.mem_cons_self List.mem_cons_self).2 chars!"556" (by simp)

/-- the section used in the examples -/
def metaSec : List Str :=
  [chars!"BIB                  3          4", chars!"TITLE      ON THE TOTAL CROSS SECTION", chars!"AUTHOR     (A.B.SMITH,C.JONES,",
   chars!"           D.E.MILLER) PRIVATE", chars!"REFERENCE  (J,PR,120,556,196010)", chars!"ENDBIB               4"]

/-- the dictionaries used in the examples -/
def metaDicts : TextDicts := { all := sampleDicts, institutes := [], names := [] }

set_option maxRecDepth 20000 in
example : ∃ b, BibSection.build (x4Parsers metaDicts) metaSec = .ok b ∧ ∃ m b', b.meta chars!"10001001" = .ok (m, b') ∧
    m.record.legend = chars!"(1960) A.B.Smith, C.Jones, et al." ∧
    m.record.citation = .ok chars!"A.B.Smith, C.Jones, et al., Physical Review 120, 556 (1960);  Data taken from the EXFOR database, file EXFOR 10001001 dated 196010, retrieved from the IAEA Nuclear Data Services website." := by
  refine ⟨_, rfl, ?_⟩
  obtain ⟨m, b', h1, -, -, h2, h3⟩ := C72_named_partial metaDicts metaSec _ rfl
    [[chars!"TITLE      ON THE TOTAL CROSS SECTION"]] [[chars!"REFERENCE  (J,PR,120,556,196010)"]]
    [[chars!"TITLE      ON THE TOTAL CROSS SECTION"], [chars!"AUTHOR     (A.B.SMITH,C.JONES,", chars!"           D.E.MILLER) PRIVATE"]] []
    _ _ rfl (by decide) (by decide) rfl (by decide) (by decide) _ rfl (by decide +kernel) ' ' _
    chars!"A.B.SMITH,C.JONES,D.E.MILLER" chars!" PRIVATE" rfl (by decide +kernel) (by decide) _ rfl ' '
    ⟨⟨chars!"J,PR,120,556,196010", []⟩, [], ⟨chars!"J", chars!"PR", [chars!"120", chars!"556"], chars!"196010", chars!"1960", chars!"Physical Review "⟩⟩
    [] [] chars!"Journal" (by decide +kernel)
    (by
      intro y hy
      rw [List.mem_singleton.1 hy]
      exact ⟨⟨by decide, by decide, by simp⟩, by decide, by decide, by decide, by decide, by decide⟩) (by simp) rfl chars!"10001001"
  exact ⟨m, b', h1, h2, h3⟩

/-- C72 fails for a section without AUTHOR field: the characters of the text 'None' are taken for authors. -/
theorem C72_no_author_refuted (b b' : BibSection ρ) (subent : Str) (m : BibMeta ρ)
    (h : b.fields.get? (some chars!"AUTHOR") = none) (hm : b.meta subent = .ok (m, b')) :
    ∃ y, m.record.legend = y ++ chars!"N, o, et al." := by
  have h1 : m.author = none := by
    have h0 : b.metaAuthor = .ok none := by
      unfold BibSection.metaAuthor
      rw [show "AUTHOR".toList = chars!"AUTHOR" from rfl, h]
    unfold BibSection.meta at hm
    rw [h0] at hm
    simp only at hm
    cases hr : b.fields.get? (some "REFERENCE".toList) with
    | none =>
      rw [hr] at hm
      simp only [Except.ok.injEq, Prod.mk.injEq] at hm
      rw [← hm.1]
    | some r =>
      rw [hr] at hm
      simp only at hm
      cases hp : r.pub with
      | error e => rw [hp] at hm; cases hm
      | ok p =>
        rw [hp] at hm
        simp only [Except.ok.injEq, Prod.mk.injEq] at hm
        rw [← hm.1]
  refine ⟨['('] ++ m.record.year ++ chars!") ", ?_⟩
  unfold MetaRec.legend
  rw [show m.record.author = none from h1]
  rfl

/-- C72 fails for a section without REFERENCE field: there is no citation, the call raises `AttributeError`. -/
theorem C72_no_reference_refuted (b b' : BibSection ρ) (subent : Str) (m : BibMeta ρ)
    (h : b.fields.get? (some chars!"REFERENCE") = none) (hm : b.meta subent = .ok (m, b')) :
    m.record.citation = .error .attributeError := by
  have h1 : m.reference = none := by
    unfold BibSection.meta at hm
    cases ha : b.metaAuthor with
    | error e => rw [ha] at hm; cases hm
    | ok a =>
      rw [ha] at hm
      simp only at hm
      rw [show "REFERENCE".toList = chars!"REFERENCE" from rfl, h] at hm
      simp only [Except.ok.injEq, Prod.mk.injEq] at hm
      rw [← hm.1]
  unfold MetaRec.citation
  rw [show m.record.reference = none from h1]
  rfl

example : ∃ b m b', BibSection.build (x4Parsers metaDicts) [chars!"TITLE      T"] = .ok b ∧ b.meta chars!"10001002" = .ok (m, b') ∧
    m.record.legend = chars!"(None) N, o, et al." ∧ m.record.citation = .error .attributeError :=
  ⟨_, _, _, rfl, rfl, by decide +kernel, by decide +kernel⟩

/-! ### C73: reference codes -/

theorem refCodeOf_split (D : Dict Str (Dict Str (List Str))) {x : Str} (hx : ∀ c ∈ x, itemChar c = true ∨ c = ' ' ∨ c = ',') :
    refCodeOf D (.str x) = refCodeOfList D ((splitChar ',' x).map strip) := by
  obtain ⟨ts, h1, h2⟩ := commaList_texts x hx
  unfold refCodeOf
  simp only
  rw [h1]
  simp only
  rw [h2]

/-- the items of a code that could be read -/
theorem refCodeOfList_inv {D : Dict Str (Dict Str (List Str))} {l : List Str} {r : RefCode} (h : refCodeOfList D l = .ok r) :
    (∃ T N, l = [T, N] ∧ r.reftype = T ∧ r.name = N ∧ r.details = [] ∧ r.date = N ∨
      ∃ ds date, l = T :: N :: (ds ++ [date]) ∧ r.reftype = T ∧ r.name = N ∧ r.details = ds ∧ r.date = date) ∧
    refYear r.date = .ok r.pubyear ∧ prettyName D r.reftype r.name = .ok r.prettyName := by
  unfold refCodeOfList at h
  match l, h with
  | [], h => simp [pyIdx] at h
  | [T], h => simp [pyIdx] at h
  | T :: N :: rest, h =>
    have e0 : pyIdx (T :: N :: rest) 0 = .ok T := rfl
    have e1 : pyIdx (T :: N :: rest) 1 = .ok N := rfl
    rw [e0] at h
    simp only at h
    rw [e1] at h
    simp only at h
    rcases List.eq_nil_or_concat rest with rfl | ⟨ds, date, rfl⟩
    · have e2 : pyIdx [T, N] ([T, N].length - 1) = .ok N := rfl
      rw [e2] at h
      simp only at h
      cases hy : refYear N with
      | error e => rw [hy] at h; cases h
      | ok y =>
        rw [hy] at h
        simp only at h
        cases hp : prettyName D T N with
        | error e => rw [hp] at h; cases h
        | ok pn =>
          rw [hp] at h
          simp only [Except.ok.injEq] at h
          subst h
          exact ⟨⟨T, N, .inl ⟨rfl, rfl, rfl, rfl, rfl⟩⟩, hy, hp⟩
    · have e2 : pyIdx (T :: N :: (ds ++ [date])) ((T :: N :: (ds ++ [date])).length - 1) = .ok date := by simp
      have e3 : detailsOf (T :: N :: (ds ++ [date])) = ds := by simp [detailsOf, slice]
      rw [List.concat_eq_append, e2] at h
      simp only at h
      cases hy : refYear date with
      | error e => rw [hy] at h; cases h
      | ok y =>
        rw [hy] at h
        simp only at h
        cases hp : prettyName D T N with
        | error e => rw [hp] at h; cases h
        | ok pn =>
          rw [hp, e3] at h
          simp only [Except.ok.injEq] at h
          subst h
          exact ⟨⟨T, N, .inr ⟨ds, date, by simp, rfl, rfl, rfl, rfl⟩⟩, hy, hp⟩

theorem refCodeOfList_make (D : Dict Str (Dict Str (List Str))) (T N date y pn : Str) (ds : List Str)
    (hy : refYear date = .ok y) (hp : prettyName D T N = .ok pn) :
    refCodeOfList D (T :: N :: (ds ++ [date])) =
      .ok { reftype := T, name := N, details := ds, date := date, pubyear := y, prettyName := pn } := by
  unfold refCodeOfList
  have h1 : pyIdx (T :: N :: (ds ++ [date])) 0 = .ok T := rfl
  have h2 : pyIdx (T :: N :: (ds ++ [date])) 1 = .ok N := rfl
  have h3 : pyIdx (T :: N :: (ds ++ [date])) ((T :: N :: (ds ++ [date])).length - 1) = .ok date := by simp
  have h4 : detailsOf (T :: N :: (ds ++ [date])) = ds := by simp [detailsOf, slice]
  simp only [h1, h2, h3, h4, hy, hp]

theorem repr_items (r : RefCode) (hd : r.details.map strip = r.details) (hne : r.details ≠ []) :
    r.repr = joinWith [','] (r.reftype :: r.name :: (r.details ++ [r.date])) := by
  unfold RefCode.repr
  rw [hd, joinWith_cons _ _ (by simp), joinWith_cons _ _ (by simp), joinWith_append _ hne (by simp)]
  simp [joinWith]

/-- the texts and characters of the items of a code that could be read -/
theorem refCode_items_of {D : Dict Str (Dict Str (List Str))} {x : Str} {r : RefCode}
    (hx : ∀ c ∈ x, itemChar c = true ∨ c = ' ' ∨ c = ',') (h : refCodeOf D (.str x) = .ok r) :
    (∀ i ∈ r.reftype :: r.name :: (r.details ++ [r.date]), strip i = i ∧ ∀ c ∈ i, itemChar c = true ∨ c = ' ') ∧
    refYear r.date = .ok r.pubyear ∧ prettyName D r.reftype r.name = .ok r.prettyName := by
  rw [refCodeOf_split D hx] at h
  obtain ⟨h1, h2, h3⟩ := refCodeOfList_inv h
  refine ⟨?_, h2, h3⟩
  have hall : ∀ i ∈ (splitChar ',' x).map strip, strip i = i ∧ ∀ c ∈ i, itemChar c = true ∨ c = ' ' := by
    intro i hi
    obtain ⟨q, hq, rfl⟩ := List.mem_map.1 hi
    refine ⟨strip_strip q, fun c hc => ?_⟩
    obtain ⟨hm, hne⟩ := mem_splitChar hq (mem_strip hc)
    rcases hx c hm with h | h | h
    · exact .inl h
    · exact .inr h
    · exact absurd h hne
  intro i hi
  obtain ⟨T, N, ⟨hl, e1, e2, e3, e4⟩ | ⟨ds, date, hl, e1, e2, e3, e4⟩⟩ := h1
  · rw [hl] at hall
    refine hall i ?_
    rw [e1, e2, e3, e4] at hi
    simpa using hi
  · rw [hl] at hall
    refine hall i ?_
    rw [e1, e2, e3, e4] at hi
    exact hi

theorem item_no_comma {i : Str} (h : ∀ c ∈ i, itemChar c = true ∨ c = ' ') : ',' ∉ i := by
  intro hm
  rcases h _ hm with h | h
  · exact absurd h (by decide)
  · exact absurd h (by decide)

/-- reading a text made of items -/
theorem refCodeOf_join (D : Dict Str (Dict Str (List Str))) (l : List Str) (hne : l ≠ [])
    (h : ∀ i ∈ l, strip i = i ∧ ∀ c ∈ i, itemChar c = true ∨ c = ' ') :
    refCodeOf D (.str (joinWith [','] l)) = refCodeOfList D l := by
  rw [refCodeOf_split D (by
    intro c hc
    rcases mem_joinWith_sep hc with h1 | ⟨w, hw, hc⟩
    · exact .inr (.inr (by simpa using h1))
    · rcases (h w hw).2 c hc with h1 | h1
      · exact .inl h1
      · exact .inr (.inl h1)), splitChar_joinWith (fun i hi => item_no_comma (h i hi).2) hne]
  congr 1
  calc l.map strip = l.map id := List.map_congr_left fun i hi => (h i hi).1
    _ = l := List.map_id l

/-- C73: a reference code with details, read from a text without quotation marks, reads the same after printing with `repr`. -/
theorem C73_roundtrip_partial (D : Dict Str (Dict Str (List Str))) (x : Str) (r : RefCode)
    (hx : ∀ c ∈ x, itemChar c = true ∨ c = ' ' ∨ c = ',') (h : refCodeOf D (.str x) = .ok r) (hd : r.details ≠ []) :
    refCodeOf D (.str r.repr) = .ok r := by
  obtain ⟨h1, h2, h3⟩ := refCode_items_of hx h
  have hds : r.details.map strip = r.details := by
    calc r.details.map strip = r.details.map id := List.map_congr_left fun i hi => (h1 i (by simp [hi])).1
      _ = r.details := List.map_id _
  rw [repr_items r hds hd, refCodeOf_join D _ (by simp) h1, refCodeOfList_make D _ _ _ _ _ _ h2 h3]

example : ∃ r, refCodeOf sampleDicts (.str chars!"J, PR ,120(1), 556,196010") = .ok r ∧ r.repr = chars!"J,PR,120(1),556,196010" ∧
    refCodeOf sampleDicts (.str r.repr) = .ok r :=
  ⟨⟨chars!"J", chars!"PR", [chars!"120(1)", chars!"556"], chars!"196010", chars!"1960", chars!"Physical Review "⟩,
    by decide +kernel, by decide, C73_roundtrip_partial sampleDicts chars!"J, PR ,120(1), 556,196010" _ (by decide) (by decide +kernel) (by decide)⟩

/-- C73 fails for every code without details, such as a report with number and date: the printed text has an empty item. -/
theorem C73_no_details_refuted (D : Dict Str (Dict Str (List Str))) (x : Str) (r : RefCode)
    (hx : ∀ c ∈ x, itemChar c = true ∨ c = ' ' ∨ c = ',') (h : refCodeOf D (.str x) = .ok r) (hd : r.details = []) :
    refCodeOf D (.str r.repr) = .ok { r with details := [[]] } := by
  obtain ⟨h1, h2, h3⟩ := refCode_items_of hx h
  have he : r.repr = joinWith [','] (r.reftype :: r.name :: ([[]] ++ [r.date])) := by
    unfold RefCode.repr
    rw [hd]
    simp [joinWith]
  rw [he, refCodeOf_join D _ (by simp), refCodeOfList_make D _ _ _ _ _ _ h2 h3]
  intro i hi
  by_cases hi0 : i = []
  · subst hi0
    exact ⟨rfl, by simp⟩
  · refine h1 i ?_
    rw [hd]
    simp only [List.mem_cons, List.mem_append, List.not_mem_nil, or_false, false_or] at hi ⊢
    rcases hi with h | h | h | h
    · exact .inl h
    · exact .inr (.inl h)
    · exact absurd h hi0
    · exact .inr (.inr h)

example : ∃ r, refCodeOf sampleDicts (.str chars!"R,ORNL-1,5506") = .ok r ∧ r.details = [] ∧ r.repr = chars!"R,ORNL-1,,5506" :=
  ⟨⟨chars!"R", chars!"ORNL-1", [], chars!"5506", chars!"1955", chars!"Report other than progress report: ORNL-1 "⟩, by decide +kernel, rfl, by decide⟩

/-! ### entries -/

theorem replaceStrAux_id (old new : Str) (hne : old ≠ []) (n : Nat) (s : Str) (h : hasSub old s = false) : replaceStrAux old new n s = s := by
  induction n generalizing s with
  | zero => rfl
  | succ n ih =>
    cases s with
    | nil => rfl
    | cons c s =>
      simp only [hasSub, Bool.or_eq_false_iff] at h
      show (if old.isPrefixOf (c :: s) then _ else _) = _
      rw [h.1, if_neg Bool.false_ne_true, ih s h.2]

theorem meta_subent {b b' : BibSection ρ} {subent : Str} {m : BibMeta ρ} (h : b.meta subent = .ok (m, b')) : m.subent = subent := by
  unfold BibSection.meta at h
  repeat' split at h
  all_goals first
    | cases h; rfl
    | cases h

/-- C74: the legend of an entry is the one of its first subentry's BIB section, and so is its citation, if the text for an unknown
subentry does not occur in it; the citation ends with the number of the first subentry and the date of the reference. -/
theorem C74_first_section_partial (e : Entry ρ) (m : EntryMeta ρ) (h : e.meta = .ok m) :
    m.accnum = e.accnum ∧ ∃ b m0 b', e.mainBib = .ok b ∧ b.meta (e.accnum ++ chars!"001") = .ok (m0, b') ∧
      m.legend = m0.record.legend ∧
      m.xmgraceHeader = chars!"#Exfor Entry " ++ e.accnum ++ ['\n'] ++ m0.record.xmgraceHeader ∧
      (m0.record.citation.isOk → m.citation.isOk) ∧
      ∀ s, m0.record.citation = .ok s → hasSub chars!"?????.???" s = false →
        m.citation = .ok s ∧ ∃ date, refDate m0.reference = .ok date ∧ citationTail (e.accnum ++ chars!"001") date <:+ s := by
  unfold Entry.meta at h
  cases hd : e.deleted with
  | error er => rw [hd] at h; cases h
  | ok del =>
    have := C15_never_deleted e del hd
    subst this
    rw [hd] at h
    simp only at h
    cases hk : e.sortedKeys with
    | error er => rw [hk] at h; cases h
    | ok ks =>
      rw [hk] at h
      simp only at h
      cases hb : e.mainBib with
      | error er => rw [hb] at h; cases h
      | ok b =>
        rw [hb] at h
        simp only at h
        cases hm : b.meta (e.accnum ++ chars!"001") with
        | error er => rw [hm] at h; cases h
        | ok mb =>
          rw [hm] at h
          simp only at h
          cases h
          refine ⟨rfl, b, mb.1, mb.2, rfl, hm, rfl, rfl, ?_, ?_⟩
          · intro hc
            unfold EntryMeta.citation
            rw [if_neg Bool.false_ne_true]
            simp only
            revert hc
            cases mb.1.record.citation <;> intro hc
            · cases hc
            · rfl
          · intro s hs hq
            refine ⟨?_, ?_⟩
            · unfold EntryMeta.citation
              rw [if_neg Bool.false_ne_true]
              simp only
              rw [hs]
              simp only
              unfold replaceStr
              rw [replaceStrAux_id _ _ (by decide) _ _ hq]
            · unfold MetaRec.citation at hs
              have hsub : mb.1.record.subent = e.accnum ++ chars!"001" := meta_subent (b' := mb.2) hm
              rw [show mb.1.record.reference = mb.1.reference from rfl] at hs
              cases hr : refDate mb.1.reference with
              | error er => rw [hr] at hs; cases hs
              | ok date =>
                rw [hr] at hs
                simp only [hsub] at hs
                cases hs
                refine ⟨date, rfl, authorString (authorItems mb.1.record.author) ++ chars!", " ++ optFieldStr mb.1.reference, ?_⟩
                unfold citationTail
                simp only [List.append_assoc]

/-- C74 fails for deleted entries: no legend or header announces that the entry was deleted. -/
theorem C74_deleted_refuted (e : Entry ρ) (m : EntryMeta ρ) (h : e.meta = .ok m) :
    m.legend ≠ chars!"ENTRY " ++ e.accnum ++ chars!" DELETED" ∧ m.xmgraceHeader ≠ chars!"ENTRY " ++ e.accnum ++ chars!" DELETED" := by
  obtain ⟨-, b, m0, b', -, -, h1, h2, -⟩ := C74_first_section_partial e m h
  rw [h1, h2]
  constructor <;> intro hc
  · have : some '(' = some 'E' := congrArg List.head? hc
    revert this; decide
  · have : some '#' = some 'E' := congrArg List.head? hc
    revert this; decide

/-- the entry of the example -/
def metaRaw : List Str :=
  [joinWith ['\n'] ([chars!"SUBENT        10001001   20090225"] ++ metaSec.dropLast ++
    [chars!"HISTORY    ENTRY DELETED", chars!"ENDBIB               5", chars!"NOCOMMON             0          0", chars!"ENDSUBENT            9"])]

set_option maxRecDepth 20000 in
example : ∃ e m, Entry.build (x4Parsers metaDicts) metaRaw = .ok e ∧ e.meta = .ok m ∧
    m.legend = chars!"(1960) A.B.Smith, C.Jones, et al." ∧
    (∃ b, e.mainBib = .ok b ∧ ∃ h, b.fields.get? (some chars!"HISTORY") = some h ∧ h.subs.get? ' ' = some [chars!"ENTRY DELETED"]) ∧
    ∃ s, m.bibMeta.record.citation = .ok s ∧ hasSub chars!"?????.???" s = false :=
  ⟨_, _, rfl, rfl, by decide +kernel, ⟨_, rfl, _, rfl, by decide +kernel⟩, _, rfl, by decide +kernel⟩

end X4
