import Verif.Props.EntrySets
import Verif.Props.TitleText
/-! C116: the bibliographic attributes of datasets are those written in the fields of their own and of the first subentry. -/
namespace X4
variable {ρ N : Type}

/-- the field with a tag, if it is written in the subentry -/
def SubDoc.field (s : SubDoc) (tag : Str) : Option FieldDoc := s.bib.find? fun f => decide (f.tag = tag)

/-- what a field says, taken from the subentry itself, otherwise from the first one -/
def ownOrFirst {α : Type} (m s : SubDoc) (tag : Str) (read : List Str → Option α) : Option α :=
  ((s.field tag).bind fun f => read f.lines).or ((m.field tag).bind fun f => read f.lines)

/-- the names in an AUTHOR field -/
def authorsIn (P : FieldParsers ρ) (lines : List Str) : Option (List Str) :=
  match buildField P (some chars!"AUTHOR") lines with
  | .ok (.author _ a) => some a
  | .ok .noAuthor => some []
  | _ => none
/-- the main reference of a REFERENCE field: type and year of the publication -/
def mainRefIn (P : FieldParsers ρ) (lines : List Str) : Option (Str × Str) :=
  match buildField P (some chars!"REFERENCE") lines with
  | .ok (.reference _ i) => some (i.pubtype, i.pubyear)
  | _ => none
/-- the title as it is printed -/
def titleIn (lines : List Str) : Option Str :=
  match PlainField.build lines with
  | .ok f => some (titleText f)
  | .error _ => none

theorem doc_field {P : FieldParsers ρ} {s : SubDoc} (hw : s.wf) {b : BibSection ρ} (hb : BibHolds P s.bib b) (tag : Str) :
    (s.field tag = none → b.fields.get? (some tag) = none) ∧
    ∀ f, s.field tag = some f → f.tag = tag ∧ ∃ v, b.fields.get? (some tag) = some v ∧ buildField P (some tag) f.lines = .ok v := by
  constructor
  · intro h
    exact forall₂_get_none (k := fun f : FieldDoc => some f.tag) (Q := fun f v => buildField P (some f.tag) f.lines = .ok v) hb.fields
      (fun f hf' he => List.find?_eq_none.1 h f hf' (decide_eq_true (Option.some.inj he)))
  · intro f h
    have hmem := List.mem_of_find?_eq_some h
    have htag : f.tag = tag := by simpa using List.find?_some h
    have hndt : (s.bib.map fun f => some f.tag).Nodup := by
      have := (List.nodup_map_iff (Option.some_injective Str)).2 hw.tags
      rwa [List.map_map] at this
    obtain ⟨v, hv, hv2⟩ := forall₂_get (k := fun f : FieldDoc => some f.tag) (Q := fun f v => buildField P (some f.tag) f.lines = .ok v) hb.fields hndt hmem
    rw [htag] at hv hv2
    exact ⟨htag, v, hv, hv2⟩

/-- what the record of a subentry says -/
structure InfoOf (P : FieldParsers ρ) (x : SubDoc) (a : Str) (i : DsMeta ρ) : Prop where
  author : i.author = (x.field chars!"AUTHOR").bind fun f => authorsIn P f.lines
  institute : i.institute = (x.field chars!"INSTITUTE").bind fun f => (buildField P (some chars!"INSTITUTE") f.lines).toOption
  reference : i.reference = (x.field chars!"REFERENCE").bind fun f => (buildField P (some chars!"REFERENCE") f.lines).toOption
  pubType : i.pubType = (x.field chars!"REFERENCE").bind fun f => given ((mainRefIn P f.lines).map Prod.fst)
  year : i.year = (x.field chars!"REFERENCE").bind fun f => given ((mainRefIn P f.lines).map Prod.snd)
  title : i.title = (x.field chars!"TITLE").bind fun f => given (titleIn f.lines)
  subent : i.subent = given (some a)

theorem title_field {P : FieldParsers ρ} {raw : List Str} {v : BibField ρ} (h : buildField P (some chars!"TITLE") raw = .ok v) :
    ∃ f, PlainField.build raw = .ok f ∧ v = .plain f := by
  have h0 : buildField P (some chars!"TITLE") raw = finishField (PlainField.build raw) (fun _ => .ok ()) (fun f _ => .plain f) := rfl
  rw [h0] at h
  unfold finishField at h
  cases hf : PlainField.build raw with
  | error e => rw [hf] at h; cases h
  | ok f => rw [hf] at h; cases h; exact ⟨f, rfl, rfl⟩

theorem doc_info {P : FieldParsers ρ} {x : SubDoc} (hw : x.wf) {S : SubEntry ρ} (hS : SubHolds P x S) {a : Str} {i : SubInfo ρ × SubEntry ρ}
    (hi : S.info a = .ok i) : ∃ r, i.1.info = some r ∧ InfoOf P x a r := by
  obtain ⟨b, hb1, hb2⟩ := hS.bib
  have hbS : S.bib = some b := by unfold SubEntry.bib; rw [hb1]
  unfold SubEntry.info at hi
  rw [hbS] at hi
  simp only at hi
  cases hm : b.meta a with
  | error e => rw [hm] at hi; cases hi
  | ok m =>
    rw [hm] at hi
    simp only at hi
    have hinfo : i.1.info = some m.1.attrs := by
      split at hi
      · cases hi
      · split at hi
        · cases hi
        · cases hi; rfl
    refine ⟨_, hinfo, ?_⟩
    clear hi hinfo
    have hau : b.metaAuthor = .ok ((x.field chars!"AUTHOR").bind fun f => authorsIn P f.lines) := by
      obtain ⟨g1, g2⟩ := doc_field hw hb2 chars!"AUTHOR"
      unfold BibSection.metaAuthor
      cases hf : x.field chars!"AUTHOR" with
      | none => rw [show some "AUTHOR".toList = some chars!"AUTHOR" from rfl, g1 hf]; rfl
      | some f =>
        obtain ⟨-, v, hv1, hv2⟩ := g2 f hf
        rw [show some "AUTHOR".toList = some chars!"AUTHOR" from rfl, hv1, Option.bind_some, authorsIn, hv2]
        rcases buildField_kinds.2.2.2 hv2 with rfl | ⟨_, _, rfl⟩ <;> rfl
    have hti : notNone (some ((b.defaultTitle.fields.get? (some "TITLE".toList)).getD .none).titleText) =
        (x.field chars!"TITLE").bind fun f => given (titleIn f.lines) := by
      obtain ⟨g1, g2⟩ := doc_field hw hb2 chars!"TITLE"
      rw [notNone_eq]
      unfold BibSection.defaultTitle
      cases hf : x.field chars!"TITLE" with
      | none =>
        have h0 : b.fields.get? (some "TITLE".toList) = none := g1 hf
        have h1 : b.fields.has (some "TITLE".toList) = false := by rw [Dict.has, h0]; rfl
        rw [h1]
        simp only [Bool.false_eq_true, if_false, Dict.get?_set_self, Option.getD_some]
        rfl
      | some f =>
        obtain ⟨-, v, hv1, hv2⟩ := g2 f hf
        have h0 : b.fields.get? (some "TITLE".toList) = some v := hv1
        have h1 : b.fields.has (some "TITLE".toList) = true := by rw [Dict.has, h0]; rfl
        obtain ⟨pf, hpf, rfl⟩ := title_field hv2
        rw [h1, if_pos rfl, h0, Option.bind_some, titleIn, hpf]
        rfl
    have hins : b.fields.get? (some "INSTITUTE".toList) = (x.field chars!"INSTITUTE").bind fun f => (buildField P (some chars!"INSTITUTE") f.lines).toOption := by
      obtain ⟨g1, g2⟩ := doc_field hw hb2 chars!"INSTITUTE"
      cases hf : x.field chars!"INSTITUTE" with
      | none => exact g1 hf
      | some f =>
        obtain ⟨-, v, hv1, hv2⟩ := g2 f hf
        rw [Option.bind_some, hv2]
        exact hv1
    unfold BibSection.meta at hm
    rw [hau] at hm
    simp only at hm
    obtain ⟨g1, g2⟩ := doc_field hw hb2 chars!"REFERENCE"
    cases hf : x.field chars!"REFERENCE" with
    | none =>
      rw [show b.fields.get? (some "REFERENCE".toList) = none from g1 hf] at hm
      cases hm
      exact ⟨rfl, hins, by rw [hf]; rfl, by rw [hf]; rfl, by rw [hf]; rfl, hti, notNone_eq _⟩
    | some f =>
      obtain ⟨-, v, hv1, hv2⟩ := g2 f hf
      rw [show b.fields.get? (some "REFERENCE".toList) = some v from hv1] at hm
      obtain ⟨pf, r, rfl⟩ := buildField_kinds.2.2.1 hv2
      simp only [BibField.pub] at hm
      cases hm
      refine ⟨rfl, hins, ?_, ?_, ?_, hti, notNone_eq _⟩
      · rw [hf, Option.bind_some, hv2]; rfl
      · rw [hf, Option.bind_some, mainRefIn, hv2]; exact notNone_eq _
      · rw [hf, Option.bind_some, mainRefIn, hv2]; exact notNone_eq _

theorem factory_info [PyNum N] {rx : RxOps ρ} {ms : List (Option (DsMeta ρ))} {common : List (Option (Nat × DataSection))} {data : DataSection}
    {i : SubInfo ρ} {p : Char} {d : DataSet ρ N} (h : okPart (attempt rx ms common data i p) = some d) : d.info = mergeMeta ms := by
  unfold attempt at h
  cases hr : i.reactions.get? p with
  | none => rw [hr] at h; cases h
  | some r =>
    rw [hr, Option.map_some] at h
    unfold dataSetFactory at h
    split at h
    · cases h
    · unfold DataSet.build at h
      simp only at h
      split at h
      · cases h
      · cases h; rfl

/-- C116: the bibliographic attributes of a dataset of a written entry. Each is what the field of its own subentry says; where there is no
such field (or a title, year or type of publication that reads `None`), what the field of the first subentry says; otherwise there is none.
The number of the subentry is its own. -/
theorem C116_attributes_partial [PyNum N] (P : FieldParsers ρ) (rx : RxOps ρ) (D : EntryDoc) (h : D.wf) (hr : ∀ s ∈ D.subs, s.Readable P) (subents : Option (List Str))
    (m : SubDoc) (hm : m ∈ D.subs) (hma : m.acc = D.acc ++ "001".toList) (hmr : requested subents m.acc) :
    ∃ e : Entry ρ, Entry.build P (splitEntryFile subents D.file) = .ok e ∧
      ∀ st : DsState ρ N, e.getDataSets rx [] = .ok st → ∀ s ∈ D.subs, ∀ p d, st.datasets.get? (D.acc, some s.acc, p) = some d →
        d.info.author = ownOrFirst m s chars!"AUTHOR" (authorsIn P) ∧
        d.info.institute = ownOrFirst m s chars!"INSTITUTE" (fun l => (buildField P (some chars!"INSTITUTE") l).toOption) ∧
        d.info.reference = ownOrFirst m s chars!"REFERENCE" (fun l => (buildField P (some chars!"REFERENCE") l).toOption) ∧
        d.info.pubType = ownOrFirst m s chars!"REFERENCE" (fun l => given ((mainRefIn P l).map Prod.fst)) ∧
        d.info.year = ownOrFirst m s chars!"REFERENCE" (fun l => given ((mainRefIn P l).map Prod.snd)) ∧
        d.info.title = ownOrFirst m s chars!"TITLE" (fun l => given (titleIn l)) ∧
        d.info.subent = some s.acc := by
  obtain ⟨e, he, hold⟩ := C85_read P D h subents hr ⟨m, hm, hmr⟩
  refine ⟨e, he, fun st hst s hs p d hd => ?_⟩
  have hmf : m ∈ D.subs.filter fun s => requested subents s.acc := List.mem_filter.2 ⟨hm, hmr⟩
  obtain ⟨-, s', hs', hss, -⟩ := doc_only P rx D h _ List.filter_sublist _ e he hold m hmf hma st hst _ _ p d hd
  have hs0 := (List.mem_filter.1 hs').1
  have : s = s' := List.inj_on_of_nodup_map h.distinct hs hs0 (Option.some.inj hss)
  subst this
  obtain ⟨M, main, hMh, hmain, -, hgets, hval⟩ := doc_values (N := N) P rx D h _ List.filter_sublist _ e he hold m hmf hma st hst
  obtain ⟨S, hS, hSh⟩ := hgets s hs'
  rw [hval, if_pos hold.accnum.symm, goodOf] at hd
  cases hdi : e.dataOf (some s.acc) with
  | none => rw [hdi] at hd; cases hd
  | some di =>
    rw [hdi] at hd
    simp only at hd
    obtain ⟨i, hi, hi2⟩ : ∃ i, S.info (S.accnum.getD "None".toList) = .ok i ∧ i.1 = di.2 := by
      unfold Entry.dataOf at hdi
      rw [hS] at hdi
      simp only at hdi
      split at hdi
      · cases hdi
      · split at hdi
        · cases hdi
        · cases hdi; exact ⟨_, by assumption, rfl⟩
    have hinfo : d.info = mergeMeta [main.1.info, di.2.info] := by
      rcases Option.or_eq_some_iff.1 hd with hd | ⟨-, hd⟩
      · exact factory_info hd
      · exact factory_info hd
    obtain ⟨rm, hrm, im⟩ := doc_info (h.subs m hm).1 hMh hmain
    obtain ⟨rs, hrs, is⟩ := doc_info (h.subs s hs).1 hSh hi
    rw [← hi2, hrm, hrs] at hinfo
    have hover : d.info = (({} : DsMeta ρ).over rm).over rs := hinfo
    have hne : s.acc ≠ "None".toList := by
      intro h0
      have := (h.subs s hs).1.acc.1
      rw [h0] at this
      exact absurd this (by decide)
    rw [hover]
    unfold DsMeta.over ownOrFirst
    simp only [Option.or_none]
    refine ⟨by rw [im.author, is.author], by rw [im.institute, is.institute], by rw [im.reference, is.reference], by rw [im.pubType, is.pubType],
      by rw [im.year, is.year], by rw [im.title, is.title], ?_⟩
    rw [is.subent, hSh.accnum, Option.getD_some, given, Option.filter_some, if_pos (decide_eq_true hne), Option.some_or]

theorem title_words {lines : List Str} {f : PlainField} (hf : PlainField.build lines = .ok f) :
    ∃ t, titleIn lines = some t ∧ ∃ ps : List Char, ps.Pairwise (fun a b : Char => a.toNat < b.toNat) ∧ (∀ p, p ∈ ps ↔ textUnder lines p ≠ []) ∧
      splitWs t = ps.flatMap fun p => (textUnder lines p).flatMap fun line => (splitWs line).map inTitleCase := by
  refine ⟨titleText f, by rw [titleIn, hf], C93_title lines f hf⟩

/-- C116: the title of a dataset consists of the words written in the TITLE field of its subentry, or of the first one if it has none there,
in title case; unless the only word is `NONE`. -/
theorem C116_title_partial [PyNum N] (P : FieldParsers ρ) (rx : RxOps ρ) (D : EntryDoc) (h : D.wf) (hr : ∀ s ∈ D.subs, s.Readable P) (subents : Option (List Str))
    (m : SubDoc) (hm : m ∈ D.subs) (hma : m.acc = D.acc ++ "001".toList) (hmr : requested subents m.acc) :
    ∃ e : Entry ρ, Entry.build P (splitEntryFile subents D.file) = .ok e ∧
      ∀ st : DsState ρ N, e.getDataSets rx [] = .ok st → ∀ s ∈ D.subs, ∀ p d, st.datasets.get? (D.acc, some s.acc, p) = some d →
        ∀ f, (s.field chars!"TITLE").or (m.field chars!"TITLE") = some f →
          ∃ ps : List Char, ps.Pairwise (fun a b : Char => a.toNat < b.toNat) ∧ (∀ p, p ∈ ps ↔ textUnder f.lines p ≠ []) ∧
            ∀ ws, ws = (ps.flatMap fun p => (textUnder f.lines p).flatMap fun line => (splitWs line).map inTitleCase) → ws ≠ [chars!"None"] →
              ∃ t, d.info.title = some t ∧ splitWs t = ws := by
  obtain ⟨e, he, hall⟩ := C116_attributes_partial (N := N) P rx D h hr subents m hm hma hmr
  refine ⟨e, he, fun st hst s hs p d hd f hf => ?_⟩
  obtain ⟨-, -, -, -, -, ht, -⟩ := hall st hst s hs p d hd
  obtain ⟨pf, hpf⟩ : ∃ pf, PlainField.build f.lines = .ok pf := (C39_fails_iff_empty f.lines).2 (by simp [FieldDoc.lines])
  obtain ⟨t, h1, ps, h2, h3, h4⟩ := title_words hpf
  refine ⟨ps, h2, h3, ?_⟩
  rintro ws rfl hne
  refine ⟨t, ?_, h4⟩
  have htn : t ≠ "None".toList := by
    rintro rfl
    rw [← h4] at hne
    exact hne (by decide)
  have hg : given (titleIn f.lines) = some t := by
    rw [h1, given, Option.filter_some, if_pos (decide_eq_true htn)]
  rw [ht, ownOrFirst]
  cases hso : s.field chars!"TITLE" with
  | some f' =>
    rw [hso, Option.some_or] at hf
    cases hf
    rw [Option.bind_some, hg, Option.some_or]
  | none =>
    rw [hso, Option.none_or] at hf
    rw [hf, Option.bind_none, Option.none_or, Option.bind_some, hg]

/-- C116 is false for the title `NONE`, in any entry: it is replaced by the title of the first subentry, or dropped. -/
theorem C116_title_refuted [PyNum N] (P : FieldParsers ρ) (rx : RxOps ρ) (D : EntryDoc) (h : D.wf) (hr : ∀ s ∈ D.subs, s.Readable P) (subents : Option (List Str))
    (m : SubDoc) (hm : m ∈ D.subs) (hma : m.acc = D.acc ++ "001".toList) (hmr : requested subents m.acc) :
    ∃ e : Entry ρ, Entry.build P (splitEntryFile subents D.file) = .ok e ∧
      ∀ st : DsState ρ N, e.getDataSets rx [] = .ok st → ∀ s ∈ D.subs, s.field chars!"TITLE" = some ⟨chars!"TITLE", (' ', chars!"NONE"), []⟩ →
        ∀ p d, st.datasets.get? (D.acc, some s.acc, p) = some d → d.info.title = (m.field chars!"TITLE").bind fun f => given (titleIn f.lines) := by
  obtain ⟨e, he, hall⟩ := C116_attributes_partial (N := N) P rx D h hr subents m hm hma hmr
  refine ⟨e, he, fun st hst s hs hf p d hd => ?_⟩
  obtain ⟨-, -, -, -, -, ht, -⟩ := hall st hst s hs p d hd
  have h0 : given (titleIn (FieldDoc.lines ⟨chars!"TITLE", (' ', chars!"NONE"), []⟩)) = none := by decide +kernel
  rw [ht, ownOrFirst, hf, Option.bind_some, h0, Option.none_or]

/-! ### an entry -/

/-- The datasets of the entry with two subentries have the title of the first and the number of the second. -/
example [PyNum N] (rxd : RxDicts) : ∃ (e : Entry Measurement) (st : DsState Measurement N) (d : DataSet Measurement N),
    Entry.build (x4Parsers metaDicts) (splitEntryFile none docEntry.file) = .ok e ∧ e.getDataSets (x4RxOps rxd) [] = .ok st ∧
    st.datasets.get? (docEntry.acc, some docSub.acc, '1') = some d ∧ d.info.title = some chars!"Capture In Americium" ∧ d.info.subent = some chars!"10001002" ∧
    d.info.author = none := by
  obtain ⟨e, he, hall⟩ := C116_attributes_partial (N := N) (x4Parsers metaDicts) (x4RxOps rxd) docEntry docEntry_wf docEntry_readable none docMain (by simp [docEntry]) (by decide) rfl
  have hne : docReaction docMain docSub '1' ≠ [] := by decide +kernel
  have hok : okB ((x4Parsers metaDicts).reaction (joinWith [' '] ((docReaction docMain docSub '1').map strip))) = true ∧
      isSingle ((x4Parsers metaDicts).reaction (joinWith [' '] ((docReaction docMain docSub '1').map strip))) = true := by decide +kernel
  obtain ⟨r, hrx⟩ := okB_iff hok.1
  obtain ⟨q, hq⟩ : ∃ q, effectiveQuant (x4RxOps rxd) r.1 = .ok q := by
    have := hok.2
    rw [hrx] at this
    obtain ⟨m, t⟩ := r
    cases m with
    | rx R => exact ⟨_, rfl⟩
    | _ => cases this
  have hc1 : PlainDoc '1' docMain.common := by
    intro t ht
    cases ht
    exact ⟨by decide, rfl⟩
  have hc2 : PlainDoc '1' docSub.common := by
    intro t ht
    cases ht
  obtain ⟨e', st, d, h1, h2, h3, -⟩ := C86_dataset_partial (N := N) (x4Parsers metaDicts) (x4RxOps rxd) docEntry docEntry_wf docEntry_printable docEntry_readable none
    docMain docSub (by simp [docEntry]) (by decide) rfl (by simp [docEntry]) (by decide) rfl _ rfl (by decide) '1' hc1 hc2 hne r hrx q hq
  rw [he] at h1
  cases h1
  obtain ⟨a1, -, -, -, -, a6, a7⟩ := hall st h2 docSub (by simp [docEntry]) '1' d h3
  refine ⟨e, st, d, he, h2, h3, ?_, a7, ?_⟩
  · rw [a6]; decide +kernel
  · rw [a1]; rfl

end X4
