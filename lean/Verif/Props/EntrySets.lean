import Verif.Props.EntryDoc
import Verif.Props.DataSets
import Verif.Props.Field
import Verif.Props.Metadata
import Verif.Props.ReactionText
/-! C86: the datasets of an entry written in the EXFOR format. -/
namespace X4
variable {ρ N : Type}

/-! ### the datasets of an entry that was read are always returned -/

/-- the only exception that can be raised is an `IndexError` -/
def IdxOnly {α : Type} (x : Except PyErr α) : Prop := ∀ e, x = .error e → e = .indexError

theorem idxOnly_ok {α : Type} (a : α) : IdxOnly (.ok a : Except PyErr α) := fun e h => by cases h
theorem idxOnly_error {α : Type} : IdxOnly (.error .indexError : Except PyErr α) := fun e h => by cases h; rfl
theorem IdxOnly.of_error {α β : Type} {x : Except PyErr α} {e : PyErr} (h : IdxOnly x) (hx : x = .error e) : IdxOnly (.error e : Except PyErr β) :=
  fun e' h' => by cases h'; exact h e hx

theorem idxOnly_pyIdx {α : Type} (l : List α) (i : Nat) : IdxOnly (pyIdx l i) := by
  unfold pyIdx
  split
  · exact idxOnly_ok _
  · exact idxOnly_error

theorem idxOnly_mapE {α β : Type} {f : α → Except PyErr β} {l : List α} (h : ∀ a ∈ l, IdxOnly (f a)) : IdxOnly (mapE f l) := by
  induction l with
  | nil => exact idxOnly_ok _
  | cons a l ih =>
    rw [mapE]
    split
    · rename_i e he; exact (h a (by simp)).of_error he
    · split
      · rename_i e he; exact (ih (fun b hb => h b (by simp [hb]))).of_error he
      · exact idxOnly_ok _

theorem idxOnly_foldE {σ α : Type} {f : σ → α → Except PyErr σ} (h : ∀ s a, IdxOnly (f s a)) (l : List α) : ∀ s, IdxOnly (foldE f s l) := by
  induction l with
  | nil => exact fun s => idxOnly_ok _
  | cons a l ih =>
    intro s
    rw [foldE]
    split
    · rename_i e he; exact (h s a).of_error he
    · exact ih _

theorem idxOnly_colHead (d : DataSection) (p : Option Char) (i : Nat) : IdxOnly (colHead d p i) := by
  unfold colHead
  split
  · split
    · rename_i e he; exact (idxOnly_pyIdx _ _).of_error he
    · split
      · rename_i e he; exact (idxOnly_pyIdx _ _).of_error he
      · exact idxOnly_ok _
  · exact idxOnly_ok _

theorem idxOnly_filterRow (filt : List Bool) (r : List (Option FloatLit)) : ∀ i, IdxOnly (filterRow filt i r) := by
  induction r with
  | nil => exact fun i => idxOnly_ok _
  | cons x r ih =>
    intro i
    rw [filterRow]
    split
    · rename_i e he; exact (idxOnly_pyIdx _ _).of_error he
    · split
      · rename_i e he; exact (ih _).of_error he
      · exact idxOnly_ok _

variable [PyNum N]

theorem idxOnly_newRow (d : DataSection) (filt : List Bool) (offs : List Nat) (i : Nat) : IdxOnly (newRow (N := N) d filt offs i) := by
  unfold newRow
  split
  · rename_i e he; exact (idxOnly_pyIdx _ _).of_error he
  · split
    · rename_i e he; exact (idxOnly_pyIdx _ _).of_error he
    · split
      · rename_i e he; exact (idxOnly_filterRow _ _ _).of_error he
      · exact idxOnly_ok _

theorem idxOnly_writeCommon (c : DataSection) (off crow : Nat) (row : List (Option N)) : IdxOnly (writeCommon c off crow row) := by
  refine idxOnly_foldE ?_ _ _
  intro s a
  unfold writeCell
  split
  · rename_i e he; exact (idxOnly_pyIdx _ _).of_error he
  · split
    · rename_i e he; exact (idxOnly_pyIdx _ _).of_error he
    · unfold setIdx
      split
      · exact idxOnly_ok _
      · exact idxOnly_error

theorem idxOnly_commonStep (common : List (Option (Nat × DataSection))) (offs : List Nat) (rows : List (List (Option N))) (c : Option (Nat × DataSection)) :
    IdxOnly (commonStep common offs rows c) := by
  unfold commonStep
  split
  · exact idxOnly_ok _
  · split
    · rename_i e he; exact (idxOnly_pyIdx _ _).of_error he
    · split
      · exact idxOnly_mapE fun _ _ => idxOnly_writeCommon _ _ _ _
      · split
        · rename_i e he; exact (idxOnly_mapE fun _ _ => idxOnly_writeCommon _ _ _ _).of_error he
        · exact idxOnly_ok _

theorem idxOnly_setData (d : DataSection) (common : List (Option (Nat × DataSection))) (p : Option Char) : IdxOnly (setData (N := N) d common p) := by
  have hs : ∀ d : DataSection, IdxOnly (secHeads d p) := fun d => idxOnly_mapE fun _ _ => idxOnly_colHead _ _ _
  unfold setData
  split
  · rename_i e he
    refine (idxOnly_mapE ?_).of_error he
    intro c _
    cases c with
    | none => exact idxOnly_ok _
    | some c => exact hs _
  · split
    · rename_i e he; exact (hs _).of_error he
    · simp only
      split
      · rename_i e he; exact (idxOnly_mapE fun _ _ => idxOnly_newRow _ _ _ _).of_error he
      · split
        · rename_i e he; exact (idxOnly_foldE (fun _ _ => idxOnly_commonStep _ _ _ _) _ _).of_error he
        · exact idxOnly_ok _

/-- a combination of reactions has a `str`; for a single reaction nothing is asked -/
def Printable (rx : RxOps ρ) (r : ρ) : Prop := rx.quantity r = none → ∃ t, rx.text r = .ok t

theorem dsStep_total (rx : RxOps ρ) (acc : Str) (sub : Option Str) (ms : List (Option (DsMeta ρ))) (common : List (Option (Nat × DataSection)))
    (data : DataSection) (from_ : SubInfo ρ) (st : DsState ρ N) (pr : Char × (ρ × Str)) (hpr : Printable rx pr.2.1) :
    ∃ st', dsStep rx acc sub ms common data from_ st pr = .ok st' := by
  unfold dsStep
  cases h : dataSetFactory (N := N) rx ms common pr.2 (from_.monitors.get? pr.1) data (some pr.1) with
  | ok d => exact ⟨_, rfl⟩
  | error e =>
    have : e = .notImplementedError ∨ e = .indexError := by
      unfold dataSetFactory effectiveQuant at h
      split at h
      · rename_i x hx
        split at hx
        · cases hx
        · rename_i hq
          obtain ⟨t, ht⟩ := hpr hq
          rw [ht] at hx
          split at hx
          · cases hx
          · cases hx; cases h; exact .inl rfl
      · unfold DataSet.build at h
        simp only at h
        split at h
        · rename_i x hx
          cases h
          exact .inr (idxOnly_setData _ _ _ _ hx)
        · cases h
    rcases this with rfl | rfl <;> exact ⟨_, rfl⟩

theorem foldE_total {σ α : Type} {f : σ → α → Except PyErr σ} {I : σ → Prop} (h : ∀ s, I s → ∀ a, ∃ s', f s a = .ok s' ∧ I s') (l : List α) :
    ∀ s, I s → ∃ s', foldE f s l = .ok s' ∧ I s' := by
  induction l with
  | nil => exact fun s hs => ⟨s, rfl, hs⟩
  | cons a l ih =>
    intro s hs
    obtain ⟨s', h1, h2⟩ := h s hs a
    obtain ⟨s'', h3, h4⟩ := ih s' h2
    exact ⟨s'', by simp [foldE, h1, h3], h4⟩

omit [PyNum N] in
theorem foldE_dsStep_entry [PyNum N] {rx : RxOps ρ} {acc : Str} {sub : Option Str} {ms : List (Option (DsMeta ρ))} {common : List (Option (Nat × DataSection))}
    {data : DataSection} {from_ : SubInfo ρ} (rs : Dict Char (ρ × Str)) (hrs : ∀ pr ∈ rs, Printable rx pr.2.1) (st : DsState ρ N) :
    ∃ st', foldE (dsStep rx acc sub ms common data from_) st rs = .ok st' ∧ st'.entry = st.entry := by
  induction rs generalizing st with
  | nil => exact ⟨st, rfl, rfl⟩
  | cons a rs ih =>
    obtain ⟨s', h⟩ := dsStep_total rx acc sub ms common data from_ st a (hrs a (by simp))
    obtain ⟨s'', h1, h2⟩ := ih (fun pr hp => hrs pr (by simp [hp])) s'
    exact ⟨s'', by simp [foldE, h, h1], h2.trans (dsStep_eq rx acc sub ms common data from_ st s' a h).1⟩

omit [PyNum N] in
/-- the information of a subentry can always be collected -/
theorem buildField_kinds {P : FieldParsers ρ} {raw : List Str} {v : BibField ρ} :
    (buildField P (some "REACTION".toList) raw = .ok v → ∃ f r, v = .reaction f r) ∧
    (buildField P (some "MONITOR".toList) raw = .ok v → ∃ f r, v = .monitor f r) ∧
    (buildField P (some "REFERENCE".toList) raw = .ok v → ∃ f r, v = .reference f r) ∧
    (buildField P (some "AUTHOR".toList) raw = .ok v → v = .noAuthor ∨ ∃ f r, v = .author f r) := by
  have key : ∀ {α : Type} {pl : Except PyErr PlainField} {more : PlainField → Except PyErr α} {mk : PlainField → α → BibField ρ},
      finishField pl more mk = .ok v → ∃ f r, v = mk f r := by
    intro α pl more mk h
    unfold finishField at h
    split at h
    · cases h
    · split at h
      · cases h
      · cases h; exact ⟨_, _, rfl⟩
  refine ⟨fun h => ?_, fun h => ?_, fun h => ?_, fun h => ?_⟩
  · unfold buildField at h
    rw [if_pos rfl] at h
    exact key h
  · unfold buildField at h
    rw [if_neg (by decide), if_pos rfl] at h
    exact key h
  · unfold buildField at h
    rw [if_neg (by decide), if_neg (by decide), if_pos rfl] at h
    exact key h
  · unfold buildField at h
    rw [if_neg (by decide), if_neg (by decide), if_neg (by decide), if_pos rfl] at h
    split at h
    · cases h; exact .inl rfl
    · exact .inr (key h)

omit [PyNum N] in
/-- C72: every BIB section that was read has metadata, whatever fields it has. -/
theorem C72_available {P : FieldParsers ρ} {sec : List Str} {b : BibSection ρ} (hsec : BibSection.build P sec = .ok b) (a : Str) : ∃ m, b.meta a = .ok m := by
  have hauth : ∃ x, b.metaAuthor = .ok x := by
    unfold BibSection.metaAuthor
    cases ha : b.fields.get? (some "AUTHOR".toList) with
    | none => exact ⟨_, rfl⟩
    | some v =>
      obtain ⟨raw, hr⟩ := bib_field hsec ha
      rcases buildField_kinds.2.2.2 hr with rfl | ⟨f, r, rfl⟩ <;> exact ⟨_, rfl⟩
  obtain ⟨x, hx⟩ := hauth
  unfold BibSection.meta
  rw [hx]
  simp only
  cases ha : b.fields.get? (some "REFERENCE".toList) with
  | none => exact ⟨_, rfl⟩
  | some v =>
    obtain ⟨raw, hr⟩ := bib_field hsec ha
    obtain ⟨f, r, rfl⟩ := buildField_kinds.2.2.1 hr
    exact ⟨_, rfl⟩

omit [PyNum N] in
theorem info_total {P : FieldParsers ρ} {s : SubEntry ρ} (h : ∀ b, s.bib = some b → ∃ sec, BibSection.build P sec = .ok b) (a : Str) : ∃ i, s.info a = .ok i := by
  unfold SubEntry.info
  cases hb : s.bib with
  | none => exact ⟨_, rfl⟩
  | some b =>
    obtain ⟨sec, hsec⟩ := h b hb
    have hm := C72_available hsec a
    obtain ⟨m, hm⟩ := hm
    obtain ⟨-, h2, h3⟩ := BibSection.meta_snd hm
    have h4 : ∃ x, b.reactions = .ok x := by
      unfold BibSection.reactions
      cases ha : b.fields.get? (some "REACTION".toList) with
      | none => exact ⟨_, rfl⟩
      | some v =>
        obtain ⟨raw, hr⟩ := bib_field hsec ha
        obtain ⟨f, r, rfl⟩ := buildField_kinds.1 hr
        exact ⟨_, rfl⟩
    have h5 : ∃ x, b.monitors = .ok x := by
      unfold BibSection.monitors
      cases ha : b.fields.get? (some "MONITOR".toList) with
      | none => exact ⟨_, rfl⟩
      | some v =>
        obtain ⟨raw, hr⟩ := bib_field hsec ha
        obtain ⟨f, r, rfl⟩ := buildField_kinds.2.1 hr
        exact ⟨_, rfl⟩
    obtain ⟨x, h4⟩ := h4
    obtain ⟨y, h5⟩ := h5
    simp only [hm, h2, h3, h4, h5]
    exact ⟨_, rfl⟩

omit [PyNum N] in
theorem entry_subs {P : FieldParsers ρ} {raw : List Str} {e : Entry ρ} (h : Entry.build P raw = .ok e) {k : Option Str} {s : SubEntry ρ}
    (hs : e.subs.get? k = some s) : ∃ lines, SubEntry.build P lines = .ok s := by
  unfold Entry.build at h
  split at h
  · cases h
  · split at h
    · cases h
    · split at h
      · cases h
      · rename_i d hd
        cases h
        have := foldE_inv (I := fun d : Dict (Option Str) (SubEntry ρ) => ∀ k s, d.get? k = some s → ∃ lines, SubEntry.build P lines = .ok s) ?_ (by simp [Dict.get?]) hd
        · exact this k s hs
        · intro d x d' hI hx k s hs
          unfold entryStep at hx
          split at hx
          · cases hx
          · rename_i S hS
            cases hx
            rw [Dict.get?_set] at hs
            split at hs
            · cases hs; exact ⟨_, hS⟩
            · exact hI k s hs

/-- C86: `getDataSets` of an entry that was read returns, whatever the reactions and tables of the entry are, if the
entry has a first subentry with a bibliography and the combinations of reactions can be printed; what cannot be made
into a dataset is recorded. -/
theorem C86_returns (P : FieldParsers ρ) (raw : List Str) (rx : RxOps ρ) (e : Entry ρ) (he : Entry.build P raw = .ok e) (errs : Dict DsKey PyErr)
    (s : SubEntry ρ) (hs : e.subs.get? e.mainKey = some s) (b : BibSection ρ) (hb : s.bib = some b)
    (hpr : ∀ k S b rs, e.subs.get? k = some S → S.bib = some b → b.reactions = .ok rs → ∀ pr ∈ rs, Printable rx pr.2.1) :
    ∃ st : DsState ρ N, e.getDataSets rx errs = .ok st := by
  have hprI : ∀ k S a i, e.subs.get? k = some S → S.info a = .ok i → ∀ pr ∈ i.1.reactions, Printable rx pr.2.1 := by
    intro k S a i hS hi pr hp
    rcases SubEntry.info_reactions hi with ⟨-, h⟩ | ⟨b, hb, hr⟩
    · rw [h] at hp; cases hp
    · exact hpr k S b _ hS hb hr pr hp
  have hgood : ∀ k s, e.subs.get? k = some s → ∀ b, s.bib = some b → ∃ sec, BibSection.build P sec = .ok b := by
    intro k s hs b hb
    obtain ⟨lines, hl⟩ := entry_subs he hs
    exact sub_bib hl hb
  have hitem : e.getItem (.int 1) = .ok s := by
    have e1 : e.getItem (.int 1) = e.subs.get e.mainKey := rfl
    rw [e1]
    unfold Dict.get
    rw [hs]
  have hmb : e.mainBib = .ok b := by
    unfold Entry.mainBib
    rw [hitem]
    unfold SubEntry.bib at hb
    split at hb
    · rename_i b' hb'
      cases hb
      simp only [Dict.get, hb']
    · cases hb
  have hdel : ∃ x, e.deleted = .ok x := by
    unfold Entry.deleted
    rw [hmb]
    simp only
    split <;> exact ⟨_, rfl⟩
  obtain ⟨x, hdel⟩ := hdel
  unfold Entry.getDataSets
  rw [hdel]
  cases x with
  | true => exact ⟨_, rfl⟩
  | false =>
    simp only [hitem]
    obtain ⟨mi, hmi⟩ := info_total (hgood _ _ hs) (e.accnum ++ "001".toList)
    rw [hmi]
    simp only
    have hset : ∀ (S : SubEntry ρ) (a : Str) (i : SubInfo ρ × SubEntry ρ), (∀ a, ∃ j, S.info a = .ok j ∧ ∀ pr ∈ j.1.reactions, Printable rx pr.2.1) →
        S.info a = .ok i → ∀ a, ∃ j, i.2.info a = .ok j ∧ ∀ pr ∈ j.1.reactions, Printable rx pr.2.1 := by
      intro S a i hS hi a'
      unfold SubEntry.info at hi
      split at hi
      · cases hi; exact hS a'
      · rename_i b0 hb0
        obtain ⟨j0, hj0, hj0'⟩ := hS a
        unfold SubEntry.info at hj0
        rw [hb0] at hj0
        simp only at hj0
        split at hi
        · cases hi
        · rename_i m hm
          rw [hm] at hj0
          simp only at hj0
          split at hi
          · cases hi
          · rename_i rr hrr
            rw [hrr] at hj0
            simp only at hj0
            split at hi
            · cases hi
            · rename_i mm hmm
              rw [hmm] at hj0
              cases hj0
              cases hi
              obtain ⟨h1, h2, h3⟩ := BibSection.meta_snd hm
              have hm' : ∃ m', m.2.meta a' = .ok m' := by
                unfold BibSection.meta at h1 ⊢
                split at h1
                · cases h1
                · simp only at h1 ⊢
                  split at h1
                  · exact ⟨_, rfl⟩
                  · split at h1
                    · cases h1
                    · exact ⟨_, rfl⟩
              obtain ⟨m', hm'⟩ := hm'
              obtain ⟨g1, g2, g3⟩ := BibSection.meta_snd hm'
              have hbib : ∀ (t : SubEntry ρ) bb, SubEntry.bib { t with sections := t.sections.set "BIB".toList (.bib bb) } = some bb := by
                intro t bb
                simp [SubEntry.bib, Dict.get?_set]
              unfold SubEntry.info
              rw [hbib]
              simp only [hm', g2, g3, hrr, hmm]
              exact ⟨_, rfl, hj0'⟩
    have := foldE_total (f := subStep (N := N) rx e.mainKey mi.1)
      (I := fun st => ∀ k S, st.entry.subs.get? k = some S → ∀ a, ∃ j, S.info a = .ok j ∧ ∀ pr ∈ j.1.reactions, Printable rx pr.2.1) ?_ e.subs.keys
      { errors := errs, entry := { e with subs := e.subs.set e.mainKey mi.2 } } ?_
    · obtain ⟨st, h, -⟩ := this
      exact ⟨st, h⟩
    · intro st hst k
      unfold subStep
      split
      · exact ⟨_, rfl, hst⟩
      · rename_i S hS
        split
        · exact ⟨_, rfl, hst⟩
        · obtain ⟨i, hi, hip⟩ := hst k S hS (S.accnum.getD "None".toList)
          rw [hi]
          simp only
          obtain ⟨st1, h1, h1'⟩ := foldE_dsStep_entry (rx := rx) (acc := st.entry.accnum) (sub := S.accnum) (ms := [mi.1.info, i.1.info])
            (common := commonList e.mainKey k mi.1.common i.1.common) (data := by assumption) (from_ := mi.1) mi.1.reactions
            (hprI _ _ _ _ hs hmi) { st with entry := { st.entry with subs := st.entry.subs.set k i.2 } }
          obtain ⟨st2, h2, h2'⟩ := foldE_dsStep_entry (rx := rx) (acc := st.entry.accnum) (sub := S.accnum) (ms := [mi.1.info, i.1.info])
            (common := commonList e.mainKey k mi.1.common i.1.common) (data := by assumption) (from_ := i.1) i.1.reactions hip st1
          rw [h1]
          refine ⟨st2, h2, ?_⟩
          rw [h2', h1']
          intro k' S' hS' a
          simp only [Dict.get?_set] at hS'
          split at hS'
          · cases hS'
            exact hset S _ i (hst k S hS) hi a
          · exact hst k' S' hS' a
    · intro k S hS a
      simp only [Dict.get?_set] at hS
      split at hS
      · cases hS
        refine hset s _ mi (fun a => ?_) hmi a
        obtain ⟨j, hj⟩ := info_total (hgood _ _ hs) a
        exact ⟨j, hj, hprI _ _ _ _ hs hj⟩
      · obtain ⟨j, hj⟩ := info_total (hgood k S hS) a
        exact ⟨j, hj, hprI _ _ _ _ hS hj⟩

theorem dsStep_caught {rx : RxOps ρ} {acc : Str} {sub : Option Str} {ms : List (Option (DsMeta ρ))} {common : List (Option (Nat × DataSection))}
    {data : DataSection} {from_ : SubInfo ρ} {st st' : DsState ρ N} {pr : Char × (ρ × Str)} (hI : ∀ k x, st.errors.get? k = some x → caught x)
    (h : dsStep rx acc sub ms common data from_ st pr = .ok st') : ∀ k x, st'.errors.get? k = some x → caught x := by
  intro k x hx
  rcases (dsStep_eq rx acc sub ms common data from_ st st' pr h).2 with ⟨d, -, -, h2⟩ | ⟨y, -, hy, h2, -⟩
  · rw [h2] at hx; exact hI k x hx
  · rw [h2, Dict.get?_set] at hx
    split at hx
    · cases hx; exact hy
    · exact hI k x hx

/-- C86 as first stated fails: a combination of reactions with different quantities is recorded as an error, unless it cannot be printed; then
`getDataSets` does not return, and none of the datasets of the entry can be had. (It is `str` of the combination that raises the exception, in
the message of the one that would be caught: for instance a KeyError for a compound that is not in the dictionary.) -/
theorem C86_unprintable_refuted (P : FieldParsers ρ) (raw : List Str) (rx : RxOps ρ) (e : Entry ρ) (he : Entry.build P raw = .ok e)
    (hdel : e.deleted = .ok false) (k : Option Str) (S : SubEntry ρ) (hS : e.subs.get? k = some S) (t : DataSection) (ht : S.data = some t)
    (b : BibSection ρ) (hb : S.bib = some b) (rs : Dict Char (ρ × Str)) (hrs : b.reactions = .ok rs) (p : Char) (r : ρ × Str) (hr : rs.get? p = some r)
    (hc : rx.quantity r.1 = none) (q q' : List Str) (hq : q ∈ rx.members r.1) (hq' : q' ∈ rx.members r.1) (hne : q ≠ q')
    (x : PyErr) (hx : rx.text r.1 = .error x) (hx1 : x ≠ .notImplementedError) (hx2 : x ≠ .indexError) :
    ∀ st : DsState ρ N, e.getDataSets rx [] ≠ .ok st := by
  intro st hst
  have hinv : ∀ k y, st.errors.get? k = some y → caught y := by
    have h := hst
    unfold Entry.getDataSets at h
    rw [hdel] at h
    simp only at h
    split at h
    · cases h
    · split at h
      · cases h
      · refine foldE_inv (I := fun st : DsState ρ N => ∀ k y, st.errors.get? k = some y → caught y) ?_ (by simp [Dict.get?]) h
        intro st key st' hI hs
        unfold subStep at hs
        split at hs
        · cases hs; exact hI
        · split at hs
          · cases hs; exact hI
          · split at hs
            · cases hs
            · split at hs
              · cases hs
              · rename_i st1 h1
                have hI1 : ∀ k y, st1.errors.get? k = some y → caught y := by
                  refine foldE_inv (I := fun st : DsState ρ N => ∀ k y, st.errors.get? k = some y → caught y) ?_ ?_ h1
                  · exact fun _ _ _ hi h => dsStep_caught hi h
                  · exact hI
                refine foldE_inv (I := fun st : DsState ρ N => ∀ k y, st.errors.get? k = some y → caught y) ?_ hI1 hs
                exact fun _ _ _ hi h => dsStep_caught hi h
  obtain ⟨s, main, -, -, -, h4⟩ := getDataSets_eq rx e (Entry.build_sound he) [] st hdel hst
  obtain ⟨i, hi⟩ := info_total (fun b hb => by
    obtain ⟨lines, hl⟩ := entry_subs he hS
    exact sub_bib hl hb) (S.accnum.getD "None".toList)
  have hir : i.1.reactions = rs := by
    rcases SubEntry.info_reactions hi with ⟨h0, -⟩ | ⟨b', hb', hbr⟩
    · rw [hb] at h0; cases h0
    · rw [hb] at hb'
      cases hb'
      rw [hrs] at hbr
      exact (Except.ok.inj hbr).symm
  have hdi : e.dataOf k = some (t, i.1) := by
    unfold Entry.dataOf
    rw [hS]
    simp only [ht, hi]
  have hquant : effectiveQuant rx r.1 = .error x := ((C35_coupled rx r.1 hc).2 fun q0 h => hne ((h.2 q hq).trans (h.2 q' hq').symm)).2 x hx
  have hbad := h4 (e.accnum, k, p)
  simp only [if_true, badOf, hdi, ownAttempt, attempt, hir, hr, Option.map_some, dataSetFactory, hquant, errPart, Option.some_or] at hbad
  have := hinv _ _ hbad
  cases x <;> simp_all [caught]

/-! ### the dataset of a subentry -/

/-- the value in a cell -/
def cellVal (c : Str) : Option N := (parseFORTRANNumber c).toOption.bind cellNum

/-- the headings, units and values that a COMMON table with one row contributes to every row of a dataset -/
def docHeads (o : Option TableDoc) : List Str := o.elim [] fun t => t.labels.map head10
def docUnits (o : Option TableDoc) : List (Option Str) := o.elim [] fun t => t.units.map fun u => some (head10 u)
def docRow (o : Option TableDoc) : List (Option N) := o.elim [] fun t => (t.rows.headD []).map cellVal

/-- a COMMON table with one row and without other pointers than `p` -/
def PlainDoc (p : Char) (o : Option TableDoc) : Prop := ∀ t ∈ o, (∀ l ∈ t.labels, headPointer l = none ∨ headPointer l = some p) ∧ t.rows.length = 1

theorem cells_val {r : List Str} {v : List (Option FloatLit)} (h : mapE parseFORTRANNumber r = .ok v) : v.map (cellNum (N := N)) = r.map cellVal := by
  induction r generalizing v with
  | nil => cases h; rfl
  | cons c r ih =>
    rw [mapE] at h
    split at h
    · cases h
    · rename_i x hx
      split at h
      · cases h
      · rename_i xs hxs
        cases h
        rw [List.map_cons, List.map_cons, ih hxs, cellVal, hx]
        rfl

theorem docCommon {o : Option TableDoc} {P : FieldParsers ρ} {S : SubEntry ρ} (h : match o with
    | none => S.sections.get? "COMMON".toList = none
    | some t => ∃ d, S.sections.get? "COMMON".toList = some (.data d) ∧ DataSection.build chars!"COMMON" (t.lines chars!"COMMON") = .ok d ∧ TableHolds t d)
    {p : Char} (hp : PlainDoc p o) (n : Nat) :
    (∀ c ∈ S.common, PlainCommon (some p) c) ∧ commonLabels (S.common.map fun c => (n, c)) = docHeads o ∧ commonUnits (S.common.map fun c => (n, c)) = docUnits o ∧
      ∀ i, commonBlock (N := N) (S.common.map fun c => (n, c)) i = docRow o := by
  cases o with
  | none =>
    simp only at h
    have : S.common = none := by unfold SubEntry.common; rw [h]
    rw [this]
    exact ⟨by simp, rfl, rfl, fun i => rfl⟩
  | some t =>
    obtain ⟨d, h1, h2, h3⟩ := h
    obtain ⟨hl, hr⟩ := hp t rfl
    have : S.common = some d := by unfold SubEntry.common; rw [h1]
    rw [this]
    refine ⟨?_, ?_, ?_, ?_⟩
    · intro c hc
      cases hc
      exact ⟨⟨_, h2⟩, by rw [h3.labels]; exact hl⟩
    · simp [commonLabels, docHeads, h3.labels]
    · simp [commonUnits, docUnits, h3.units]
    · intro i
      obtain ⟨r, hr⟩ := List.length_eq_one_iff.1 hr
      have hn : d.numrows = 1 := by rw [h3.numrows, hr]; rfl
      simp only [commonBlock, Option.map_some, hn, if_true, docRow, Option.elim, hr, List.headD_cons]
      have hd := h3.data
      rw [hr, mapE] at hd
      split at hd
      · cases hd
      · rename_i v hv
        rw [mapE] at hd
        cases hd' : d.data with
        | nil => rw [hd'] at hd; cases hd
        | cons v' vs =>
          rw [hd'] at hd
          cases hd
          exact cells_val hv

/-- the entries of a REACTION field -/
theorem field_reactions {P : FieldParsers ρ} {raw : List Str} {v : BibField ρ} (h : buildField P (some "REACTION".toList) raw = .ok v) (p : Char)
    (hp : textUnder raw p ≠ []) : ∃ f rs r, v = .reaction f rs ∧ P.reaction (joinWith [' '] ((textUnder raw p).map strip)) = .ok r ∧ rs.get? p = some r := by
  unfold buildField at h
  rw [if_pos rfl] at h
  unfold finishField at h
  split at h
  · cases h
  · rename_i f hf
    split at h
    · cases h
    · rename_i rs hrs
      cases h
      obtain ⟨h1, h2⟩ := C39_pointer_in_force raw f hf p
      obtain ⟨ls, hls⟩ := Option.isSome_iff_exists.1 ((Dict.mem_keys_iff _ _).1 (h2.2 hp))
      rw [hls] at h1
      simp only [Option.getD_some] at h1
      subst h1
      have hmem := Dict.mem_of_get? hls
      have hkeys : Dict.keys rs = f.subs.keys := mapE_keys (fun kv r hr => by
        unfold reactionOf at hr
        split at hr
        · cases hr
        · cases hr; rfl) hrs
      have hn : (Dict.keys rs).Nodup := hkeys ▸ nodup_build_field hf
      obtain ⟨j, hj⟩ := List.mem_iff_getElem?.1 hmem
      obtain ⟨r, hm, hr⟩ := mapE_get hrs j _ hj
      replace hm := List.mem_of_getElem? hm
      unfold reactionOf reraise at hr
      split at hr
      · cases hr
      · rename_i x hx
        cases hr
        refine ⟨f, rs, x, rfl, ?_, Dict.get?_eq_some_of_mem hn hm⟩
        split at hx
        · cases hx
        · exact hx

theorem forall₂_get {α β γ : Type} [DecidableEq γ] {l : List α} {d : Dict γ β} {k : α → γ} {Q : α → β → Prop}
    (h : List.Forall₂ (fun a kv => kv.1 = k a ∧ Q a kv.2) l d) (hn : (l.map k).Nodup) {a : α} (ha : a ∈ l) : ∃ v, d.get? (k a) = some v ∧ Q a v := by
  induction h with
  | nil => cases ha
  | @cons b kv l d hb h ih =>
    rw [List.map_cons, List.nodup_cons] at hn
    rw [Dict.get?]
    rcases List.mem_cons.1 ha with rfl | ha
    · exact ⟨kv.2, by rw [if_pos hb.1], hb.2⟩
    · rw [if_neg]
      · exact ih hn.2 ha
      · intro he
        exact hn.1 (by rw [← hb.1, he]; exact List.mem_map.2 ⟨a, ha, rfl⟩)

/-- the entries of a REACTION field are those under its pointers -/
theorem field_no_reaction {P : FieldParsers ρ} {raw : List Str} {v : BibField ρ} (h : buildField P (some "REACTION".toList) raw = .ok v) (p : Char)
    (hp : textUnder raw p = []) : ∃ f rs, v = .reaction f rs ∧ rs.get? p = none := by
  unfold buildField at h
  rw [if_pos rfl] at h
  unfold finishField at h
  split at h
  · cases h
  · rename_i f hf
    split at h
    · cases h
    · rename_i rs hrs
      cases h
      obtain ⟨-, h2⟩ := C39_pointer_in_force raw f hf p
      have hkeys : Dict.keys rs = f.subs.keys := mapE_keys (fun kv r hr => by
        unfold reactionOf at hr
        split at hr
        · cases hr
        · cases hr; rfl) hrs
      refine ⟨f, rs, rfl, Dict.get?_eq_none_iff.2 ?_⟩
      rw [hkeys]
      exact fun hk => h2.1 hk hp

/-- the text of the reaction that is written in a subentry under a pointer -/
def SubDoc.reactionText (s : SubDoc) (p : Char) : List Str :=
  ((s.bib.find? fun f => decide (f.tag = chars!"REACTION")).map fun f => textUnder f.lines p).getD []

/-- the text of the reaction of a table: that of its own subentry, or of the first one -/
def docReaction (m s : SubDoc) (p : Char) : List Str :=
  if s.reactionText p ≠ [] then s.reactionText p else m.reactionText p

theorem forall₂_get_none {α β γ : Type} [DecidableEq γ] {l : List α} {d : Dict γ β} {k : α → γ} {Q : α → β → Prop}
    (h : List.Forall₂ (fun a kv => kv.1 = k a ∧ Q a kv.2) l d) {x : γ} (hx : ∀ a ∈ l, k a ≠ x) : d.get? x = none := by
  induction h with
  | nil => rfl
  | @cons b kv l d hb h ih =>
    rw [Dict.get?, if_neg]
    · exact ih fun a ha => hx a (List.mem_cons_of_mem _ ha)
    · rw [hb.1]
      exact hx b (List.mem_cons_self ..)

theorem forall₂_keys {α β γ : Type} {l : List α} {d : Dict γ β} {k : α → γ} {Q : α → β → Prop}
    (h : List.Forall₂ (fun a kv => kv.1 = k a ∧ Q a kv.2) l d) : d.keys = l.map k := by
  induction h with
  | nil => rfl
  | @cons b kv l d hb h ih =>
    simp only [Dict.keys, List.map_cons] at ih ⊢
    rw [ih, hb.1]

/-- the reactions of a subentry that was read -/
theorem doc_reactions {P : FieldParsers ρ} {s : SubDoc} (hw : s.wf) {S : SubEntry ρ} (hS : SubHolds P s S) {a : Str} {i : SubInfo ρ × SubEntry ρ}
    (hi : S.info a = .ok i) (p : Char) :
    (s.reactionText p = [] → i.1.reactions.get? p = none) ∧
    (s.reactionText p ≠ [] → ∃ r, P.reaction (joinWith [' '] ((s.reactionText p).map strip)) = .ok r ∧ i.1.reactions.get? p = some r) := by
  obtain ⟨b, hb1, hb2⟩ := hS.bib
  have hbS : S.bib = some b := by unfold SubEntry.bib; rw [hb1]
  have hbr : b.reactions = .ok i.1.reactions := by
    rcases SubEntry.info_reactions hi with ⟨h0, -⟩ | ⟨b', hb', hbr⟩
    · rw [hbS] at h0; cases h0
    · rw [hbS] at hb'
      cases hb'
      exact hbr
  unfold SubDoc.reactionText
  cases hf : s.bib.find? fun f => decide (f.tag = chars!"REACTION") with
  | none =>
    have h0 : b.fields.get? (some "REACTION".toList) = none := forall₂_get_none (k := fun f : FieldDoc => some f.tag)
      (Q := fun f v => buildField P (some f.tag) f.lines = .ok v) hb2.fields (fun f hf' he => by
        have := List.find?_eq_none.1 hf f hf'
        exact this (decide_eq_true (Option.some.inj he)))
    unfold BibSection.reactions at hbr
    rw [h0] at hbr
    simp only [Except.ok.injEq] at hbr
    rw [← hbr]
    exact ⟨fun _ => rfl, fun h => absurd rfl h⟩
  | some f =>
    have hmem := List.mem_of_find?_eq_some hf
    have htag : f.tag = "REACTION".toList := by
      have := List.find?_some hf
      simpa using this
    have hndt : (s.bib.map fun f => some f.tag).Nodup := by
      have := (List.nodup_map_iff (Option.some_injective Str)).2 hw.tags
      rwa [List.map_map] at this
    obtain ⟨v, hv, hv2⟩ := forall₂_get (k := fun f : FieldDoc => some f.tag) (Q := fun f v => buildField P (some f.tag) f.lines = .ok v) hb2.fields hndt hmem
    simp only [htag] at hv hv2
    simp only [Option.map_some, Option.getD_some]
    unfold BibSection.reactions at hbr
    rw [hv] at hbr
    constructor
    · intro hp
      obtain ⟨fp, rs, rfl, hr2⟩ := field_no_reaction hv2 p hp
      cases hbr
      exact hr2
    · intro hp
      obtain ⟨fp, rs, r, rfl, hr1, hr2⟩ := field_reactions hv2 p hp
      cases hbr
      exact ⟨r, hr1, hr2⟩

/-- the combinations of reactions written in the REACTION fields can be printed -/
def EntryDoc.Printable (P : FieldParsers ρ) (rx : RxOps ρ) (D : EntryDoc) : Prop :=
  ∀ s ∈ D.subs, ∀ p r, s.reactionText p ≠ [] → P.reaction (joinWith [' '] ((s.reactionText p).map strip)) = .ok r → X4.Printable rx r.1

/-- `getDataSets` of an entry that was read returns -/
theorem doc_returns (P : FieldParsers ρ) (rx : RxOps ρ) (D : EntryDoc) (h : D.wf) (hpr : D.Printable P rx) (subs : List SubDoc) (hsub : subs.Sublist D.subs)
    (raw : List Str) (e : Entry ρ) (he : Entry.build P raw = .ok e) (hold : EntryHolds P D subs e) (m : SubDoc) (hm : m ∈ subs) (hma : m.acc = D.acc ++ "001".toList) :
    ∃ st : DsState ρ N, e.getDataSets rx [] = .ok st := by
  obtain ⟨hacc, hsubs⟩ := hold
  have hnd : (subs.map fun s => some s.acc).Nodup := by
    have := (List.nodup_map_iff (Option.some_injective Str)).2 (h.distinct.sublist (hsub.map _))
    rwa [List.map_map] at this
  obtain ⟨M, hM, hMh⟩ := forall₂_get hsubs hnd hm
  have hmk : e.mainKey = some m.acc := by rw [Entry.mainKey, hacc, hma]
  obtain ⟨bM, hb1, -⟩ := hMh.bib
  have hbM : M.bib = some bM := by unfold SubEntry.bib; rw [hb1]
  refine C86_returns (N := N) P _ rx e he [] M (by rw [hmk]; exact hM) bM hbM ?_
  rintro k S b rs hS hb hr ⟨p, r⟩ hp
  have hk : k ∈ subs.map fun s => some s.acc := by
    rw [← forall₂_keys (k := fun s : SubDoc => some s.acc) (Q := fun s S => SubHolds P s S) hsubs]
    exact (Dict.mem_keys_iff _ _).2 (by rw [hS]; rfl)
  obtain ⟨s, hs, rfl⟩ := List.mem_map.1 hk
  obtain ⟨S', hS', hSh⟩ := forall₂_get hsubs hnd hs
  rw [hS] at hS'
  cases hS'
  obtain ⟨i, hi⟩ := info_total (fun b hb => by
    obtain ⟨lines, hl⟩ := entry_subs he hS
    exact sub_bib hl hb) []
  have hir : i.1.reactions = rs := by
    rcases SubEntry.info_reactions hi with ⟨h0, -⟩ | ⟨b', hb', hbr⟩
    · rw [hb] at h0; cases h0
    · rw [hb] at hb'
      cases hb'
      rw [hr] at hbr
      exact (Except.ok.inj hbr).symm
  have hg := Dict.get?_eq_some_of_mem ((Entry.build_sound he).reactions _ _ _ _ hS hb hr) hp
  rw [← hir] at hg
  obtain ⟨g1, g2⟩ := doc_reactions (h.subs s (hsub.subset hs)).1 hSh hi p
  by_cases ht : s.reactionText p = []
  · rw [g1 ht] at hg; cases hg
  · obtain ⟨r', hr1, hr2⟩ := g2 ht
    rw [hr2] at hg
    cases hg
    exact hpr s (hsub.subset hs) p _ ht hr1

/-- the datasets of an entry that was read -/
theorem doc_values (P : FieldParsers ρ) (rx : RxOps ρ) (D : EntryDoc) (h : D.wf) (subs : List SubDoc) (hsub : subs.Sublist D.subs) (raw : List Str) (e : Entry ρ)
    (he : Entry.build P raw = .ok e) (hold : EntryHolds P D subs e) (m : SubDoc) (hm : m ∈ subs) (hma : m.acc = D.acc ++ "001".toList)
    (st : DsState ρ N) (hst : e.getDataSets rx [] = .ok st) :
    ∃ (M : SubEntry ρ) (main : SubInfo ρ × SubEntry ρ), SubHolds P m M ∧
      M.info (e.accnum ++ "001".toList) = .ok main ∧ st.datasets.keys.Nodup ∧
      (∀ s ∈ subs, ∃ S, e.subs.get? (some s.acc) = some S ∧ SubHolds P s S) ∧
      ∀ a k p, st.datasets.get? (a, k, p) = if a = e.accnum then goodOf rx e main.1 k p else none := by
  obtain ⟨hacc, hsubs⟩ := hold
  have hnd : (subs.map fun s => some s.acc).Nodup := by
    have := (List.nodup_map_iff (Option.some_injective Str)).2 (h.distinct.sublist (hsub.map _))
    rwa [List.map_map] at this
  obtain ⟨M, hM, hMh⟩ := forall₂_get hsubs hnd hm
  have hmk : e.mainKey = some m.acc := by rw [Entry.mainKey, hacc, hma]
  obtain ⟨bM, hb1, -⟩ := hMh.bib
  have hbM : M.bib = some bM := by unfold SubEntry.bib; rw [hb1]
  have hitem : e.getItem (.int 1) = .ok M := by
    have e1 : e.getItem (.int 1) = e.subs.get e.mainKey := rfl
    rw [e1, hmk]
    unfold Dict.get
    rw [hM]
  have hdel : e.deleted = .ok false := by
    have hmb : e.mainBib = .ok bM := by
      unfold Entry.mainBib
      rw [hitem]
      simp only [Dict.get, hb1]
    have : ∃ x, e.deleted = .ok x := by
      unfold Entry.deleted
      rw [hmb]
      simp only
      split <;> exact ⟨_, rfl⟩
    obtain ⟨x, hx⟩ := this
    rw [hx, C15_never_deleted e x hx]
  obtain ⟨hn, M', main, hM', hmain, hval⟩ := C17_values P _ rx e he [] st hdel hst
  have hMM : M' = M := by
    have : some (e.accnum ++ "001".toList) = some m.acc := hmk
    rw [this, hM] at hM'
    exact (Option.some.inj hM').symm
  subst hMM
  refine ⟨M', main, hMh, hmain, hn, fun s hs => forall₂_get hsubs hnd hs, ?_⟩
  intro a k p
  rw [hval]
  rfl

theorem info_common {X : SubEntry ρ} {a : Str} {j : SubInfo ρ × SubEntry ρ} (hj : X.info a = .ok j) : j.1.common = X.common := by
  unfold SubEntry.info at hj
  split at hj
  · cases hj; rfl
  · split at hj
    · cases hj
    · split at hj
      · cases hj
      · split at hj
        · cases hj
        · cases hj; rfl

/-- the dataset for a table of an entry that was read -/
theorem doc_dataset (P : FieldParsers ρ) (rx : RxOps ρ) (D : EntryDoc) (h : D.wf) (hpr : D.Printable P rx) (subs : List SubDoc) (hsub : subs.Sublist D.subs) (raw : List Str) (e : Entry ρ)
    (he : Entry.build P raw = .ok e) (hold : EntryHolds P D subs e)
    (m s : SubDoc) (hm : m ∈ subs) (hma : m.acc = D.acc ++ "001".toList) (hs : s ∈ subs) (hsa : s.acc ≠ m.acc)
    (t : TableDoc) (ht : s.data = some t) (hl : t.labels.Nodup) (p : Char) (hc1 : PlainDoc p m.common) (hc2 : PlainDoc p s.common)
    (hp : docReaction m s p ≠ [])
    (r : ρ × Str) (hrx : P.reaction (joinWith [' '] ((docReaction m s p).map strip)) = .ok r) (q : List Str) (hq : effectiveQuant rx r.1 = .ok q) :
    ∃ (st : DsState ρ N) (d : DataSet ρ N), e.getDataSets rx [] = .ok st ∧
      st.datasets.get? (D.acc, some s.acc, p) = some d ∧ d.reaction = some r ∧ d.kind = kindOf q ∧ d.simplified = false ∧
      d.labels = docHeads m.common ++ docHeads s.common ++ (pick (belongs t.labels (some p)) t.labels).map head10 ∧
      d.units = docUnits m.common ++ docUnits s.common ++ (pick (belongs t.labels (some p)) t.units).map (fun u => some (head10 u)) ∧
      d.data = t.rows.map fun row => docRow m.common ++ docRow s.common ++ (pick (belongs t.labels (some p)) row).map cellVal := by
  obtain ⟨st, hst⟩ := doc_returns (N := N) P rx D h hpr subs hsub raw e he hold m hm hma
  obtain ⟨M, main, hMh, hmain, -, hgets, hval⟩ := doc_values (N := N) P rx D h subs hsub raw e he hold m hm hma st hst
  have hacc := hold.accnum
  have hmk : e.mainKey = some m.acc := by rw [Entry.mainKey, hacc, hma]
  obtain ⟨S, hS, hSh⟩ := hgets s hs
  have hsD : s ∈ D.subs := hsub.subset hs
  have hmD : m ∈ D.subs := hsub.subset hm
  -- the DATA section
  have hdata := hSh.data
  rw [ht] at hdata
  obtain ⟨dsec, hd1, hd2, hd3⟩ := hdata
  have hSd : S.data = some dsec := by unfold SubEntry.data; rw [hd1]
  -- the information of the subentry
  obtain ⟨i, hi⟩ := info_total (fun b hb => by
    obtain ⟨lines, hl⟩ := entry_subs he hS
    exact sub_bib hl hb) (S.accnum.getD "None".toList)
  have hdi : e.dataOf (some s.acc) = some (dsec, i.1) := by
    unfold Entry.dataOf
    rw [hS]
    simp only [hSd, hi]
  -- the table
  have hcl : commonList e.mainKey (some s.acc) main.1.common i.1.common = numbered M.common S.common := by
    rw [info_common hmain, info_common hi, commonList, numbered, hmk, if_neg]
    simpa using hsa
  obtain ⟨p1, l1, u1, b1⟩ := docCommon (N := N) (P := P) hMh.common hc1 0
  obtain ⟨p2, l2, u2, b2⟩ := docCommon (N := N) (P := P) hSh.common hc2 1
  have htab := setData_plain (N := N) hd2 (some p) p1 p2
  have hsel : ∀ j < t.labels.length, keepCol dsec (some p) j = belongs t.labels (some p) j := by
    intro j hj
    rw [keepCol_eq hd2 (by rw [hd3.labels]; exact hl) (some p) (by rw [hd3.labels]; exact hj), hd3.labels]
  have htwf := (h.subs s hsD).1.data t ht
  rw [l1, l2, u1, u2, hd3.labels, hd3.units, pick_congr t.labels hsel, pick_congr t.units (by rw [htwf.units]; exact hsel)] at htab
  have hrows : (List.range dsec.data.length).map (fun j => commonBlock (N := N) (M.common.map fun c => (0, c)) j ++ commonBlock (S.common.map fun c => (1, c)) j ++
      (pick (keepCol dsec (some p)) (dsec.data[j]?.getD [])).map cellNum) =
      t.rows.map fun row => docRow m.common ++ docRow s.common ++ (pick (belongs t.labels (some p)) row).map cellVal := by
    have hlen : dsec.data.length = t.rows.length := (mapE_length hd3.data)
    apply List.ext_getElem?
    intro j
    rcases Nat.lt_or_ge j t.rows.length with hj | hj
    · rw [range_map_get _ (by omega), List.getElem?_map, List.getElem?_eq_getElem hj, Option.map_some, b1, b2]
      obtain ⟨v, hv1, hv2⟩ := mapE_get hd3.data j _ (List.getElem?_eq_getElem hj)
      rw [hv1, Option.getD_some, ← pick_map, cells_val hv2, pick_map]
      rw [pick_congr t.rows[j] (by rw [htwf.rect _ (List.getElem_mem hj)]; exact hsel)]
    · rw [List.getElem?_eq_none (by simp; omega), List.getElem?_eq_none (by simp; omega)]
  rw [hrows] at htab
  -- the dataset
  have hval := hval e.accnum (some s.acc) p
  rw [if_pos rfl, goodOf, hdi] at hval
  unfold docReaction at hp hrx
  by_cases hown : s.reactionText p ≠ []
  · rw [if_pos hown] at hrx
    obtain ⟨r', hr1, hr2⟩ := (doc_reactions (h.subs s hsD).1 hSh hi p).2 hown
    rw [hrx] at hr1
    cases hr1
    simp only [ownAttempt, attempt, hr2, Option.map_some, dataSetFactory, hq, DataSet.build, hcl, htab, okPart, Option.some_or] at hval
    rw [hacc] at hval
    exact ⟨st, _, hst, hval, rfl, rfl, rfl, rfl, rfl, rfl⟩
  · rw [if_neg hown] at hrx hp
    have hr2 := (doc_reactions (h.subs s hsD).1 hSh hi p).1 (not_not.1 hown)
    obtain ⟨r', hr1, hr3⟩ := (doc_reactions (h.subs m hmD).1 hMh hmain p).2 hp
    rw [hrx] at hr1
    cases hr1
    simp only [ownAttempt, mainAttempt, attempt, hr2, hr3, Option.map_some, Option.map_none, dataSetFactory, hq, DataSet.build, hcl, htab, okPart, Option.none_or] at hval
    rw [hacc] at hval
    exact ⟨st, _, hst, hval, rfl, rfl, rfl, rfl, rfl, rfl⟩

/-- there are no other datasets -/
theorem doc_only (P : FieldParsers ρ) (rx : RxOps ρ) (D : EntryDoc) (h : D.wf) (subs : List SubDoc) (hsub : subs.Sublist D.subs) (raw : List Str) (e : Entry ρ)
    (he : Entry.build P raw = .ok e) (hold : EntryHolds P D subs e) (m : SubDoc) (hm : m ∈ subs) (hma : m.acc = D.acc ++ "001".toList) (st : DsState ρ N)
    (hst : e.getDataSets rx [] = .ok st) (a : Str) (k : Option Str) (p : Char) (d : DataSet ρ N) (hd : st.datasets.get? (a, k, p) = some d) :
    a = D.acc ∧ ∃ s ∈ subs, k = some s.acc ∧ s.data ≠ none ∧ docReaction m s p ≠ [] := by
  obtain ⟨M, main, hMh, hmain, -, hgets, hval⟩ := doc_values (N := N) P rx D h subs hsub raw e he hold m hm hma st hst
  rw [hval] at hd
  split at hd
  · rename_i ha
    refine ⟨ha.trans hold.accnum, ?_⟩
    unfold goodOf at hd
    split at hd
    · cases hd
    · rename_i di hdi
      unfold Entry.dataOf at hdi
      split at hdi
      · cases hdi
      · rename_i S hS
        have hk : k ∈ subs.map fun s => some s.acc := by
          rw [← forall₂_keys (k := fun s : SubDoc => some s.acc) (Q := fun s S => SubHolds P s S) hold.subs]
          exact (Dict.mem_keys_iff _ _).2 (by rw [hS]; rfl)
        obtain ⟨s, hs, rfl⟩ := List.mem_map.1 hk
        obtain ⟨S', hS', hSh⟩ := hgets s hs
        rw [hS] at hS'
        cases hS'
        refine ⟨s, hs, rfl, ?_, ?_⟩
        · intro hn
          have h1 := hSh.data
          rw [hn] at h1
          have h2 : S.data = none := by unfold SubEntry.data; rw [h1]
          rw [h2] at hdi
          cases hdi
        · intro hn
          unfold docReaction at hn
          split at hn
          · rename_i h0
            exact h0 hn
          · rename_i h0
            have hi : ∃ i, S.info (S.accnum.getD "None".toList) = .ok i ∧ i.1 = di.2 := by
              split at hdi
              · cases hdi
              · split at hdi
                · cases hdi
                · cases hdi; exact ⟨_, by assumption, rfl⟩
            obtain ⟨i, hi, hdi'⟩ := hi
            have h1 := (doc_reactions (h.subs s (hsub.subset hs)).1 hSh hi p).1 (not_not.1 h0)
            have h2 := (doc_reactions (h.subs m (hsub.subset hm)).1 hMh hmain p).1 hn
            rw [hdi'] at h1
            simp only [ownAttempt, mainAttempt, attempt, h1, h2, Option.map_none, okPart, Option.none_or] at hd
            cases hd
  · cases hd

/-- C86: the datasets of an entry written as a file, all subentries or some of them being requested. For every subentry
after the first that has a DATA table and every pointer of its REACTION field, or of that of the first subentry, there
is a dataset with the reaction that is written there. Its columns are those of the two COMMON tables and the columns of
the DATA table with this pointer or none, with the headings and units written above them; its rows are the rows of the
DATA table with the values of the COMMON tables before them. -/
theorem C86_dataset_partial (P : FieldParsers ρ) (rx : RxOps ρ) (D : EntryDoc) (h : D.wf) (hpr : D.Printable P rx) (hr : ∀ s ∈ D.subs, s.Readable P) (subents : Option (List Str))
    (m s : SubDoc) (hm : m ∈ D.subs) (hma : m.acc = D.acc ++ "001".toList) (hmr : requested subents m.acc) (hs : s ∈ D.subs) (hsa : s.acc ≠ m.acc)
    (hsr : requested subents s.acc) (t : TableDoc) (ht : s.data = some t) (hl : t.labels.Nodup) (p : Char) (hc1 : PlainDoc p m.common) (hc2 : PlainDoc p s.common)
    (hp : docReaction m s p ≠ [])
    (r : ρ × Str) (hrx : P.reaction (joinWith [' '] ((docReaction m s p).map strip)) = .ok r) (q : List Str) (hq : effectiveQuant rx r.1 = .ok q) :
    ∃ (e : Entry ρ) (st : DsState ρ N) (d : DataSet ρ N), Entry.build P (splitEntryFile subents D.file) = .ok e ∧ e.getDataSets rx [] = .ok st ∧
      st.datasets.get? (D.acc, some s.acc, p) = some d ∧ d.reaction = some r ∧ d.kind = kindOf q ∧ d.simplified = false ∧
      d.labels = docHeads m.common ++ docHeads s.common ++ (pick (belongs t.labels (some p)) t.labels).map head10 ∧
      d.units = docUnits m.common ++ docUnits s.common ++ (pick (belongs t.labels (some p)) t.units).map (fun u => some (head10 u)) ∧
      d.data = t.rows.map fun row => docRow m.common ++ docRow s.common ++ (pick (belongs t.labels (some p)) row).map cellVal := by
  obtain ⟨e, he, hold⟩ := C85_read P D h subents hr ⟨m, hm, hmr⟩
  obtain ⟨st, d, hd⟩ := doc_dataset (N := N) P rx D h hpr _ List.filter_sublist _ e he hold m s (List.mem_filter.2 ⟨hm, hmr⟩) hma (List.mem_filter.2 ⟨hs, hsr⟩) hsa
    t ht hl p hc1 hc2 hp r hrx q hq
  exact ⟨e, st, d, he, hd⟩

/-- C86 as first stated fails for entries written as a file, too: with a combination of different quantities that cannot be printed in one
subentry with data, there are no datasets at all. -/
theorem C86_unprintable_written_refuted (P : FieldParsers ρ) (rx : RxOps ρ) (D : EntryDoc) (h : D.wf) (hr : ∀ s ∈ D.subs, s.Readable P)
    (subents : Option (List Str)) (s : SubDoc) (hs : s ∈ D.subs) (hsr : requested subents s.acc) (hd : s.data ≠ none) (p : Char)
    (hp : s.reactionText p ≠ []) (r : ρ × Str) (hrx : P.reaction (joinWith [' '] ((s.reactionText p).map strip)) = .ok r)
    (hc : rx.quantity r.1 = none) (q q' : List Str) (hq : q ∈ rx.members r.1) (hq' : q' ∈ rx.members r.1) (hne : q ≠ q')
    (x : PyErr) (hx : rx.text r.1 = .error x) (hx1 : x ≠ .notImplementedError) (hx2 : x ≠ .indexError) :
    ∃ e : Entry ρ, Entry.build P (splitEntryFile subents D.file) = .ok e ∧ ∀ st : DsState ρ N, e.getDataSets rx [] ≠ .ok st := by
  obtain ⟨e, he, hold⟩ := C85_read P D h subents hr ⟨s, hs, hsr⟩
  refine ⟨e, he, ?_⟩
  have hnd : ((D.subs.filter fun s => requested subents s.acc).map fun s => some s.acc).Nodup := by
    have := (List.nodup_map_iff (Option.some_injective Str)).2 (h.distinct.sublist ((List.filter_sublist (p := fun s : SubDoc => requested subents s.acc)).map _))
    rwa [List.map_map] at this
  obtain ⟨S, hS, hSh⟩ := forall₂_get hold.subs hnd (List.mem_filter.2 ⟨hs, hsr⟩)
  obtain ⟨t, ht⟩ := Option.ne_none_iff_exists'.1 hd
  have hdata := hSh.data
  rw [ht] at hdata
  obtain ⟨dsec, hd1, -⟩ := hdata
  have hSd : S.data = some dsec := by unfold SubEntry.data; rw [hd1]
  obtain ⟨b, hb1, -⟩ := hSh.bib
  have hSb : S.bib = some b := by unfold SubEntry.bib; rw [hb1]
  obtain ⟨i, hi⟩ := info_total (fun b hb => by
    obtain ⟨lines, hl⟩ := entry_subs he hS
    exact sub_bib hl hb) []
  obtain ⟨r', hr1, hr2⟩ := (doc_reactions (h.subs s hs).1 hSh hi p).2 hp
  rw [hrx] at hr1
  cases hr1
  have hbr : b.reactions = .ok i.1.reactions := by
    rcases SubEntry.info_reactions hi with ⟨h0, -⟩ | ⟨b', hb', hbr⟩
    · rw [hSb] at h0; cases h0
    · rw [hSb] at hb'
      cases hb'
      exact hbr
  intro st hst
  have hdel : e.deleted = .ok false := by
    have : ∃ y, e.deleted = .ok y := by
      cases hy : e.deleted with
      | ok y => exact ⟨y, rfl⟩
      | error y => simp [Entry.getDataSets, hy] at hst
    obtain ⟨y, hy⟩ := this
    rw [hy, C15_never_deleted e y hy]
  exact C86_unprintable_refuted P _ rx e he hdel _ S hS dsec hSd b hSb _ hbr p r hr2 hc q q' hq hq' hne x hx hx1 hx2 st hst

/-- C86: and there are no other datasets. (The combinations of reactions have to be printable only for `getDataSets` to return.) -/
theorem C86_only (P : FieldParsers ρ) (rx : RxOps ρ) (D : EntryDoc) (h : D.wf) (hr : ∀ s ∈ D.subs, s.Readable P) (subents : Option (List Str))
    (m : SubDoc) (hm : m ∈ D.subs) (hma : m.acc = D.acc ++ "001".toList) (hmr : requested subents m.acc) :
    ∃ e : Entry ρ, Entry.build P (splitEntryFile subents D.file) = .ok e ∧ (D.Printable P rx → ∃ st : DsState ρ N, e.getDataSets rx [] = .ok st) ∧
      ∀ st : DsState ρ N, e.getDataSets rx [] = .ok st → st.datasets.keys.Nodup ∧ ∀ a k p, (a, k, p) ∈ st.datasets.keys → a = D.acc ∧ ∃ s ∈ D.subs, requested subents s.acc ∧ k = some s.acc ∧ s.data ≠ none ∧ docReaction m s p ≠ [] := by
  obtain ⟨e, he, hold⟩ := C85_read P D h subents hr ⟨m, hm, hmr⟩
  refine ⟨e, he, fun hpr => doc_returns (N := N) P rx D h hpr _ List.filter_sublist _ e he hold m (List.mem_filter.2 ⟨hm, hmr⟩) hma, fun st hst => ?_⟩
  obtain ⟨-, -, -, -, hn, -, -⟩ := doc_values (N := N) P rx D h _ List.filter_sublist _ e he hold m (List.mem_filter.2 ⟨hm, hmr⟩) hma st hst
  refine ⟨hn, ?_⟩
  intro a k p hk
  obtain ⟨d, hd⟩ := Option.isSome_iff_exists.1 ((Dict.mem_keys_iff _ _).1 hk)
  obtain ⟨h1, s, hs, h2⟩ := doc_only P rx D h _ List.filter_sublist _ e he hold m (List.mem_filter.2 ⟨hm, hmr⟩) hma st hst a k p d hd
  obtain ⟨hs1, hs2⟩ := List.mem_filter.1 hs
  exact ⟨h1, s, hs1, hs2, h2⟩

/-- C86 with the grammars of x4i3: for a reaction written in the field, with free text after it, the dataset has the
reaction of that text. -/
theorem C86_written_partial (dicts : TextDicts) (rxd : RxDicts) (D : EntryDoc) (h : D.wf) (hpr : D.Printable (x4Parsers dicts) (x4RxOps rxd)) (hr : ∀ s ∈ D.subs, s.Readable (x4Parsers dicts))
    (subents : Option (List Str)) (m s : SubDoc) (hm : m ∈ D.subs) (hma : m.acc = D.acc ++ "001".toList) (hmr : requested subents m.acc)
    (hs : s ∈ D.subs) (hsa : s.acc ≠ m.acc) (hsr : requested subents s.acc)
    (t : TableDoc) (ht : s.data = some t) (hl : t.labels.Nodup) (p : Char) (hc1 : PlainDoc p m.common) (hc2 : PlainDoc p s.common)
    (hp : docReaction m s p ≠ [])
    (x : ReactText) (hx : x.wf) (free : Str) (htab : '\t' ∉ free) (hop : NoOp ['+', '-', '*', '/', '='] free)
    (htext : joinWith [' '] ((docReaction m s p).map strip) = x.text ++ free) (R : Reaction) (hR : reactionOfStr dicts.names x.text = .ok R) :
    ∃ (e : Entry Measurement) (st : DsState Measurement N) (d : DataSet Measurement N), Entry.build (x4Parsers dicts) (splitEntryFile subents D.file) = .ok e ∧
      e.getDataSets (x4RxOps rxd) [] = .ok st ∧
      st.datasets.get? (D.acc, some s.acc, p) = some d ∧ d.reaction = some (.rx R, freeLine free) ∧ d.kind = kindOf (quantTexts R.quantity) ∧ d.simplified = false ∧
      d.labels = docHeads m.common ++ docHeads s.common ++ (pick (belongs t.labels (some p)) t.labels).map head10 ∧
      d.units = docUnits m.common ++ docUnits s.common ++ (pick (belongs t.labels (some p)) t.units).map (fun u => some (head10 u)) ∧
      d.data = t.rows.map fun row => docRow m.common ++ docRow s.common ++ (pick (belongs t.labels (some p)) row).map cellVal :=
  C86_dataset_partial (x4Parsers dicts) (x4RxOps rxd) D h hpr hr subents m s hm hma hmr hs hsa hsr t ht hl p hc1 hc2 hp (.rx R, freeLine free)
    (by
      have := C65_reaction dicts.names x hx free htab hop R hR
      rw [← htext] at this
      exact this) _ rfl

/-! ### an entry -/

def docMain : SubDoc where
  acc := chars!"10001001"
  bib := [⟨chars!"TITLE", (' ', chars!"CAPTURE IN AMERICIUM"), []⟩, ⟨chars!"HISTORY", (' ', chars!"(19991231C)"), [(' ', chars!"COMPILED")]⟩]
  common := some ⟨[chars!"EN-RSL"], [chars!"MEV"], [[chars!"0.1"]]⟩
  data := none
def docSub : SubDoc where
  acc := chars!"10001002"
  bib := [⟨chars!"REACTION", ('1', chars!"(95-AM-241(N,G)95-AM-242-M,,SIG) isomer"), [('2', chars!"(95-AM-241(N,G),,SIG)")]⟩]
  common := none
  data := some ⟨[chars!"EN", chars!"DATA      1", chars!"DATA      2"], [chars!"MEV", chars!"MB", chars!"MB"],
    [[chars!"1.5", chars!"2.5", chars!"3.5"], [chars!"2.5", [], chars!"1.+1"]]⟩
/-- an entry with two subentries -/
def docEntry : EntryDoc := ⟨chars!"10001", [docMain, docSub]⟩

instance (s : Str) : Decidable (NoKeyword s) := by unfold NoKeyword; infer_instance
instance (s : Str) : Decidable (CellText s) := by unfold CellText; infer_instance

theorem docEntry_wf : docEntry.wf := by
  refine ⟨by decide, by decide, ?_, by decide⟩
  intro s hs
  simp only [docEntry, List.mem_cons, List.not_mem_nil, or_false] at hs
  rcases hs with rfl | rfl
  · refine ⟨⟨by decide, by decide, ?_, by decide, ?_, ?_⟩, by decide⟩
    · intro f hf
      simp only [docMain, List.mem_cons, List.not_mem_nil, or_false] at hf
      rcases hf with rfl | rfl <;> exact ⟨by decide, by decide, by decide⟩
    · intro t ht
      cases ht
      exact ⟨by decide, by decide, by decide, by decide, by decide, by decide, by decide⟩
    · intro t ht
      cases ht
  · refine ⟨⟨by decide, by decide, ?_, by decide, ?_, ?_⟩, by decide⟩
    · intro f hf
      simp only [docSub, List.mem_cons, List.not_mem_nil, or_false] at hf
      rcases hf with rfl <;> exact ⟨by decide, by decide, by decide⟩
    · intro t ht
      cases ht
    · intro t ht
      cases ht
      exact ⟨by decide, by decide, by decide, by decide, by decide, by decide, by decide⟩

/-- success, as something that can be computed -/
def okB {α : Type} : Except PyErr α → Bool
  | .ok _ => true
  | .error _ => false
theorem okB_iff {α : Type} {x : Except PyErr α} (h : okB x = true) : ∃ v, x = .ok v := by
  cases x with
  | ok v => exact ⟨v, rfl⟩
  | error e => cases h

theorem docEntry_readable : ∀ s ∈ docEntry.subs, s.Readable (x4Parsers metaDicts) := by
  intro s hs
  have key : (∀ s ∈ docEntry.subs, ∀ f ∈ s.bib, okB (buildField (x4Parsers metaDicts) (some f.tag) f.lines) = true) ∧
    (∀ s ∈ docEntry.subs, ∀ t ∈ s.common.toList ++ s.data.toList, ∀ r ∈ t.rows, ∀ c ∈ r, okB (parseFORTRANNumber c) = true) := by decide +kernel
  refine ⟨fun f hf => okB_iff (key.1 s hs f hf), fun t ht r hr c hc => okB_iff (key.2 s hs t ?_ r hr c hc), fun t ht r hr c hc => okB_iff (key.2 s hs t ?_ r hr c hc)⟩
  · rw [Option.mem_def] at ht; simp [ht]
  · rw [Option.mem_def] at ht; simp [ht]

/-- whether a measurement is a single reaction -/
def isSingle : Except PyErr (Measurement × Str) → Bool
  | .ok (.rx _, _) => true
  | .ok _ => false
  | .error _ => true

theorem textUnder_pointer {lines : List Str} {p : Char} (h : textUnder lines p ≠ []) :
    p ∈ (List.range lines.length).map fun k => pointerInForce (lines.take (k + 1)) := by
  obtain ⟨x, hx⟩ := List.exists_mem_of_ne_nil _ h
  obtain ⟨k, hk, hx⟩ := List.mem_filterMap.1 hx
  split at hx
  · rename_i he
    exact List.mem_map.2 ⟨k, hk, he⟩
  · cases hx

theorem docEntry_printable {rxd : RxDicts} : docEntry.Printable (x4Parsers metaDicts) (x4RxOps rxd) := by
  intro s hs p r hp hr hq
  have key : ∀ s ∈ docEntry.subs, ∀ p, s.reactionText p ≠ [] → p = '1' ∨ p = '2' := by
    intro s hs p hp
    have key1 : ∀ s ∈ docEntry.subs, ∀ f ∈ s.bib, f.tag = chars!"REACTION" →
        ∀ q ∈ (List.range f.lines.length).map fun k => pointerInForce (f.lines.take (k + 1)), q = '1' ∨ q = '2' := by decide +kernel
    unfold SubDoc.reactionText at hp
    cases hf : s.bib.find? fun f => decide (f.tag = chars!"REACTION") with
    | none => rw [hf] at hp; exact absurd rfl hp
    | some f =>
      rw [hf] at hp
      exact key1 s hs f (List.mem_of_find?_eq_some hf) (by simpa using List.find?_some hf) p (textUnder_pointer hp)
  have key2 : ∀ s ∈ docEntry.subs, ∀ p ∈ ['1', '2'], isSingle ((x4Parsers metaDicts).reaction (joinWith [' '] ((s.reactionText p).map strip))) = true := by decide +kernel
  have := key2 s hs p (by simpa using key s hs p hp)
  rw [hr] at this
  obtain ⟨m, t⟩ := r
  cases m <;> simp_all [isSingle, x4RxOps]

/-- C85_read applies to an entry with two subentries. -/
example : ∃ e, Entry.build (x4Parsers metaDicts) (splitEntryFile none docEntry.file) = .ok e ∧ e.subs.length = 2 := by
  obtain ⟨e, h1, h2⟩ := C85_read (x4Parsers metaDicts) docEntry docEntry_wf none docEntry_readable ⟨docMain, by simp [docEntry], rfl⟩
  exact ⟨e, h1, h2.subs.length_eq.symm⟩

/-- and to a request for one of them -/
example : ∃ e, Entry.build (x4Parsers metaDicts) (splitEntryFile (some [chars!"10001002"]) docEntry.file) = .ok e ∧ e.subs.map Prod.fst = [some chars!"10001002"] := by
  obtain ⟨e, h1, h2⟩ := C85_read (x4Parsers metaDicts) docEntry docEntry_wf (some [chars!"10001002"]) docEntry_readable ⟨docSub, by simp [docEntry], rfl⟩
  refine ⟨e, h1, ?_⟩
  have h3 : docEntry.subs.filter (fun s => requested (some [chars!"10001002"]) s.acc) = [docSub] := by decide +kernel
  have h4 := h2.subs
  rw [h3] at h4
  cases he : e.subs with
  | nil => rw [he] at h4; cases h4
  | cons kv l =>
    rw [he] at h4
    cases h4 with
    | cons a b =>
      cases b
      rw [List.map_singleton, a.1]
      rfl

/-- C85_none and C85_file apply to this entry. -/
example : Entry.build (x4Parsers metaDicts) (splitEntryFile (some []) docEntry.file) = .error .keyError :=
  C85_none _ _ docEntry_wf _ (by decide)
example : ∃ raw e, (entryFactoryRaw ⟨fun p => if p = chars!"100/10001.x4" then .ok docEntry.file else .error .ioError⟩ chars!"10001" none).2 = .ok raw ∧
    Entry.build (x4Parsers metaDicts) raw = .ok e ∧ e.accnum = chars!"10001" := by
  obtain ⟨raw, e, h1, h2, h3⟩ := C85_file (x4Parsers metaDicts) ⟨fun p => if p = chars!"100/10001.x4" then .ok docEntry.file else .error .ioError⟩ docEntry docEntry_wf
    (by
      have : docEntry.acc.take 3 ++ ['/'] ++ docEntry.acc ++ ".x4".toList = chars!"100/10001.x4" := by decide
      simp only [this, if_true]) none docEntry_readable ⟨docMain, by simp [docEntry], rfl⟩
  exact ⟨raw, e, h1, h2, h3.accnum⟩

/-- C86_written_partial applies to the first pointer of its REACTION field. -/
example (R : Reaction) (hR : reactionOfStr metaDicts.names exampleReaction.text = .ok R) :
    ∃ (st : DsState Measurement N) (d : DataSet Measurement N), st.datasets.get? (chars!"10001", some chars!"10001002", '1') = some d ∧
      d.reaction = some (.rx R, chars!"isomer") ∧ d.labels = [chars!"EN-RSL", chars!"EN", chars!"DATA"] ∧
      d.data = [[cellVal chars!"0.1", cellVal chars!"1.5", cellVal chars!"2.5"], [cellVal chars!"0.1", cellVal chars!"2.5", none]] := by
  obtain ⟨e, st, d, -, -, h3, h4, -, -, h6, -, h8⟩ := C86_written_partial (N := N) metaDicts ⟨[], [], []⟩ docEntry docEntry_wf docEntry_printable docEntry_readable none docMain docSub (by simp [docEntry])
    (by decide) rfl (by simp [docEntry]) (by decide) rfl _ rfl (by decide)
    '1'
    (by intro t ht; cases ht; decide) (by intro t ht; cases ht) (by decide +kernel) exampleReaction exampleReaction_wf chars!" isomer" (by decide) (by unfold NoOp; decide)
    (by decide +kernel) R hR
  refine ⟨st, d, h3, ?_, ?_, ?_⟩
  · rw [h4]; congr 2
  · rw [h6]; decide +kernel
  · rw [h8]; rfl
/-- C86_only: there is no dataset for another pointer. -/
example : ∃ (e : Entry Measurement) (st : DsState Measurement N), Entry.build (x4Parsers metaDicts) (splitEntryFile none docEntry.file) = .ok e ∧
    e.getDataSets (x4RxOps ⟨[], [], []⟩) [] = .ok st ∧ (chars!"10001", some chars!"10001002", '3') ∉ st.datasets.keys := by
  obtain ⟨e, h1, h2, h3⟩ := C86_only (N := N) (x4Parsers metaDicts) (x4RxOps ⟨[], [], []⟩) docEntry docEntry_wf docEntry_readable none docMain (by simp [docEntry])
    (by decide) rfl
  obtain ⟨st, h2⟩ := h2 docEntry_printable
  replace h3 := (h3 st h2).2
  refine ⟨e, st, h1, h2, fun hk => ?_⟩
  obtain ⟨-, s, hs, -, ha, -, hr⟩ := h3 _ _ _ hk
  simp only [docEntry, List.mem_cons, List.not_mem_nil, or_false] at hs
  rcases hs with rfl | rfl
  · exact absurd ha (by decide)
  · exact hr (by decide +kernel)
/-- Its text is that of a reaction. -/
example : okB (reactionOfStr metaDicts.names exampleReaction.text) = true := by decide +kernel

/-- a ratio of quantities for a compound, in the second subentry -/
def compSub : SubDoc where
  acc := chars!"10001002"
  bib := [⟨chars!"REACTION", (' ', chars!"((6-C-CMP(N,TOT),,SIG)/(1-H-1(N,EL)1-H-1,,DA))"), []⟩]
  common := none
  data := some ⟨[chars!"EN", chars!"DATA"], [chars!"MEV", chars!"NO-DIM"], [[chars!"1.5", chars!"2.5"]]⟩
def compEntry : EntryDoc := ⟨chars!"10001", [docMain, compSub]⟩

theorem compEntry_wf : compEntry.wf := by
  refine ⟨by decide, by decide, ?_, by decide⟩
  intro s hs
  simp only [compEntry, List.mem_cons, List.not_mem_nil, or_false] at hs
  rcases hs with rfl | rfl
  · exact docEntry_wf.subs docMain (by simp [docEntry])
  · refine ⟨⟨by decide, by decide, ?_, by decide, ?_, ?_⟩, by decide⟩
    · intro f hf
      simp only [compSub, List.mem_cons, List.not_mem_nil, or_false] at hf
      rcases hf with rfl
      exact ⟨by decide, by decide, by decide⟩
    · intro t ht
      cases ht
    · intro t ht
      cases ht
      exact ⟨by decide, by decide, by decide, by decide, by decide, by decide, by decide⟩

theorem compEntry_readable : ∀ s ∈ compEntry.subs, s.Readable (x4Parsers metaDicts) := by
  intro s hs
  have key : (∀ s ∈ compEntry.subs, ∀ f ∈ s.bib, okB (buildField (x4Parsers metaDicts) (some f.tag) f.lines) = true) ∧
    (∀ s ∈ compEntry.subs, ∀ t ∈ s.common.toList ++ s.data.toList, ∀ r ∈ t.rows, ∀ c ∈ r, okB (parseFORTRANNumber c) = true) := by decide +kernel
  refine ⟨fun f hf => okB_iff (key.1 s hs f hf), fun t ht r hr c hc => okB_iff (key.2 s hs t ?_ r hr c hc), fun t ht r hr c hc => okB_iff (key.2 s hs t ?_ r hr c hc)⟩
  · rw [Option.mem_def] at ht; simp [ht]
  · rw [Option.mem_def] at ht; simp [ht]

/-- what datasets use of the result of reading a reaction -/
def readOps (rx : RxOps Measurement) : Except PyErr (Measurement × Str) → Option (Option (List Str) × List (List Str) × Except PyErr Str)
  | .ok r => some (rx.quantity r.1, rx.members r.1, rx.text r.1)
  | .error _ => none

/-- C86_unprintable_written_refuted: a compound which is not in the dictionary (here an empty one) -/
example : ∃ e, Entry.build (x4Parsers metaDicts) (splitEntryFile none compEntry.file) = .ok e ∧
    ∀ st : DsState Measurement N, e.getDataSets (x4RxOps ⟨[], [], []⟩) [] ≠ .ok st := by
  have key : readOps (x4RxOps ⟨[], [], []⟩) ((x4Parsers metaDicts).reaction (joinWith [' '] ((compSub.reactionText ' ').map strip))) =
      some (none, [[chars!"SIG"], [chars!"DA"]], .error .keyError) := by decide +kernel
  cases hr : (x4Parsers metaDicts).reaction (joinWith [' '] ((compSub.reactionText ' ').map strip)) with
  | error x => rw [hr] at key; cases key
  | ok r =>
    rw [hr] at key
    simp only [readOps, Option.some.injEq, Prod.mk.injEq] at key
    obtain ⟨k1, k2, k3⟩ := key
    exact C86_unprintable_written_refuted (N := N) (x4Parsers metaDicts) (x4RxOps ⟨[], [], []⟩) compEntry compEntry_wf compEntry_readable none compSub
      (by simp [compEntry]) rfl (by decide) ' ' (by decide +kernel) r hr k1 [chars!"SIG"] [chars!"DA"] (by rw [k2]; simp) (by rw [k2]; simp) (by decide)
      .keyError k3 (by decide) (by decide)

end X4
