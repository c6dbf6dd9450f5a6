import Verif.Model.Session
import Verif.Props.DataSets
/-! Calls on one entry object do not disturb each other. -/
namespace X4
variable {ρ N : Type}

/-- BIB sections that are the same once they have a title -/
def BibRel (b b' : BibSection ρ) : Prop := ∀ k, b.defaultTitle.fields.get? k = b'.defaultTitle.fields.get? k

/-- sections that are the same, up to that -/
inductive SecRel : Option (Sec ρ) → Option (Sec ρ) → Prop
  | same (x : Option (Sec ρ)) : SecRel x x
  | bib {b b' : BibSection ρ} (h : BibRel b b') : SecRel (some (.bib b)) (some (.bib b'))

structure SubRel (s s' : SubEntry ρ) : Prop where
  accnum : s.accnum = s'.accnum
  data : s.data = s'.data
  common : s.common = s'.common
  bib : SecRel (s.sections.get? "BIB".toList) (s'.sections.get? "BIB".toList)

inductive SubOptRel : Option (SubEntry ρ) → Option (SubEntry ρ) → Prop
  | none : SubOptRel none none
  | some {s s' : SubEntry ρ} (h : SubRel s s') : SubOptRel (some s) (some s')

structure EntryRel (e e' : Entry ρ) : Prop where
  accnum : e.accnum = e'.accnum
  keys : e.subs.keys = e'.subs.keys
  subs : ∀ k, SubOptRel (e.subs.get? k) (e'.subs.get? k)

theorem SecRel.trans' {x y z : Option (Sec ρ)} (h : SecRel x y) (h' : SecRel y z) : SecRel x z := by
  cases h with
  | same => exact h'
  | bib h =>
    cases h' with
    | same => exact .bib h
    | bib h' => exact .bib fun k => (h k).trans (h' k)
theorem SecRel.symm' {x y : Option (Sec ρ)} (h : SecRel x y) : SecRel y x := by
  cases h with
  | same => exact .same _
  | bib h => exact .bib fun k => (h k).symm

theorem SubRel.refl' (s : SubEntry ρ) : SubRel s s := ⟨rfl, rfl, rfl, .same _⟩
theorem SubRel.symm' {s s' : SubEntry ρ} (h : SubRel s s') : SubRel s' s := ⟨h.accnum.symm, h.data.symm, h.common.symm, h.bib.symm'⟩
theorem SubRel.trans' {s s' s'' : SubEntry ρ} (h : SubRel s s') (h' : SubRel s' s'') : SubRel s s'' :=
  ⟨h.accnum.trans h'.accnum, h.data.trans h'.data, h.common.trans h'.common, h.bib.trans' h'.bib⟩

theorem SubOptRel.refl' (s : Option (SubEntry ρ)) : SubOptRel s s := by
  cases s with
  | none => exact .none
  | some s => exact .some (.refl' s)
theorem SubOptRel.symm' {s s' : Option (SubEntry ρ)} (h : SubOptRel s s') : SubOptRel s' s := by
  cases h with
  | none => exact .none
  | some h => exact .some h.symm'
theorem SubOptRel.trans' {s s' s'' : Option (SubEntry ρ)} (h : SubOptRel s s') (h' : SubOptRel s' s'') : SubOptRel s s'' := by
  cases h with
  | none => exact h'
  | some h => cases h' with
    | some h' => exact .some (h.trans' h')

theorem EntryRel.refl' (e : Entry ρ) : EntryRel e e := ⟨rfl, rfl, fun _ => .refl' _⟩
theorem EntryRel.symm' {e e' : Entry ρ} (h : EntryRel e e') : EntryRel e' e := ⟨h.accnum.symm, h.keys.symm, fun k => (h.subs k).symm'⟩
theorem EntryRel.trans' {e e' e'' : Entry ρ} (h : EntryRel e e') (h' : EntryRel e' e'') : EntryRel e e'' :=
  ⟨h.accnum.trans h'.accnum, h.keys.trans h'.keys, fun k => (h.subs k).trans' (h'.subs k)⟩

theorem defaultTitle_other (b : BibSection ρ) {k : Option Str} (h : k ≠ some "TITLE".toList) : b.defaultTitle.fields.get? k = b.fields.get? k := by
  unfold BibSection.defaultTitle
  split
  · rfl
  · exact Dict.get?_set_ne _ _ h

theorem defaultTitle_twice (b : BibSection ρ) : b.defaultTitle.defaultTitle = b.defaultTitle := by
  have : b.defaultTitle.fields.has (some "TITLE".toList) = true := by
    unfold BibSection.defaultTitle
    split
    · assumption
    · simp only [Dict.has]
      rw [Dict.get?_set_self]
      rfl
  generalize b.defaultTitle = c at this
  unfold BibSection.defaultTitle
  rw [if_pos this]

theorem BibRel.title (b : BibSection ρ) : BibRel b b.defaultTitle := fun k => by rw [defaultTitle_twice]

theorem BibRel.other {b b' : BibSection ρ} (h : BibRel b b') {k : Option Str} (hk : k ≠ some "TITLE".toList) : b.fields.get? k = b'.fields.get? k := by
  rw [← defaultTitle_other b hk, ← defaultTitle_other b' hk]
  exact h k

/-- what a call gives in two related sections -/
theorem BibRel.meta {b b' : BibSection ρ} (h : BibRel b b') (a : Str) :
    (∃ x, b.meta a = .error x ∧ b'.meta a = .error x) ∨ ∃ m, b.meta a = .ok (m, b.defaultTitle) ∧ b'.meta a = .ok (m, b'.defaultTitle) := by
  have h1 : b.metaAuthor = b'.metaAuthor := by
    unfold BibSection.metaAuthor
    rw [h.other (k := some "AUTHOR".toList) (by decide)]
  have h2 := h.other (k := some "INSTITUTE".toList) (by decide)
  have h3 := h.other (k := some "REFERENCE".toList) (by decide)
  have h4 := h (some "TITLE".toList)
  unfold BibSection.meta
  rw [h1, h2, h3]
  cases b'.metaAuthor with
  | error x => exact .inl ⟨x, rfl, rfl⟩
  | ok author =>
    simp only
    rw [h4]
    cases b'.fields.get? (some "REFERENCE".toList) with
    | none => exact .inr ⟨_, rfl, rfl⟩
    | some r =>
      simp only
      cases r.pub with
      | error x => exact .inl ⟨x, rfl, rfl⟩
      | ok p => exact .inr ⟨_, rfl, rfl⟩

theorem BibRel.reactions_eq {b b' : BibSection ρ} (h : BibRel b b') : b.reactions = b'.reactions := by
  unfold BibSection.reactions
  rw [h.other (k := some "REACTION".toList) (by decide)]
theorem BibRel.monitors_eq {b b' : BibSection ρ} (h : BibRel b b') : b.monitors = b'.monitors := by
  unfold BibSection.monitors
  rw [h.other (k := some "MONITOR".toList) (by decide)]

/-- subentries with the BIB section replaced -/
theorem SubRel.set_bib {s : SubEntry ρ} {b b' : BibSection ρ} (hb : s.sections.get? "BIB".toList = some (.bib b)) (h : BibRel b b') :
    SubRel s { s with sections := s.sections.set "BIB".toList (.bib b') } := by
  refine ⟨rfl, ?_, ?_, ?_⟩
  · unfold SubEntry.data
    simp only
    rw [Dict.get?_set_ne _ _ (by decide)]
  · unfold SubEntry.common
    simp only
    rw [Dict.get?_set_ne _ _ (by decide)]
  · simp only
    rw [hb, Dict.get?_set_self]
    exact .bib h

theorem bib_get {s : SubEntry ρ} {b : BibSection ρ} (h : s.bib = some b) : s.sections.get? "BIB".toList = some (.bib b) := by
  unfold SubEntry.bib at h
  split at h
  · rename_i hb
    rw [hb, Option.some.inj h]
  · cases h

theorem SubRel.bibs {s s' : SubEntry ρ} (h : SubRel s s') : (s.bib = none ∧ s'.bib = none) ∨ ∃ b b', s.bib = some b ∧ s'.bib = some b' ∧ BibRel b b' := by
  have h1 := h.bib
  unfold SubEntry.bib
  generalize s.sections.get? "BIB".toList = x at h1 ⊢
  generalize s'.sections.get? "BIB".toList = y at h1 ⊢
  cases h1 with
  | same =>
    cases x with
    | none => exact .inl ⟨rfl, rfl⟩
    | some x => cases x with
      | bib b => exact .inr ⟨_, _, rfl, rfl, fun _ => rfl⟩
      | data d => exact .inl ⟨rfl, rfl⟩
  | bib h => exact .inr ⟨_, _, rfl, rfl, h⟩

theorem SubRel.info {s s' : SubEntry ρ} (h : SubRel s s') (a : Str) :
    (∃ x, s.info a = .error x ∧ s'.info a = .error x) ∨ ∃ i t t', s.info a = .ok (i, t) ∧ s'.info a = .ok (i, t') ∧ SubRel s t ∧ SubRel s' t' := by
  unfold SubEntry.info
  rcases h.bibs with ⟨h1, h2⟩ | ⟨b, b', h1, h2, hb⟩
  · rw [h1, h2, h.common]
    exact .inr ⟨_, _, _, rfl, rfl, .refl' _, .refl' _⟩
  · rw [h1, h2]
    simp only
    rcases hb.meta a with ⟨x, e1, e2⟩ | ⟨m, e1, e2⟩
    · rw [e1, e2]; exact .inl ⟨x, rfl, rfl⟩
    · rw [e1, e2]
      have hd : BibRel b.defaultTitle b'.defaultTitle := fun k => by rw [defaultTitle_twice, defaultTitle_twice]; exact hb k
      simp only [hd.reactions_eq, hd.monitors_eq]
      cases b'.defaultTitle.reactions with
      | error x => exact .inl ⟨x, rfl, rfl⟩
      | ok rs =>
        simp only
        cases b'.defaultTitle.monitors with
        | error x => exact .inl ⟨x, rfl, rfl⟩
        | ok ms => exact .inr ⟨_, _, _, by rw [h.common], rfl, .set_bib (bib_get h1) (.title b), .set_bib (bib_get h2) (.title b')⟩

/-- recorded exceptions: the same new ones on top of those there before -/
def RecordedRel (base base' errs errs' : Dict DsKey PyErr) : Prop :=
  ∃ new : Dict DsKey PyErr, ∀ k, errs.get? k = (new.get? k).or (base.get? k) ∧ errs'.get? k = (new.get? k).or (base'.get? k)

theorem RecordedRel.set {base base' errs errs' : Dict DsKey PyErr} (h : RecordedRel base base' errs errs') (k : DsKey) (x : PyErr) :
    RecordedRel base base' (errs.set k x) (errs'.set k x) := by
  obtain ⟨new, h⟩ := h
  refine ⟨new.set k x, fun k' => ?_⟩
  rw [Dict.get?_set, Dict.get?_set, Dict.get?_set]
  split
  · exact ⟨rfl, rfl⟩
  · exact h k'

structure StRel (base base' : Dict DsKey PyErr) (st st' : DsState ρ N) : Prop where
  datasets : st.datasets = st'.datasets
  errors : RecordedRel base base' st.errors st'.errors
  entry : EntryRel st.entry st'.entry

inductive CallRel (R : α → α → Prop) : Except PyErr α → Except PyErr α → Prop
  | error (x : PyErr) : CallRel R (.error x) (.error x)
  | ok {a a' : α} (h : R a a') : CallRel R (.ok a) (.ok a')

theorem foldE_calls {α σ : Type} {R : σ → σ → Prop} {f f' : σ → α → Except PyErr σ} (hf : ∀ s s' a, R s s' → CallRel R (f s a) (f' s' a)) :
    ∀ (l : List α) (s s' : σ), R s s' → CallRel R (foldE f s l) (foldE f' s' l) := by
  intro l
  induction l with
  | nil => intro s s' h; exact .ok h
  | cons a l ih =>
    intro s s' h
    have := hf s s' a h
    simp only [foldE]
    generalize f s a = x at this
    generalize f' s' a = y at this
    cases this with
    | error x => exact .error x
    | ok h => exact ih _ _ h

variable [PyNum N]

theorem dsStep_rel (rx : RxOps ρ) (acc : Str) (sub : Option Str) (ms : List (Option (DsMeta ρ))) (common : List (Option (Nat × DataSection))) (data : DataSection)
    (from_ : SubInfo ρ) {base base' : Dict DsKey PyErr} (st st' : DsState ρ N) (pr : Char × (ρ × Str)) (h : StRel base base' st st') :
    CallRel (StRel base base') (dsStep rx acc sub ms common data from_ st pr) (dsStep rx acc sub ms common data from_ st' pr) := by
  unfold dsStep
  split
  · exact .ok ⟨by rw [h.datasets], h.errors, h.entry⟩
  · exact .ok ⟨h.datasets, h.errors.set _ _, h.entry⟩
  · exact .ok ⟨h.datasets, h.errors.set _ _, h.entry⟩
  · exact .error _

theorem EntryRel.set {e e' : Entry ρ} (h : EntryRel e e') (k : Option Str) {s s' : SubEntry ρ} (hs : SubRel s s') :
    EntryRel { e with subs := e.subs.set k s } { e' with subs := e'.subs.set k s' } := by
  refine ⟨h.accnum, ?_, fun k' => ?_⟩
  · simp only
    rw [Dict.keys_set, Dict.keys_set, h.keys]
  · simp only
    rw [Dict.get?_set, Dict.get?_set]
    split
    · exact .some hs
    · exact h.subs k'

theorem subStep_rel (rx : RxOps ρ) (mk : Option Str) (main : SubInfo ρ) {base base' : Dict DsKey PyErr} (st st' : DsState ρ N) (k : Option Str)
    (h : StRel base base' st st') : CallRel (StRel base base') (subStep rx mk main st k) (subStep rx mk main st' k) := by
  unfold subStep
  have hk := h.entry.subs k
  generalize st.entry.subs.get? k = x at hk
  generalize st'.entry.subs.get? k = y at hk
  cases hk with
  | none => exact .ok h
  | @some s s' hs =>
    simp only
    rw [hs.data]
    cases s'.data with
    | none => exact .ok h
    | some d =>
      simp only
      rw [hs.accnum]
      rcases hs.info (s'.accnum.getD "None".toList) with ⟨x, e1, e2⟩ | ⟨i, t, t', e1, e2, e3, e4⟩
      · rw [e1, e2]; exact .error x
      · rw [e1, e2]
        simp only
        rw [h.entry.accnum]
        have := foldE_calls (R := StRel base base') (fun x y a => dsStep_rel (N := N) rx st'.entry.accnum s'.accnum [main.info, i.info] (commonList mk k main.common i.common) d main x y a) main.reactions
          { st with entry := { accnum := st'.entry.accnum, subs := st.entry.subs.set k t } } { st' with entry := { st'.entry with subs := st'.entry.subs.set k t' } }
          ⟨h.datasets, h.errors, rfl, (h.entry.set k ((e3.symm'.trans' hs).trans' e4)).keys, (h.entry.set k ((e3.symm'.trans' hs).trans' e4)).subs⟩
        generalize foldE (dsStep rx st'.entry.accnum s'.accnum [main.info, i.info] (commonList mk k main.common i.common) d main) { st with entry := { accnum := st'.entry.accnum, subs := st.entry.subs.set k t } } main.reactions = x at this ⊢
        generalize foldE (dsStep rx st'.entry.accnum s'.accnum [main.info, i.info] (commonList mk k main.common i.common) d main) { st' with entry := { st'.entry with subs := st'.entry.subs.set k t' } } main.reactions = y at this ⊢
        cases this with
        | error x => exact .error x
        | ok h1 => exact foldE_calls (R := StRel base base') (fun s s' a => dsStep_rel (N := N) rx st'.entry.accnum _ [main.info, i.info] (commonList mk k main.common i.common) d i s s' a) _ _ _ h1

theorem EntryRel.mainKey_eq {e e' : Entry ρ} (h : EntryRel e e') : e.mainKey = e'.mainKey := by
  unfold Entry.mainKey
  rw [h.accnum]

theorem getItem_one (e : Entry ρ) : e.getItem (.int 1) = e.subs.get e.mainKey := rfl

theorem EntryRel.first {e e' : Entry ρ} (h : EntryRel e e') :
    (∃ x, e.getItem (.int 1) = .error x ∧ e'.getItem (.int 1) = .error x) ∨ ∃ s s', e.getItem (.int 1) = .ok s ∧ e'.getItem (.int 1) = .ok s' ∧ SubRel s s' := by
  rw [getItem_one, getItem_one, ← h.mainKey_eq]
  have := h.subs e.mainKey
  unfold Dict.get
  generalize e.subs.get? e.mainKey = x at this
  generalize e'.subs.get? e.mainKey = y at this
  cases this with
  | none => exact .inl ⟨_, rfl, rfl⟩
  | some h => exact .inr ⟨_, _, rfl, rfl, h⟩

theorem EntryRel.mainBib {e e' : Entry ρ} (h : EntryRel e e') :
    (∃ x, e.mainBib = .error x ∧ e'.mainBib = .error x) ∨ ∃ b b', e.mainBib = .ok b ∧ e'.mainBib = .ok b' ∧ BibRel b b' := by
  unfold Entry.mainBib
  rcases h.first with ⟨x, e1, e2⟩ | ⟨s, s', e1, e2, hs⟩
  · rw [e1, e2]; exact .inl ⟨x, rfl, rfl⟩
  · rw [e1, e2]
    simp only
    have h1 := hs.bib
    unfold Dict.get
    generalize s.sections.get? "BIB".toList = x at h1 ⊢
    generalize s'.sections.get? "BIB".toList = y at h1 ⊢
    cases h1 with
    | same =>
      cases x with
      | none => exact .inl ⟨_, rfl, rfl⟩
      | some x => cases x with
        | bib b => exact .inr ⟨_, _, rfl, rfl, fun _ => rfl⟩
        | data d => exact .inl ⟨_, rfl, rfl⟩
    | bib h => exact .inr ⟨_, _, rfl, rfl, h⟩

theorem EntryRel.deleted_eq {e e' : Entry ρ} (h : EntryRel e e') : e.deleted = e'.deleted := by
  unfold Entry.deleted
  rcases h.mainBib with ⟨x, e1, e2⟩ | ⟨b, b', e1, e2, hb⟩
  · rw [e1, e2]
  · rw [e1, e2]
    simp only
    rw [hb.other (k := some "HISTORY".toList) (by decide)]

theorem RecordedRel.start (base base' : Dict DsKey PyErr) : RecordedRel base base' base base' := ⟨[], fun _ => ⟨rfl, rfl⟩⟩

theorem getDataSets_rel (rx : RxOps ρ) {e e' : Entry ρ} (h : EntryRel e e') (errs errs' : Dict DsKey PyErr) :
    CallRel (StRel (N := N) errs errs') (e.getDataSets rx errs) (e'.getDataSets rx errs') := by
  unfold Entry.getDataSets
  rw [h.deleted_eq]
  cases e'.deleted with
  | error x => exact .error x
  | ok b =>
    cases b with
    | true => exact .ok ⟨rfl, .start _ _, h⟩
    | false =>
      simp only
      rcases h.first with ⟨x, e1, e2⟩ | ⟨s, s', e1, e2, hs⟩
      · rw [e1, e2]; exact .error x
      · rw [e1, e2]
        simp only
        rw [h.accnum]
        rcases hs.info (e'.accnum ++ "001".toList) with ⟨x, i1, i2⟩ | ⟨i, t, t', i1, i2, i3, i4⟩
        · rw [i1, i2]; exact .error x
        · rw [i1, i2]
          simp only
          rw [h.mainKey_eq, h.keys]
          have hr := h.set e'.mainKey ((i3.symm'.trans' hs).trans' i4)
          refine foldE_calls (fun s s' a => subStep_rel rx e'.mainKey i s s' a) _ _ _ ⟨rfl, .start _ _, ?_⟩
          exact ⟨rfl, hr.keys, hr.subs⟩

theorem simplifyStep_rel (makeAll : Bool) {base base' : Dict DsKey PyErr} (st st' : DsState ρ N) (kd : DsKey × DataSet ρ N) (h : StRel base base' st st') :
    CallRel (StRel base base') (simplifyStep makeAll st kd) (simplifyStep makeAll st' kd) := by
  unfold simplifyStep
  split
  · exact .ok ⟨by rw [h.datasets], h.errors, h.entry⟩
  · split
    · exact .ok ⟨h.datasets, h.errors.set _ _, h.entry⟩
    · exact .error _

theorem getSimplifiedSets_rel (rx : RxOps ρ) {e e' : Entry ρ} (h : EntryRel e e') (errs errs' : Dict DsKey PyErr) (makeAll : Bool) :
    CallRel (StRel (N := N) errs errs') (e.getSimplifiedDataSets rx errs makeAll) (e'.getSimplifiedDataSets rx errs' makeAll) := by
  unfold Entry.getSimplifiedDataSets
  have := getDataSets_rel (N := N) rx h errs errs'
  generalize e.getDataSets (N := N) rx errs = x at this
  generalize e'.getDataSets (N := N) rx errs' = y at this
  cases this with
  | error x => exact .error x
  | ok h1 =>
    simp only
    rw [h1.datasets]
    exact foldE_calls (fun s s' a => simplifyStep_rel makeAll s s' a) _ _ _ h1

omit [PyNum N] in
theorem meta_rel {e e' : Entry ρ} (h : EntryRel e e') : e.meta = e'.meta := by
  unfold Entry.meta Entry.sortedKeys
  rw [h.deleted_eq, h.keys, h.accnum]
  rcases h.mainBib with ⟨x, e1, e2⟩ | ⟨b, b', e1, e2, hb⟩
  · rw [e1, e2]
  · rw [e1, e2]
    simp only
    rcases hb.meta (e'.accnum ++ chars!"001") with ⟨x, i1, i2⟩ | ⟨m, i1, i2⟩
    · rw [i1, i2]
    · rw [i1, i2]

/-! What the calls do to the entry. -/

omit [PyNum N] in
theorem EntryRel.set_right {e e' : Entry ρ} (h : EntryRel e e') {k : Option Str} {s s' : SubEntry ρ} (hk : e'.subs.get? k = some s) (hs : SubRel s s') :
    EntryRel e { e' with subs := e'.subs.set k s' } := by
  refine ⟨h.accnum, ?_, fun k' => ?_⟩
  · simp only
    rw [Dict.keys_set, if_pos ((Dict.mem_keys_iff _ _).2 (by rw [hk]; rfl)), h.keys]
  · simp only
    rw [Dict.get?_set]
    split
    · rename_i he
      subst he
      have := h.subs k'
      rw [hk] at this
      exact this.trans' (.some hs)
    · exact h.subs k'

theorem foldE_keeps {α σ : Type} {f : σ → α → Except PyErr σ} {I : σ → Prop} (hf : ∀ s a s', I s → f s a = .ok s' → I s') :
    ∀ (l : List α) (s s' : σ), I s → foldE f s l = .ok s' → I s' := by
  intro l
  induction l with
  | nil => intro s s' h h'; cases h'; exact h
  | cons a l ih =>
    intro s s' h h'
    simp only [foldE] at h'
    cases hx : f s a with
    | error x => rw [hx] at h'; cases h'
    | ok s1 => rw [hx] at h'; exact ih s1 s' (hf s a s1 h hx) h'

theorem dsStep_entry {rx : RxOps ρ} {acc : Str} {sub : Option Str} {ms : List (Option (DsMeta ρ))} {common : List (Option (Nat × DataSection))} {data : DataSection}
    {from_ : SubInfo ρ} {st st' : DsState ρ N} {pr : Char × (ρ × Str)} (h : dsStep rx acc sub ms common data from_ st pr = .ok st') : st'.entry = st.entry := by
  unfold dsStep at h
  split at h
  · cases h; rfl
  · cases h; rfl
  · cases h; rfl
  · cases h

theorem subStep_entry {rx : RxOps ρ} {mk : Option Str} {main : SubInfo ρ} {e : Entry ρ} (st : DsState ρ N) (k : Option Str) (st' : DsState ρ N) (hi : EntryRel e st.entry)
    (h : subStep rx mk main st k = .ok st') : EntryRel e st'.entry := by
  unfold subStep at h
  cases hk : st.entry.subs.get? k with
  | none => rw [hk] at h; cases h; exact hi
  | some s =>
    rw [hk] at h
    simp only at h
    cases hd : s.data with
    | none => rw [hd] at h; cases h; exact hi
    | some d =>
      rw [hd] at h
      simp only at h
      rcases (SubRel.refl' s).info (s.accnum.getD "None".toList) with ⟨x, e1, -⟩ | ⟨i, t, t', e1, -, e3, -⟩
      · rw [e1] at h; cases h
      · rw [e1] at h
        simp only at h
        split at h
        · cases h
        · rename_i st1 h1
          have g1 := foldE_keeps (I := fun x : DsState ρ N => EntryRel e x.entry) (fun s a s' hs hf => by rw [dsStep_entry hf]; exact hs) _ _ _ (hi.set_right hk e3) h1
          exact foldE_keeps (I := fun x : DsState ρ N => EntryRel e x.entry) (fun s a s' hs hf => by rw [dsStep_entry hf]; exact hs) _ _ _ g1 h

theorem getDataSets_entry {rx : RxOps ρ} {e : Entry ρ} {errs : Dict DsKey PyErr} {st : DsState ρ N} (h : e.getDataSets rx errs = .ok st) : EntryRel e st.entry := by
  unfold Entry.getDataSets at h
  split at h
  · cases h
  · cases h; exact .refl' e
  · split at h
    · cases h
    · rename_i s hs
      have hk : e.subs.get? e.mainKey = some s := by
        rw [getItem_one] at hs
        unfold Dict.get at hs
        cases hx : e.subs.get? e.mainKey with
        | none => rw [hx] at hs; cases hs
        | some s0 => rw [hx] at hs; cases hs; rfl
      rcases (SubRel.refl' s).info (e.accnum ++ "001".toList) with ⟨x, e1, -⟩ | ⟨i, t, t', e1, -, e3, -⟩
      · rw [e1] at h; cases h
      · rw [e1] at h
        simp only at h
        exact foldE_keeps (I := fun x : DsState ρ N => EntryRel e x.entry) (fun s a s' hs hf => subStep_entry s a s' hs hf) _ _ _
          ((EntryRel.refl' e).set_right hk e3) h

theorem getSimplified_entry {rx : RxOps ρ} {e : Entry ρ} {errs : Dict DsKey PyErr} {makeAll : Bool} {st : DsState ρ N} (h : e.getSimplifiedDataSets rx errs makeAll = .ok st) :
    EntryRel e st.entry := by
  unfold Entry.getSimplifiedDataSets at h
  split at h
  · cases h
  · rename_i st0 h0
    refine foldE_keeps (I := fun x : DsState ρ N => EntryRel e x.entry) (fun s a s' hs hf => ?_) _ _ _ (getDataSets_entry h0) h
    unfold simplifyStep at hf
    split at hf
    · cases hf; exact hs
    · split at hf
      · cases hf; exact hs
      · cases hf

omit [PyNum N] in
theorem afterMeta_entry (e : Entry ρ) : EntryRel e e.afterMeta := by
  unfold Entry.afterMeta
  split
  · exact .refl' e
  · rename_i s hs
    split
    · exact .refl' e
    · rename_i b hb
      have hk : e.subs.get? e.mainKey = some s := by
        rw [getItem_one] at hs
        unfold Dict.get at hs
        cases hx : e.subs.get? e.mainKey with
        | none => rw [hx] at hs; cases hs
        | some s0 => rw [hx] at hs; cases hs; rfl
      exact (EntryRel.refl' e).set_right hk (.set_bib (bib_get hb) (.title b))

theorem run_entry {rx : RxOps ρ} {o o' : EntryObject ρ} {c : EntryCall} {a : EntryAnswer ρ N} (h : c.run rx o = .ok (a, o')) : EntryRel o.entry o'.entry := by
  cases c with
  | datasets =>
    simp only [EntryCall.run] at h
    split at h
    · cases h
    · rename_i st hst; cases h; exact getDataSets_entry hst
  | simplified makeAll =>
    simp only [EntryCall.run] at h
    split at h
    · cases h
    · rename_i st hst; cases h; exact getSimplified_entry hst
  | metadata =>
    simp only [EntryCall.run] at h
    split at h
    · cases h
    · cases h; exact afterMeta_entry _

/-- calls on two objects with related entries: the same answer or exception, and the same exceptions recorded in addition -/
theorem run_rel (rx : RxOps ρ) {o o' : EntryObject ρ} (h : EntryRel o.entry o'.entry) (c : EntryCall) :
    CallRel (fun x y : EntryAnswer ρ N × EntryObject ρ => x.1 = y.1 ∧ RecordedRel o.errors o'.errors x.2.errors y.2.errors) (c.run rx o) (c.run rx o') := by
  cases c with
  | datasets =>
    simp only [EntryCall.run]
    have := getDataSets_rel (N := N) rx h o.errors o'.errors
    generalize o.entry.getDataSets (N := N) rx o.errors = x at this
    generalize o'.entry.getDataSets (N := N) rx o'.errors = y at this
    cases this with
    | error x => exact .error x
    | ok h1 => exact .ok ⟨by rw [h1.datasets], h1.errors⟩
  | simplified makeAll =>
    simp only [EntryCall.run]
    have := getSimplifiedSets_rel (N := N) rx h o.errors o'.errors makeAll
    generalize o.entry.getSimplifiedDataSets (N := N) rx o.errors makeAll = x at this
    generalize o'.entry.getSimplifiedDataSets (N := N) rx o'.errors makeAll = y at this
    cases this with
    | error x => exact .error x
    | ok h1 => exact .ok ⟨by rw [h1.datasets], h1.errors⟩
  | metadata =>
    simp only [EntryCall.run]
    rw [meta_rel h]
    cases o'.entry.meta with
    | error x => exact .error x
    | ok m => exact .ok ⟨rfl, .start _ _⟩

theorem after_entry {rx : RxOps ρ} {o o' : EntryObject ρ} {calls : List EntryCall} (h : o.after N rx calls = .ok o') : EntryRel o.entry o'.entry := by
  refine foldE_keeps (I := fun x : EntryObject ρ => EntryRel o.entry x.entry) (fun s a s' hs hf => ?_) _ _ _ (.refl' _) h
  split at hf
  · cases hf
  · rename_i r hr
    cases hf
    exact hs.trans' (run_entry hr)

/-- C129: whatever has been asked of an entry before (datasets, simplified datasets, metadata, any number of times in any order), the next call
gives what it gives at the first time, or raises the same exception. -/
theorem C129_answers (rx : RxOps ρ) (o o' : EntryObject ρ) (calls : List EntryCall) (h : o.after N rx calls = .ok o') (c : EntryCall) :
    (c.run (N := N) rx o').map Prod.fst = (c.run (N := N) rx o).map Prod.fst := by
  have := run_rel (N := N) rx (after_entry h) c
  generalize c.run (N := N) rx o = x at this ⊢
  generalize c.run (N := N) rx o' = y at this ⊢
  cases this with
  | error x => rfl
  | ok h1 => exact congrArg Except.ok h1.1.symm

/-- C129: every call records the exceptions that it records at the first time, and those recorded before under other keys stay. -/
theorem C129_errors (rx : RxOps ρ) (e : Entry ρ) (errs : Dict DsKey PyErr) (o : EntryObject ρ) (calls : List EntryCall)
    (h : EntryObject.after N rx ⟨e, errs⟩ calls = .ok o) (c : EntryCall) (a : EntryAnswer ρ N) (o' : EntryObject ρ) (h' : c.run rx o = .ok (a, o')) :
    ∃ a0 o0, c.run (N := N) rx ⟨e, []⟩ = .ok (a0, o0) ∧ ∀ k, o'.errors.get? k = (o0.errors.get? k).or (o.errors.get? k) := by
  have := run_rel (N := N) rx (o := ⟨e, []⟩) (o' := o) (after_entry (o := ⟨e, errs⟩) h) c
  rw [h'] at this
  generalize c.run (N := N) rx ⟨e, []⟩ = x at this ⊢
  cases this with
  | ok h1 =>
    obtain ⟨-, new, h2⟩ := h1
    refine ⟨_, _, rfl, fun k => ?_⟩
    rw [(h2 k).1, (h2 k).2]
    cases new.get? k <;> rfl

set_option maxRecDepth 20000 in
/-- C129 applies: an entry without titles, after its datasets, metadata and simplified datasets have been asked for -/
example : ∃ e, ∃ o : EntryObject _, demoEntry "CS".toList "MIXED".toList = .ok e ∧
    EntryObject.after N demoRx ⟨e, []⟩ [.datasets, .metadata, .simplified true, .datasets] = .ok o ∧ o.errors.keys = [("10001".toList, some "10001002".toList, ' ')] :=
  ⟨_, _, rfl, rfl, rfl⟩

set_option maxRecDepth 20000 in
/-- C129 fails for the recorded exceptions: those of an earlier call stay, although the last one gave a dataset without any exception. -/
theorem C129_errors_refuted : ∃ e, ∃ o o' o0 : EntryObject _, ∃ a a0 : EntryAnswer _ N, demoEntry "CS".toList "DA".toList = .ok e ∧
    EntryObject.after N demoRx ⟨e, []⟩ [.simplified false] = .ok o ∧ EntryCall.run demoRx o .datasets = .ok (a, o') ∧ EntryCall.run demoRx ⟨e, []⟩ .datasets = .ok (a0, o0) ∧
    o0.errors = [] ∧ o'.errors = [(("10001".toList, some "10001002".toList, ' '), .noValuesGivenError "Angle".toList)] :=
  ⟨_, _, _, _, _, _, rfl, rfl, rfl, rfl, rfl, rfl⟩

end X4
