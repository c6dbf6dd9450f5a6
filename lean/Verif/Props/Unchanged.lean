import Verif.Props.SessionOrder
import Verif.Model.EntryText
/-! What calls on an entry object change in it: they give titles to BIB sections without one, after which the entry cannot be printed. -/
namespace X4
variable {ρ N : Type}

/-- the subentry with a title in its BIB section, if it has one -/
def Retitled (s t : SubEntry ρ) : Prop :=
  (s.bib = none ∧ t = s) ∨ ∃ b, s.bib = some b ∧ t = { s with sections := s.sections.set "BIB".toList (.bib b.defaultTitle) }

/-- subentries replaced so, one after the other -/
inductive Retitles (e : Entry ρ) : Entry ρ → Prop
  | start : Retitles e e
  | step {e1 : Entry ρ} {k : Option Str} {s t : SubEntry ρ} (h : Retitles e e1) (hk : e1.subs.get? k = some s) (ht : Retitled s t) :
      Retitles e { e1 with subs := e1.subs.set k t }

theorem info_retitled {s t : SubEntry ρ} {a : Str} {i : SubInfo ρ} (h : s.info a = .ok (i, t)) : Retitled s t := by
  unfold SubEntry.info at h
  cases hb : s.bib with
  | none => rw [hb] at h; cases h; exact .inl ⟨hb, rfl⟩
  | some b =>
    rw [hb] at h
    simp only at h
    rcases BibRel.meta (b := b) (b' := b) (fun _ => rfl) a with ⟨x, e1, -⟩ | ⟨m, e1, -⟩
    · rw [e1] at h; cases h
    · rw [e1] at h
      simp only at h
      split at h
      · cases h
      · split at h
        · cases h
        · cases h; exact .inr ⟨b, hb, rfl⟩

theorem bib_set (s : SubEntry ρ) (b : BibSection ρ) : SubEntry.bib { s with sections := s.sections.set "BIB".toList (.bib b) } = some b := by
  unfold SubEntry.bib
  simp only
  rw [Dict.get?_set_self]

theorem data_set (s : SubEntry ρ) (b : BibSection ρ) : SubEntry.data { s with sections := s.sections.set "BIB".toList (.bib b) } = s.data := by
  unfold SubEntry.data
  simp only
  rw [Dict.get?_set_ne _ _ (by decide)]

theorem Retitled.again {s t u : SubEntry ρ} (h : Retitled s t) (h' : Retitled t u) : u = t := by
  rcases h with ⟨h1, rfl⟩ | ⟨b, h1, rfl⟩
  · rcases h' with ⟨-, rfl⟩ | ⟨b, h2, -⟩
    · rfl
    · rw [h1] at h2; cases h2
  · rcases h' with ⟨-, rfl⟩ | ⟨c, h2, rfl⟩
    · rfl
    · rw [bib_set] at h2
      cases h2
      simp only
      rw [defaultTitle_twice, Dict.set_same (Dict.get?_set_self _ _ _)]

/-- after such replacements every subentry is as before or replaced -/
theorem Retitles.lookup {e e' : Entry ρ} (h : Retitles e e') :
    e'.accnum = e.accnum ∧ e'.subs.keys = e.subs.keys ∧
      ∀ k, (e.subs.get? k = none ∧ e'.subs.get? k = none) ∨ ∃ s t, e.subs.get? k = some s ∧ e'.subs.get? k = some t ∧ (t = s ∨ Retitled s t) := by
  induction h with
  | start =>
    refine ⟨rfl, rfl, fun k => ?_⟩
    cases e.subs.get? k with
    | none => exact .inl ⟨rfl, rfl⟩
    | some s => exact .inr ⟨s, s, rfl, rfl, .inl rfl⟩
  | @step e1 k s t _ hk ht ih =>
    obtain ⟨h1, h2, h3⟩ := ih
    refine ⟨h1, ?_, fun k' => ?_⟩
    · simp only
      rw [Dict.keys_set, if_pos ((Dict.mem_keys_iff _ _).2 (by rw [hk]; rfl)), h2]
    · simp only
      rw [Dict.get?_set]
      split
      · rename_i hkk
        subst hkk
        rcases h3 k' with ⟨-, h4⟩ | ⟨s0, s1, h4, h5, h6⟩
        · rw [hk] at h4; cases h4
        · rw [hk] at h5
          cases h5
          refine .inr ⟨s0, t, h4, rfl, .inr ?_⟩
          rcases h6 with rfl | h6
          · exact ht
          · rw [h6.again ht]; exact h6
      · exact h3 k'

theorem Retitled.titled {s t : SubEntry ρ} (h : Retitled s t) (hs : ∀ b, s.bib = some b → b.fields.has (some "TITLE".toList) = true) : t = s := by
  rcases h with ⟨-, rfl⟩ | ⟨b, h1, rfl⟩
  · rfl
  · have : b.defaultTitle = b := by
      unfold BibSection.defaultTitle
      rw [if_pos (hs b h1)]
    rw [this, Dict.set_same (bib_get h1)]

theorem Retitles.titled {e e' : Entry ρ} (h : Retitles e e') (hs : ∀ k s b, e.subs.get? k = some s → s.bib = some b → b.fields.has (some "TITLE".toList) = true) : e' = e := by
  induction h with
  | start => rfl
  | @step e1 k s t _ hk ht ih =>
    subst ih
    rw [ht.titled fun b hb => hs k s b hk hb, Dict.set_same hk]

theorem first_get {e : Entry ρ} {s : SubEntry ρ} (hs : e.getItem (.int 1) = .ok s) : e.subs.get? e.mainKey = some s := by
  rw [getItem_one] at hs
  unfold Dict.get at hs
  cases hx : e.subs.get? e.mainKey with
  | none => rw [hx] at hs; cases hs
  | some s0 => rw [hx] at hs; cases hs; rfl

variable [PyNum N]

/-- one round of the loop over the subentries: nothing, or the subentry is replaced -/
theorem subStep_retitles {rx : RxOps ρ} {mk : Option Str} {main : SubInfo ρ} {st st' : DsState ρ N} {k : Option Str} (h : subStep rx mk main st k = .ok st') :
    (st'.entry = st.entry ∧ ∀ s, st.entry.subs.get? k = some s → s.data = none) ∨
      ∃ s t, st.entry.subs.get? k = some s ∧ Retitled s t ∧ st'.entry = { st.entry with subs := st.entry.subs.set k t } := by
  unfold subStep at h
  cases hk : st.entry.subs.get? k with
  | none => rw [hk] at h; cases h; exact .inl ⟨rfl, fun _ h => nomatch h⟩
  | some s =>
    rw [hk] at h
    simp only at h
    cases hd : s.data with
    | none => rw [hd] at h; cases h; exact .inl ⟨rfl, fun _ h => by cases h; exact hd⟩
    | some d =>
      rw [hd] at h
      simp only at h
      split at h
      · cases h
      · rename_i si hi
        split at h
        · cases h
        · rename_i st1 h1
          refine .inr ⟨s, si.2, rfl, info_retitled (i := si.1) hi, ?_⟩
          have g1 := foldE_keeps (I := fun x : DsState ρ N => x.entry = { st.entry with subs := st.entry.subs.set k si.2 })
            (fun s a s' hs hf => by rw [dsStep_entry hf]; exact hs) _ _ _ rfl h1
          exact foldE_keeps (I := fun x : DsState ρ N => x.entry = { st.entry with subs := st.entry.subs.set k si.2 })
            (fun s a s' hs hf => by rw [dsStep_entry hf]; exact hs) _ _ _ g1 h

theorem getDataSets_retitles {rx : RxOps ρ} {e : Entry ρ} {errs : Dict DsKey PyErr} {st : DsState ρ N} (h : e.getDataSets rx errs = .ok st) : Retitles e st.entry := by
  unfold Entry.getDataSets at h
  split at h
  · cases h
  · cases h; exact .start
  · split at h
    · cases h
    · rename_i s hs
      split at h
      · cases h
      · rename_i mi hi
        refine foldE_keeps (I := fun x : DsState ρ N => Retitles e x.entry) (fun s a s' hs hf => ?_) _ _ _ (.step .start (first_get hs) (info_retitled (i := mi.1) hi)) h
        rcases subStep_retitles hf with ⟨h1, -⟩ | ⟨u, t, h1, h2, h3⟩
        · rw [h1]; exact hs
        · rw [h3]; exact .step hs h1 h2

theorem getSimplified_same {rx : RxOps ρ} {e : Entry ρ} {errs : Dict DsKey PyErr} {makeAll : Bool} {st : DsState ρ N} (h : e.getSimplifiedDataSets rx errs makeAll = .ok st) :
    ∃ st0 : DsState ρ N, e.getDataSets rx errs = .ok st0 ∧ st.entry = st0.entry := by
  unfold Entry.getSimplifiedDataSets at h
  split at h
  · cases h
  · rename_i st0 h0
    refine ⟨st0, h0, foldE_keeps (I := fun x : DsState ρ N => x.entry = st0.entry) (fun s a s' hs hf => ?_) _ _ _ rfl h⟩
    unfold simplifyStep at hf
    split at hf
    · cases hf; exact hs
    · split at hf
      · cases hf; exact hs
      · cases hf

theorem Retitles.trans {e e1 e2 : Entry ρ} (h : Retitles e e1) (h' : Retitles e1 e2) : Retitles e e2 := by
  induction h' with
  | start => exact h
  | step _ hk ht ih => exact .step ih hk ht

theorem afterMeta_retitles (e : Entry ρ) : Retitles e e.afterMeta := by
  unfold Entry.afterMeta
  split
  · exact .start
  · rename_i s hs
    split
    · exact .start
    · rename_i b hb
      exact .step .start (first_get hs) (.inr ⟨b, hb, rfl⟩)

theorem run_retitles {rx : RxOps ρ} {o : EntryObject ρ} {c : EntryCall} {r : EntryAnswer ρ N × EntryObject ρ} (h : c.run rx o = .ok r) : Retitles o.entry r.2.entry := by
  cases c with
  | datasets =>
    simp only [EntryCall.run] at h
    split at h
    · cases h
    · rename_i st hst; cases h; exact getDataSets_retitles hst
  | simplified makeAll =>
    simp only [EntryCall.run] at h
    split at h
    · cases h
    · rename_i st hst
      cases h
      obtain ⟨st0, h0, h1⟩ := getSimplified_same hst
      rw [h1]
      exact getDataSets_retitles h0
  | metadata =>
    simp only [EntryCall.run] at h
    split at h
    · cases h
    · cases h; exact afterMeta_retitles _

theorem after_retitles {rx : RxOps ρ} {o o' : EntryObject ρ} {calls : List EntryCall} (h : o.after N rx calls = .ok o') : Retitles o.entry o'.entry := by
  refine foldE_keeps (I := fun x : EntryObject ρ => Retitles o.entry x.entry) (fun s a s' hs hf => ?_) _ _ _ .start h
  split at hf
  · cases hf
  · rename_i r hr
    cases hf
    exact hs.trans (run_retitles hr)

/-- C16, the part that holds: if all BIB sections have titles, an entry is the same after any calls. -/
theorem C16_calls_partial (rx : RxOps ρ) (o o' : EntryObject ρ) (calls : List EntryCall) (h : o.after N rx calls = .ok o')
    (ht : ∀ k s b, o.entry.subs.get? k = some s → s.bib = some b → b.fields.has (some "TITLE".toList) = true) : o'.entry = o.entry :=
  (after_retitles h).titled ht

/-- C16, the part that holds for all entries: after any calls there are the same subentries with the same numbers and sections; all sections but
BIB are the same, and so are all fields of BIB sections but TITLE. -/
theorem C16_lookup_partial (rx : RxOps ρ) (o o' : EntryObject ρ) (calls : List EntryCall) (h : o.after N rx calls = .ok o') :
    o'.entry.accnum = o.entry.accnum ∧ o'.entry.subs.keys = o.entry.subs.keys ∧
      ∀ k s, o.entry.subs.get? k = some s → ∃ t, o'.entry.subs.get? k = some t ∧ t.accnum = s.accnum ∧ t.sortedKeys = s.sortedKeys ∧
        (∀ n, n ≠ "BIB".toList → t.sections.get? n = s.sections.get? n) ∧
        ∀ b, s.bib = some b → ∃ c, t.bib = some c ∧ c.sortedKeys = b.sortedKeys ∧ ∀ f, f ≠ some "TITLE".toList → c.fields.get? f = b.fields.get? f := by
  obtain ⟨h1, h2, h3⟩ := (after_retitles h).lookup
  refine ⟨h1, h2, fun k s hs => ?_⟩
  rcases h3 k with ⟨h4, -⟩ | ⟨s', t, h4, h5, h6⟩
  · rw [hs] at h4; cases h4
  · rw [hs] at h4
    cases h4
    have h7 : t = s ∨ ∃ b, s.bib = some b ∧ t = { s with sections := s.sections.set "BIB".toList (.bib b.defaultTitle) } := by
      rcases h6 with h6 | ⟨-, h6⟩ | h6
      · exact .inl h6
      · exact .inl h6
      · exact .inr h6
    refine ⟨t, h5, ?_⟩
    rcases h7 with rfl | ⟨b, hb, rfl⟩
    · exact ⟨rfl, rfl, fun _ _ => rfl, fun b hb => ⟨b, hb, rfl, fun _ _ => rfl⟩⟩
    · refine ⟨rfl, rfl, fun n hn => Dict.get?_set_ne _ _ hn, fun b' hb' => ?_⟩
      rw [hb] at hb'
      cases hb'
      refine ⟨_, bib_set _ _, ?_, fun f hf => defaultTitle_other b hf⟩
      unfold BibSection.defaultTitle
      split <;> rfl

/-! Printing. -/

theorem mapE_fails {ε α β : Type} {f : α → Except ε β} {l : List α} {a : α} {x : ε} (ha : a ∈ l) (h : f a = .error x) : ∃ y, mapE f l = .error y := by
  cases hm : mapE f l with
  | error y => exact ⟨y, rfl⟩
  | ok r =>
    exfalso
    induction l generalizing r with
    | nil => cases ha
    | cons c l ih =>
      simp only [mapE] at hm
      rcases List.mem_cons.1 ha with rfl | ha
      · rw [h] at hm; cases hm
      · cases hc : f c with
        | error y => rw [hc] at hm; cases hm
        | ok v =>
          rw [hc] at hm
          simp only at hm
          cases hr : mapE f l with
          | error y => rw [hr] at hm; cases hm
          | ok r' => exact ih ha r' hr

theorem defaultTitle_totalLen {b : BibSection ρ} (h : b.fields.has (some "TITLE".toList) = false) : ∃ x, b.defaultTitle.totalLen = .error x := by
  have h1 : b.defaultTitle.fields.get? (some "TITLE".toList) = some .none := by
    unfold BibSection.defaultTitle
    rw [if_neg (by rw [h]; decide)]
    exact Dict.get?_set_self _ _ _
  obtain ⟨y, hy⟩ := mapE_fails (f := fun kv : Option Str × BibField ρ => kv.2.totalLen) (Dict.mem_of_get? h1) rfl
  unfold BibSection.totalLen
  rw [hy]
  exact ⟨y, rfl⟩

theorem defaultTitle_repr {b : BibSection ρ} (h : b.fields.has (some "TITLE".toList) = false) : ∃ x, b.defaultTitle.repr = .error x := by
  obtain ⟨x, hx⟩ := defaultTitle_totalLen h
  unfold BibSection.repr
  rw [hx]
  exact ⟨x, rfl⟩

/-- an entry with such a subentry cannot be printed -/
theorem repr_fails {e : Entry ρ} {a : Str} {s : SubEntry ρ} {b : BibSection ρ} (ha : a.length = 8) (hs : e.subs.get? (some a) = some s)
    (hb : s.bib = some b) (hk : "BIB".toList ∈ s.sortedKeys) {x : PyErr} (hx : b.repr = .error x) : ∃ y, e.repr = .error y := by
  have h1 : ∃ y, s.repr = .error y := by
    unfold SubEntry.repr
    cases s.accnum with
    | none => exact ⟨_, rfl⟩
    | some acc =>
      have : s.secRepr "BIB".toList = .error x := by
        unfold SubEntry.secRepr Dict.get
        rw [bib_get hb]
        exact hx
      obtain ⟨y, hy⟩ := mapE_fails hk this
      simp only
      rw [hy]
      exact ⟨y, rfl⟩
  obtain ⟨y, hy⟩ := h1
  have h2 : e.keyRepr (some a) = .error y := by
    unfold Entry.keyRepr Entry.getKey Entry.getItem Entry.getStr Index.text Dict.get
    simp only
    rw [if_pos ha, hs]
    exact hy
  unfold Entry.repr
  cases hks : e.sortedKeys with
  | error z => exact ⟨z, rfl⟩
  | ok ks =>
    have hm : some a ∈ ks := by
      unfold Entry.sortedKeys sortOptKeys at hks
      split at hks
      · cases hks
      · cases hks
        exact (sortBy_perm _ _).mem_iff.2 ((Dict.mem_keys_iff _ _).2 (by rw [hs]; rfl))
    obtain ⟨z, hz⟩ := mapE_fails hm h2
    simp only
    rw [hz]
    exact ⟨z, rfl⟩

/-- the subentry has no BIB section without a title, or no data -/
def TitleSet (k : Option Str) (e : Entry ρ) : Prop :=
  ∀ s, e.subs.get? k = some s → s.data.isSome → ∀ b, s.bib = some b → b.fields.has (some "TITLE".toList) = true

theorem defaultTitle_has (b : BibSection ρ) : b.defaultTitle.fields.has (some "TITLE".toList) = true := by
  unfold BibSection.defaultTitle
  split
  · assumption
  · simp only [Dict.has]
    rw [Dict.get?_set_self]
    rfl

theorem Retitled.has {s t : SubEntry ρ} (h : Retitled s t) {b : BibSection ρ} (hb : t.bib = some b) : b.fields.has (some "TITLE".toList) = true := by
  rcases h with ⟨h1, rfl⟩ | ⟨c, h1, rfl⟩
  · rw [h1] at hb; cases hb
  · rw [bib_set] at hb
    cases hb
    exact defaultTitle_has c

theorem subStep_titles {rx : RxOps ρ} {mk : Option Str} {main : SubInfo ρ} {st st' : DsState ρ N} {k k' : Option Str} (h : subStep rx mk main st k' = .ok st')
    (hk : TitleSet k st.entry ∨ k' = k) : TitleSet k st'.entry := by
  rcases subStep_retitles h with ⟨h1, h2⟩ | ⟨u, t, h1, h2, h3⟩
  · rw [h1]
    rcases hk with hk | rfl
    · exact hk
    · intro s hs hd
      rw [h2 s hs] at hd
      cases hd
  · rw [h3]
    intro s hs hd b hb
    simp only at hs
    rw [Dict.get?_set] at hs
    split at hs
    · cases hs
      exact h2.has hb
    · rename_i hne
      rcases hk with hk | rfl
      · exact hk s hs hd b hb
      · exact absurd rfl hne

theorem subSteps_titles {rx : RxOps ρ} {mk : Option Str} {main : SubInfo ρ} {k : Option Str} : ∀ (l : List (Option Str)) (st st' : DsState ρ N),
    foldE (subStep rx mk main) st l = .ok st' → TitleSet k st.entry ∨ k ∈ l → TitleSet k st'.entry := by
  intro l
  induction l with
  | nil => intro st st' h hk; cases h; exact hk.elim id fun h => nomatch h
  | cons c l ih =>
    intro st st' h hk
    simp only [foldE] at h
    cases hc : subStep rx mk main st c with
    | error x => rw [hc] at h; cases h
    | ok st1 =>
      rw [hc] at h
      refine ih st1 st' h ?_
      rcases hk with hk | hk
      · exact .inl (subStep_titles hc (.inl hk))
      · rcases List.mem_cons.1 hk with rfl | hk
        · exact .inl (subStep_titles hc (.inr rfl))
        · exact .inr hk

/-- after `getDataSets` a subentry with data has a title -/
theorem getDataSets_titled {rx : RxOps ρ} {e : Entry ρ} {errs : Dict DsKey PyErr} {st : DsState ρ N} (h : e.getDataSets rx errs = .ok st) (hd : e.deleted = .ok false)
    {k : Option Str} {s : SubEntry ρ} (hs : e.subs.get? k = some s) (hdata : s.data.isSome) {b : BibSection ρ} (hb : s.bib = some b)
    (ht : b.fields.has (some "TITLE".toList) = false) :
    st.entry.subs.get? k = some { s with sections := s.sections.set "BIB".toList (.bib b.defaultTitle) } := by
  have hset : TitleSet k st.entry := by
    unfold Entry.getDataSets at h
    rw [hd] at h
    simp only at h
    split at h
    · cases h
    · split at h
      · cases h
      · exact subSteps_titles _ _ _ h (.inr ((Dict.mem_keys_iff _ _).2 (by rw [hs]; rfl)))
  rcases (getDataSets_retitles h).lookup.2.2 k with ⟨h1, -⟩ | ⟨s', t, h1, h2, h3⟩
  · rw [hs] at h1; cases h1
  · rw [hs] at h1
    cases h1
    have h4 : t ≠ s := by
      rintro rfl
      have := hset t h2 hdata b hb
      rw [ht] at this
      cases this
    rcases h3 with h3 | ⟨-, h3⟩ | ⟨c, hc, rfl⟩
    · exact absurd h3 h4
    · exact absurd h3 h4
    · rw [hb] at hc
      cases hc
      exact h2

/-- C16 is false of the code, for every entry as usual: where a subentry with data has a BIB section without a title (only first subentries
have titles as a rule), `repr` of the entry raises an exception after `getDataSets`. -/
theorem C16_datasets_refuted (rx : RxOps ρ) (e : Entry ρ) (errs : Dict DsKey PyErr) (st : DsState ρ N) (h : e.getDataSets rx errs = .ok st) (hd : e.deleted = .ok false)
    (a : Str) (ha : a.length = 8) (s : SubEntry ρ) (hs : e.subs.get? (some a) = some s) (hdata : s.data.isSome) (b : BibSection ρ) (hb : s.bib = some b)
    (hk : "BIB".toList ∈ s.sortedKeys) (ht : b.fields.has (some "TITLE".toList) = false) : ∃ x, st.entry.repr = .error x := by
  obtain ⟨x, hx⟩ := defaultTitle_repr ht
  exact repr_fails ha (getDataSets_titled h hd hs hdata hb ht) (bib_set _ _) hk hx

omit [PyNum N] in
/-- the same for `str` -/
theorem str_fails {num : FloatLit → Str} {D : RxDicts} {e : Entry Measurement} {a : Str} {s : SubEntry Measurement} {b : BibSection Measurement} (ha : a.length = 8)
    (hs : e.subs.get? (some a) = some s) (hb : s.bib = some b) (hk : "BIB".toList ∈ s.sortedKeys) {x : PyErr} (hx : b.str D = .error x) : ∃ y, e.str num D = .error y := by
  have h1 : ∃ y, s.str num D = .error y := by
    unfold SubEntry.str
    cases s.accnum with
    | none => exact ⟨_, rfl⟩
    | some acc =>
      have : s.secStr num D "BIB".toList = .error x := by
        unfold SubEntry.secStr Dict.get
        rw [bib_get hb]
        exact hx
      obtain ⟨y, hy⟩ := mapE_fails hk this
      simp only
      rw [hy]
      exact ⟨y, rfl⟩
  obtain ⟨y, hy⟩ := h1
  have h2 : e.keyStr num D (some a) = .error y := by
    unfold Entry.keyStr Entry.getKey Entry.getItem Entry.getStr Index.text Dict.get
    simp only
    rw [if_pos ha, hs]
    exact hy
  unfold Entry.str
  cases hks : e.sortedKeys with
  | error z => exact ⟨z, rfl⟩
  | ok ks =>
    have hm : some a ∈ ks := by
      unfold Entry.sortedKeys sortOptKeys at hks
      split at hks
      · cases hks
      · cases hks
        exact (sortBy_perm _ _).mem_iff.2 ((Dict.mem_keys_iff _ _).2 (by rw [hs]; rfl))
    obtain ⟨z, hz⟩ := mapE_fails hm h2
    simp only
    rw [hz]
    exact ⟨z, rfl⟩

/-- C16 is false of the code: under the same conditions `str` of the entry raises an exception after `getDataSets`. -/
theorem C16_text_refuted (num : FloatLit → Str) (D : RxDicts) (rx : RxOps Measurement) (e : Entry Measurement) (errs : Dict DsKey PyErr) (st : DsState Measurement N)
    (h : e.getDataSets rx errs = .ok st) (hd : e.deleted = .ok false) (a : Str) (ha : a.length = 8) (s : SubEntry Measurement) (hs : e.subs.get? (some a) = some s)
    (hdata : s.data.isSome) (b : BibSection Measurement) (hb : s.bib = some b) (hk : "BIB".toList ∈ s.sortedKeys)
    (ht : b.fields.has (some "TITLE".toList) = false) : ∃ x, st.entry.str num D = .error x := by
  have : ∃ x, b.defaultTitle.str D = .error x := by
    obtain ⟨x, hx⟩ := defaultTitle_totalLen ht
    unfold BibSection.str
    rw [hx]
    exact ⟨x, rfl⟩
  obtain ⟨x, hx⟩ := this
  exact str_fails ha (getDataSets_titled h hd hs hdata hb ht) (bib_set _ _) hk hx

/-- an entry with a table but without titles -/
def untitledEntry : Except PyErr (Entry Measurement) :=
  Entry.build ⟨fun _ => .error .parseException, fun _ _ => .error .parseException, fun _ _ => [], fun _ => .error .parseException, fun _ => .error .parseException⟩
    ["SUBENT        10001001   19991231\nBIB                  1          1\nSTATUS     DONE\nENDBIB               1\nENDSUBENT            3".toList,
     "SUBENT        10001002   19991231\nBIB                  1          1\nSTATUS     DONE\nENDBIB               1\nDATA                 2          1\nEN         DATA\nMEV        B\n 1.5        2.5\nENDDATA              1\nENDSUBENT            3".toList]

set_option maxRecDepth 20000 in
/-- C16_text_refuted applies: it could be printed before -/
example (num : FloatLit → Str) (D : RxDicts) (rx : RxOps Measurement) : ∃ e s b, ∃ st : DsState Measurement N, ∃ t, untitledEntry = .ok e ∧ e.str num D = .ok t ∧
    e.getDataSets rx [] = .ok st ∧ e.deleted = .ok false ∧ e.subs.get? (some "10001002".toList) = some s ∧ s.data.isSome ∧ s.bib = some b ∧ "BIB".toList ∈ s.sortedKeys ∧
    b.fields.has (some "TITLE".toList) = false :=
  ⟨_, _, _, _, _, rfl, rfl, rfl, rfl, rfl, rfl, rfl, by decide, rfl⟩

omit [PyNum N] in
/-- C16, the part that holds: if the BIB section of the first subentry has a title, the entry is the same after `meta()`. -/
theorem C16_metadata_partial (e : Entry ρ) (ht : ∀ s b, e.getItem (.int 1) = .ok s → s.bib = some b → b.fields.has (some "TITLE".toList) = true) : e.afterMeta = e := by
  unfold Entry.afterMeta
  split
  · rfl
  · rename_i s hs
    split
    · rfl
    · rename_i b hb
      rw [Retitled.titled (s := s) (.inr ⟨b, hb, rfl⟩) fun c hc => ht s c hs hc, Dict.set_same (first_get hs)]

omit [PyNum N] in
/-- C16 is false of the code, for every entry without a title: it cannot be printed any more after `meta()`. -/
theorem C16_metadata_refuted (e : Entry ρ) (ha : e.accnum.length = 5) (s : SubEntry ρ) (hs : e.getItem (.int 1) = .ok s) (b : BibSection ρ) (hb : s.bib = some b)
    (hk : "BIB".toList ∈ s.sortedKeys) (ht : b.fields.has (some "TITLE".toList) = false) : ∃ x, e.afterMeta.repr = .error x := by
  obtain ⟨x, hx⟩ := defaultTitle_repr ht
  have h : e.afterMeta = { e with subs := e.subs.set e.mainKey { s with sections := s.sections.set "BIB".toList (.bib b.defaultTitle) } } := by
    unfold Entry.afterMeta
    rw [hs]
    simp only
    rw [hb]
  rw [h]
  exact repr_fails (a := e.accnum ++ "001".toList) (by rw [List.length_append, ha]; rfl) (Dict.get?_set_self _ _ _) (bib_set _ _) hk hx

set_option maxRecDepth 20000 in
/-- C16_metadata_refuted applies: an entry that could be printed before -/
example : ∃ e s b t, demoEntry "CS".toList "DA".toList = .ok e ∧ e.repr = .ok t ∧ e.accnum.length = 5 ∧ e.getItem (.int 1) = .ok s ∧ s.bib = some b ∧
    "BIB".toList ∈ s.sortedKeys ∧ b.fields.has (some "TITLE".toList) = false :=
  ⟨_, _, _, _, rfl, rfl, rfl, rfl, rfl, by decide, rfl⟩

set_option maxRecDepth 20000 in
/-- C16_datasets_refuted applies: an entry whose second subentry has a BIB section without a title, which could be printed before -/
example : ∃ e s b, ∃ st : DsState _ N, ∃ t, demoEntry "CS".toList "DA".toList = .ok e ∧ e.repr = .ok t ∧ e.getDataSets demoRx [] = .ok st ∧ e.deleted = .ok false ∧
    e.subs.get? (some "10001002".toList) = some s ∧ s.data.isSome ∧ s.bib = some b ∧ "BIB".toList ∈ s.sortedKeys ∧ b.fields.has (some "TITLE".toList) = false :=
  ⟨_, _, _, _, _, rfl, rfl, rfl, rfl, rfl, rfl, rfl, by decide, rfl⟩

/-- an entry with titles in both subentries -/
def titledEntry : Except PyErr (Entry (Option (List Str) × List (List Str))) :=
  Entry.build demoP [mainText "CS\nTITLE      ONE".toList, subText "DA\nTITLE      TWO".toList]

set_option maxRecDepth 20000 in
/-- C16_calls_partial applies: datasets, metadata and simplified datasets of it -/
example : ∃ e, ∃ o : EntryObject _, titledEntry = .ok e ∧ EntryObject.after N demoRx ⟨e, []⟩ [.datasets, .metadata, .simplified true] = .ok o ∧
    o.errors.keys.length = 1 ∧ e.subs.keys = [some "10001001".toList, some "10001002".toList] ∧
    ∀ ks ∈ e.subs, ∀ b ∈ ks.2.bib, b.fields.has (some "TITLE".toList) = true :=
  ⟨_, _, rfl, rfl, rfl, rfl, by
    intro ks hk b hb
    rcases List.mem_cons.1 hk with rfl | hk
    · cases hb; rfl
    · rcases List.mem_cons.1 hk with rfl | hk
      · cases hb; rfl
      · cases hk⟩

end X4
