import Verif.Model.SessionLeft
import Verif.Props.Unchanged
/-! Calls on one entry object do not disturb each other, also if some of them raise exceptions. -/
namespace X4
variable {ρ N : Type}

theorem foldKeep_ok {ε σ α : Type} {f : σ → α → Except ε σ} {g : σ → α → σ} : ∀ (l : List α) (s s' : σ), foldE f s l = .ok s' → foldKeep f g s l = s' := by
  intro l
  induction l with
  | nil => intro s s' h; cases h; rfl
  | cons a l ih =>
    intro s s' h
    simp only [foldE] at h
    unfold foldKeep
    cases hx : f s a with
    | error x => rw [hx] at h; cases h
    | ok s1 => rw [hx] at h; exact ih s1 s' h

theorem foldKeep_keeps {ε σ α : Type} {f : σ → α → Except ε σ} {g : σ → α → σ} {I : σ → Prop} (hf : ∀ s a s', I s → f s a = .ok s' → I s') (hg : ∀ s a, I s → I (g s a)) :
    ∀ (l : List α) (s : σ), I s → I (foldKeep f g s l) := by
  intro l
  induction l with
  | nil => intro s h; exact h
  | cons a l ih =>
    intro s h
    unfold foldKeep
    cases hx : f s a with
    | error x => exact hg s a h
    | ok s1 => exact ih s1 (hf s a s1 h hx)

theorem info_left {s t : SubEntry ρ} {a : Str} {i : SubInfo ρ} (h : s.info a = .ok (i, t)) : t = s.left := by
  have h0 := info_retitled h
  unfold SubEntry.left
  rcases h0 with ⟨h1, rfl⟩ | ⟨b, h1, rfl⟩
  · rw [h1]
  · rw [h1]
    simp only
    cases hm : b.metaAuthor with
    | ok l => rfl
    | error x =>
      unfold SubEntry.info at h
      rw [h1] at h
      simp only [BibSection.meta, hm] at h
      cases h

theorem left_cases (s : SubEntry ρ) : s.left = s ∨ Retitled s s.left := by
  cases hb : s.bib with
  | none => left; unfold SubEntry.left; rw [hb]
  | some b =>
    cases hm : b.metaAuthor with
    | error x => left; unfold SubEntry.left; rw [hb]; simp only [hm]
    | ok l => right; exact .inr ⟨b, hb, by unfold SubEntry.left; rw [hb]; simp only [hm]⟩

theorem Retitles.left {e e1 : Entry ρ} {k : Option Str} {s : SubEntry ρ} (h : Retitles e e1) (hk : e1.subs.get? k = some s) :
    Retitles e { e1 with subs := e1.subs.set k s.left } := by
  rcases left_cases s with hl | hl
  · rw [hl, Dict.set_same hk]; exact h
  · exact .step h hk hl

/-- entries with titles added give the same answers -/
theorem Retitles.rel {e e' : Entry ρ} (h : Retitles e e') : EntryRel e e' := by
  induction h with
  | start => exact .refl' e
  | step _ hk ht ih =>
    refine ih.set_right hk ?_
    rcases ht with ⟨-, rfl⟩ | ⟨b, hb, rfl⟩
    · exact .refl' _
    · exact .set_bib (bib_get hb) (.title b)

variable [PyNum N]

theorem dsSteps_left {rx : RxOps ρ} {acc : Str} {sub : Option Str} {ms : List (Option (DsMeta ρ))} {common : List (Option (Nat × DataSection))} {data : DataSection}
    {from_ : SubInfo ρ} (st : DsState ρ N) (l : List (Char × (ρ × Str))) :
    (foldKeep (dsStep rx acc sub ms common data from_) (fun st _ => st) st l).entry = st.entry :=
  foldKeep_keeps (I := fun x : DsState ρ N => x.entry = st.entry) (fun s a s' hs hf => by rw [dsStep_entry hf]; exact hs) (fun _ _ h => h) l st rfl

theorem subLeft_retitles {rx : RxOps ρ} {mk : Option Str} {main : SubInfo ρ} {e : Entry ρ} (st : DsState ρ N) (k : Option Str) (h : Retitles e st.entry) :
    Retitles e (subLeft rx mk main st k).entry := by
  unfold subLeft
  cases hk : st.entry.subs.get? k with
  | none => exact h
  | some s =>
    simp only
    cases hd : s.data with
    | none => exact h
    | some d =>
      simp only
      split
      · exact h.left hk
      · split
        · rw [dsSteps_left]; exact h.left hk
        · rename_i st2 h2
          rw [dsSteps_left, foldE_keeps (I := fun x : DsState ρ N => x.entry = { st.entry with subs := st.entry.subs.set k s.left })
            (fun s a s' hs hf => by rw [dsStep_entry hf]; exact hs) _ _ _ rfl h2]
          exact h.left hk

theorem leftDataSets_retitles (rx : RxOps ρ) (e : Entry ρ) (errs : Dict DsKey PyErr) : Retitles e (e.leftDataSets (N := N) rx errs).entry := by
  unfold Entry.leftDataSets
  split
  · exact .start
  · exact .start
  · split
    · exact .start
    · rename_i s hs
      simp only
      split
      · exact Retitles.start.left (first_get hs)
      · refine foldKeep_keeps (I := fun x : DsState ρ N => Retitles e x.entry) (fun s a s' hs hf => ?_) (fun s a hs => subLeft_retitles s a hs) _ _ (Retitles.start.left (first_get hs))
        rcases subStep_retitles hf with ⟨h1, -⟩ | ⟨u, t, h1, h2, h3⟩
        · rw [h1]; exact hs
        · rw [h3]; exact .step hs h1 h2

theorem leftSimplified_retitles (rx : RxOps ρ) (e : Entry ρ) (errs : Dict DsKey PyErr) (makeAll : Bool) : Retitles e (e.leftSimplified (N := N) rx errs makeAll).entry := by
  unfold Entry.leftSimplified
  split
  · exact leftDataSets_retitles rx e errs
  · rename_i st h
    refine foldKeep_keeps (I := fun x : DsState ρ N => Retitles e x.entry) (fun s a s' hs hf => ?_) (fun _ _ h => h) _ _ (getDataSets_retitles h)
    unfold simplifyStep at hf
    split at hf
    · cases hf; exact hs
    · split at hf
      · cases hf; exact hs
      · cases hf

omit [PyNum N] in
theorem leftMeta_retitles (e : Entry ρ) : Retitles e e.leftMeta := by
  unfold Entry.leftMeta
  split
  · exact .start
  · split
    · exact .start
    · split
      · exact .start
      · rename_i s hs
        exact Retitles.start.left (first_get hs)

theorem left_retitles (rx : RxOps ρ) (o : EntryObject ρ) (c : EntryCall) : Retitles o.entry (c.left N rx o).entry := by
  cases c with
  | datasets => exact leftDataSets_retitles rx _ _
  | simplified makeAll => exact leftSimplified_retitles rx _ _ makeAll
  | metadata => exact leftMeta_retitles _

theorem afterAll_retitles (rx : RxOps ρ) : ∀ (calls : List EntryCall) (o : EntryObject ρ), Retitles o.entry (o.afterAll N rx calls).entry := by
  intro calls
  induction calls with
  | nil => intro o; exact .start
  | cons c calls ih => intro o; exact (left_retitles rx o c).trans (ih (c.left N rx o))

theorem getDataSets_left {rx : RxOps ρ} {e : Entry ρ} {errs : Dict DsKey PyErr} {st : DsState ρ N} (h : e.getDataSets rx errs = .ok st) : e.leftDataSets rx errs = st := by
  unfold Entry.getDataSets at h
  unfold Entry.leftDataSets
  cases hd : e.deleted with
  | error x => rw [hd] at h; cases h
  | ok d =>
    rw [hd] at h
    cases d with
    | true => cases h; rfl
    | false =>
      simp only at h ⊢
      cases hs : e.getItem (.int 1) with
      | error x => rw [hs] at h; cases h
      | ok s =>
        rw [hs] at h
        simp only at h ⊢
        cases hi : s.info (e.accnum ++ "001".toList) with
        | error x => rw [hi] at h; cases h
        | ok mi =>
          rw [hi] at h
          simp only at h ⊢
          rw [← info_left (i := mi.1) hi]
          exact foldKeep_ok _ _ _ h

/-- a call that raises no exception leaves behind what it returns as the new object -/
theorem run_left {rx : RxOps ρ} {o : EntryObject ρ} {c : EntryCall} {r : EntryAnswer ρ N × EntryObject ρ} (h : c.run rx o = .ok r) : c.left N rx o = r.2 := by
  cases c with
  | datasets =>
    simp only [EntryCall.run] at h
    split at h
    · cases h
    · rename_i st hst
      cases h
      simp only [EntryCall.left, getDataSets_left hst]
  | simplified makeAll =>
    simp only [EntryCall.run] at h
    split at h
    · cases h
    · rename_i st hst
      cases h
      have : o.entry.leftSimplified rx o.errors makeAll = st := by
        unfold Entry.getSimplifiedDataSets at hst
        unfold Entry.leftSimplified
        cases hg : o.entry.getDataSets (N := N) rx o.errors with
        | error x => rw [hg] at hst; cases hst
        | ok st0 => rw [hg] at hst; exact foldKeep_ok _ _ _ hst
      simp only [EntryCall.left, this]
  | metadata =>
    simp only [EntryCall.run] at h
    split at h
    · cases h
    · rename_i m hm
      cases h
      have : o.entry.leftMeta = o.entry.afterMeta := by
        unfold Entry.meta at hm
        unfold Entry.leftMeta Entry.afterMeta
        cases hd : o.entry.deleted with
        | error x => rw [hd] at hm; cases hm
        | ok d =>
          rw [hd] at hm
          simp only at hm ⊢
          cases hk : o.entry.sortedKeys with
          | error x => rw [hk] at hm; cases hm
          | ok ks =>
            rw [hk] at hm
            simp only at hm ⊢
            cases hs : o.entry.getItem (.int 1) with
            | error x => rfl
            | ok s =>
              simp only
              cases hb : s.bib with
              | none => simp only [SubEntry.left, hb]; rw [Dict.set_same (first_get hs)]
              | some b =>
                simp only [SubEntry.left, hb]
                cases ha : b.metaAuthor with
                | ok l => rfl
                | error x =>
                  exfalso
                  have hmb : o.entry.mainBib = .ok b := by
                    unfold Entry.mainBib
                    rw [hs]
                    simp only [Dict.get, bib_get hb]
                  rw [hmb] at hm
                  simp only [BibSection.meta, ha] at hm
                  cases hm
      simp only [EntryCall.left, this]

/-- C129: whatever has been asked of an entry before, and whatever exceptions that raised, the next call gives what it gives at the first time, or
raises the same exception. -/
theorem C129_exceptions (rx : RxOps ρ) (o : EntryObject ρ) (calls : List EntryCall) (c : EntryCall) :
    (c.run (N := N) rx (o.afterAll N rx calls)).map Prod.fst = (c.run (N := N) rx o).map Prod.fst := by
  have := run_rel (N := N) rx (afterAll_retitles (N := N) rx calls o).rel c
  generalize c.run (N := N) rx o = x at this ⊢
  generalize c.run (N := N) rx (o.afterAll N rx calls) = y at this ⊢
  cases this with
  | error x => rfl
  | ok h1 => exact congrArg Except.ok h1.1.symm

/-- C129: after such calls, too, a call records the exceptions that it records at the first time, and those recorded before under other keys stay. -/
theorem C129_errors_exceptions (rx : RxOps ρ) (e : Entry ρ) (errs : Dict DsKey PyErr) (calls : List EntryCall) (c : EntryCall) (a : EntryAnswer ρ N) (o' : EntryObject ρ)
    (h : c.run rx (EntryObject.afterAll N rx ⟨e, errs⟩ calls) = .ok (a, o')) :
    ∃ a0 o0, c.run (N := N) rx ⟨e, []⟩ = .ok (a0, o0) ∧
      ∀ k, o'.errors.get? k = (o0.errors.get? k).or ((EntryObject.afterAll N rx ⟨e, errs⟩ calls).errors.get? k) := by
  have := run_rel (N := N) rx (o := ⟨e, []⟩) (o' := EntryObject.afterAll N rx ⟨e, errs⟩ calls) (afterAll_retitles (N := N) rx calls ⟨e, errs⟩).rel c
  rw [h] at this
  generalize c.run (N := N) rx ⟨e, []⟩ = x at this ⊢
  cases this with
  | ok h1 =>
    obtain ⟨-, new, h2⟩ := h1
    refine ⟨_, _, rfl, fun k => ?_⟩
    rw [(h2 k).1, (h2 k).2]
    cases new.get? k <;> rfl

/-- C129: calls that raise no exceptions are those of C129_answers. -/
theorem C129_agrees (rx : RxOps ρ) : ∀ (calls : List EntryCall) (o o' : EntryObject ρ), o.after N rx calls = .ok o' → o.afterAll N rx calls = o' := by
  intro calls
  induction calls with
  | nil => intro o o' h; cases h; rfl
  | cons c calls ih =>
    intro o o' h
    rw [after_cons] at h
    cases hr : c.run (N := N) rx o with
    | error x => rw [hr] at h; cases h
    | ok r =>
      rw [hr] at h
      have := ih r.2 o' h
      rw [← run_left hr] at this
      exact this

/-- C16, the part that holds: if all BIB sections have titles, an entry is the same after any calls, also if these raise exceptions. -/
theorem C16_exceptions_partial (rx : RxOps ρ) (o : EntryObject ρ) (calls : List EntryCall)
    (ht : ∀ k s b, o.entry.subs.get? k = some s → s.bib = some b → b.fields.has (some "TITLE".toList) = true) : (o.afterAll N rx calls).entry = o.entry :=
  (afterAll_retitles rx calls o).titled ht

set_option maxRecDepth 20000 in
/-- C129_exceptions applies: an entry without titles of which `getSimplifiedDataSets` raises a ValueError, and which has a title afterwards -/
example : ∃ e, Entry.build demoP [mainText "DA".toList, cosText] = .ok e ∧ EntryCall.run (N := ℝ) demoRx ⟨e, []⟩ (.simplified false) = .error .valueError ∧
    (∃ s b, e.subs.get? (some "10001001".toList) = some s ∧ s.bib = some b ∧ b.fields.has (some "TITLE".toList) = false) ∧
    ∃ s b, (EntryObject.afterAll ℝ demoRx ⟨e, []⟩ [.simplified false]).entry.subs.get? (some "10001001".toList) = some s ∧ s.bib = some b ∧
      b.fields.has (some "TITLE".toList) = true := by
  have h : ∃ e, ∃ st : DsState _ ℝ, ∃ i, Entry.build demoP [mainText "DA".toList, cosText] = .ok e ∧ e.getDataSets demoRx [] = .ok st ∧
      st.datasets = [(("10001".toList, some "10001002".toList, ' '), cosDataSet i)] ∧
      (∃ s b, e.subs.get? (some "10001001".toList) = some s ∧ s.bib = some b ∧ b.fields.has (some "TITLE".toList) = false) ∧
      ∃ s b, st.entry.subs.get? (some "10001001".toList) = some s ∧ s.bib = some b ∧ b.fields.has (some "TITLE".toList) = true :=
    ⟨_, _, _, rfl, rfl, rfl, ⟨_, _, rfl, rfl, rfl⟩, _, _, rfl, rfl, rfl⟩
  obtain ⟨e, st, i, h1, h2, h3, h4, h5⟩ := h
  refine ⟨e, h1, ?_, h4, ?_⟩
  · simp only [EntryCall.run, Entry.getSimplifiedDataSets, h2, h3, foldE, simplifyStep, cosDataSet_error]
    rfl
  · have : (EntryObject.afterAll ℝ demoRx ⟨e, []⟩ [.simplified false]).entry = st.entry := by
      simp only [EntryObject.afterAll, List.foldl, EntryCall.left, Entry.leftSimplified, h2, h3, foldKeep, simplifyStep, cosDataSet_error]
      rfl
    rw [this]
    exact h5

end X4
