import Verif.Props.Session
/-! The order of the calls on one entry object does not matter. -/
namespace X4
variable {ρ N : Type} [PyNum N]

theorem after_cons (rx : RxOps ρ) (o : EntryObject ρ) (c : EntryCall) (calls : List EntryCall) :
    o.after N rx (c :: calls) = match c.run (N := N) rx o with
      | .error x => .error x
      | .ok r => r.2.after N rx calls := by
  unfold EntryObject.after
  simp only [foldE]
  cases c.run (N := N) rx o <;> rfl

/-- a call on an object with a related entry completes if it does on the other one -/
theorem run_completes (rx : RxOps ρ) {o o' : EntryObject ρ} (h : EntryRel o.entry o'.entry) (c : EntryCall) :
    (∃ r, c.run (N := N) rx o = .ok r) ↔ ∃ r, c.run (N := N) rx o' = .ok r := by
  have := run_rel (N := N) rx h c
  generalize c.run (N := N) rx o = x at this ⊢
  generalize c.run (N := N) rx o' = y at this ⊢
  cases this with
  | error x => exact ⟨fun ⟨_, h⟩ => (nomatch h), fun ⟨_, h⟩ => (nomatch h)⟩
  | ok h1 => exact ⟨fun _ => ⟨_, rfl⟩, fun _ => ⟨_, rfl⟩⟩

theorem after_completes (rx : RxOps ρ) (o : EntryObject ρ) : ∀ (calls : List EntryCall) (s : EntryObject ρ), EntryRel o.entry s.entry →
    ((∃ o', s.after N rx calls = .ok o') ↔ ∀ c ∈ calls, ∃ r, c.run (N := N) rx o = .ok r) := by
  intro calls
  induction calls with
  | nil => intro s _; exact ⟨fun _ _ hc => (nomatch hc), fun _ => ⟨s, rfl⟩⟩
  | cons c calls ih =>
    intro s hs
    rw [after_cons, List.forall_mem_cons, run_completes (N := N) rx hs c]
    cases hr : c.run (N := N) rx s with
    | error x => exact ⟨fun ⟨_, h⟩ => (nomatch h), fun ⟨⟨_, h⟩, _⟩ => (nomatch h)⟩
    | ok r =>
      simp only
      rw [ih r.2 (hs.trans' (run_entry (a := r.1) hr))]
      exact ⟨fun h => ⟨⟨_, rfl⟩, h⟩, fun h => h.2⟩

/-- C129: calls one after the other on one object complete just if each of them does on an object of its own. -/
theorem C129_completes (rx : RxOps ρ) (o : EntryObject ρ) (calls : List EntryCall) :
    (∃ o', o.after N rx calls = .ok o') ↔ ∀ c ∈ calls, ∃ r, c.run (N := N) rx o = .ok r :=
  after_completes rx o calls o (.refl' _)

theorem after_records (rx : RxOps ρ) (e : Entry ρ) (k : DsKey) : ∀ (calls : List EntryCall) (s o' : EntryObject ρ), EntryRel e s.entry → s.after N rx calls = .ok o' →
    ((o'.errors.get? k).isSome ↔ (s.errors.get? k).isSome ∨ ∃ c ∈ calls, ∃ a o0, c.run (N := N) rx ⟨e, []⟩ = .ok (a, o0) ∧ (o0.errors.get? k).isSome) := by
  intro calls
  induction calls with
  | nil =>
    intro s o' _ h
    cases h
    exact ⟨.inl, fun h => h.elim id fun ⟨_, hc, _⟩ => nomatch hc⟩
  | cons c calls ih =>
    intro s o' hs h
    rw [after_cons] at h
    have h1 := run_rel (N := N) rx (o := ⟨e, []⟩) (o' := s) hs c
    cases hr : c.run (N := N) rx s with
    | error x => rw [hr] at h; cases h
    | ok r =>
      rw [hr] at h h1
      rw [ih r.2 o' (hs.trans' (run_entry (a := r.1) hr)) h]
      cases hx : c.run (N := N) rx ⟨e, []⟩ with
      | error x => rw [hx] at h1; cases h1
      | ok q =>
        rw [hx] at h1
        cases h1 with
        | ok h2 =>
          obtain ⟨-, new, h3⟩ := h2
          have e1 : q.2.errors.get? k = new.get? k := by rw [(h3 k).1]; cases new.get? k <;> rfl
          have e2 : (r.2.errors.get? k).isSome ↔ (q.2.errors.get? k).isSome ∨ (s.errors.get? k).isSome := by
            rw [e1, (h3 k).2]
            cases new.get? k <;> simp
          rw [e2]
          constructor
          · rintro ((h4 | h4) | ⟨c', hc, h4⟩)
            · exact .inr ⟨c, List.mem_cons_self, q.1, q.2, hx, h4⟩
            · exact .inl h4
            · exact .inr ⟨c', List.mem_cons_of_mem _ hc, h4⟩
          · rintro (h4 | ⟨c', hc, a, o0, h4, h5⟩)
            · exact .inl (.inr h4)
            · rcases List.mem_cons.1 hc with rfl | hc
              · rw [hx] at h4
                cases h4
                exact .inl (.inl h5)
              · exact .inr ⟨c', hc, a, o0, h4, h5⟩

/-- C129: the datasets for which an exception is recorded in the end are those for which one was at the start, and those for which one of the
calls records one on a fresh object. -/
theorem C129_recorded (rx : RxOps ρ) (e : Entry ρ) (errs : Dict DsKey PyErr) (calls : List EntryCall) (o' : EntryObject ρ)
    (h : EntryObject.after N rx ⟨e, errs⟩ calls = .ok o') (k : DsKey) :
    (o'.errors.get? k).isSome ↔ (errs.get? k).isSome ∨ ∃ c ∈ calls, ∃ a o0, c.run (N := N) rx ⟨e, []⟩ = .ok (a, o0) ∧ (o0.errors.get? k).isSome :=
  after_records rx e k calls ⟨e, errs⟩ o' (.refl' _) h

/-- C129: the same calls in another order complete too, and exceptions are recorded for the same datasets. -/
theorem C129_order (rx : RxOps ρ) (o o' : EntryObject ρ) (calls calls' : List EntryCall) (hp : calls.Perm calls') (h : o.after N rx calls = .ok o') :
    ∃ o'', o.after N rx calls' = .ok o'' ∧ ∀ k, (o'.errors.get? k).isSome = (o''.errors.get? k).isSome := by
  obtain ⟨o'', h'⟩ := (C129_completes (N := N) rx o calls').2 fun c hc => (C129_completes (N := N) rx o calls).1 ⟨_, h⟩ c (hp.mem_iff.2 hc)
  refine ⟨o'', h', fun k => Bool.eq_iff_iff.2 ?_⟩
  rw [C129_recorded rx o.entry o.errors calls o' h k, C129_recorded rx o.entry o.errors calls' o'' h' k]
  simp only [hp.mem_iff]

set_option maxRecDepth 20000 in
/-- C129_order applies: datasets, metadata and simplified datasets in two orders; one exception is recorded -/
example : ∃ e, ∃ o : EntryObject _, demoEntry "CS".toList "MIXED".toList = .ok e ∧
    EntryObject.after N demoRx ⟨e, []⟩ [.datasets, .metadata, .simplified true] = .ok o ∧ (o.errors.get? ("10001".toList, some "10001002".toList, ' ')).isSome ∧
    [EntryCall.datasets, .metadata, .simplified true].Perm [.simplified true, .datasets, .metadata] :=
  ⟨_, _, rfl, rfl, rfl, List.perm_append_comm (l₁ := [EntryCall.datasets, .metadata]) (l₂ := [EntryCall.simplified true])⟩

end X4
