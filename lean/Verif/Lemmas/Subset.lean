import Verif.Props.DataSets
/-! When `getDataSets` succeeds: a condition for every subentry by itself. -/
namespace X4
variable {ρ N : Type} [PyNum N]

/-- a loop whose steps succeed in every state or in none -/
theorem foldE_each {σ α : Type} {f : σ → α → Except PyErr σ} {ok : α → Prop} (I : σ → Prop)
    (hf : ∀ s a, I s → ((∃ s', f s a = .ok s') ↔ ok a)) (hI : ∀ s a s', I s → f s a = .ok s' → I s') :
    ∀ (l : List α) (s : σ), I s → ((∃ s', foldE f s l = .ok s') ↔ ∀ a ∈ l, ok a) := by
  intro l
  induction l with
  | nil => intro s _; simp [foldE]
  | cons a l ih =>
    intro s hs
    simp only [foldE]
    cases h : f s a with
    | error e =>
      have : ¬ ok a := fun ho => by
        obtain ⟨s', h'⟩ := (hf s a hs).2 ho
        rw [h] at h'; simp at h'
      simp [this]
    | ok s1 =>
      have ho : ok a := (hf s a hs).1 ⟨s1, h⟩
      simp only
      rw [ih s1 (hI s a s1 hs h)]
      simp [ho]

/-- the exceptions of `dataSetFactory` are those that are recorded -/
def factoryOk (N : Type) [PyNum N] (rx : RxOps ρ) (ms : List (Option (DsMeta ρ))) (common : List (Option (Nat × DataSection))) (data : DataSection)
    (from_ : SubInfo ρ) (pr : Char × (ρ × Str)) : Prop :=
  ∀ x, dataSetFactory (N := N) rx ms common pr.2 (from_.monitors.get? pr.1) data (some pr.1) = .error x → caught x

theorem dsStep_ok (rx : RxOps ρ) (acc : Str) (sub : Option Str) (ms : List (Option (DsMeta ρ))) (common : List (Option (Nat × DataSection)))
    (data : DataSection) (from_ : SubInfo ρ) (st : DsState ρ N) (pr : Char × (ρ × Str)) :
    (∃ st', dsStep rx acc sub ms common data from_ st pr = .ok st') ↔ factoryOk N rx ms common data from_ pr := by
  unfold dsStep factoryOk
  cases dataSetFactory (N := N) rx ms common pr.2 (from_.monitors.get? pr.1) data (some pr.1) with
  | ok d => simp
  | error e => cases e <;> simp [caught]

/-- the step for one subentry succeeds -/
def subOk (N : Type) [PyNum N] (rx : RxOps ρ) (mk : Option Str) (main : SubInfo ρ) (key : Option Str) (s : SubEntry ρ) : Prop :=
  ∀ data, s.data = some data → ∃ si, s.info (s.accnum.getD "None".toList) = .ok si ∧
    (∀ pr ∈ main.reactions, factoryOk N rx [main.info, si.1.info] (commonList mk key main.common si.1.common) data main pr) ∧
    (∀ pr ∈ si.1.reactions, factoryOk N rx [main.info, si.1.info] (commonList mk key main.common si.1.common) data si.1 pr)

theorem subStep_ok (rx : RxOps ρ) (mk : Option Str) (main : SubInfo ρ) (st : DsState ρ N) (key : Option Str) :
    (∃ st', subStep rx mk main st key = .ok st') ↔ ∀ s, st.entry.subs.get? key = some s → subOk N rx mk main key s := by
  unfold subStep
  cases hs : st.entry.subs.get? key with
  | none => simp
  | some s =>
    simp only [Option.some.injEq, forall_eq']
    unfold subOk
    cases hd : s.data with
    | none => simp
    | some data =>
      simp only [Option.some.injEq, forall_eq']
      cases hi : s.info (s.accnum.getD "None".toList) with
      | error e => simp
      | ok si =>
        simp only [Except.ok.injEq, exists_eq_left']
        have h1 := fun st0 : DsState ρ N => foldE_each (fun _ => True) (fun (st : DsState ρ N) pr _ => dsStep_ok rx st0.entry.accnum s.accnum [main.info, si.1.info]
          (commonList mk key main.common si.1.common) data main st pr) (fun _ _ _ _ _ => trivial) main.reactions
        have h2 := fun st0 : DsState ρ N => foldE_each (fun _ => True) (fun (st : DsState ρ N) pr _ => dsStep_ok rx st0.entry.accnum s.accnum [main.info, si.1.info]
          (commonList mk key main.common si.1.common) data si.1 st pr) (fun _ _ _ _ _ => trivial) si.1.reactions
        have h1 := h1 st { st with entry := { st.entry with subs := st.entry.subs.set key si.2 } } trivial
        cases hf : foldE (dsStep rx st.entry.accnum s.accnum [main.info, si.1.info] (commonList mk key main.common si.1.common) data main)
            { st with entry := { st.entry with subs := st.entry.subs.set key si.2 } } main.reactions with
        | error e =>
          rw [hf] at h1
          simp only [reduceCtorEq, exists_false, false_iff] at h1
          exact ⟨fun ⟨_, h⟩ => by simp at h, fun h => absurd h.1 h1⟩
        | ok st1 =>
          rw [hf] at h1
          simp only [Except.ok.injEq, exists_eq', true_iff] at h1
          simp only
          rw [h2 st st1 trivial]
          exact ⟨fun h => ⟨h1, h⟩, fun h => h.2⟩

/-- a step leaves the other subentries as they are -/
theorem subStep_others {rx : RxOps ρ} {mk : Option Str} {main : SubInfo ρ} {st st' : DsState ρ N} {key : Option Str}
    (h : subStep rx mk main st key = .ok st') (k : Option Str) (hk : k ≠ key) : st'.entry.subs.get? k = st.entry.subs.get? k := by
  unfold subStep at h
  split at h
  · simp only [Except.ok.injEq] at h; rw [h]
  · split at h
    · simp only [Except.ok.injEq] at h; rw [h]
    · split at h
      · simp at h
      · split at h
        · simp at h
        · rename_i st1 h1
          have e2 := foldE_inv (I := fun s : DsState ρ N => s.entry = st1.entry)
            (fun s x s' hs hx => (dsStep_eq _ _ _ _ _ _ _ _ _ _ hx).1.trans hs) rfl h
          have e1 := foldE_inv (I := fun s : DsState ρ N => s.entry = _)
            (fun s x s' hs hx => (dsStep_eq _ _ _ _ _ _ _ _ _ _ hx).1.trans hs) rfl h1
          rw [e2, e1]
          exact Dict.get?_set_ne _ _ hk

theorem foldE_subStep_ok (rx : RxOps ρ) (mk : Option Str) (main : SubInfo ρ) :
    ∀ (ks : List (Option Str)), ks.Nodup → ∀ (st : DsState ρ N),
      ((∃ st', foldE (subStep rx mk main) st ks = .ok st') ↔ ∀ k ∈ ks, ∀ s, st.entry.subs.get? k = some s → subOk N rx mk main k s) := by
  intro ks
  induction ks with
  | nil => intro _ st; simp [foldE]
  | cons k ks ih =>
    intro hn st
    rw [List.nodup_cons] at hn
    simp only [foldE]
    have h0 := subStep_ok rx mk main st k
    cases h : subStep rx mk main st k with
    | error e =>
      rw [h] at h0
      simp only [reduceCtorEq, exists_false, false_iff] at h0
      simp only [reduceCtorEq, exists_false, false_iff]
      exact fun hc => h0 (hc k (by simp))
    | ok st1 =>
      rw [h] at h0
      simp only [Except.ok.injEq, exists_eq', true_iff] at h0
      simp only
      rw [ih hn.2 st1]
      constructor
      · intro hc a ha
        rcases List.mem_cons.1 ha with rfl | ha
        · exact h0
        · rw [← subStep_others h a (fun e => hn.1 (e ▸ ha))]; exact hc a ha
      · intro hc a ha
        rw [subStep_others h a (fun e => hn.1 (e ▸ ha))]
        exact hc a (by simp [ha])

/-- `subOk` for the first subentry, before and after its information was read -/
theorem subOk_main {rx : RxOps ρ} {mk : Option Str} {main : SubInfo ρ} {key : Option Str} {s : SubEntry ρ} {i : SubInfo ρ × SubEntry ρ}
    (h : s.info (s.accnum.getD "None".toList) = .ok i) : subOk N rx mk main key i.2 ↔ subOk N rx mk main key s := by
  obtain ⟨h1, h2, h3, h4⟩ := SubEntry.info_snd h
  unfold subOk
  rw [h2, h3, h1, h]

/-- the subentry with this accession number does not prevent datasets from being made -/
def Entry.subOkAt (N : Type) [PyNum N] (rx : RxOps ρ) (e : Entry ρ) (main : SubInfo ρ) (k : Option Str) : Prop :=
  ∀ s, e.subs.get? k = some s → subOk N rx e.mainKey main k s

/-- `getDataSets` succeeds for an entry that is not deleted -/
theorem getDataSets_ok_iff (rx : RxOps ρ) (e : Entry ρ) (he : e.Sound) (errs : Dict DsKey PyErr) (hdel : e.deleted = .ok false) :
    (∃ st : DsState ρ N, e.getDataSets rx errs = .ok st) ↔
      ∃ s main, e.subs.get? e.mainKey = some s ∧ s.info (e.accnum ++ "001".toList) = .ok main ∧
        ∀ k ∈ e.subs.keys, e.subOkAt N rx main.1 k := by
  unfold Entry.getDataSets
  rw [hdel]
  simp only
  have e1 : e.getItem (.int 1) = e.subs.get e.mainKey := rfl
  rw [e1, Dict.get]
  cases hg : e.subs.get? e.mainKey with
  | none => simp
  | some s =>
    simp only [Option.some.injEq, exists_and_left, exists_eq_left']
    cases hi : s.info (e.accnum ++ "001".toList) with
    | error x => simp
    | ok mi =>
      simp only [Except.ok.injEq, exists_eq_left']
      rw [foldE_subStep_ok rx e.mainKey mi.1 e.subs.keys he.nodup]
      have hsa : s.accnum.getD "None".toList = e.accnum ++ "001".toList := by rw [he.accnum _ _ hg]; rfl
      have hi' : s.info (s.accnum.getD "None".toList) = .ok mi := by rw [hsa, hi]
      simp only
      unfold Entry.subOkAt
      refine forall_congr' fun k => forall_congr' fun hk => ?_
      by_cases hkm : k = e.mainKey
      · subst hkm
        rw [Dict.get?_set_self, hg]
        simp only [Option.some.injEq, forall_eq']
        exact subOk_main hi'
      · rw [Dict.get?_set_ne _ _ hkm]

end X4
