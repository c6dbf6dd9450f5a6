import Verif.Props.Bib
import Verif.Props.Entry
import Verif.Props.Dataset
import Verif.Spec.DataSets
/-! Lemmas about the loops of `getDataSets`. -/
namespace X4
variable {ρ N : Type}

theorem Dict.set_same {κ α : Type} [DecidableEq κ] {d : Dict κ α} {k : κ} {v : α} (h : d.get? k = some v) : d.set k v = d := by
  induction d with
  | nil => simp [Dict.get?] at h
  | cons p d ih =>
    simp only [Dict.get?, Dict.set] at h ⊢
    by_cases hk : p.1 = k
    · rw [if_pos hk] at h ⊢
      simp only [Option.some.injEq] at h
      rw [← h]
    · rw [if_neg hk] at h ⊢
      rw [ih h]

theorem mapE_keys {κ α β : Type} {f : κ × α → Except PyErr (κ × β)} (hf : ∀ kv r, f kv = .ok r → r.1 = kv.1) :
    ∀ {l : Dict κ α} {r : Dict κ β}, mapE f l = .ok r → r.keys = l.keys
  | [], r, h => by simp [mapE] at h; subst h; rfl
  | kv :: l, r, h => by
    simp only [mapE] at h
    split at h
    · simp at h
    · rename_i y hy
      split at h
      · simp at h
      · rename_i ys hys
        simp only [Except.ok.injEq] at h
        subst h
        simp [Dict.keys, hf kv y hy]
        exact mapE_keys hf hys

variable [PyNum N]

/-- the exceptions caught in `getDataSets` -/
def caught : PyErr → Prop
  | .notImplementedError | .indexError => True
  | _ => False

theorem dsStep_eq (rx : RxOps ρ) (acc : Str) (sub : Option Str) (ms : List (Option (DsMeta ρ)))
    (common : List (Option (Nat × DataSection))) (data : DataSection) (from_ : SubInfo ρ) (st st' : DsState ρ N)
    (pr : Char × (ρ × Str)) (h : dsStep rx acc sub ms common data from_ st pr = .ok st') :
    st'.entry = st.entry ∧
    ((∃ d, dataSetFactory rx ms common pr.2 (from_.monitors.get? pr.1) data (some pr.1) = .ok d ∧
      st'.datasets = st.datasets.set (acc, sub, pr.1) d ∧ st'.errors = st.errors) ∨
     (∃ e, dataSetFactory (N := N) rx ms common pr.2 (from_.monitors.get? pr.1) data (some pr.1) = .error e ∧ caught e ∧
      st'.errors = st.errors.set (acc, sub, pr.1) e ∧ st'.datasets = st.datasets)) := by
  unfold dsStep at h
  split at h
  · rename_i d hd
    simp only [Except.ok.injEq] at h
    subst h
    exact ⟨rfl, .inl ⟨d, hd, rfl, rfl⟩⟩
  · rename_i hd
    simp only [Except.ok.injEq] at h
    subst h
    exact ⟨rfl, .inr ⟨_, hd, trivial, rfl, rfl⟩⟩
  · rename_i hd
    simp only [Except.ok.injEq] at h
    subst h
    exact ⟨rfl, .inr ⟨_, hd, trivial, rfl, rfl⟩⟩
  · simp at h

/-- a loop over a dictionary of reactions -/
theorem foldE_dsStep (rx : RxOps ρ) (acc : Str) (sub : Option Str) (ms : List (Option (DsMeta ρ)))
    (common : List (Option (Nat × DataSection))) (data : DataSection) (from_ : SubInfo ρ) (rs : Dict Char (ρ × Str))
    (hn : rs.keys.Nodup) (st st' : DsState ρ N) (h : foldE (dsStep rx acc sub ms common data from_) st rs = .ok st') :
    st'.entry = st.entry ∧
    (∀ k : DsKey, st'.datasets.get? k = (if k.1 = acc ∧ k.2.1 = sub then
      okPart ((rs.get? k.2.2).map fun r => dataSetFactory (N := N) rx ms common r (from_.monitors.get? k.2.2) data (some k.2.2))
      else none).or (st.datasets.get? k)) ∧
    (∀ k : DsKey, st'.errors.get? k = (if k.1 = acc ∧ k.2.1 = sub then
      errPart ((rs.get? k.2.2).map fun r => dataSetFactory (N := N) rx ms common r (from_.monitors.get? k.2.2) data (some k.2.2))
      else none).or (st.errors.get? k)) ∧
    (∀ p r e, rs.get? p = some r → dataSetFactory (N := N) rx ms common r (from_.monitors.get? p) data (some p) = .error e → caught e) := by
  induction rs generalizing st with
  | nil =>
    simp only [foldE, Except.ok.injEq] at h
    subst h
    refine ⟨rfl, fun k => ?_, fun k => ?_, fun p r e h => ?_⟩
    · simp [Dict.get?, okPart]
    · simp [Dict.get?, errPart]
    · simp [Dict.get?] at h
  | cons pr rs ih =>
    simp only [foldE] at h
    split at h
    · simp at h
    · rename_i st1 h1
      simp only [Dict.keys, List.map_cons, List.nodup_cons] at hn
      have hnone : Dict.get? rs pr.1 = none := Dict.get?_eq_none_iff.2 hn.1
      obtain ⟨i1, i2, i3, i4⟩ := ih hn.2 st1 h
      obtain ⟨j1, j2⟩ := dsStep_eq rx acc sub ms common data from_ st st1 pr h1
      refine ⟨i1.trans j1, fun k => ?_, fun k => ?_, ?_⟩
      · rw [i2 k]
        obtain ⟨k1, k2, k3⟩ := k
        simp only [Dict.get?]
        by_cases hk : k1 = acc ∧ k2 = sub
        · rw [if_pos hk, if_pos hk]
          by_cases hp : pr.1 = k3
          · rw [if_pos hp, ← hp, hnone]
            rcases j2 with ⟨d, hd, j2, -⟩ | ⟨e, hd, -, -, j2⟩
            · rw [j2, hk.1, hk.2, Dict.get?_set_self]
              simp [okPart, hd]
            · rw [j2]
              simp [okPart, hd]
          · rw [if_neg hp]
            rcases j2 with ⟨d, hd, j2, -⟩ | ⟨e, hd, -, -, j2⟩
            · rw [j2, Dict.get?_set_ne]
              intro h; simp at h; exact hp h.2.2.symm
            · rw [j2]
        · rw [if_neg hk, if_neg hk]
          rcases j2 with ⟨d, hd, j2, -⟩ | ⟨e, hd, -, -, j2⟩
          · rw [j2, Dict.get?_set_ne]
            intro h; simp at h; exact hk ⟨h.1, h.2.1⟩
          · rw [j2]
      · rw [i3 k]
        obtain ⟨k1, k2, k3⟩ := k
        simp only [Dict.get?]
        by_cases hk : k1 = acc ∧ k2 = sub
        · rw [if_pos hk, if_pos hk]
          by_cases hp : pr.1 = k3
          · rw [if_pos hp, ← hp, hnone]
            rcases j2 with ⟨d, hd, -, j2⟩ | ⟨e, hd, -, j2, -⟩
            · rw [j2]
              simp [errPart, hd]
            · rw [j2, hk.1, hk.2, Dict.get?_set_self]
              simp [errPart, hd]
          · rw [if_neg hp]
            rcases j2 with ⟨d, hd, -, j2⟩ | ⟨e, hd, -, j2, -⟩
            · rw [j2]
            · rw [j2, Dict.get?_set_ne]
              intro h; simp at h; exact hp h.2.2.symm
        · rw [if_neg hk, if_neg hk]
          rcases j2 with ⟨d, hd, -, j2⟩ | ⟨e, hd, -, j2, -⟩
          · rw [j2]
          · rw [j2, Dict.get?_set_ne]
            intro h; simp at h; exact hk ⟨h.1, h.2.1⟩
      · intro p r e hr he
        simp only [Dict.get?] at hr
        by_cases hp : pr.1 = p
        · rw [if_pos hp] at hr
          simp only [Option.some.injEq] at hr
          rw [← hp, ← hr] at he
          rcases j2 with ⟨d, hd, j2, -⟩ | ⟨e', hd, hc, -, j2⟩
          · rw [hd] at he; simp at he
          · rw [hd] at he; simp at he; rw [← he]; exact hc
        · rw [if_neg hp] at hr
          exact i4 p r e hr he

/-! ### reading a subentry -/

theorem BibSection.meta_snd {b : BibSection ρ} {a : Str} {m : BibMeta ρ × BibSection ρ} (h : b.meta a = .ok m) :
    m.2.meta a = .ok m ∧ m.2.reactions = b.reactions ∧ m.2.monitors = b.monitors := by
  obtain ⟨h1, h2, h3⟩ := C16_meta_idempotent b m.2 a m.1 h
  refine ⟨h3, ?_, ?_⟩
  · unfold BibSection.reactions; rw [h2 _ (by decide)]
  · unfold BibSection.monitors; rw [h2 _ (by decide)]

/-- reading the information of a subentry again gives the same -/
theorem SubEntry.info_snd {s : SubEntry ρ} {a : Str} {i : SubInfo ρ × SubEntry ρ} (h : s.info a = .ok i) :
    i.2.info a = .ok i ∧ i.2.data = s.data ∧ i.2.accnum = s.accnum ∧ i.2.common = s.common := by
  unfold SubEntry.info at h
  cases hb : s.bib with
  | none =>
    rw [hb] at h
    simp only [Except.ok.injEq] at h
    subst h
    refine ⟨?_, rfl, rfl, rfl⟩
    simp only [SubEntry.info, hb]
  | some b =>
    rw [hb] at h
    simp only at h
    split at h
    · simp at h
    · rename_i m hm
      split at h
      · simp at h
      · rename_i r hr
        split at h
        · simp at h
        · rename_i mon hmon
          simp only [Except.ok.injEq] at h
          subst h
          obtain ⟨e1, e2, e3⟩ := BibSection.meta_snd hm
          have hdat : (({ s with sections := s.sections.set "BIB".toList (.bib m.2) } : SubEntry ρ)).data = s.data := by
            unfold SubEntry.data; rw [Dict.get?_set_ne _ _ (by decide)]
          have hcom : (({ s with sections := s.sections.set "BIB".toList (.bib m.2) } : SubEntry ρ)).common = s.common := by
            unfold SubEntry.common; rw [Dict.get?_set_ne _ _ (by decide)]
          have hbib : (({ s with sections := s.sections.set "BIB".toList (.bib m.2) } : SubEntry ρ)).bib = some m.2 := by
            unfold SubEntry.bib; rw [Dict.get?_set_self]
          refine ⟨?_, hdat, rfl, hcom⟩
          simp only [SubEntry.info, hbib, e1, hr, hmon, hcom]
          rw [Dict.set_same (Dict.get?_set_self _ _ _)]

theorem SubEntry.info_reactions {s : SubEntry ρ} {a : Str} {i : SubInfo ρ × SubEntry ρ} (h : s.info a = .ok i) :
    (s.bib = none ∧ i.1.reactions = []) ∨ ∃ b, s.bib = some b ∧ b.reactions = .ok i.1.reactions := by
  unfold SubEntry.info at h
  cases hb : s.bib with
  | none =>
    rw [hb] at h
    simp only [Except.ok.injEq] at h
    subst h
    exact .inl ⟨rfl, rfl⟩
  | some b =>
    right
    rw [hb] at h
    simp only at h
    split at h
    · simp at h
    · rename_i m hm
      split at h
      · simp at h
      · rename_i r hr
        split at h
        · simp at h
        · simp only [Except.ok.injEq] at h
          subst h
          refine ⟨b, rfl, ?_⟩
          rw [← hr, (BibSection.meta_snd hm).2.1]

/-! ### entries read from text -/

/-- what the theorems about `getDataSets` need of an entry -/
structure Entry.Sound (e : Entry ρ) : Prop where
  nodup : e.subs.keys.Nodup
  accnum : ∀ k s, e.subs.get? k = some s → s.accnum = k
  reactions : ∀ k s b rs, e.subs.get? k = some s → s.bib = some b → b.reactions = .ok rs → rs.keys.Nodup

theorem nodup_build_field {raw : List Str} {f : PlainField} (h : PlainField.build raw = .ok f) : f.subs.keys.Nodup := by
  unfold PlainField.build at h
  split at h
  · simp at h
  · simp only [Except.ok.injEq] at h
    subst h
    simp only
    induction raw using List.reverseRecOn with
    | nil => simp [Dict.keys]
    | append_singleton xs l ih =>
      rw [List.foldl_append]
      simp only [List.foldl_cons, List.foldl_nil, plainStep]
      by_cases hx : xs = []
      · subst hx; simp [Dict.set, Dict.keys]
      · exact Dict.nodup_keys_set (ih (by
          rename_i l0 h0
          cases xs with
          | nil => exact absurd rfl hx
          | cons a xs => simpa [pyIdx] using h0)) _ _

theorem foldE_inv {σ α : Type} {I : σ → Prop} {f : σ → α → Except PyErr σ} (hf : ∀ s x s', I s → f s x = .ok s' → I s') :
    ∀ {l : List α} {s s' : σ}, I s → foldE f s l = .ok s' → I s'
  | [], s, s', h, hl => by simp [foldE] at hl; subst hl; exact h
  | x :: l, s, s', h, hl => by
    simp only [foldE] at hl
    split at hl
    · simp at hl
    · rename_i s1 h1
      exact foldE_inv hf (hf s x s1 h h1) hl

theorem bib_field {P : FieldParsers ρ} {sec : List Str} {b : BibSection ρ} (h : BibSection.build P sec = .ok b)
    {t : Option Str} {v : BibField ρ} (hv : b.fields.get? t = some v) : ∃ raw, buildField P t raw = .ok v := by
  refine foldE_inv (I := fun b : BibSection ρ => ∀ (t : Option Str) (v : BibField ρ), b.fields.get? t = some v →
    ∃ raw, buildField P t raw = .ok v) ?_ (by simp [Dict.get?]) h t v hv
  clear hv t v h
  intro b field b' hb hs t v
  unfold bibStep at hs
  split at hs
  · simp at hs
  · split at hs
    · simp at hs
    · rename_i v' hv'
      simp only [Except.ok.injEq] at hs
      subst hs
      simp only
      rw [Dict.get?_set]
      split
      · rename_i ht
        intro e
        simp only [Option.some.injEq] at e
        rw [ht, ← e]
        exact ⟨field, hv'⟩
      · exact hb t v

theorem sub_bib {P : FieldParsers ρ} {lines : List Str} {s : SubEntry ρ} (h : SubEntry.build P lines = .ok s)
    {b : BibSection ρ} (hb : s.bib = some b) : ∃ sec, BibSection.build P sec = .ok b := by
  unfold SubEntry.build at h
  split at h
  · simp at h
  · rename_i d hd
    simp only [Except.ok.injEq] at h
    subst h
    unfold SubEntry.bib at hb
    simp only at hb
    split at hb
    · rename_i b' hg
      simp only [Option.some.injEq] at hb
      subst hb
      have hall := foldE_inv (I := fun d : Dict Str (Sec ρ) => ∀ k b, d.get? k = some (.bib b) → ∃ sec, BibSection.build P sec = .ok b)
        (f := sectionStep P) (by
          intro d sec d' hi hs k b
          unfold sectionStep at hs
          split at hs
          · simp at hs
          · split at hs
            · split at hs
              · simp at hs
              · rename_i b' hb'
                simp only [Except.ok.injEq] at hs
                subst hs
                rw [Dict.get?_set]
                split
                · intro e; simp at e; subst e; exact ⟨sec, hb'⟩
                · exact hi k b
            · split at hs
              · simp at hs
              · simp only [Except.ok.injEq] at hs
                subst hs
                rw [Dict.get?_set]
                split
                · intro e; simp at e
                · exact hi k b) (by simp [Dict.get?]) hd
      exact hall _ _ hg
    · simp at hb

/-- every entry read from text is sound -/
theorem Entry.build_sound {P : FieldParsers ρ} {raw : List Str} {e : Entry ρ} (h : Entry.build P raw = .ok e) : e.Sound := by
  obtain ⟨h1, h2, h3, h4⟩ := C13_keys P raw e h
  unfold Entry.build at h
  split at h
  · simp at h
  · split at h
    · simp at h
    · split at h
      · simp at h
      · rename_i d hd
        simp only [Except.ok.injEq] at h
        have hinv := foldE_inv (I := fun d : Dict (Option Str) (SubEntry ρ) => d.keys.Nodup ∧ ∀ k s, d.get? k = some s → s.accnum = k)
          (f := entryStep P) (by
            intro d x d' hi hs
            unfold entryStep at hs
            split at hs
            · simp at hs
            · simp only [Except.ok.injEq] at hs
              subst hs
              refine ⟨Dict.nodup_keys_set hi.1 _ _, fun k s => ?_⟩
              rw [Dict.get?_set]
              split
              · rename_i hk; intro e; simp at e; rw [hk, e]
              · exact hi.2 k s) (by simp [Dict.get?, Dict.keys]) hd
        subst h
        refine ⟨hinv.1, hinv.2, ?_⟩
        intro k s b rs hs hb hr
        obtain ⟨x, -, hx⟩ := (h4 k s).1 hs
        obtain ⟨sec, hsec⟩ := sub_bib hx hb
        unfold BibSection.reactions at hr
        split at hr
        · simp at hr; subst hr; simp [Dict.keys]
        · rename_i f r hg
          simp only [Except.ok.injEq] at hr
          subst hr
          obtain ⟨raw', hf⟩ := bib_field hsec hg
          unfold buildField at hf
          rw [if_pos rfl] at hf
          unfold finishField at hf
          split at hf
          · simp at hf
          · rename_i pf hpf
            split at hf
            · simp at hf
            · rename_i a ha
              simp only [Except.ok.injEq, BibField.reaction.injEq] at hf
              rw [← hf.2, mapE_keys (f := reactionOf P) (by
                intro kv r hr
                unfold reactionOf at hr
                split at hr
                · simp at hr
                · simp only [Except.ok.injEq] at hr; rw [← hr]) ha]
              exact nodup_build_field hpf
        · simp at hr

/-! ### the loop over the subentries -/

/-- one subentry -/
theorem subStep_eq (rx : RxOps ρ) (mk : Option Str) (main : SubInfo ρ) (hm : main.reactions.keys.Nodup)
    (e : Entry ρ) (st st' : DsState ρ N) (key : Option Str) (hmk : mk = e.mainKey)
    (hacc : st.entry.accnum = e.accnum)
    (hsub : ∃ s, st.entry.subs.get? key = some s ∧ st.entry.dataOf key = e.dataOf key ∧ s.accnum = key)
    (hnd : ∀ di, e.dataOf key = some di → di.2.reactions.keys.Nodup)
    (h : subStep rx mk main st key = .ok st') :
    st'.entry.accnum = e.accnum ∧
    (∀ k, k ≠ key → st'.entry.subs.get? k = st.entry.subs.get? k) ∧
    (∀ k : DsKey, st'.datasets.get? k = (if k.1 = e.accnum ∧ k.2.1 = key then goodOf rx e main key k.2.2 else none).or (st.datasets.get? k)) ∧
    (∀ k : DsKey, st'.errors.get? k = (if k.1 = e.accnum ∧ k.2.1 = key then badOf N rx e main key k.2.2 else none).or (st.errors.get? k)) := by
  obtain ⟨s, hs, hdo, hsa⟩ := hsub
  unfold subStep at h
  rw [hs] at h
  simp only at h
  cases hd : s.data with
  | none =>
    rw [hd] at h
    simp only [Except.ok.injEq] at h
    subst h
    have h0 : e.dataOf key = none := by
      rw [← hdo]; unfold Entry.dataOf; rw [hs]; simp only [hd]
    refine ⟨hacc, fun k _ => rfl, fun k => ?_, fun k => ?_⟩
    · simp [goodOf, h0]
    · simp [badOf, h0]
  | some data =>
    rw [hd] at h
    simp only at h
    cases hi : s.info (s.accnum.getD "None".toList) with
    | error x => rw [hi] at h; simp at h
    | ok si =>
      rw [hi] at h
      simp only at h
      have hdata : e.dataOf key = some (data, si.1) := by
        rw [← hdo]; unfold Entry.dataOf; rw [hs]; simp only [hd, hi]
      split at h
      · simp at h
      · rename_i st1 h1
        obtain ⟨a1, a2, a3, -⟩ := foldE_dsStep rx _ _ _ _ _ _ _ hm _ _ h1
        obtain ⟨b1, b2, b3, -⟩ := foldE_dsStep rx _ _ _ _ _ _ _ (hnd _ hdata) _ _ h
        refine ⟨?_, ?_, fun k => ?_, fun k => ?_⟩
        · rw [b1, a1]; exact hacc
        · intro k hk
          rw [b1, a1]
          exact Dict.get?_set_ne _ _ hk
        · rw [b2, a2, hacc, hsa]
          simp only [goodOf, hdata, ownAttempt, mainAttempt, attempt, hmk]
          split_ifs
          · rw [Option.or_assoc]
          · rfl
        · rw [b3, a3, hacc, hsa]
          simp only [badOf, hdata, ownAttempt, mainAttempt, attempt, hmk]
          split_ifs
          · rw [Option.or_assoc]
          · rfl

theorem foldE_subStep (rx : RxOps ρ) (main : SubInfo ρ) (hm : main.reactions.keys.Nodup) (e e0 : Entry ρ)
    (hnd : ∀ k di, e.dataOf k = some di → di.2.reactions.keys.Nodup)
    (h0 : ∀ k ∈ e.subs.keys, ∃ s, e0.subs.get? k = some s ∧ e0.dataOf k = e.dataOf k ∧ s.accnum = k)
    (ks : List (Option Str)) (hks : ks.Nodup) (hsub : ∀ k ∈ ks, k ∈ e.subs.keys) (st st' : DsState ρ N)
    (hacc : st.entry.accnum = e.accnum) (hent : ∀ k ∈ ks, st.entry.subs.get? k = e0.subs.get? k)
    (h : foldE (subStep rx e.mainKey main) st ks = .ok st') :
    (∀ k : DsKey, st'.datasets.get? k = (if k.1 = e.accnum ∧ k.2.1 ∈ ks then goodOf rx e main k.2.1 k.2.2 else none).or (st.datasets.get? k)) ∧
    (∀ k : DsKey, st'.errors.get? k = (if k.1 = e.accnum ∧ k.2.1 ∈ ks then badOf N rx e main k.2.1 k.2.2 else none).or (st.errors.get? k)) := by
  induction ks generalizing st with
  | nil =>
    simp only [foldE, Except.ok.injEq] at h
    subst h
    simp
  | cons key ks ih =>
    simp only [foldE] at h
    split at h
    · simp at h
    · rename_i st1 h1
      rw [List.nodup_cons] at hks
      have hdo : st.entry.dataOf key = e0.dataOf key := by
        unfold Entry.dataOf; rw [hent key (by simp)]
      obtain ⟨s, hs1, hs2, hs3⟩ := h0 key (hsub key (by simp))
      obtain ⟨a1, a2, a3, a4⟩ := subStep_eq rx e.mainKey main hm e st st1 key rfl hacc
        ⟨s, by rw [hent key (by simp), hs1], by rw [hdo, hs2], hs3⟩ (hnd key) h1
      obtain ⟨b1, b2⟩ := ih hks.2 (fun k hk => hsub k (by simp [hk])) st1 a1
        (fun k hk => by rw [a2 k (fun e => hks.1 (e ▸ hk)), hent k (by simp [hk])]) h
      refine ⟨fun k => ?_, fun k => ?_⟩
      · rw [b1, a3]
        obtain ⟨k1, k2, k3⟩ := k
        by_cases hk : k2 = key
        · subst hk
          simp [hks.1]
        · simp [hk]
      · rw [b2, a4]
        obtain ⟨k1, k2, k3⟩ := k
        by_cases hk : k2 = key
        · subst hk
          simp [hks.1]
        · simp [hk]

/-- which datasets there are and what was recorded, for an entry that is not deleted -/
theorem getDataSets_eq (rx : RxOps ρ) (e : Entry ρ) (he : e.Sound) (errs : Dict DsKey PyErr) (st : DsState ρ N)
    (hdel : e.deleted = .ok false) (h : e.getDataSets rx errs = .ok st) :
    ∃ s main, e.subs.get? e.mainKey = some s ∧ s.info (e.accnum ++ "001".toList) = .ok main ∧
      (∀ k : DsKey, st.datasets.get? k = if k.1 = e.accnum then goodOf rx e main.1 k.2.1 k.2.2 else none) ∧
      (∀ k : DsKey, st.errors.get? k = (if k.1 = e.accnum then badOf N rx e main.1 k.2.1 k.2.2 else none).or (errs.get? k)) := by
  unfold Entry.getDataSets at h
  rw [hdel] at h
  simp only at h
  split at h
  · simp at h
  · rename_i s hs
    split at h
    · simp at h
    · rename_i mi hmi
      have hg : e.subs.get? e.mainKey = some s := by
        have e1 : e.getItem (.int 1) = e.subs.get e.mainKey := rfl
        rw [e1] at hs
        unfold Dict.get at hs
        split at hs
        · rename_i v hv; simp at hs; rw [← hs]; exact hv
        · simp at hs
      obtain ⟨i1, i2, i3, i4⟩ := SubEntry.info_snd hmi
      have hsa : s.accnum = e.mainKey := he.accnum _ _ hg
      have hrn : ∀ (k : Option Str) (s : SubEntry ρ) (a : Str) (i : SubInfo ρ × SubEntry ρ), e.subs.get? k = some s → s.info a = .ok i →
          i.1.reactions.keys.Nodup := by
        intro k s a i hs hi
        rcases SubEntry.info_reactions hi with ⟨_, h⟩ | ⟨b, hb, hr⟩
        · rw [h]; simp [Dict.keys]
        · exact he.reactions k s b _ hs hb hr
      have hnone : ∀ k, k ∉ e.subs.keys → e.dataOf k = none := by
        intro k hk
        unfold Entry.dataOf
        rw [Dict.get?_eq_none_iff.2 hk]
      refine ⟨s, mi, hg, hmi, ?_⟩
      have := foldE_subStep rx mi.1 (hrn _ _ _ _ hg hmi) e { e with subs := e.subs.set e.mainKey mi.2 }
        (by
          intro k di hdi
          unfold Entry.dataOf at hdi
          split at hdi
          · simp at hdi
          · rename_i s' hs'
            split at hdi
            · simp at hdi
            · split at hdi
              · simp at hdi
              · rename_i i hi
                simp only [Option.some.injEq] at hdi
                subst hdi
                exact hrn _ _ _ _ hs' hi)
        (by
          intro k hk
          by_cases hkm : k = e.mainKey
          · subst hkm
            refine ⟨mi.2, Dict.get?_set_self _ _ _, ?_, by rw [i3, hsa]⟩
            unfold Entry.dataOf
            simp only [Dict.get?_set_self]
            rw [hg]
            simp only [i2, i3, hsa]
            have : e.mainKey.getD "None".toList = e.accnum ++ "001".toList := rfl
            rw [this, i1, hmi]
          · obtain ⟨s', hs'⟩ := Option.isSome_iff_exists.1 ((Dict.mem_keys_iff _ _).1 hk)
            refine ⟨s', by simp only [Dict.get?_set_ne _ _ hkm, hs'], ?_, he.accnum _ _ hs'⟩
            unfold Entry.dataOf
            simp only [Dict.get?_set_ne _ _ hkm])
        e.subs.keys he.nodup (fun k h => h) _ _ rfl (fun k _ => rfl) h
      obtain ⟨b1, b2⟩ := this
      refine ⟨fun k => ?_, fun k => ?_⟩
      · rw [b1]
        by_cases hk : k.2.1 ∈ e.subs.keys
        · simp [hk, Dict.get?]
        · simp [hk, Dict.get?, goodOf, hnone _ hk]
      · rw [b2]
        by_cases hk : k.2.1 ∈ e.subs.keys
        · simp [hk]
        · simp [hk, badOf, hnone _ hk]

end X4
