import Verif.Model.Messages
import Verif.Spec.Messages
import Verif.Props.DataSets
import Verif.Props.FieldText
import Verif.Props.EntrySets
import Verif.Model.TextFields
/-! The messages about datasets that cannot be made or simplified (C107). -/
namespace X4
variable {ρ N : Type} [PyNum N]

/-! ### the datasets are those of the model without messages -/

theorem foldE_fst {σ τ α : Type} {f : σ → α → Except PyErr σ} {g : σ × τ → α → Except PyErr (σ × τ)}
    (h : ∀ s x, (g s x).map Prod.fst = f s.1 x) : ∀ (l : List α) (s : σ × τ), (foldE g s l).map Prod.fst = foldE f s.1 l
  | [], s => rfl
  | x :: l, s => by
    have h1 := h s x
    simp only [foldE]
    cases hg : g s x with
    | error e => rw [hg] at h1; rw [← h1]; rfl
    | ok s' => rw [hg] at h1; rw [← h1]; exact foldE_fst h l s'

theorem dsStepN_fst (rx : RxOps ρ) (py : PyErr → Str) (acc : Str) (sub : Option Str) (ms : List (Option (DsMeta ρ)))
    (common : List (Option (Nat × DataSection))) (data : DataSection) (from_ : SubInfo ρ) (st : DsState ρ N × Notes) (pr : Char × (ρ × Str)) :
    (dsStepN rx py acc sub ms common data from_ st pr).map Prod.fst = dsStep rx acc sub ms common data from_ st.1 pr := by
  unfold dsStepN
  split <;> simp_all [Except.map]

theorem subStepN_fst (rx : RxOps ρ) (py : PyErr → Str) (mk : Option Str) (main : SubInfo ρ) (st : DsState ρ N × Notes) (key : Option Str) :
    (subStepN rx py mk main st key).map Prod.fst = subStep rx mk main st.1 key := by
  unfold subStepN subStep
  cases st.1.entry.subs.get? key with
  | none => rfl
  | some s =>
    simp only
    cases s.data with
    | none => rfl
    | some data =>
      simp only
      cases s.info (s.accnum.getD "None".toList) with
      | error e => rfl
      | ok si =>
        simp only
        have h1 := foldE_fst (dsStepN_fst rx py st.1.entry.accnum s.accnum [main.info, si.1.info]
          (commonList mk key main.common si.1.common) data main) main.reactions
          ({ st.1 with entry := { st.1.entry with subs := st.1.entry.subs.set key si.2 } }, st.2)
        rw [← h1]
        cases hf : foldE (dsStepN rx py st.1.entry.accnum s.accnum [main.info, si.1.info]
          (commonList mk key main.common si.1.common) data main)
          ({ st.1 with entry := { st.1.entry with subs := st.1.entry.subs.set key si.2 } }, st.2) main.reactions with
        | error e => rfl
        | ok st' => exact foldE_fst (dsStepN_fst rx py _ _ _ _ _ _) _ _

theorem getDataSetsN_fst (rx : RxOps ρ) (py : PyErr → Str) (e : Entry ρ) (errs : Dict DsKey PyErr) (notes : Notes) :
    (e.getDataSetsN (N := N) rx py errs notes).map Prod.fst = e.getDataSets rx errs := by
  unfold Entry.getDataSetsN Entry.getDataSets
  cases e.deleted with
  | error x => rfl
  | ok b =>
    cases b with
    | true => rfl
    | false =>
      simp only
      cases e.getItem (.int 1) with
      | error x => rfl
      | ok s =>
        simp only
        cases s.info (e.accnum ++ "001".toList) with
        | error x => rfl
        | ok mi => exact foldE_fst (subStepN_fst rx py _ _) _ _

theorem simplifyStepN_fst (py : PyErr → Str) (makeAll : Bool) (st : DsState ρ N × Notes) (kd : DsKey × DataSet ρ N) :
    (simplifyStepN py makeAll st kd).map Prod.fst = simplifyStep makeAll st.1 kd := by
  unfold simplifyStepN simplifyStep
  cases kd.2.getSimplified makeAll false with
  | ok d => rfl
  | error e => simp only; split <;> rfl

/-- C107: recording the messages changes nothing else: the datasets and the exceptions are those of `getDataSets` and `getSimplifiedDataSets`
(so the other claims about these are claims about the runs with messages). -/
theorem C107_same (rx : RxOps ρ) (py : PyErr → Str) (e : Entry ρ) (errs : Dict DsKey PyErr) (notes : Notes) (makeAll : Bool) :
    (e.getDataSetsN (N := N) rx py errs notes).map Prod.fst = e.getDataSets rx errs ∧
    (e.getSimplifiedDataSetsN (N := N) rx py errs notes makeAll).map Prod.fst = e.getSimplifiedDataSets rx errs makeAll := by
  refine ⟨getDataSetsN_fst rx py e errs notes, ?_⟩
  unfold Entry.getSimplifiedDataSetsN Entry.getSimplifiedDataSets
  rw [← getDataSetsN_fst rx py e errs notes]
  cases e.getDataSetsN (N := N) rx py errs notes with
  | error x => rfl
  | ok st => exact foldE_fst (simplifyStepN_fst py makeAll) _ _

theorem fst_ok {σ τ : Type} {x : Except PyErr (σ × τ)} {y : Except PyErr σ} (h : x.map Prod.fst = y) {s : σ × τ} (hx : x = .ok s) : y = .ok s.1 := by
  rw [← h, hx]; rfl

/-! ### datasets that cannot be made -/

theorem pyIdx_only {α : Type} {l : List α} {i : Nat} {x : PyErr} (h : pyIdx l i = .error x) : x = .indexError := (pyIdx_error_iff.1 h).2

theorem foldE_only {σ α : Type} {f : σ → α → Except PyErr σ} {x : PyErr} (hf : ∀ s a y, f s a = .error y → y = x) :
    ∀ {l : List α} {s : σ} {y : PyErr}, foldE f s l = .error y → y = x
  | [], s, y, h => by simp [foldE] at h
  | a :: l, s, y, h => by
    simp only [foldE] at h
    split at h
    · rename_i e he
      simp only [Except.error.injEq] at h
      rw [← h]; exact hf _ _ _ he
    · exact foldE_only hf h

theorem mapE_only {α β : Type} {f : α → Except PyErr β} {x : PyErr} (hf : ∀ a y, f a = .error y → y = x) {l : List α} {y : PyErr}
    (h : mapE f l = .error y) : y = x := by
  obtain ⟨a, -, ha⟩ := mapE_error h
  exact hf a y ha

theorem filterRow_only (filt : List Bool) : ∀ (r : List (Option FloatLit)) (i : Nat) (y : PyErr), filterRow filt i r = .error y → y = .indexError
  | [], i, y, h => by simp [filterRow] at h
  | a :: r, i, y, h => by
    simp only [filterRow] at h
    split at h
    · rename_i e he
      simp only [Except.error.injEq] at h
      rw [← h]; exact pyIdx_only he
    · split at h
      · rename_i e he
        simp only [Except.error.injEq] at h
        rw [← h]; exact filterRow_only filt r _ _ he
      · simp at h

theorem writeCommon_only (c : DataSection) (off crow : Nat) (row : List (Option N)) (y : PyErr) (h : writeCommon c off crow row = .error y) :
    y = .indexError := by
  refine foldE_only (x := .indexError) (fun s a y hy => ?_) h
  unfold writeCell at hy
  split at hy
  · rename_i e he; simp only [Except.error.injEq] at hy; rw [← hy]; exact pyIdx_only he
  · split at hy
    · rename_i e he; simp only [Except.error.injEq] at hy; rw [← hy]; exact pyIdx_only he
    · unfold setIdx at hy
      split at hy
      · simp at hy
      · simp only [Except.error.injEq] at hy; exact hy.symm

theorem secHeads_only (d : DataSection) (p : Option Char) (y : PyErr) (h : secHeads d p = .error y) : y = .indexError := by
  refine mapE_only (x := .indexError) (fun i y hy => ?_) h
  unfold colHead at hy
  split at hy
  · split at hy
    · rename_i e he; simp only [Except.error.injEq] at hy; rw [← hy]; exact pyIdx_only he
    · split at hy
      · rename_i e he; simp only [Except.error.injEq] at hy; rw [← hy]; exact pyIdx_only he
      · simp at hy
  · simp at hy

/-- combining tables fails with IndexError only -/
theorem setData_only {d : DataSection} {common : List (Option (Nat × DataSection))} {p : Option Char} {y : PyErr}
    (h : setData (N := N) d common p = .error y) : y = .indexError := by
  unfold setData at h
  split at h
  · rename_i e he
    simp only [Except.error.injEq] at h
    subst h
    refine mapE_only (x := .indexError) (fun c y hy => ?_) he
    cases c with
    | none => simp [optHeads] at hy
    | some c => exact secHeads_only _ _ _ hy
  · split at h
    · rename_i e he
      simp only [Except.error.injEq] at h
      subst h
      exact secHeads_only _ _ _ he
    · simp only at h
      split at h
      · rename_i e he
        simp only [Except.error.injEq] at h
        subst h
        refine mapE_only (x := .indexError) (fun i y hy => ?_) he
        unfold newRow at hy
        split at hy
        · rename_i e he; simp only [Except.error.injEq] at hy; rw [← hy]; exact pyIdx_only he
        · split at hy
          · rename_i e he; simp only [Except.error.injEq] at hy; rw [← hy]; exact pyIdx_only he
          · split at hy
            · rename_i e he; simp only [Except.error.injEq] at hy; rw [← hy]; exact filterRow_only _ _ _ _ he
            · simp at hy
      · split at h
        · rename_i e he
          simp only [Except.error.injEq] at h
          subst h
          refine foldE_only (x := .indexError) (fun rows c y hy => ?_) he
          unfold commonStep at hy
          split at hy
          · simp at hy
          · split at hy
            · rename_i e he; simp only [Except.error.injEq] at hy; rw [← hy]; exact pyIdx_only he
            · split at hy
              · exact mapE_only (x := .indexError) (fun r y h => writeCommon_only _ _ _ _ _ h) hy
              · split at hy
                · rename_i e he
                  simp only [Except.error.injEq] at hy
                  rw [← hy]
                  exact mapE_only (x := .indexError) (fun r y h => writeCommon_only _ _ _ _ _ h) he
                · simp at hy
        · simp at h

/-- why a dataset cannot be made -/
theorem factory_error {rx : RxOps ρ} {ms : List (Option (DsMeta ρ))} {common : List (Option (Nat × DataSection))} {r : ρ × Str}
    {mon : Option (List (Monitor ρ))} {d : DataSection} {p : Option Char} {x : PyErr} (h : dataSetFactory (N := N) rx ms common r mon d p = .error x) :
    (∃ q, effectiveQuant rx r.1 = .ok q ∧ x = .indexError) ∨
    (effectiveQuant rx r.1 = .error x ∧ ((x = .notImplementedError ∧ ∃ t, rx.text r.1 = .ok t) ∨ rx.text r.1 = .error x)) := by
  unfold dataSetFactory at h
  split at h
  · rename_i e he
    simp only [Except.error.injEq] at h
    subst h
    right
    refine ⟨he, ?_⟩
    unfold effectiveQuant at he
    split at he
    · simp at he
    · split at he
      · simp at he
      · split at he
        · rename_i y hy; simp only [Except.error.injEq] at he; rw [← he]; exact .inr hy
        · rename_i t ht; simp only [Except.error.injEq] at he; exact .inl ⟨he.symm, t, ht⟩
  · rename_i q hq
    left
    refine ⟨q, hq, ?_⟩
    unfold DataSet.build at h
    simp only at h
    split at h
    · rename_i e he
      simp only [Except.error.injEq] at h
      rw [← h]; exact setData_only he
    · simp at h

theorem noteOf_none {rx : RxOps ρ} {t : Str} {from_ : SubInfo ρ} (p : Char) : noteOf (N := N) rx t from_ p none = none := by
  unfold noteOf; cases from_.reactions.get? p <;> rfl

theorem noteOf_ne {rx : RxOps ρ} {t : Str} {from_ : SubInfo ρ} {p : Char} {x : Except PyErr (DataSet ρ N)} (h1 : x ≠ .error .notImplementedError)
    (h2 : x ≠ .error .indexError) : noteOf rx t from_ p (some x) = none := by
  unfold noteOf
  cases from_.reactions.get? p with
  | none => rfl
  | some r =>
    cases x with
    | ok d => rfl
    | error y => cases y <;> first | rfl | exact absurd rfl h1 | exact absurd rfl h2

/-- the messages about the reactions of one field -/
theorem dsNote_eq {rx : RxOps ρ} (htext : ∀ r, rx.text r ≠ .error .notImplementedError) (py : PyErr → Str) (acc : Str) (sub : Option Str)
    (ms : List (Option (DsMeta ρ))) (common : List (Option (Nat × DataSection))) (data : DataSection) (from_ : SubInfo ρ) (rs : Dict Char (ρ × Str))
    (hn : rs.keys.Nodup) (hr : ∀ p r, rs.get? p = some r → from_.reactions.get? p = some r) (st st' : DsState ρ N × Notes)
    (h : foldE (dsStepN rx py acc sub ms common data from_) st rs = .ok st') (k : DsKey) :
    st'.2.get? k = (if k.1 = acc ∧ k.2.1 = sub then
      noteOf rx (py .indexError) from_ k.2.2 ((rs.get? k.2.2).map fun r => dataSetFactory (N := N) rx ms common r (from_.monitors.get? k.2.2) data (some k.2.2))
      else none).or (st.2.get? k) := by
  induction rs generalizing st with
  | nil =>
    simp only [foldE, Except.ok.injEq] at h
    subst h
    simp only [Dict.get?, Option.map_none]
    rw [noteOf_none]
    simp
  | cons pr rs ih =>
    simp only [foldE] at h
    split at h
    · simp at h
    · rename_i st1 h1
      simp only [Dict.keys, List.map_cons, List.nodup_cons] at hn
      have hnone : Dict.get? rs pr.1 = none := Dict.get?_eq_none_iff.2 hn.1
      have hpr : from_.reactions.get? pr.1 = some pr.2 := hr _ _ (by simp [Dict.get?])
      have hr' : ∀ p r, Dict.get? rs p = some r → from_.reactions.get? p = some r := by
        intro p r hp
        refine hr p r ?_
        simp only [Dict.get?]
        rw [if_neg (fun e => by rw [← e, hnone] at hp; simp at hp), hp]
      rw [ih hn.2 hr' st1 h]
      obtain ⟨k1, k2, k3⟩ := k
      simp only [Dict.get?]
      have hst1 : st1.2 = dsNote N rx py acc sub ms common data from_ st.2 pr := by
        unfold dsStepN at h1
        split at h1
        · simp at h1
        · simp only [Except.ok.injEq] at h1; rw [← h1]
      -- what one round does
      have key : st1.2.get? (k1, k2, k3) = (if (k1 = acc ∧ k2 = sub) ∧ pr.1 = k3 then
          noteOf rx (py .indexError) from_ pr.1 (some (dataSetFactory (N := N) rx ms common pr.2 (from_.monitors.get? pr.1) data (some pr.1))) else none).or
          (st.2.get? (k1, k2, k3)) := by
        rw [hst1]
        have hset : ∀ m : Str, Dict.get? (Dict.set st.2 (acc, sub, pr.1) m) (k1, k2, k3) =
            (if (k1 = acc ∧ k2 = sub) ∧ pr.1 = k3 then some m else none).or (Dict.get? st.2 (k1, k2, k3)) := by
          intro m
          rw [Dict.get?_set]
          by_cases hk : (k1 = acc ∧ k2 = sub) ∧ pr.1 = k3
          · obtain ⟨⟨rfl, rfl⟩, rfl⟩ := hk
            simp
          · rw [if_neg hk, if_neg]
            · simp
            · intro e; simp only [Prod.mk.injEq] at e; exact hk ⟨⟨e.1, e.2.1⟩, e.2.2.symm⟩
        unfold dsNote
        split
        · rename_i he
          rw [he, hset]
          obtain ⟨t, ht⟩ : ∃ t, rx.text pr.2.1 = .ok t := by
            rcases factory_error he with ⟨q, -, hx⟩ | ⟨-, ⟨-, t, ht⟩ | ht⟩
            · simp at hx
            · exact ⟨t, ht⟩
            · exact absurd ht (htext _)
          simp only [factoryMessage, noteOf, hpr, ht]
          rfl
        · rename_i he
          rw [he, hset]
          simp only [factoryMessage, noteOf, hpr]
          rfl
        · rename_i e1 e2
          rw [noteOf_ne e1 e2]
          simp
      rw [key]
      by_cases hk : k1 = acc ∧ k2 = sub
      · by_cases hp : pr.1 = k3
        · rw [if_pos hk, if_pos ⟨hk, hp⟩, if_pos hk, if_pos hp, ← hp, hnone, Option.map_none, noteOf_none]
          rfl
        · rw [if_pos hk, if_neg (fun h => hp h.2), if_pos hk, if_neg hp]
          simp
      · rw [if_neg hk, if_neg (fun h => hk h.1), if_neg hk]
        simp

/-- the messages about one subentry -/
theorem subNote_eq {rx : RxOps ρ} (htext : ∀ r, rx.text r ≠ .error .notImplementedError) (py : PyErr → Str) (mk : Option Str) (main : SubInfo ρ)
    (hm : main.reactions.keys.Nodup) (e : Entry ρ) (st st' : DsState ρ N × Notes) (key : Option Str) (hmk : mk = e.mainKey)
    (hacc : st.1.entry.accnum = e.accnum)
    (hsub : ∃ s, st.1.entry.subs.get? key = some s ∧ st.1.entry.dataOf key = e.dataOf key ∧ s.accnum = key)
    (hnd : ∀ di, e.dataOf key = some di → di.2.reactions.keys.Nodup)
    (h : subStepN rx py mk main st key = .ok st') (k : DsKey) :
    st'.2.get? k = (if k.1 = e.accnum ∧ k.2.1 = key then notesOf N rx (py .indexError) e main key k.2.2 else none).or (st.2.get? k) := by
  obtain ⟨s, hs, hdo, hsa⟩ := hsub
  unfold subStepN at h
  rw [hs] at h
  simp only at h
  cases hd : s.data with
  | none =>
    rw [hd] at h
    simp only [Except.ok.injEq] at h
    subst h
    have h0 : e.dataOf key = none := by
      rw [← hdo]; unfold Entry.dataOf; rw [hs]; simp only [hd]
    simp [notesOf, h0]
  | some data =>
    rw [hd] at h
    simp only at h
    cases hi : s.info (s.accnum.getD "None".toList) with
    | error x => rw [hi] at h; simp at h
    | ok si =>
      rw [hi] at h
      simp only at h
      have hdata : e.dataOf key = some (data, si.1) := by
        rw [← hdo]; unfold Entry.dataOf; rw [hs]; simp only [hd, hi]
      split at h
      · simp at h
      · rename_i st1 h1
        have a := dsNote_eq htext py _ _ _ _ _ _ _ hm (fun _ _ h => h) _ _ h1 k
        have b := dsNote_eq htext py _ _ _ _ _ _ _ (hnd _ hdata) (fun _ _ h => h) _ _ h k
        rw [b, a, hacc, hsa]
        simp only [notesOf, hdata, ownAttempt, mainAttempt, attempt, hmk]
        split_ifs
        · rw [Option.or_assoc]
        · rfl

theorem foldE_subNote {rx : RxOps ρ} (htext : ∀ r, rx.text r ≠ .error .notImplementedError) (py : PyErr → Str) (main : SubInfo ρ)
    (hm : main.reactions.keys.Nodup) (e e0 : Entry ρ) (hnd : ∀ k di, e.dataOf k = some di → di.2.reactions.keys.Nodup)
    (h0 : ∀ k ∈ e.subs.keys, ∃ s, e0.subs.get? k = some s ∧ e0.dataOf k = e.dataOf k ∧ s.accnum = k)
    (ks : List (Option Str)) (hks : ks.Nodup) (hsub : ∀ k ∈ ks, k ∈ e.subs.keys) (st st' : DsState ρ N × Notes)
    (hacc : st.1.entry.accnum = e.accnum) (hent : ∀ k ∈ ks, st.1.entry.subs.get? k = e0.subs.get? k)
    (h : foldE (subStepN rx py e.mainKey main) st ks = .ok st') (k : DsKey) :
    st'.2.get? k = (if k.1 = e.accnum ∧ k.2.1 ∈ ks then notesOf N rx (py .indexError) e main k.2.1 k.2.2 else none).or (st.2.get? k) := by
  induction ks generalizing st with
  | nil =>
    simp only [foldE, Except.ok.injEq] at h
    subst h
    simp
  | cons key ks ih =>
    simp only [foldE] at h
    split at h
    · simp at h
    · rename_i st1 h1
      rw [List.nodup_cons] at hks
      have hdo : st.1.entry.dataOf key = e0.dataOf key := by
        unfold Entry.dataOf; rw [hent key (by simp)]
      obtain ⟨s, hs1, hs2, hs3⟩ := h0 key (hsub key (by simp))
      have hsub' : ∃ s, st.1.entry.subs.get? key = some s ∧ st.1.entry.dataOf key = e.dataOf key ∧ s.accnum = key :=
        ⟨s, by rw [hent key (by simp), hs1], by rw [hdo, hs2], hs3⟩
      obtain ⟨a1, a2, -, -⟩ := subStep_eq rx e.mainKey main hm e st.1 st1.1 key rfl hacc hsub' (hnd key)
        (fst_ok (subStepN_fst rx py e.mainKey main st key) h1)
      rw [ih hks.2 (fun k hk => hsub k (by simp [hk])) st1 a1
        (fun k hk => by rw [a2 k (fun e => hks.1 (e ▸ hk)), hent k (by simp [hk])]) h,
        subNote_eq htext py e.mainKey main hm e st st1 key rfl hacc hsub' (hnd key) h1]
      obtain ⟨k1, k2, k3⟩ := k
      by_cases hk : k2 = key
      · subst hk
        simp [hks.1]
      · simp [hk]

/-- C107: what is recorded by `getDataSets` for an entry read from text: for each subentry with data and each pointer, the message about the
subentry's own reaction if no dataset could be made of it, otherwise that about the reaction in the first subentry; the rest is as before the call. -/
theorem C107_made (P : FieldParsers ρ) (raw : List Str) (rx : RxOps ρ) (htext : ∀ r, rx.text r ≠ .error .notImplementedError) (py : PyErr → Str)
    (e : Entry ρ) (he : Entry.build P raw = .ok e) (errs : Dict DsKey PyErr) (notes : Notes) (st : DsState ρ N × Notes)
    (hdel : e.deleted = .ok false) (h : e.getDataSetsN rx py errs notes = .ok st) :
    ∃ s main, e.subs.get? (some (e.accnum ++ "001".toList)) = some s ∧ s.info (e.accnum ++ "001".toList) = .ok main ∧
      ∀ a k p, st.2.get? (a, k, p) = (if a = e.accnum then
        match e.dataOf k with
        | none => none
        | some di => (noteOf rx (py .indexError) di.2 p (ownAttempt (N := N) rx e main.1 k di p)).or
            (noteOf rx (py .indexError) main.1 p (mainAttempt (N := N) rx e main.1 k di p))
        else none).or (notes.get? (a, k, p)) := by
  have he := Entry.build_sound he
  unfold Entry.getDataSetsN at h
  rw [hdel] at h
  simp only at h
  split at h
  · simp at h
  · rename_i s hs
    split at h
    · simp at h
    · rename_i mi hmi
      have hg : e.subs.get? e.mainKey = some s := by
        have e1 : e.getItem (.int 1) = e.subs.get e.mainKey := rfl
        rw [e1] at hs
        unfold Dict.get at hs
        split at hs
        · rename_i v hv; simp at hs; rw [← hs]; exact hv
        · simp at hs
      obtain ⟨i1, i2, i3, i4⟩ := SubEntry.info_snd hmi
      have hsa : s.accnum = e.mainKey := he.accnum _ _ hg
      have hrn : ∀ (k : Option Str) (s : SubEntry ρ) (a : Str) (i : SubInfo ρ × SubEntry ρ), e.subs.get? k = some s → s.info a = .ok i →
          i.1.reactions.keys.Nodup := by
        intro k s a i hs hi
        rcases SubEntry.info_reactions hi with ⟨_, h⟩ | ⟨b, hb, hr⟩
        · rw [h]; simp [Dict.keys]
        · exact he.reactions k s b _ hs hb hr
      have hnone : ∀ k, k ∉ e.subs.keys → e.dataOf k = none := by
        intro k hk
        unfold Entry.dataOf
        rw [Dict.get?_eq_none_iff.2 hk]
      refine ⟨s, mi, hg, hmi, fun a k p => ?_⟩
      have := foldE_subNote htext py mi.1 (hrn _ _ _ _ hg hmi) e { e with subs := e.subs.set e.mainKey mi.2 }
        (by
          intro k di hdi
          unfold Entry.dataOf at hdi
          split at hdi
          · simp at hdi
          · rename_i s' hs'
            split at hdi
            · simp at hdi
            · split at hdi
              · simp at hdi
              · rename_i i hi
                simp only [Option.some.injEq] at hdi
                subst hdi
                exact hrn _ _ _ _ hs' hi)
        (by
          intro k hk
          by_cases hkm : k = e.mainKey
          · subst hkm
            refine ⟨mi.2, Dict.get?_set_self _ _ _, ?_, by rw [i3, hsa]⟩
            unfold Entry.dataOf
            simp only [Dict.get?_set_self]
            rw [hg]
            simp only [i2, i3, hsa]
            have : e.mainKey.getD "None".toList = e.accnum ++ "001".toList := rfl
            rw [this, i1, hmi]
          · obtain ⟨s', hs'⟩ := Option.isSome_iff_exists.1 ((Dict.mem_keys_iff _ _).1 hk)
            refine ⟨s', by simp only [Dict.get?_set_ne _ _ hkm, hs'], ?_, he.accnum _ _ hs'⟩
            unfold Entry.dataOf
            simp only [Dict.get?_set_ne _ _ hkm])
        e.subs.keys he.nodup (fun k h => h) _ _ rfl (fun k _ => rfl) h (a, k, p)
      rw [this]
      by_cases hk : k ∈ e.subs.keys
      · simp only [hk, and_true]
        rfl
      · simp [hk, hnone _ hk]

/-- C107: when the reaction which a subentry with data has under a pointer is a combination of different quantities, the message is recorded under
that subentry and pointer, and it ends with the readable text of the combination. -/
theorem C107_coupled (P : FieldParsers ρ) (raw : List Str) (rx : RxOps ρ) (htext : ∀ r, rx.text r ≠ .error .notImplementedError) (py : PyErr → Str)
    (e : Entry ρ) (he : Entry.build P raw = .ok e) (errs : Dict DsKey PyErr) (notes : Notes) (st : DsState ρ N × Notes)
    (hdel : e.deleted = .ok false) (h : e.getDataSetsN rx py errs notes = .ok st) (k : Option Str) (di : DataSection × SubInfo ρ)
    (hk : e.dataOf k = some di) (p : Char) (r : ρ × Str) (hr : di.2.reactions.get? p = some r) (hc : rx.quantity r.1 = none)
    (hq : ∀ q, ∃ m ∈ rx.members r.1, m ≠ q) (t : Str) (ht : rx.text r.1 = .ok t) :
    st.2.get? (e.accnum, k, p) =
      some (chars!"Encountered NotImplementedError: Coupled data with different quantities in expression:" ++ t) ∧
    st.1.errors.get? (e.accnum, k, p) = some .notImplementedError := by
  have heq : effectiveQuant rx r.1 = .error .notImplementedError :=
    ((C35_coupled rx r.1 hc).2 (by rintro q ⟨-, hm⟩; obtain ⟨m, h1, h2⟩ := hq q; exact h2 (hm m h1))).1 t ht
  have hf : ∀ ms common mon, dataSetFactory (N := N) rx ms common r mon di.1 (some p) = .error .notImplementedError := by
    intro ms common mon
    unfold dataSetFactory
    rw [heq]
  constructor
  · obtain ⟨s, main, -, -, h3⟩ := C107_made P raw rx htext py e he errs notes st hdel h
    rw [h3, if_pos rfl, hk]
    simp only [ownAttempt, attempt, hr, Option.map_some, hf, noteOf, ht]
    rfl
  · obtain ⟨s, main, -, -, -, h4⟩ := getDataSets_eq rx e (Entry.build_sound he) errs st.1 hdel (fst_ok (getDataSetsN_fst rx py e errs notes) h)
    rw [h4, if_pos rfl]
    simp only [badOf, hk, ownAttempt, attempt, hr, Option.map_some, hf, errPart]
    rfl

/-! ### the texts of reactions -/

theorem dictGet_not (d : Dict Str (List Str)) (k : Str) : d.get k ≠ .error .notImplementedError := by
  intro h; unfold Dict.get at h; split at h <;> simp at h

theorem pyIdx_not {α : Type} (l : List α) (i : Nat) : pyIdx l i ≠ .error .notImplementedError := by
  intro h; have := pyIdx_only h; simp at this

theorem prettyParticle_not (m : Mult) (sym : Str) : prettyParticle m sym ≠ .error .notImplementedError := by
  intro h
  cases m with
  | any => simp [prettyParticle, multPrefix] at h
  | num n =>
    simp only [prettyParticle, multPrefix] at h
    split at h <;> simp at h

theorem pretty_not (names : Dict Str (List Str)) (p : Particle) : p.pretty names ≠ .error .notImplementedError := by
  intro h
  cases p with
  | particle m sym Z A => exact prettyParticle_not _ _ h
  | nucleus Z sym A => simp [Particle.pretty] at h
  | element Z sym A => simp [Particle.pretty] at h
  | isomer Z sym A iso => simp [Particle.pretty] at h
  | «variable» sym => exact prettyParticle_not (.num 1) sym h
  | compound Z sym code =>
    simp only [Particle.pretty] at h
    split at h
    · rename_i e he; cases h; exact dictGet_not _ _ he
    · exact pyIdx_not _ _ h

theorem residualText_not (names : Dict Str (List Str)) (p : Option Product) : residualText names p ≠ .error .notImplementedError := by
  intro h
  rcases p with _ | s | p
  · simp [residualText] at h
  · simp [residualText] at h
  · exact pretty_not _ _ h

theorem entryText_not (o : Option (List Str)) (t : Str) : entryText o t ≠ .error .notImplementedError := by
  intro h
  unfold entryText at h
  split at h
  · simp at h
  · split at h
    · rename_i e he; cases h; exact pyIdx_not _ _ he
    · simp at h

theorem Reaction.str_not (D : RxDicts) (r : Reaction) : r.str D ≠ .error .notImplementedError := by
  intro h
  unfold Reaction.str at h
  split at h
  · rename_i e he
    cases h
    unfold Reaction.getReactionType at he
    split at he
    · simp at he
    · split at he
      · exact pyIdx_not _ _ he
      · split at he
        · rename_i e' he'; cases he; exact entryText_not _ _ he'
        · split at he
          · rename_i e' he'; cases he; exact entryText_not _ _ he'
          · simp at he
  · split at h
    · rename_i e he
      cases h
      unfold Process.str at he
      split at he
      · rename_i e' he'; cases he; exact pretty_not _ _ he'
      · split at he
        · rename_i e' he'; cases he; exact pretty_not _ _ he'
        · split at he
          · rename_i e' he'; cases he; exact residualText_not _ _ he'
          · simp at he
    · simp at h

mutual
theorem Datum.print_not {f : Reaction → Except PyErr Str} (hf : ∀ r, f r ≠ .error .notImplementedError) : ∀ d : Datum, d.print f ≠ .error .notImplementedError
  | .op s => by simp [Datum.print]
  | .rx r => by
    intro h
    simp only [Datum.print] at h
    split at h
    · rename_i e he; cases h; exact hf r he
    · simp at h
  | .iso d => by
    intro h
    simp only [Datum.print] at h
    split at h
    · rename_i e he; cases h; exact printData_not hf d he
    · simp at h
theorem printData_not {f : Reaction → Except PyErr Str} (hf : ∀ r, f r ≠ .error .notImplementedError) : ∀ d : List Datum, printData f d ≠ .error .notImplementedError
  | [] => by simp [printData]
  | d :: r => by
    intro h
    simp only [printData] at h
    split at h
    · rename_i e he; cases h; exact Datum.print_not hf d he
    · split at h
      · rename_i e he; cases h; exact printData_not hf r he
      · simp at h
end

/-- printing a reaction never raises NotImplementedError -/
theorem x4Rx_text (D : RxDicts) (r : Measurement) : (x4RxOps D).text r ≠ .error .notImplementedError := by
  cases r with
  | rx r => exact Reaction.str_not D r
  | comb d => exact printData_not (Reaction.str_not D) d
  | iso d => exact printData_not (Reaction.str_not D) d
/-- C107: the same for the reactions of the EXFOR files: the message about a combination of reactions with different quantities ends with `str` of it. -/
theorem C107_combination (P : FieldParsers Measurement) (raw : List Str) (D : RxDicts) (py : PyErr → Str) (e : Entry Measurement)
    (he : Entry.build P raw = .ok e) (st : DsState Measurement N × Notes) (hdel : e.deleted = .ok false)
    (h : e.getDataSetsN (x4RxOps D) py [] [] = .ok st) (k : Option Str) (di : DataSection × SubInfo Measurement)
    (hk : e.dataOf k = some di) (p : Char) (d : List Datum) (s : Str) (hr : di.2.reactions.get? p = some (.comb d, s))
    (r₁ r₂ : Reaction) (h₁ : r₁ ∈ reactionList d) (h₂ : r₂ ∈ reactionList d) (hq : quantTexts r₁.quantity ≠ quantTexts r₂.quantity)
    (t : Str) (ht : (Measurement.comb d).str D = .ok t) : st.2.get? (e.accnum, k, p) =
      some (chars!"Encountered NotImplementedError: Coupled data with different quantities in expression:" ++ t) := by
  refine (C107_coupled P raw (x4RxOps D) (x4Rx_text D) py e he [] [] st hdel h k di hk p _ hr rfl ?_ t ht).1
  intro q
  by_cases hq1 : quantTexts r₁.quantity = q
  · exact ⟨_, List.mem_map.2 ⟨r₂, h₂, rfl⟩, fun h => hq (hq1.trans h.symm)⟩
  · exact ⟨_, List.mem_map.2 ⟨r₁, h₁, rfl⟩, hq1⟩

/-! ### entries written in files -/

/-- the messages about an entry written in a file -/
theorem doc_notes {rx : RxOps ρ} (htext : ∀ r, rx.text r ≠ .error .notImplementedError) (py : PyErr → Str) (P : FieldParsers ρ) (D : EntryDoc) (h : D.wf)
    (hpr : D.Printable P rx) (subs : List SubDoc) (hsub : subs.Sublist D.subs) (raw : List Str) (e : Entry ρ) (he : Entry.build P raw = .ok e)
    (hold : EntryHolds P D subs e) (m : SubDoc) (hm : m ∈ subs) (hma : m.acc = D.acc ++ "001".toList) :
    ∃ st : DsState ρ N × Notes, e.getDataSetsN rx py [] [] = .ok st ∧ e.getDataSets rx [] = .ok st.1 ∧
      (∀ s ∈ subs, s.data ≠ none → ∀ p, docReaction m s p ≠ [] → ∀ r, P.reaction (joinWith [' '] ((docReaction m s p).map strip)) = .ok r →
        rx.quantity r.1 = none → (∀ q, ∃ x ∈ rx.members r.1, x ≠ q) → ∀ t, rx.text r.1 = .ok t →
        st.2.get? (D.acc, some s.acc, p) =
          some (chars!"Encountered NotImplementedError: Coupled data with different quantities in expression:" ++ t)) ∧
      ∀ a k p n, st.2.get? (a, k, p) = some n → a = D.acc ∧ ∃ s ∈ subs, k = some s.acc ∧ s.data ≠ none ∧ docReaction m s p ≠ [] := by
  obtain ⟨st0, hst0⟩ := doc_returns (N := N) P rx D h hpr subs hsub raw e he hold m hm hma
  obtain ⟨st, hst⟩ : ∃ st : DsState ρ N × Notes, e.getDataSetsN rx py [] [] = .ok st := by
    have := getDataSetsN_fst (N := N) rx py e [] []
    rw [hst0] at this
    cases hN : e.getDataSetsN (N := N) rx py [] [] with
    | error x => rw [hN] at this; cases this
    | ok st => exact ⟨st, rfl⟩
  have hst1 := fst_ok (getDataSetsN_fst (N := N) rx py e [] []) hst
  refine ⟨st, hst, hst1, ?_⟩
  obtain ⟨-, -, -, -, -, hgets, -⟩ := doc_values (N := N) P rx D h subs hsub raw e he hold m hm hma st.1 hst1
  have hacc := hold.accnum
  have hmk : e.mainKey = some m.acc := by rw [Entry.mainKey, hacc, hma]
  have hdel : e.deleted = .ok false := by
    cases hd : e.deleted with
    | error x => unfold Entry.getDataSets at hst1; rw [hd] at hst1; cases hst1
    | ok b => rw [C15_never_deleted e b hd]
  obtain ⟨M, main, hM, hmain, hnotes⟩ := C107_made P raw rx htext py e he [] [] st hdel hst
  obtain ⟨M', hM', hMh⟩ := hgets m hm
  have hMM : M' = M := by
    have : some (e.accnum ++ "001".toList) = some m.acc := hmk
    rw [this, hM'] at hM
    exact Option.some.inj hM
  subst hMM
  constructor
  · intro s hs hdat p hp r hrx hqn hqs t ht
    have hf : ∀ ms common mon data, dataSetFactory (N := N) rx ms common r mon data (some p) = .error .notImplementedError := by
      intro ms common mon data
      unfold dataSetFactory
      rw [((C35_coupled rx r.1 hqn).2 (by rintro q ⟨-, hm⟩; obtain ⟨x, h1, h2⟩ := hqs q; exact h2 (hm x h1))).1 t ht]
    obtain ⟨S, hS, hSh⟩ := hgets s hs
    obtain ⟨dsec, hSd⟩ : ∃ dsec, S.data = some dsec := by
      have hdata := hSh.data
      cases hd : s.data with
      | none => exact absurd hd hdat
      | some tb =>
        rw [hd] at hdata
        obtain ⟨dsec, hd1, -, -⟩ := hdata
        exact ⟨dsec, by unfold SubEntry.data; rw [hd1]⟩
    obtain ⟨i, hi⟩ := info_total (fun b hb => by
      obtain ⟨lines, hl⟩ := entry_subs he hS
      exact sub_bib hl hb) (S.accnum.getD "None".toList)
    have hdi : e.dataOf (some s.acc) = some (dsec, i.1) := by
      unfold Entry.dataOf
      rw [hS]
      simp only [hSd, hi]
    rw [← hacc, hnotes, if_pos rfl, hdi]
    simp only
    unfold docReaction at hp hrx
    by_cases hown : s.reactionText p ≠ []
    · rw [if_pos hown] at hrx
      obtain ⟨r', hr1, hr2⟩ := (doc_reactions (h.subs s (hsub.subset hs)).1 hSh hi p).2 hown
      rw [hrx] at hr1
      cases hr1
      simp only [ownAttempt, attempt, hr2, Option.map_some, hf, noteOf, ht]
      rfl
    · rw [if_neg hown] at hrx hp
      have hr2 := (doc_reactions (h.subs s (hsub.subset hs)).1 hSh hi p).1 (not_not.1 hown)
      obtain ⟨r', hr1, hr3⟩ := (doc_reactions (h.subs m (hsub.subset hm)).1 hMh hmain p).2 hp
      rw [hrx] at hr1
      cases hr1
      simp only [ownAttempt, mainAttempt, attempt, hr2, hr3, Option.map_some, Option.map_none, hf, noteOf, ht]
      rfl
  · intro a k p n hn
    rw [hnotes] at hn
    have hn0 : Dict.get? ([] : Notes) (a, k, p) = none := rfl
    rw [hn0, Option.or_none] at hn
    split at hn
    · rename_i ha
      refine ⟨ha.trans hacc, ?_⟩
      split at hn
      · cases hn
      · rename_i di hdi
        unfold Entry.dataOf at hdi
        split at hdi
        · cases hdi
        · rename_i S hS
          have hk : k ∈ subs.map fun s => some s.acc := by
            rw [← forall₂_keys (k := fun s : SubDoc => some s.acc) (Q := fun s S => SubHolds P s S) hold.subs]
            exact (Dict.mem_keys_iff _ _).2 (by rw [hS]; rfl)
          obtain ⟨s, hs, rfl⟩ := List.mem_map.1 hk
          obtain ⟨S', hS', hSh⟩ := hgets s hs
          rw [hS] at hS'
          cases hS'
          refine ⟨s, hs, rfl, ?_, ?_⟩
          · intro hn
            have h1 := hSh.data
            rw [hn] at h1
            have h2 : S.data = none := by unfold SubEntry.data; rw [h1]
            rw [h2] at hdi
            cases hdi
          · intro hn'
            unfold docReaction at hn'
            split at hn'
            · rename_i h0
              exact h0 hn'
            · rename_i h0
              have hi : ∃ i, S.info (S.accnum.getD "None".toList) = .ok i ∧ i.1 = di.2 := by
                split at hdi
                · cases hdi
                · split at hdi
                  · cases hdi
                  · cases hdi; exact ⟨_, by assumption, rfl⟩
              obtain ⟨i, hi, hdi'⟩ := hi
              have h1 := (doc_reactions (h.subs s (hsub.subset hs)).1 hSh hi p).1 (not_not.1 h0)
              have h2 := (doc_reactions (h.subs m (hsub.subset hm)).1 hMh hmain p).1 hn'
              rw [hdi'] at h1
              simp only [noteOf, h1, h2, Option.none_or] at hn
              cases hn
    · cases hn

/-! ### datasets that cannot be simplified -/

theorem foldE_simplifyN (py : PyErr → Str) (makeAll : Bool) (l : Dict DsKey (DataSet ρ N)) (hn : l.keys.Nodup) (st st' : DsState ρ N × Notes)
    (h : foldE (simplifyStepN py makeAll) st l = .ok st') :
    (∀ k d, l.get? k = some d →
      (∀ d', d.getSimplified makeAll false = .ok d' → st'.2.get? k = st.2.get? k) ∧
      (∀ x, d.getSimplified makeAll false = .error x → st'.2.get? k = some (simplifyMessage py x))) ∧
    ∀ k, k ∉ l.keys → st'.2.get? k = st.2.get? k := by
  induction l generalizing st with
  | nil =>
    simp only [foldE, Except.ok.injEq] at h
    subst h
    simp [Dict.get?]
  | cons kd l ih =>
    simp only [Dict.keys, List.map_cons, List.nodup_cons] at hn
    simp only [foldE] at h
    split at h
    · simp at h
    · rename_i st1 h1
      obtain ⟨i1, i2⟩ := ih hn.2 st1 h
      have hne : ∀ k, k ≠ kd.1 → st1.2.get? k = st.2.get? k := by
        intro k hk
        unfold simplifyStepN at h1
        split at h1
        · simp only [Except.ok.injEq] at h1; rw [← h1]
        · split at h1
          · simp only [Except.ok.injEq] at h1; rw [← h1]; exact Dict.get?_set_ne _ _ hk
          · simp at h1
      have hhere : (∀ d', kd.2.getSimplified makeAll false = .ok d' → st1.2.get? kd.1 = st.2.get? kd.1) ∧
          (∀ x, kd.2.getSimplified makeAll false = .error x → st1.2.get? kd.1 = some (simplifyMessage py x)) := by
        unfold simplifyStepN at h1
        constructor
        · intro d' hd'
          rw [hd'] at h1
          simp only [Except.ok.injEq] at h1
          rw [← h1]
        · intro x hx
          rw [hx] at h1
          simp only at h1
          split at h1
          · simp only [Except.ok.injEq] at h1; rw [← h1]; exact Dict.get?_set_self _ _ _
          · simp at h1
      refine ⟨fun k d hd => ?_, fun k hk => ?_⟩
      · simp only [Dict.get?] at hd
        by_cases e : kd.1 = k
        · rw [if_pos e] at hd
          simp only [Option.some.injEq] at hd
          subst hd
          rw [← e, i2 kd.1 hn.1]
          exact hhere
        · rw [if_neg e] at hd
          obtain ⟨a, b⟩ := i1 k d hd
          exact ⟨fun d' h => by rw [a d' h]; exact hne k (fun h => e h.symm), b⟩
      · simp only [Dict.keys, List.map_cons, List.mem_cons, not_or] at hk
        rw [i2 k hk.2, hne k hk.1]

/-- C107: what `getSimplifiedDataSets` records. A dataset that was simplified gets no new message; for one that was not, the message names the class of
the exception and, where one is to blame, the column without values or uncertainties or the number that cannot be read. Other messages stay. -/
theorem C107_simplified (rx : RxOps ρ) (py : PyErr → Str) (e : Entry ρ) (errs : Dict DsKey PyErr) (notes : Notes) (makeAll : Bool)
    (st st' : DsState ρ N × Notes) (h : e.getDataSetsN rx py errs notes = .ok st) (h' : e.getSimplifiedDataSetsN rx py errs notes makeAll = .ok st') :
    (∀ k d, st.1.datasets.get? k = some d →
      (∀ d', d.getSimplified makeAll false = .ok d' → st'.2.get? k = st.2.get? k) ∧
      (d.getSimplified makeAll false = .error .notImplementedError → st'.2.get? k = some chars!"Encountered NotImplementedError: ") ∧
      (∀ c, d.getSimplified makeAll false = .error (.noValuesGivenError c) →
        st'.2.get? k = some (chars!"Encountered NoValuesGivenError: " ++ strRepr (chars!"No value column for " ++ strRepr c))) ∧
      (∀ c, d.getSimplified makeAll false = .error (.noUncertaintyGivenError c) →
        st'.2.get? k = some (chars!"Encountered NoUncertaintyGivenError: " ++ strRepr (chars!"No uncertainty column for " ++ strRepr c))) ∧
      (∀ s, d.getSimplified makeAll false = .error (.brokenNumberError s) →
        st'.2.get? k = some (chars!"Encountered BrokenNumberError:" ++ strRepr (chars!"Badly formatted number: \"" ++ strRepr s ++ chars!"\""))) ∧
      ∀ x ∈ [PyErr.typeError, PyErr.indexError], d.getSimplified makeAll false = .error x →
        st'.2.get? k = some (chars!"Encountered " ++ x.className ++ chars!":" ++ py x)) ∧
    ∀ k, k ∉ st.1.datasets.keys → st'.2.get? k = st.2.get? k := by
  unfold Entry.getSimplifiedDataSetsN at h'
  rw [h] at h'
  obtain ⟨i1, i2⟩ := foldE_simplifyN py makeAll st.1.datasets (getDataSets_nodup (fst_ok (getDataSetsN_fst rx py e errs notes) h)) st st' h'
  refine ⟨fun k d hd => ?_, i2⟩
  obtain ⟨a, b⟩ := i1 k d hd
  refine ⟨a, fun h => b _ h, fun c h => b _ h, fun c h => b _ h, fun s h => b _ h, ?_⟩
  intro x hx h
  rw [b _ h]
  simp only [List.mem_cons, List.not_mem_nil, or_false] at hx
  rcases hx with rfl | rfl <;> rfl

/-! ### what a message tells -/

theorem strRepr_inj {s t : Str} (h : strRepr s = strRepr t) : s = t := by
  have := strRepr_append_inj (s := s) (s' := t) (u := []) (u' := []) (by simpa using h)
  exact this.1

/-- C107: a message says which exception was caught: different exceptions, or the same about different columns or numbers, give different messages. -/
theorem C107_distinct (py : PyErr → Str) (x y : PyErr) (hx : Handled x) (hy : Handled y) (h : simplifyMessage py x = simplifyMessage py y) : x = y := by
  have hv : ∀ {a b : Str} (p : Str), strRepr (p ++ strRepr a) = strRepr (p ++ strRepr b) → a = b := by
    intro a b p h
    exact strRepr_inj (List.append_cancel_left (strRepr_inj h))
  rcases hx with rfl | ⟨c, rfl⟩ | ⟨c, rfl⟩ | ⟨c, rfl⟩ | rfl | rfl <;> rcases hy with rfl | ⟨d, rfl⟩ | ⟨d, rfl⟩ | ⟨d, rfl⟩ | rfl | rfl <;>
    first
      | rfl
      | (exfalso; simp [simplifyMessage] at h; done)
      | skip
  · have h : strRepr (chars!"No value column for " ++ strRepr c) = strRepr (chars!"No value column for " ++ strRepr d) := List.append_cancel_left h
    rw [hv _ h]
  · have h : strRepr (chars!"No uncertainty column for " ++ strRepr c) = strRepr (chars!"No uncertainty column for " ++ strRepr d) := List.append_cancel_left h
    rw [hv _ h]
  · have h : strRepr (chars!"Badly formatted number: \"" ++ strRepr c ++ chars!"\"") = strRepr (chars!"Badly formatted number: \"" ++ strRepr d ++ chars!"\"") :=
      List.append_cancel_left h
    rw [strRepr_inj (List.append_cancel_left (List.append_cancel_right (strRepr_inj h)))]

/-- C107: each message starts with the class of the exception. -/
theorem C107_class (py : PyErr → Str) (x : PyErr) (hx : Handled x) : ∃ t, simplifyMessage py x = chars!"Encountered " ++ x.className ++ chars!":" ++ t := by
  rcases hx with rfl | ⟨c, rfl⟩ | ⟨c, rfl⟩ | ⟨c, rfl⟩ | rfl | rfl <;> exact ⟨_, rfl⟩

/-- a subentry with the energies and cross sections in the center of mass -/
def cmText : Str :=
  "SUBENT        10001002   19991231\nDATA                 2          1\nEN         DATA-CM\nMEV        B\n 1.5        2.5\nENDDATA              1\nENDSUBENT            3".toList

set_option maxRecDepth 20000 in
/-- C107_made, C107_coupled: the combination of the second subentry is reported, and the dataset of the first subentry's reaction is simplified. -/
example (py : PyErr → Str) : ∃ e, ∃ st st' : DsState _ N × Notes, demoEntry "CS".toList "MIXED".toList = .ok e ∧ e.deleted = .ok false ∧
    e.getDataSetsN { demoRx with text := fun _ => .ok chars!"( A )/( B )" } py [] [] = .ok st ∧
    st.2 = [(("10001".toList, some "10001002".toList, ' '),
      chars!"Encountered NotImplementedError: Coupled data with different quantities in expression:( A )/( B )")] ∧
    e.getSimplifiedDataSetsN { demoRx with text := fun _ => .ok chars!"( A )/( B )" } py [] [] true = .ok st' ∧ st'.2 = st.2 :=
  ⟨_, _, _, rfl, rfl, rfl, rfl, rfl, rfl⟩

set_option maxRecDepth 20000 in
/-- C107_simplified: cross sections in the center of mass without uncertainties are reported as missing. -/
example (py : PyErr → Str) : ∃ e, ∃ st' : DsState _ N × Notes, Entry.build demoP [mainText "CS".toList, cmText] = .ok e ∧
    e.getSimplifiedDataSetsN demoRx py [] [] false = .ok st' ∧
    st'.2 = [(("10001".toList, some "10001002".toList, ' '), chars!"Encountered NoValuesGivenError: \"No value column for 'Data'\"")] :=
  ⟨_, _, rfl, rfl, rfl⟩

/-- a reaction of the neutron with this quantity -/
def neutronRx (q : Str) : Reaction :=
  { proc := { targ := .nucleus chars!"92" chars!"U" chars!"235", proj := .particle (.num 1) ['N'] 0 1, products := [.chan ['F']], residual := none, processType := ['f'] },
    quantity := [.str q] }

/-- a grammar that reads every reaction as this ratio -/
def ratioP : FieldParsers Measurement :=
  ⟨fun _ => .ok (.comb [.rx (neutronRx chars!"SIG"), .op ['/'], .rx (neutronRx chars!"DA")], []),
   fun _ _ => .error .parseException, fun _ _ => [], fun _ => .error .parseException, fun _ => .error .parseException⟩

set_option maxRecDepth 20000 in
/-- C107_combination: the ratio of a cross section and an angular distribution -/
example (py : PyErr → Str) : ∃ e, ∃ st : DsState Measurement N × Notes, Entry.build ratioP [mainText "CS".toList, subText "CS".toList] = .ok e ∧
    e.getDataSetsN (x4RxOps ⟨[], [(chars!"SIG", [chars!"Cross section"]), (chars!"DA", [chars!"Angular distribution"])], []⟩) py [] [] = .ok st ∧
    st.2.get? (chars!"10001", some chars!"10001002", ' ') = some (chars!"Encountered NotImplementedError: Coupled data with different quantities in expression:" ++
      chars!"( Cross section for 235U(n,f) )/( Angular distribution for 235U(n,f) )") :=
  ⟨_, _, rfl, rfl, rfl⟩

end X4
