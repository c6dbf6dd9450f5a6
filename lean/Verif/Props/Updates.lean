import Verif.Spec.Updates
import Verif.Props.Whole
/-! What changes of a database do to the results of searches. -/
namespace X4
variable {ρ : Type}

/-! ### dictionaries in increasing order of the keys -/

theorem strLt_asymm {a b : Str} (h : StrLt a b) (h' : StrLt b a) : False := h.2 (strLe_antisymm a b h.1 h'.1)

theorem increasing_ext {l l' : List Str} (h : l.Pairwise StrLt) (h' : l'.Pairwise StrLt) (hm : ∀ x, x ∈ l ↔ x ∈ l') : l = l' :=
  List.Perm.eq_of_pairwise (le := StrLt) (fun _ _ _ _ h1 h2 => (strLt_asymm h1 h2).elim) h h'
    ((List.perm_ext_iff_of_nodup (h.imp fun x => x.2) (h'.imp fun x => x.2)).2 hm)

theorem dict_increasing_ext {α : Type} {m m' : Dict Str α} (h : m.keys.Pairwise StrLt) (h' : m'.keys.Pairwise StrLt) (hg : ∀ k, m.get? k = m'.get? k) : m = m' := by
  have hk : m.keys = m'.keys := increasing_ext h h' fun x => by rw [Dict.mem_keys_iff, Dict.mem_keys_iff, hg]
  have hn := h.imp (S := fun a b => a ≠ b) fun x => x.2
  have hn' := h'.imp (S := fun a b => a ≠ b) fun x => x.2
  unfold Dict.keys at hk
  apply List.ext_getElem (by simpa using congrArg List.length hk)
  intro i h1 h2
  have hki : (m[i]).1 = (m'[i]).1 := by
    have := congrArg (fun l => l[i]?) hk
    simpa [h1, h2] using this
  have g1 := Dict.get?_eq_some_of_mem (d := m) hn (k := m[i].1) (v := m[i].2) (List.getElem_mem h1)
  have g2 := Dict.get?_eq_some_of_mem (d := m') hn' (k := m'[i].1) (v := m'[i].2) (List.getElem_mem h2)
  rw [hg, hki] at g1
  rw [g1] at g2
  exact Prod.ext hki (Option.some.inj g2)

theorem Grouped.get?_eq {S S' : Str → Prop} {m m' : Dict Str (List Str)} (h : Grouped S m) (h' : Grouped S' m') (k : Str) (hS : ∀ s, s.take 5 = k → (S s ↔ S' s)) :
    m.get? k = m'.get? k := by
  cases hm : m.get? k with
  | none =>
    symm
    rw [Dict.get?_eq_none_iff] at hm ⊢
    rw [h.keys] at hm
    rw [h'.keys]
    rintro ⟨r, h1, h2⟩
    exact hm ⟨r, (hS r h2).2 h1, h2⟩
  | some l =>
    have hk := (Dict.mem_keys_iff m k).2 (by rw [hm]; rfl)
    obtain ⟨r, h1, h2⟩ := (h.keys k).1 hk
    obtain ⟨l', hm'⟩ := Option.isSome_iff_exists.1 ((Dict.mem_keys_iff m' k).1 ((h'.keys k).2 ⟨r, (hS r h2).1 h1, h2⟩))
    rw [hm']
    obtain ⟨t, rfl, a1, a2⟩ := h.lists k l (Dict.mem_of_get? hm)
    obtain ⟨t', rfl, b1, b2⟩ := h'.lists k l' (Dict.mem_of_get? hm')
    have : t = t' := increasing_ext a1 b1 fun x => by
      rw [a2, b2]
      constructor
      · rintro ⟨x1, x2, x3⟩; exact ⟨(hS x x2).1 x1, x2, x3⟩
      · rintro ⟨x1, x2, x3⟩; exact ⟨(hS x x2).2 x1, x2, x3⟩
    rw [this]

/-! ### queries -/

/-- What a query does does not depend on the index in other ways than by the rows that satisfy a condition. -/
theorem query_shape (c : Criteria) : (∀ T, (query T c).2 = .ok []) ∨ (∀ T, (query T c).2 = .error .operationalError) ∨
    ∃ cond : Row → Bool, ∀ T, ((∃ row ∈ T, cond row = true ∧ row.subent = none) ∧ (query T c).2 = .error .typeError) ∨
      ((∀ row ∈ T, cond row = true → row.subent ≠ none) ∧ ∃ m, (query T c).2 = .ok m ∧ Grouped (fun s => ∃ row ∈ T, cond row = true ∧ row.subent = some s) m) := by
  by_cases hc : c.condition = []
  · left; intro T; unfold query; rw [if_pos hc]
  right
  cases hl : (lexSql .base c.condition).bind parseCond with
  | none =>
    left
    intro T
    unfold query sqlWhere
    rw [if_neg hc]
    cases h1 : lexSql .base c.condition with
    | none => rfl
    | some ts =>
      rw [h1] at hl
      simp only [Option.bind_some] at hl
      simp only [hl]
  | some cs =>
    right
    obtain ⟨ts, h1, h2⟩ := Option.bind_eq_some_iff.1 hl
    have hw : ∀ T, sqlWhere T c.condition = some (T.filter (condHolds cs)) := by
      intro T
      unfold sqlWhere
      rw [h1]
      simp only [h2]
    refine ⟨condHolds cs, fun T => ?_⟩
    by_cases hn : ∃ row ∈ T, condHolds cs row = true ∧ row.subent = none
    · left
      refine ⟨hn, ?_⟩
      unfold query
      rw [if_neg hc]
      simp only [hw]
      obtain ⟨row, h3, h4, h5⟩ := hn
      have : subentColumn (T.filter (condHolds cs)) = .error .typeError := by
        have hmem : row ∈ T.filter (condHolds cs) := List.mem_filter.2 ⟨h3, h4⟩
        generalize T.filter (condHolds cs) = l at hmem
        unfold subentColumn
        induction l with
        | nil => cases hmem
        | cons a l ih =>
          rw [mapE, rowSubent]
          cases ha : a.subent with
          | none => rfl
          | some s =>
            rcases List.mem_cons.1 hmem with rfl | h
            · rw [h5] at ha; cases ha
            · simp only [ih h]
      rw [this]
    · right
      have hn' : ∀ row ∈ T, condHolds cs row = true → row.subent ≠ none := fun row h3 h4 h5 => hn ⟨row, h3, h4, h5⟩
      refine ⟨hn', ?_⟩
      obtain ⟨found, hf⟩ := subentColumn_some (rows := T.filter (condHolds cs)) fun row hr => hn' row (List.mem_filter.1 hr).1 (List.mem_filter.1 hr).2
      have hq : (query T c).2 = .ok (groupSubents found) := by
        unfold query
        rw [if_neg hc]
        simp only [hw, hf]
      refine ⟨_, hq, ?_⟩
      rcases C44_query T c _ hq with ⟨h, -⟩ | ⟨-, rows, hr, hgr⟩
      · exact absurd (condition_ne_nil.1 hc) h
      · rw [hw] at hr
        obtain rfl := Option.some.inj hr
        refine ⟨fun k => (hgr.keys k).trans ?_, hgr.increasing, fun k l hkl => ?_⟩
        · constructor
          · rintro ⟨r, ⟨row, h3, h4⟩, h5⟩
            exact ⟨r, ⟨row, (List.mem_filter.1 h3).1, (List.mem_filter.1 h3).2, h4⟩, h5⟩
          · rintro ⟨r, ⟨row, h3, h3', h4⟩, h5⟩
            exact ⟨r, ⟨row, List.mem_filter.2 ⟨h3, h3'⟩, h4⟩, h5⟩
        · obtain ⟨t, h3, h4, h5⟩ := hgr.lists k l hkl
          refine ⟨t, h3, h4, fun r => (h5 r).trans ?_⟩
          constructor
          · rintro ⟨⟨row, h6, h7⟩, h8⟩
            exact ⟨⟨row, (List.mem_filter.1 h6).1, (List.mem_filter.1 h6).2, h7⟩, h8⟩
          · rintro ⟨⟨row, h6, h6', h7⟩, h8⟩
            exact ⟨⟨row, List.mem_filter.2 ⟨h6, h6'⟩, h7⟩, h8⟩

theorem query_increasing {T : List Row} {c : Criteria} {m : Dict Str (List Str)} (h : (query T c).2 = .ok m) : m.keys.Pairwise StrLt := by
  rcases C44_query T c m h with ⟨-, rfl⟩ | ⟨-, rows, -, hg⟩
  · exact .nil
  · exact hg.increasing

/-- C127: the order of the rows of the index and repetitions of rows do not matter. -/
theorem C127_order (T T' : List Row) (h : ∀ row, row ∈ T ↔ row ∈ T') (c : Criteria) : query T c = query T' c := by
  have h1 : (query T c).1 = (query T' c).1 := by unfold query; split <;> rfl
  refine Prod.ext h1 ?_
  rcases query_shape c with hs | hs | ⟨cond, hs⟩
  · rw [hs, hs]
  · rw [hs, hs]
  · rcases hs T with ⟨⟨row, a1, a2⟩, a3⟩ | ⟨a1, m, a2, a3⟩ <;> rcases hs T' with ⟨⟨row', b1, b2⟩, b3⟩ | ⟨b1, m', b2, b3⟩
    · rw [a3, b3]
    · exact absurd a2.2 (b1 row ((h row).1 a1) a2.1)
    · exact absurd b2.2 (a1 row' ((h row').2 b1) b2.1)
    · rw [a2, b2]
      have : m = m' := dict_increasing_ext a3.increasing b3.increasing fun k => a3.get?_eq b3 k fun s _ => by simp only [h]
      rw [this]

/-- C127: what a query finds of an entry depends on the rows of this entry only. -/
theorem C127_entry (k : Str) (T T' : List Row) (h : SameRowsFor k T T') (c : Criteria) (m m' : Dict Str (List Str)) (hm : (query T c).2 = .ok m) (hm' : (query T' c).2 = .ok m') :
    m.get? k = m'.get? k := by
  rcases query_shape c with hs | hs | ⟨cond, hs⟩
  · rw [hs] at hm hm'
    rw [← Except.ok.inj hm, ← Except.ok.inj hm']
  · rw [hs] at hm; cases hm
  · rcases hs T with ⟨-, a3⟩ | ⟨-, n, a2, a3⟩
    · rw [a3] at hm; cases hm
    rcases hs T' with ⟨-, b3⟩ | ⟨-, n', b2, b3⟩
    · rw [b3] at hm'; cases hm'
    rw [a2] at hm
    rw [b2] at hm'
    obtain rfl := Except.ok.inj hm
    obtain rfl := Except.ok.inj hm'
    refine a3.get?_eq b3 k fun s hsk => ?_
    constructor
    · rintro ⟨row, h1, h2, h3⟩
      exact ⟨row, (h row (by rw [entryOfRow, h3, Option.map_some, hsk])).1 h1, h2, h3⟩
    · rintro ⟨row, h1, h2, h3⟩
      exact ⟨row, (h row (by rw [entryOfRow, h3, Option.map_some, hsk])).2 h1, h2, h3⟩

/-! ### retrieved objects -/

theorem readEntry_path {P : FieldParsers ρ} {db db' : DB} {k : Str} (h : db.read (fileOfEntry k) = db'.read (fileOfEntry k)) (l : Option (List Str)) : readEntry P db k l = readEntry P db' k l := by
  unfold readEntry entryFactoryRaw
  by_cases h5 : k.length ≠ 5
  · rw [if_pos h5, if_pos h5]
  · rw [if_neg h5, if_neg h5]
    have : slice k 0 3 = k.take 3 := by simp [slice]
    simp only [this]
    rw [show k.take 3 ++ ['/'] ++ k ++ ".x4".toList = fileOfEntry k from rfl, h]

/-- the objects of a list of entries, or the first failure -/
def readFound (P : FieldParsers ρ) (db : DB) (m : Dict Str (List Str)) : Except PyErr (Dict Str (Entry ρ)) :=
  mapE (fun kv : Str × List Str => (readEntry P db kv.1 (some kv.2)).map fun x => (kv.1, x)) m

theorem readFound_ok {P : FieldParsers ρ} {db : DB} {m : Dict Str (List Str)} {R : Dict Str (Entry ρ)} (h : readFound P db m = .ok R) :
    R.keys = m.keys ∧ ∀ k, R.get? k = (m.get? k).bind fun l => (readEntry P db k (some l)).toOption := by
  unfold readFound at h
  induction m generalizing R with
  | nil =>
    rw [mapE] at h
    obtain rfl := Except.ok.inj h
    exact ⟨rfl, fun _ => rfl⟩
  | cons kv m ih =>
    rw [mapE] at h
    cases h1 : readEntry P db kv.1 (some kv.2) with
    | error e => rw [h1] at h; cases h
    | ok x =>
      rw [h1] at h
      simp only [Except.map] at h
      cases h2 : mapE (fun kv : Str × List Str => (readEntry P db kv.1 (some kv.2)).map fun x => (kv.1, x)) m with
      | error e => simp only [Except.map] at h2; rw [h2] at h; cases h
      | ok R' =>
        obtain ⟨i1, i2⟩ := ih h2
        simp only [Except.map] at h2
        rw [h2] at h
        obtain rfl := Except.ok.inj h
        refine ⟨by simp only [Dict.keys, List.map_cons] at i1 ⊢; rw [i1], fun k => ?_⟩
        obtain ⟨k0, l0⟩ := kv
        by_cases hk : k0 = k
        · subst hk
          simp only [Dict.get?, List.find?] at *
          simp [h1, Except.toOption]
        · have := i2 k
          simp only [Dict.get?] at this ⊢
          simp [hk, this]

theorem readFound_error {P : FieldParsers ρ} {db : DB} {m : Dict Str (List Str)} {e : PyErr} (h : readFound P db m = .error e) : ∃ kv ∈ m, readEntry P db kv.1 (some kv.2) = .error e := by
  unfold readFound at h
  induction m with
  | nil => rw [mapE] at h; cases h
  | cons kv m ih =>
    rw [mapE] at h
    cases h1 : readEntry P db kv.1 (some kv.2) with
    | error e' =>
      rw [h1] at h
      refine ⟨kv, .head _, ?_⟩
      rw [h1]
      exact congrArg Except.error (Except.error.inj h)
    | ok x =>
      rw [h1] at h
      simp only [Except.map] at h
      cases h2 : mapE (fun kv : Str × List Str => (readEntry P db kv.1 (some kv.2)).map fun x => (kv.1, x)) m with
      | error e' =>
        have h3 := h2
        simp only [Except.map] at h3
        rw [h3] at h
        obtain rfl := Except.error.inj h
        obtain ⟨kv', h4, h5⟩ := ih h2
        exact ⟨kv', .tail _ h4, h5⟩
      | ok R' =>
        simp only [Except.map] at h2
        rw [h2] at h
        cases h

theorem retrieve_all {P : FieldParsers ρ} {T : List Row} {db : DB} {c : Criteria} {m : Dict Str (List Str)} (h : (query T c).2 = .ok m) : retrieve P T db c = readFound P db m := by
  rw [retrieve_readEntry, h]
  rfl

theorem retrieve_found {P : FieldParsers ρ} {T : List Row} {db : DB} {c : Criteria} {R : Dict Str (Entry ρ)} (h : retrieve P T db c = .ok R) :
    ∃ m, (query T c).2 = .ok m ∧ readFound P db m = .ok R := by
  cases hq : (query T c).2 with
  | error e => rw [retrieve_readEntry, hq] at h; cases h
  | ok m => exact ⟨m, rfl, (retrieve_all hq).symm.trans h⟩

/-- C127: the object of an entry depends on the rows and the file of this entry only. -/
theorem C127_object (P : FieldParsers ρ) (k : Str) (T T' : List Row) (db db' : DB) (h : SameRowsFor k T T') (hf : db.read (fileOfEntry k) = db'.read (fileOfEntry k)) (c : Criteria)
    (R R' : Dict Str (Entry ρ)) (hR : retrieve P T db c = .ok R) (hR' : retrieve P T' db' c = .ok R') : R.get? k = R'.get? k := by
  obtain ⟨m, h1, h2⟩ := retrieve_found hR
  obtain ⟨m', h1', h2'⟩ := retrieve_found hR'
  rw [(readFound_ok h2).2, (readFound_ok h2').2, C127_entry k T T' h c m m' h1 h1']
  simp only [readEntry_path hf]

/-- A query that succeeds goes on to do so when rows with a subentry number are added or removed. -/
theorem query_but {k : Str} {T T' : List Row} (h : SameRowsBut k T T') {c : Criteria} {m : Dict Str (List Str)} (hm : (query T c).2 = .ok m) :
    ∃ m', (query T' c).2 = .ok m' ∧ ∀ k', k' ≠ k → m'.get? k' = m.get? k' := by
  have hx : ∃ m', (query T' c).2 = .ok m' := by
    rcases query_shape c with hs | hs | ⟨cond, hs⟩
    · exact ⟨_, hs T'⟩
    · rw [hs] at hm; cases hm
    · rcases hs T with ⟨-, a3⟩ | ⟨a1, -⟩
      · rw [a3] at hm; cases hm
      rcases hs T' with ⟨⟨row, b1, b2, b3⟩, -⟩ | ⟨-, m', b2, -⟩
      · exact absurd b3 (a1 row ((h row (by rw [entryOfRow, b3]; simp)).2 b1) b2)
      · exact ⟨m', b2⟩
  obtain ⟨m', hm'⟩ := hx
  refine ⟨m', hm', fun k' hk => (C127_entry k' T T' (fun row hr => h row ?_) c m m' hm hm').symm⟩
  rw [hr]
  exact fun e => hk (Option.some.inj e)

/-- C127: after a change of the rows and the file of one entry, a search that succeeded before either finds the same objects as before for all
other entries, or fails because the changed entry is found and cannot be read. -/
theorem C127_update (P : FieldParsers ρ) (k : Str) (T T' : List Row) (db db' : DB) (h : SameRowsBut k T T') (hf : SameFilesBut k db db') (c : Criteria)
    (R : Dict Str (Entry ρ)) (hR : retrieve P T db c = .ok R) :
    (∃ R', retrieve P T' db' c = .ok R' ∧ R'.keys.Pairwise StrLt ∧ ∀ k', k' ≠ k → R'.get? k' = R.get? k') ∨
      ∃ m l e, (query T' c).2 = .ok m ∧ m.get? k = some l ∧ readEntry P db' k (some l) = .error e ∧ retrieve P T' db' c = .error e := by
  obtain ⟨m, h1, h2⟩ := retrieve_found hR
  obtain ⟨m', h1', h3⟩ := query_but h h1
  cases hA : readFound P db' m' with
  | ok R' =>
    left
    refine ⟨R', (retrieve_all h1').trans hA, (readFound_ok hA).1 ▸ query_increasing h1', fun k' hk => ?_⟩
    rw [(readFound_ok h2).2, (readFound_ok hA).2, h3 k' hk]
    simp only [readEntry_path (hf k' hk)]
  | error e =>
    right
    obtain ⟨⟨k', l⟩, h4, h5⟩ := readFound_error hA
    have hn : m'.keys.Nodup := (query_increasing h1').imp fun x => x.2
    have hg := Dict.get?_eq_some_of_mem hn h4
    by_cases hk : k' = k
    · subst hk
      exact ⟨m', l, e, h1', hg, h5, (retrieve_all h1').trans hA⟩
    · exfalso
      rw [h3 k' hk] at hg
      have h6 : k' ∈ R.keys := (readFound_ok h2).1 ▸ (Dict.mem_keys_iff m k').2 (by rw [hg]; rfl)
      have h7 := (Dict.mem_keys_iff R k').1 h6
      rw [(readFound_ok h2).2, hg] at h7
      simp only [Option.bind_some, readEntry_path (hf k' hk)] at h7
      simp only at h5
      rw [h5] at h7
      cases h7

/-- C127: if an entry is removed from the index, a search that succeeded before finds the same without this entry, whatever becomes of its file. -/
theorem C127_removed (P : FieldParsers ρ) (k : Str) (T : List Row) (db db' : DB) (hf : SameFilesBut k db db') (c : Criteria) (R : Dict Str (Entry ρ)) (hR : retrieve P T db c = .ok R) :
    retrieve P (T.filter fun row => decide (entryOfRow row ≠ some k)) db' c = .ok (R.filter fun kv => decide (kv.1 ≠ k)) := by
  have hT : SameRowsBut k T (T.filter fun row => decide (entryOfRow row ≠ some k)) := by
    intro row hr
    rw [List.mem_filter]
    exact ⟨fun h => ⟨h, decide_eq_true hr⟩, fun h => h.1⟩
  have hno : ∀ m', (query (T.filter fun row => decide (entryOfRow row ≠ some k)) c).2 = .ok m' → m'.get? k = none := by
    intro m' hm'
    have : SameRowsFor k (T.filter fun row => decide (entryOfRow row ≠ some k)) [] := by
      intro row hr
      simp [hr]
    have he : ∃ m0, (query [] c).2 = .ok m0 ∧ m0.get? k = none := by
      rcases query_shape c with hs | hs | ⟨cond, hs⟩
      · exact ⟨_, hs [], rfl⟩
      · rw [hs] at hm'; cases hm'
      · rcases hs [] with ⟨⟨row, b1, -⟩, -⟩ | ⟨-, m0, b2, b3⟩
        · cases b1
        · refine ⟨m0, b2, Dict.get?_eq_none_iff.2 fun hk => ?_⟩
          obtain ⟨r, ⟨row, h, -⟩, -⟩ := (b3.keys k).1 hk
          cases h
    obtain ⟨m0, g1, g2⟩ := he
    rw [C127_entry k _ _ this c m' m0 hm' g1, g2]
  rcases C127_update P k T _ db db' hT hf c R hR with ⟨R', h1, h2, h3⟩ | ⟨m, l, e, h1, h2, -⟩
  · rw [h1]
    congr 1
    obtain ⟨m, g1, g2⟩ := retrieve_found hR
    have hRk : R.keys.Pairwise StrLt := (readFound_ok g2).1 ▸ query_increasing g1
    have hFk : (Dict.keys (R.filter fun kv => decide (kv.1 ≠ k))).Pairwise StrLt := hRk.sublist (List.filter_sublist.map _)
    refine dict_increasing_ext h2 hFk fun k' => ?_
    have hN : R.keys.Nodup := hRk.imp fun x => x.2
    have hN' : (Dict.keys (R.filter fun kv => decide (kv.1 ≠ k))).Nodup := hFk.imp fun x => x.2
    by_cases hk : k' = k
    · subst hk
      obtain ⟨m', g3, g4⟩ := retrieve_found h1
      rw [(readFound_ok g4).2, hno m' g3]
      symm
      rw [Option.bind_none, Dict.get?_eq_none_iff]
      intro hm
      obtain ⟨kv, h5, h6⟩ := List.mem_map.1 hm
      exact (of_decide_eq_true (List.mem_filter.1 h5).2) h6
    · rw [h3 k' hk]
      cases hg : R.get? k' with
      | none =>
        symm
        rw [Dict.get?_eq_none_iff] at hg ⊢
        intro hm
        obtain ⟨kv, h5, h6⟩ := List.mem_map.1 hm
        exact hg (List.mem_map.2 ⟨kv, (List.mem_filter.1 h5).1, h6⟩)
      | some x =>
        exact (Dict.get?_eq_some_of_mem hN' (List.mem_filter.2 ⟨Dict.mem_of_get? hg, decide_eq_true hk⟩)).symm
  · rw [hno m h1] at h2
    cases h2

/-! ### a database with two entries, from which one is removed -/

def bothDb : DB := ⟨fun p => if p = chars!"100/10002.x4" then .ok wholeEntry.file else docDb'.read p⟩

theorem bothLaid : LaidArchive (x4Parsers metaDicts) [docEntry, wholeEntry] bothDb (docRow1 :: wholeRows) := by
  refine ⟨?_, ?_, by decide, ?_, ?_⟩
  · intro D hD
    simp only [List.mem_cons, List.not_mem_nil, or_false] at hD
    rcases hD with rfl | rfl
    · exact docEntry_wf
    · exact wholeEntry_wf
  · intro D hD
    simp only [List.mem_cons, List.not_mem_nil, or_false] at hD
    rcases hD with rfl | rfl
    · exact docEntry_readable
    · exact wholeEntry_readable
  · intro D hD
    simp only [List.mem_cons, List.not_mem_nil, or_false] at hD
    rcases hD with rfl | rfl
    · obtain ⟨F, h1, h2⟩ := docLaid.files docEntry (by simp)
      refine ⟨F, h1, ?_⟩
      rw [← h2]
      have : ¬ docEntry.acc.take 3 ++ ['/'] ++ docEntry.acc ++ ".x4".toList = chars!"100/10002.x4" := by decide
      simp only [bothDb, this, if_false]
    · refine ⟨_, C120_written _ wholeEntry_wf, ?_⟩
      have : wholeEntry.acc.take 3 ++ ['/'] ++ wholeEntry.acc ++ ".x4".toList = chars!"100/10002.x4" := by decide
      simp only [bothDb, this, if_true]
  · intro row hrow
    rcases List.mem_cons.1 hrow with rfl | hrow
    · exact ⟨docEntry, by simp, docSub, by simp [docEntry], rfl⟩
    · obtain ⟨D, hD, h⟩ := wholeLaid.index row hrow
      rw [List.mem_singleton.1 hD] at h
      exact ⟨wholeEntry, by simp, h⟩

/-- A search for neutrons finds both entries; after the removal of the second it finds the first as before, although the file is gone, too. -/
example : ∃ R, retrieve (x4Parsers metaDicts) (docRow1 :: wholeRows) bothDb { projectile := some ['n'] } = .ok R ∧ chars!"10001" ∈ R.keys ∧ chars!"10002" ∈ R.keys ∧
    retrieve (x4Parsers metaDicts) [docRow1] docDb' { projectile := some ['n'] } = .ok (R.filter fun kv => decide (kv.1 ≠ chars!"10002")) := by
  have hp : ∀ t ∈ ({ projectile := some ['n'] } : Criteria).texts, PlainText t := by
    intro t ht
    have ht : t ∈ [['n']] := ht
    rw [List.mem_singleton.1 ht]
    exact ⟨by decide, by decide⟩
  have hit : ∀ row ∈ docRow1 :: wholeRows, ∀ acc, row.subent = some acc → WildHit (docRow1 :: wholeRows) { projectile := some ['n'] } acc := by
    intro row hrow acc hacc
    refine ⟨row, hrow, ⟨?_, ?_, ?_, ?_, ?_, ?_, ?_, ?_⟩, hacc⟩ <;> rintro a ⟨⟩
    have : ∀ row ∈ docRow1 :: wholeRows, row.projectile = some (upper ['n']) := by decide
    exact this row hrow
  obtain ⟨R, h1, -, h3, -⟩ := C126_holds _ _ _ _ bothLaid { projectile := some ['n'] } hp (by simp [Criteria.given])
  refine ⟨R, h1, (h3 docEntry (by simp)).2 ⟨docSub, by simp [docEntry], hit _ (.head _) _ rfl⟩,
    (h3 wholeEntry (by simp)).2 ⟨wholeSub, by simp [wholeEntry], hit _ (.tail _ (.head _)) _ rfl⟩, ?_⟩
  have := C127_removed (x4Parsers metaDicts) chars!"10002" (docRow1 :: wholeRows) bothDb docDb' (fun k hk => ?_) { projectile := some ['n'] } R h1
  · exact this
  · have : fileOfEntry k ≠ chars!"100/10002.x4" := by
      intro h
      have hl := congrArg List.length h
      have hx : (".x4".toList).length = 3 := by decide
      rw [fileOfEntry, List.length_append, List.length_append, List.length_append, List.length_take, hx, show (chars!"100/10002.x4").length = 12 by decide] at hl
      have hl5 : k.length = 5 := by
        simp only [List.length_cons, List.length_nil] at hl
        omega
      exact hk (path_inj (b := chars!"10002") h hl5 (by decide))
    simp only [bothDb, this, if_false]

end X4
