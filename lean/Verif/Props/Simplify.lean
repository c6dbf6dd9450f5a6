import Verif.Lemmas.Simplify
namespace X4
variable {ρ N : Type} [PyNum N]

/-- reading all columns, when it succeeds -/
theorem readAll_ok {t : Table N} {pm : Dict Str (List Pair)} {cols : List (Str × Column N × Column N)}
    (h : mapE (readColumns t) pm = .ok cols) :
    (∀ kv ∈ pm, Reads t kv.2 ∧ ¬ NoValue t kv.2) ∧ cols = pm.map fun kv => (kv.1, vColumn t kv.2, eColumn t kv.2) := by
  have hr : ∀ kv ∈ pm, Reads t kv.2 ∧ ¬ NoValue t kv.2 := by
    intro kv hkv
    obtain ⟨y, hy⟩ := (mapE_ok_or _ _).1 ⟨_, h⟩ kv hkv
    have hr : Reads t kv.2 := by
      unfold readColumns at hy
      split at hy
      · simp at hy
      · rename_i c hc; exact reads_of_condensed hc
    refine ⟨hr, fun hn => ?_⟩
    rw [readColumns_eq hr, if_pos hn] at hy
    simp at hy
  refine ⟨hr, ?_⟩
  have : mapE (readColumns t) pm = .ok (pm.map fun kv => (kv.1, vColumn t kv.2, eColumn t kv.2)) := by
    apply mapE_all_ok
    intro kv hkv
    rw [readColumns_eq (hr kv hkv).1, if_neg (hr kv hkv).2]
  rw [this] at h
  simp only [Except.ok.injEq] at h
  exact h.symm

open Classical in
/-- rows, when no uncertainty is missing or missing ones are accepted -/
theorem simpleRows_eq {t : Table N} {pm : Dict Str (List Pair)} {names : List Str} {makeAll failMissing : Bool}
    (h : ∀ n ∈ names, ¬ (NoError t (parsersOf pm n) ∧ makeAll = false ∧ failMissing = true)) :
    mapE (simpleRow makeAll failMissing (names.map (readOf t pm))) (List.range t.data.length) =
      .ok ((List.range t.data.length).map fun i =>
        (names.map fun n => colVal t (parsersOf pm n) i) ++ names.flatMap (errEntries t pm makeAll i)) := by
  apply mapE_prefix
  intro i hi
  unfold simpleRow
  rw [valCells_eq hi]
  simp only
  have : mapE (errCell makeAll failMissing i) (names.map (readOf t pm)) = .ok (names.map (errEntries t pm makeAll i)) := by
    rw [mapE_map]
    apply mapE_all_ok
    intro n hn
    rw [errCell_eq hi, if_neg (h n hn)]
  rw [this]
  simp only [List.flatMap_def]

open Classical in
/-- the columns with an uncertainty column of their own -/
noncomputable def withErr (t : Table N) (pm : Dict Str (List Pair)) (makeAll : Bool) (names : List Str) : List Str :=
  names.filter fun n => makeAll || decide (¬ NoError t (parsersOf pm n))

open Classical in
/-- the result of a simplification, when every parser list can be read and no value or required
uncertainty is missing -/
theorem simplify_ok {t : Table N} {pm : Dict Str (List Pair)} {names : List Str} {makeAll failMissing : Bool}
    (h1 : ∀ k ∈ pm.keys, k ∈ names) (h2 : ∀ n ∈ names, n ∈ pm.keys) (hr : ∀ kv ∈ pm, Reads t kv.2 ∧ ¬ NoValue t kv.2)
    (he : ∀ n ∈ names, ¬ (NoError t (parsersOf pm n) ∧ makeAll = false ∧ failMissing = true)) :
    simplifyTable t pm names makeAll failMissing = .ok
      { labels := names ++ (withErr t pm makeAll names).map dName
        units := (names.map fun n => colUnit t (parsersOf pm n)) ++
          ((withErr t pm makeAll names).map fun n =>
            if NoError t (parsersOf pm n) then colUnit t (parsersOf pm n) else errUnit t (parsersOf pm n))
        data := (List.range t.data.length).map fun i =>
          (names.map fun n => colVal t (parsersOf pm n) i) ++ names.flatMap (errEntries t pm makeAll i) } := by
  unfold simplifyTable
  rw [if_pos (by simpa [List.all_eq_true] using h1)]
  have e1 : mapE (readColumns t) pm = .ok (pm.map fun kv => (kv.1, vColumn t kv.2, eColumn t kv.2)) := by
    apply mapE_all_ok
    intro kv hkv
    rw [readColumns_eq (hr kv hkv).1, if_neg (hr kv hkv).2]
  rw [e1]
  simp only
  rw [pickColumns_eq h2]
  simp only
  rw [simpleRows_eq he]
  simp only
  have eh : ∀ ns : List Str, ((ns.map (readOf t pm)).flatMap (errHead makeAll)) =
      (withErr t pm makeAll ns).map fun n => (dName n,
        if NoError t (parsersOf pm n) then colUnit t (parsersOf pm n) else errUnit t (parsersOf pm n)) := by
    intro ns
    induction ns with
    | nil => rfl
    | cons n ns ih =>
      rw [List.map_cons, List.flatMap_cons, ih, errHead_eq]
      unfold withErr
      rw [List.filter_cons]
      by_cases hn : NoError t (parsersOf pm n)
      · cases makeAll <;> simp [hn]
      · cases makeAll <;> simp [hn]
  rw [eh]
  simp only [List.map_map, Function.comp_def]
  congr 3
  · conv_rhs => rw [← List.map_id names]
    rfl

/-- success of a simplification implies the hypotheses of `simplify_ok` -/
theorem simplify_inv {t : Table N} {pm : Dict Str (List Pair)} {names : List Str} {makeAll failMissing : Bool} {r : Table N}
    (h : simplifyTable t pm names makeAll failMissing = .ok r) :
    (∀ k ∈ pm.keys, k ∈ names) ∧ (∀ n ∈ names, n ∈ pm.keys) ∧ (∀ kv ∈ pm, Reads t kv.2 ∧ ¬ NoValue t kv.2) ∧
    (t.data ≠ [] → ∀ n ∈ names, ¬ (NoError t (parsersOf pm n) ∧ makeAll = false ∧ failMissing = true)) := by
  unfold simplifyTable at h
  split at h
  · rename_i h1
    split at h
    · simp at h
    · rename_i cols hc
      split at h
      · simp at h
      · rename_i cs hcs
        split at h
        · simp at h
        · rename_i rows hrows
          obtain ⟨hr, hcols⟩ := readAll_ok hc
          have h2 : ∀ n ∈ names, n ∈ pm.keys := by
            intro n hn
            obtain ⟨y, hy⟩ := (mapE_ok_or _ _).1 ⟨_, hcs⟩ n hn
            unfold pickColumn Dict.get at hy
            rw [hcols, get?_map_val pm (fun _ ps => (vColumn t ps, eColumn t ps))] at hy
            rw [Dict.mem_keys_iff]
            cases hg : Dict.get? pm n with
            | some _ => rfl
            | none => rw [hg] at hy; simp at hy
          refine ⟨by simpa [List.all_eq_true] using h1, h2, hr, ?_⟩
          intro hne n hn hbad
          rw [hcols, pickColumns_eq h2] at hcs
          simp only [Except.ok.injEq] at hcs
          rw [← hcs] at hrows
          have h0 : 0 < t.data.length := List.length_pos_of_ne_nil hne
          obtain ⟨row, hrow⟩ := (mapE_ok_or _ _).1 ⟨_, hrows⟩ 0 (by simpa using h0)
          unfold simpleRow at hrow
          rw [valCells_eq h0] at hrow
          simp only at hrow
          split at hrow
          · simp at hrow
          · rename_i es hes
            obtain ⟨y, hy⟩ := (mapE_ok_or _ _).1 ⟨_, hes⟩ (readOf t pm n) (List.mem_map_of_mem hn)
            rw [errCell_eq h0, if_pos hbad] at hy
            simp at hy
  · simp at h

open Classical in
/-- C23: a simplified dataset has one row per original row, the requested columns followed by the
uncertainties, a unit and a cell for every label, and each cell is the value (uncertainty) read by the
first parser that gives one. -/
theorem C23_rectangular (t : Table N) (pm : Dict Str (List Pair)) (names : List Str) (makeAll failMissing : Bool) (r : Table N)
    (hne : t.data ≠ []) (h : simplifyTable t pm names makeAll failMissing = .ok r) :
    r.data.length = t.data.length ∧
    r.labels = names ++ ((names.filter fun n => makeAll || decide (¬ NoError t (parsersOf pm n))).map dName) ∧
    r.units.length = r.labels.length ∧
    (∀ row ∈ r.data, row.length = r.labels.length) ∧
    (∀ i < t.data.length, ∀ (j : Nat) n, names[j]? = some n →
      (r.data[i]?.getD [])[j]? = some (colVal t (parsersOf pm n) i)) ∧
    (∀ i < t.data.length, ∀ (j : Nat) n, (names.filter fun n => makeAll || decide (¬ NoError t (parsersOf pm n)))[j]? = some n →
      (r.data[i]?.getD [])[names.length + j]? =
        some (if NoError t (parsersOf pm n) then some PyNum.zero else colErr t (parsersOf pm n) i)) := by
  obtain ⟨h1, h2, h3, h4⟩ := simplify_inv h
  rw [simplify_ok h1 h2 h3 (h4 hne)] at h
  simp only [Except.ok.injEq] at h
  subst h
  have hentries : ∀ (i : Nat) (ns : List Str), ns.flatMap (errEntries t pm makeAll i) =
      (withErr t pm makeAll ns).map fun n => if NoError t (parsersOf pm n) then some PyNum.zero else colErr t (parsersOf pm n) i := by
    intro i ns
    induction ns with
    | nil => rfl
    | cons n ns ih =>
      rw [List.flatMap_cons, ih]
      unfold withErr errEntries
      rw [List.filter_cons]
      by_cases hn : NoError t (parsersOf pm n)
      · cases makeAll <;> simp [hn]
      · cases makeAll <;> simp [hn]
  refine ⟨by simp, rfl, by simp, ?_, ?_, ?_⟩
  · intro row hrow
    simp only [List.mem_map, List.mem_range] at hrow
    obtain ⟨i, hi, rfl⟩ := hrow
    simp [hentries]
  · intro i hi j n hj
    have hjl : j < names.length := (List.getElem?_eq_some_iff.1 hj).1
    simp only [List.getElem?_map, List.getElem?_range hi, Option.map_some, Option.getD_some]
    rw [List.getElem?_append_left (by simpa using hjl)]
    simp [hj]
  · intro i hi j n hj
    simp only [List.getElem?_map, List.getElem?_range hi, Option.map_some, Option.getD_some, hentries]
    rw [List.getElem?_append_right (by simp)]
    simp only [List.length_map, Nat.add_sub_cancel_left, List.getElem?_map]
    have : (withErr t pm makeAll names)[j]? = some n := hj
    rw [this]
    rfl

/-- C23 for datasets without rows: they are never simplified (there is no value). -/
theorem C23_no_rows (t : Table N) (pm : Dict Str (List Pair)) (names : List Str) (makeAll failMissing : Bool) (r : Table N)
    (hpm : pm ≠ []) (h0 : t.data = []) : simplifyTable t pm names makeAll failMissing ≠ .ok r := by
  intro h
  obtain ⟨_, _, h3, _⟩ := simplify_inv h
  obtain ⟨kv, pm', rfl⟩ := List.exists_cons_of_ne_nil hpm
  apply (h3 kv (by simp)).2
  intro i hi
  rw [h0] at hi
  simp at hi

open Classical in
/-- C25: `NoValuesGivenError` is raised iff some requested column has no value in any row. -/
theorem C25_no_values (t : Table N) (pm : Dict Str (List Pair)) (names : List Str) (makeAll failMissing : Bool)
    (hr : ∀ kv ∈ pm, Reads t kv.2) (h1 : ∀ k ∈ pm.keys, k ∈ names) (h2 : ∀ n ∈ names, n ∈ pm.keys) (hnd : pm.keys.Nodup) :
    (∃ c, simplifyTable t pm names makeAll failMissing = .error (.noValuesGivenError c)) ↔
      ∃ n ∈ names, NoValue t (parsersOf pm n) := by
  constructor
  · rintro ⟨c, h⟩
    by_contra hc
    push Not at hc
    have hr' : ∀ kv ∈ pm, Reads t kv.2 ∧ ¬ NoValue t kv.2 := by
      intro kv hkv
      refine ⟨hr kv hkv, ?_⟩
      have hk : kv.1 ∈ pm.keys := List.mem_map_of_mem hkv
      have := hc kv.1 (h1 _ hk)
      rw [parsersOf, Dict.get?_eq_some_of_mem hnd (v := kv.2) hkv] at this
      exact this
    by_cases he : ∀ n ∈ names, ¬ (NoError t (parsersOf pm n) ∧ makeAll = false ∧ failMissing = true)
    · rw [simplify_ok h1 h2 hr' he] at h; simp at h
    · unfold simplifyTable at h
      rw [if_pos (by simpa [List.all_eq_true] using h1)] at h
      have e1 : mapE (readColumns t) pm = .ok (pm.map fun kv => (kv.1, vColumn t kv.2, eColumn t kv.2)) := by
        apply mapE_all_ok
        intro kv hkv
        rw [readColumns_eq (hr' kv hkv).1, if_neg (hr' kv hkv).2]
      rw [e1] at h
      simp only at h
      rw [pickColumns_eq h2] at h
      simp only at h
      split at h
      · rename_i e hx
        simp only [Except.error.injEq] at h
        obtain ⟨i, hi, hrow⟩ := mapE_error hx
        have hi : i < t.data.length := by simpa using hi
        unfold simpleRow at hrow
        rw [valCells_eq hi] at hrow
        simp only at hrow
        split at hrow
        · rename_i e' hx'
          obtain ⟨nc, hnc, hcell⟩ := mapE_error hx'
          obtain ⟨n, hn, rfl⟩ := List.mem_map.1 hnc
          rw [errCell_eq hi] at hcell
          split at hcell
          · simp only [Except.error.injEq] at hcell hrow
            rw [← hrow, ← hcell] at h; simp at h
          · simp at hcell
        · simp at hrow
      · simp at h
  · rintro ⟨n, hn, hv⟩
    unfold simplifyTable
    rw [if_pos (by simpa [List.all_eq_true] using h1)]
    cases hm : mapE (readColumns t) pm with
    | error e =>
      obtain ⟨kv, hkv, hx⟩ := mapE_error hm
      rw [readColumns_eq (hr kv hkv)] at hx
      split at hx
      · simp only [Except.error.injEq] at hx; exact ⟨kv.1, by rw [← hx]⟩
      · simp at hx
    | ok cols =>
      exfalso
      obtain ⟨h3, _⟩ := readAll_ok hm
      have := h2 n hn
      rw [Dict.mem_keys_iff] at this
      obtain ⟨ps, hps⟩ := Option.isSome_iff_exists.1 this
      apply (h3 (n, ps) (Dict.mem_of_get? hps)).2
      rw [parsersOf, hps] at hv
      exact hv

open Classical in
/-- C25: when all values are there, the simplification succeeds unless uncertainties are required
(`failIfMissingErrors` without `makeAllColumns`) and some column has none in any row; then it
raises `NoUncertaintyGivenError`. -/
theorem C25_no_uncertainty (t : Table N) (pm : Dict Str (List Pair)) (names : List Str) (makeAll failMissing : Bool)
    (hr : ∀ kv ∈ pm, Reads t kv.2 ∧ ¬ NoValue t kv.2) (h1 : ∀ k ∈ pm.keys, k ∈ names) (h2 : ∀ n ∈ names, n ∈ pm.keys)
    (hpm : pm ≠ []) :
    ((∃ c ∈ names, NoError t (parsersOf pm c) ∧ simplifyTable t pm names makeAll failMissing = .error (.noUncertaintyGivenError c)) ↔
      makeAll = false ∧ failMissing = true ∧ ∃ n ∈ names, NoError t (parsersOf pm n)) ∧
    ((∃ r, simplifyTable t pm names makeAll failMissing = .ok r) ↔
      ¬ (makeAll = false ∧ failMissing = true ∧ ∃ n ∈ names, NoError t (parsersOf pm n))) := by
  by_cases he : ∀ n ∈ names, ¬ (NoError t (parsersOf pm n) ∧ makeAll = false ∧ failMissing = true)
  · have e := simplify_ok h1 h2 hr he
    rw [e]
    refine ⟨⟨?_, ?_⟩, ⟨?_, ?_⟩⟩
    · rintro ⟨c, _, _, hc⟩; simp at hc
    · rintro ⟨a, b, n, hn, c⟩; exact absurd ⟨c, a, b⟩ (he n hn)
    · rintro _ ⟨a, b, n, hn, c⟩; exact he n hn ⟨c, a, b⟩
    · intro _; exact ⟨_, rfl⟩
  · push Not at he
    obtain ⟨n, hn, h3, h4, h5⟩ := he
    have hne : t.data ≠ [] := by
      obtain ⟨kv, pm', rfl⟩ := List.exists_cons_of_ne_nil hpm
      intro h0
      apply (hr kv (by simp)).2
      intro i hi
      rw [h0] at hi
      simp at hi
    have hnok : ∀ r, simplifyTable t pm names makeAll failMissing ≠ .ok r := by
      intro r h
      exact (simplify_inv h).2.2.2 hne n hn ⟨h3, h4, h5⟩
    refine ⟨⟨?_, ?_⟩, ⟨?_, ?_⟩⟩
    · rintro _; exact ⟨h4, h5, n, hn, h3⟩
    · intro _
      unfold simplifyTable at hnok ⊢
      rw [if_pos (by simpa [List.all_eq_true] using h1)] at hnok ⊢
      have e1 : mapE (readColumns t) pm = .ok (pm.map fun kv => (kv.1, vColumn t kv.2, eColumn t kv.2)) := by
        apply mapE_all_ok
        intro kv hkv
        rw [readColumns_eq (hr kv hkv).1, if_neg (hr kv hkv).2]
      rw [e1] at hnok ⊢
      simp only at hnok ⊢
      rw [pickColumns_eq h2] at hnok ⊢
      simp only at hnok ⊢
      cases hx : mapE (simpleRow makeAll failMissing (names.map (readOf t pm))) (List.range t.data.length) with
      | ok rows => rw [hx] at hnok; exact absurd rfl (hnok _)
      | error e =>
        obtain ⟨i, hi, hrow⟩ := mapE_error hx
        have hi : i < t.data.length := by simpa using hi
        unfold simpleRow at hrow
        rw [valCells_eq hi] at hrow
        simp only at hrow
        split at hrow
        · rename_i e' hx'
          obtain ⟨nc, hnc, hcell⟩ := mapE_error hx'
          obtain ⟨n', hn', rfl⟩ := List.mem_map.1 hnc
          rw [errCell_eq hi] at hcell
          split at hcell
          · rename_i hh
            simp only [Except.error.injEq] at hcell hrow
            exact ⟨n', hn', hh.1, by rw [← hrow, ← hcell]⟩
          · simp at hcell
        · simp at hrow
    · rintro ⟨r, h⟩; exact absurd h (hnok r)
    · intro hc; exact absurd ⟨h4, h5, n, hn, h3⟩ hc

open Classical in
/-- C25: with `makeAllColumns` every column has an uncertainty column, and it is 0.0 in every row
where the dataset gives no uncertainty at all. -/
theorem C25_zeros (t : Table N) (pm : Dict Str (List Pair)) (names : List Str) (failMissing : Bool) (r : Table N)
    (hne : t.data ≠ []) (h : simplifyTable t pm names true failMissing = .ok r) :
    r.labels = names ++ names.map dName ∧
    ∀ i < t.data.length, ∀ (j : Nat) n, names[j]? = some n → NoError t (parsersOf pm n) →
      (r.data[i]?.getD [])[names.length + j]? = some (some PyNum.zero) := by
  obtain ⟨_, h2, _, _, _, h6⟩ := C23_rectangular t pm names true failMissing r hne h
  simp only [Bool.true_or, List.filter_true] at h2 h6
  refine ⟨h2, ?_⟩
  intro i hi j n hn he
  rw [h6 i hi j n hn, if_pos he]

/-! a table with two rows, uncertainties for the data only -/
def simpleTable : Table N :=
  { labels := ["EN".toList, "DATA".toList, "DATA-ERR".toList], units := [some "KEV".toList, some "MB".toList, some "PER-CENT".toList],
    data := [[some PyNum.one, some PyNum.one, some PyNum.one], [some PyNum.one, none, none]] }
def csMap : Dict Str (List Pair) := [("Energy".toList, incidentEnergyParserList), ("Data".toList, csDataParserList)]
def csNames : List Str := ["Energy".toList, "Data".toList]

example : parserMapOf .crossSection = some (csMap, csNames) := rfl
/-- succeeds: three columns; with `makeAllColumns` four -/
example : ∃ r, simplifyTable (simpleTable (N := N)) csMap csNames false false = .ok r ∧
    r.labels = ["Energy".toList, "Data".toList, "d(Data)".toList] ∧
    r.units = [some "MeV".toList, some "barns".toList, some "barns".toList] ∧
    (r.data[1]?.getD [])[1]? = some none := ⟨_, rfl, rfl, rfl, rfl⟩
example : ∃ r, simplifyTable (simpleTable (N := N)) csMap csNames true false = .ok r ∧
    r.labels = ["Energy".toList, "Data".toList, "d(Energy)".toList, "d(Data)".toList] ∧
    (r.data[1]?.getD [])[2]? = some (some PyNum.zero) := ⟨_, rfl, rfl, rfl⟩
/-- no uncertainty of the energy; no values without the DATA column -/
example : simplifyTable (simpleTable (N := N)) csMap csNames false true = .error (.noUncertaintyGivenError "Energy".toList) := rfl
example : simplifyTable { simpleTable (N := N) with labels := ["EN".toList, "X".toList, "Y".toList] } csMap csNames false true =
    .error (.noValuesGivenError "Data".toList) := rfl
/-- the hypotheses of `C25_no_values` hold for it -/
example : ∀ kv ∈ csMap, Reads (simpleTable (N := N)) kv.2 := by
  obtain ⟨r, h⟩ : ∃ r, simplifyTable (simpleTable (N := N)) csMap csNames false false = .ok r := ⟨_, rfl⟩
  exact fun kv hkv => ((simplify_inv h).2.2.1 kv hkv).1

end X4
