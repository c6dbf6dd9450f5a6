import Verif.Lemmas.RowWise
import Verif.Props.Simplify
import Verif.Props.Factory
/-! C114: every row of a simplified dataset depends on its own row only. -/
namespace X4
variable {ρ N : Type} [PyNum N]
variable {ls : List Str} {us : List (Option Str)} {D D' : List (List (Option N))} {ps : List Pair}

theorem valCol_of {t : Table N} {p : Pair} {k : Column N} (h : p.getValue t = .ok k) : valCol t p = k := by
  unfold valCol; rw [h]; rfl
theorem errCol_of {t : Table N} {p : Pair} {k : Column N} (h : p.getError t = .ok k) : errCol t p = k := by
  unfold errCol; rw [h]; rfl

theorem cols_same (hr : Reads ⟨ls, us, D⟩ ps) (hr' : Reads ⟨ls, us, D'⟩ ps) {i j : Nat} {row : List (Option N)}
    (hi : D[i]? = some row) (hj : D'[j]? = some row) :
    colVal ⟨ls, us, D⟩ ps i = colVal ⟨ls, us, D'⟩ ps j ∧ colErr ⟨ls, us, D⟩ ps i = colErr ⟨ls, us, D'⟩ ps j ∧
    colUnit ⟨ls, us, D⟩ ps = colUnit ⟨ls, us, D'⟩ ps ∧ errUnit ⟨ls, us, D⟩ ps = errUnit ⟨ls, us, D'⟩ ps := by
  have hv : ∀ p ∈ ps, (valCol ⟨ls, us, D⟩ p).unit = (valCol ⟨ls, us, D'⟩ p).unit ∧
      cell (valCol ⟨ls, us, D⟩ p).vals i = cell (valCol ⟨ls, us, D'⟩ p).vals j := by
    intro p hp
    obtain ⟨k, hk⟩ := (hr.2 p hp).1
    obtain ⟨k', hk'⟩ := (hr'.2 p hp).1
    rw [valCol_of hk, valCol_of hk']
    exact (rowWise_getValue p).same hk hk' hi hj
  have he : ∀ p ∈ ps, (errCol ⟨ls, us, D⟩ p).unit = (errCol ⟨ls, us, D'⟩ p).unit ∧
      cell (errCol ⟨ls, us, D⟩ p).vals i = cell (errCol ⟨ls, us, D'⟩ p).vals j := by
    intro p hp
    obtain ⟨k, hk⟩ := (hr.2 p hp).2
    obtain ⟨k', hk'⟩ := (hr'.2 p hp).2
    rw [errCol_of hk, errCol_of hk']
    exact (rowWise_getError p).same hk hk' hi hj
  refine ⟨?_, ?_, ?_, ?_⟩
  · exact congrArg firstSome (List.map_congr_left fun p hp => (hv p hp).2)
  · exact congrArg firstSome (List.map_congr_left fun p hp => (he p hp).2)
  · exact congrArg firstSome (List.map_congr_left fun p hp => (hv p hp).1)
  · exact congrArg firstSome (List.map_congr_left fun p hp => (he p hp).1)

theorem reads_fewer (hr : Reads ⟨ls, us, D⟩ ps) (hs : ∀ row ∈ D', row ∈ D) (hD' : D' ≠ []) : Reads ⟨ls, us, D'⟩ ps :=
  ⟨hr.1, fun p hp => ⟨(rowWise_getValue p).fewer (hr.2 p hp).1.choose_spec hs hD', (rowWise_getError p).fewer (hr.2 p hp).2.choose_spec hs hD'⟩⟩

theorem dName_inj {a b : Str} (h : dName a = dName b) : a = b := by
  unfold dName at h
  rw [List.append_assoc, List.append_assoc] at h
  exact List.append_cancel_right (List.append_cancel_left h)

theorem nonempty_of_get {α : Type} {l : List α} {i : Nat} {x : α} (h : l[i]? = some x) : l ≠ [] := by rintro rfl; simp at h

/-- the same row in two tables with the same headings -/
theorem simplify_rows {pm : Dict Str (List Pair)} {names : List Str} {makeAll failMissing : Bool} {r r' : Table N}
    (hn : ∀ a ∈ names, ∀ b ∈ names, a ≠ dName b)
    (h : simplifyTable ⟨ls, us, D⟩ pm names makeAll failMissing = .ok r)
    (h' : simplifyTable ⟨ls, us, D'⟩ pm names makeAll failMissing = .ok r') {i j : Nat} {row : List (Option N)}
    (hi : D[i]? = some row) (hj : D'[j]? = some row) {c c' : Nat} {name : Str} (hc : r.labels[c]? = some name)
    (hc' : r'.labels[c']? = some name) :
    ∃ x x', (r.data[i]?.getD [])[c]? = some x ∧ (r'.data[j]?.getD [])[c']? = some x' ∧
      (x = x' ∨ makeAll = true ∧ (x = none ∧ x' = some PyNum.zero ∨ x = some PyNum.zero ∧ x' = none)) := by
  classical
  have hD := nonempty_of_get hi
  have hD' := nonempty_of_get hj
  obtain ⟨_, g2, g3, _⟩ := simplify_inv h
  obtain ⟨_, _, g3', _⟩ := simplify_inv h'
  obtain ⟨_, b2, _, _, b5, b6⟩ := C23_rectangular _ pm names makeAll failMissing r hD h
  obtain ⟨_, d2, _, _, d5, d6⟩ := C23_rectangular _ pm names makeAll failMissing r' hD' h'
  have hil : i < D.length := (List.getElem?_eq_some_iff.1 hi).1
  have hjl : j < D'.length := (List.getElem?_eq_some_iff.1 hj).1
  have rd : ∀ n ∈ names, Reads ⟨ls, us, D⟩ (parsersOf pm n) ∧ Reads ⟨ls, us, D'⟩ (parsersOf pm n) := by
    intro n hm
    have hk := g2 n hm
    rw [Dict.mem_keys_iff] at hk
    unfold parsersOf
    cases hg : pm.get? n with
    | none => rw [hg] at hk; simp at hk
    | some v =>
      have hmem : (n, v) ∈ pm := Dict.mem_of_get? hg
      exact ⟨(g3 _ hmem).1, (g3' _ hmem).1⟩
  rw [b2] at hc
  rw [d2] at hc'
  by_cases h1 : c < names.length
  · rw [List.getElem?_append_left h1] at hc
    have hm : name ∈ names := List.mem_of_getElem? hc
    by_cases h2 : c' < names.length
    · rw [List.getElem?_append_left h2] at hc'
      obtain ⟨e1, _⟩ := cols_same (rd name hm).1 (rd name hm).2 hi hj
      exact ⟨_, _, b5 i hil c name hc, d5 j hjl c' name hc', .inl e1⟩
    · rw [List.getElem?_append_right (by omega), List.getElem?_map, Option.map_eq_some_iff] at hc'
      obtain ⟨m, hm', rfl⟩ := hc'
      exact absurd rfl (hn _ hm m (List.mem_of_mem_filter (List.mem_of_getElem? hm')))
  · rw [List.getElem?_append_right (by omega), List.getElem?_map, Option.map_eq_some_iff] at hc
    obtain ⟨m, hm, rfl⟩ := hc
    have hmn : m ∈ names := List.mem_of_mem_filter (List.mem_of_getElem? hm)
    by_cases h2 : c' < names.length
    · rw [List.getElem?_append_left h2] at hc'
      exact absurd rfl (hn _ (List.mem_of_getElem? hc') m hmn)
    · rw [List.getElem?_append_right (by omega), List.getElem?_map, Option.map_eq_some_iff] at hc'
      obtain ⟨m', hm', he⟩ := hc'
      obtain rfl := dName_inj he
      have e1 := b6 i hil _ _ hm
      have e2 := d6 j hjl _ _ hm'
      rw [show names.length + (c - names.length) = c by omega] at e1
      rw [show names.length + (c' - names.length) = c' by omega] at e2
      obtain ⟨_, e3, _⟩ := cols_same (rd _ hmn).1 (rd _ hmn).2 hi hj
      refine ⟨_, _, e1, e2, ?_⟩
      have f1 := (List.mem_filter.1 (List.mem_of_getElem? hm)).2
      have f2 := (List.mem_filter.1 (List.mem_of_getElem? hm')).2
      by_cases n1 : NoError ⟨ls, us, D⟩ (parsersOf pm m') <;> by_cases n2 : NoError ⟨ls, us, D'⟩ (parsersOf pm m')
      · left; rw [if_pos n1, if_pos n2]
      · rw [if_pos n1, if_neg n2]
        refine .inr ⟨by simpa [n1] using f1, .inr ⟨rfl, ?_⟩⟩
        rw [← e3]
        exact n1 i hil
      · rw [if_neg n1, if_pos n2]
        refine .inr ⟨by simpa [n2] using f2, .inl ⟨?_, rfl⟩⟩
        rw [e3]
        exact n2 j hjl
      · left; rw [if_neg n1, if_neg n2, e3]

/-- the names of the columns of simplified datasets are none of uncertainties -/
theorem names_plain {k : DsKind} {m : Dict Str (List Pair) × List Str} (h : parserMapOf k = some m) : ∀ a ∈ m.2, ∀ b ∈ m.2, a ≠ dName b := by
  cases k <;> first | (simp [parserMapOf] at h; done) | (rw [← Option.some.inj h]; decide)

/-- what `getSimplified` does for the classes with a parser map -/
theorem getSimplified_table {d r : DataSet ρ N} {makeAll failMissing : Bool} {m : Dict Str (List Pair) × List Str}
    (hm : parserMapOf d.kind = some m) (hs : d.simplified = false) :
    d.getSimplified makeAll failMissing = .ok r ↔
      ∃ t, simplifyTable d.table m.1 m.2 makeAll failMissing = .ok t ∧
        r = { d with labels := t.labels, units := t.units, data := t.data, simplified := true } := by
  have e : d.getSimplified makeAll failMissing = match simplifyTable d.table m.1 m.2 makeAll failMissing with
      | .error e => .error e
      | .ok t => .ok { d with labels := t.labels, units := t.units, data := t.data, simplified := true } := by
    unfold DataSet.getSimplified DataSet.simplifyWith
    rw [hs]
    cases hk : d.kind <;> rw [hk] at hm <;> first | (simp [parserMapOf] at hm; done) | (simp only [hm]; rfl)
  rw [e]
  cases simplifyTable d.table m.1 m.2 makeAll failMissing with
  | error e => simp
  | ok t => simp [eq_comm]

/-- C114: for two datasets of the same class with the same headings, and a row that both have: the simplified datasets have the same
values and uncertainties for this row, wherever it stands and whatever the other rows are; but for missing uncertainties, which may
be given as 0 by one and as `None` by the other, if columns are made for all uncertainties. -/
theorem C114_rows_partial (d d' r r' : DataSet ρ N) (makeAll failMissing : Bool) (hk : d.kind = d'.kind) (hp : (parserMapOf d.kind).isSome)
    (hs : d.simplified = false) (hs' : d'.simplified = false) (hl : d.labels = d'.labels) (hu : d.units = d'.units)
    (h : d.getSimplified makeAll failMissing = .ok r) (h' : d'.getSimplified makeAll failMissing = .ok r')
    (i j : Nat) (row : List (Option N)) (hi : d.data[i]? = some row) (hj : d'.data[j]? = some row)
    (c c' : Nat) (name : Str) (hc : r.labels[c]? = some name) (hc' : r'.labels[c']? = some name) :
    ∃ x x', (r.data[i]?.getD [])[c]? = some x ∧ (r'.data[j]?.getD [])[c']? = some x' ∧
      (x = x' ∨ makeAll = true ∧ (x = none ∧ x' = some PyNum.zero ∨ x = some PyNum.zero ∧ x' = none)) := by
  obtain ⟨m, hm⟩ := Option.isSome_iff_exists.1 hp
  obtain ⟨t, ht, rfl⟩ := (getSimplified_table hm hs).1 h
  obtain ⟨t', ht', rfl⟩ := (getSimplified_table (hk ▸ hm) hs').1 h'
  unfold DataSet.table at ht ht'
  rw [← hl, ← hu] at ht'
  exact simplify_rows (names_plain hm) ht ht' hi hj hc hc'

/-- the maps of the classes: every column has parsers, once -/
theorem parserMap_keys {k : DsKind} {m : Dict Str (List Pair) × List Str} (h : parserMapOf k = some m) :
    (∀ a ∈ m.1.keys, a ∈ m.2) ∧ (∀ a ∈ m.2, a ∈ m.1.keys) ∧ m.1.keys.Nodup ∧ m.1 ≠ [] := by
  cases k <;> first | (simp [parserMapOf] at h; done) | (rw [← Option.some.inj h]; decide)

/-- a simplification gives the exception of the columns -/
theorem getSimplified_error {d : DataSet ρ N} {makeAll failMissing : Bool} {m : Dict Str (List Pair) × List Str} {e : PyErr}
    (hm : parserMapOf d.kind = some m) (hs : d.simplified = false) (h : simplifyTable d.table m.1 m.2 makeAll failMissing = .error e) :
    d.getSimplified makeAll failMissing = .error e := by
  unfold DataSet.getSimplified DataSet.simplifyWith
  rw [hs]
  cases hk : d.kind <;> rw [hk] at hm <;> first | (simp [parserMapOf] at hm; done) | (simp only [hm, h]; rfl)

theorem reads_of_mem {t : Table N} {pm : Dict Str (List Pair)} (h : ∀ kv ∈ pm, Reads t kv.2) {n : Str} (hn : n ∈ pm.keys) :
    Reads t (parsersOf pm n) := by
  unfold parsersOf
  rw [Dict.mem_keys_iff] at hn
  cases hg : pm.get? n with
  | none => rw [hg] at hn; simp at hn
  | some v => exact h _ (Dict.mem_of_get? hg)

/-- C114: a dataset with fewer rows (in any order) can be simplified as well, unless no row is left that has a value (or an uncertainty,
if all are required). -/
theorem C114_fewer (d d' r : DataSet ρ N) (makeAll failMissing : Bool) (hk : d.kind = d'.kind) (hp : (parserMapOf d.kind).isSome)
    (hs : d.simplified = false) (hs' : d'.simplified = false) (hl : d.labels = d'.labels) (hu : d.units = d'.units)
    (h : d.getSimplified makeAll failMissing = .ok r) (hrows : ∀ row ∈ d'.data, row ∈ d.data) (hne : d'.data ≠ []) :
    (∃ r', d'.getSimplified makeAll failMissing = .ok r') ∨
    (∃ n, d'.getSimplified makeAll failMissing = .error (.noValuesGivenError n)) ∨
    (makeAll = false ∧ failMissing = true ∧ ∃ n, d'.getSimplified makeAll failMissing = .error (.noUncertaintyGivenError n)) := by
  obtain ⟨m, hm⟩ := Option.isSome_iff_exists.1 hp
  have hm' : parserMapOf d'.kind = some m := hk ▸ hm
  obtain ⟨t, ht, rfl⟩ := (getSimplified_table hm hs).1 h
  obtain ⟨k1, k2, k3, k4⟩ := parserMap_keys hm
  obtain ⟨_, _, g3, _⟩ := simplify_inv ht
  have hr : ∀ kv ∈ m.1, Reads d'.table kv.2 := by
    intro kv hkv
    have := (g3 kv hkv).1
    unfold DataSet.table at this ⊢
    rw [← hl, ← hu]
    exact reads_fewer this hrows hne
  by_cases hv : ∃ n ∈ m.2, NoValue d'.table (parsersOf m.1 n)
  · obtain ⟨c, hc⟩ := (C25_no_values d'.table m.1 m.2 makeAll failMissing hr k1 k2 k3).2 hv
    exact .inr (.inl ⟨c, getSimplified_error hm' hs' hc⟩)
  · have hr' : ∀ kv ∈ m.1, Reads d'.table kv.2 ∧ ¬ NoValue d'.table kv.2 := by
      intro kv hkv
      refine ⟨hr kv hkv, fun hn => hv ⟨kv.1, k1 _ (List.mem_map_of_mem hkv), ?_⟩⟩
      rw [parsersOf, Dict.get?_eq_some_of_mem k3 (v := kv.2) hkv]
      exact hn
    obtain ⟨u1, u2⟩ := C25_no_uncertainty d'.table m.1 m.2 makeAll failMissing hr' k1 k2 k4
    by_cases hu : makeAll = false ∧ failMissing = true ∧ ∃ n ∈ m.2, NoError d'.table (parsersOf m.1 n)
    · obtain ⟨c, _, _, hc⟩ := u1.2 hu
      exact .inr (.inr ⟨hu.1, hu.2.1, c, getSimplified_error hm' hs' hc⟩)
    · obtain ⟨r', hr'⟩ := u2.2 hu
      exact .inl ⟨_, (getSimplified_table hm' hs').2 ⟨r', hr', rfl⟩⟩

/-! ### Appending -/

theorem mapE_joined {ε α β : Type} {f : α → Except ε β} {a b : List α} {x y : List β} (ha : mapE f a = .ok x) (hb : mapE f b = .ok y) :
    mapE f (a ++ b) = .ok (x ++ y) := by
  induction a generalizing x with
  | nil => simp only [mapE, Except.ok.injEq] at ha; subst ha; simpa using hb
  | cons c a ih =>
    simp only [mapE, List.cons_append] at ha ⊢
    cases hc : f c with
    | error e => simp [hc] at ha
    | ok z =>
      cases hm : mapE f a with
      | error e => simp [hc, hm] at ha
      | ok zs =>
        simp only [hc, hm, Except.ok.injEq] at ha
        subst ha
        rw [ih hm]; rfl

theorem rowWise_append {F : Table N → Except PyErr (Column N)} (hF : RowWise ls us F) (hD : D ≠ []) (hD' : D' ≠ []) {c c' : Column N}
    (h : F ⟨ls, us, D⟩ = .ok c) (h' : F ⟨ls, us, D'⟩ = .ok c') : ∃ k, F ⟨ls, us, D ++ D'⟩ = .ok k := by
  obtain ⟨l, u, g, hg⟩ := hF
  obtain ⟨-, -, e⟩ := (hg D c hD).1 h
  obtain ⟨-, -, e'⟩ := (hg D' c' hD').1 h'
  refine ⟨⟨l, u, c.vals ++ c'.vals⟩, (hg _ _ (by simp [hD])).2 ⟨rfl, rfl, ?_⟩⟩
  exact mapE_joined e e'

theorem reads_append (hr : Reads ⟨ls, us, D⟩ ps) (hr' : Reads ⟨ls, us, D'⟩ ps) (hD : D ≠ []) (hD' : D' ≠ []) : Reads ⟨ls, us, D ++ D'⟩ ps :=
  ⟨hr.1, fun p hp => ⟨rowWise_append (rowWise_getValue p) hD hD' (hr.2 p hp).1.choose_spec (hr'.2 p hp).1.choose_spec,
    rowWise_append (rowWise_getError p) hD hD' (hr.2 p hp).2.choose_spec (hr'.2 p hp).2.choose_spec⟩⟩

theorem cols_left (hr : Reads ⟨ls, us, D⟩ ps) (hr' : Reads ⟨ls, us, D ++ D'⟩ ps) {i : Nat} (hi : i < D.length) :
    colVal ⟨ls, us, D ++ D'⟩ ps i = colVal ⟨ls, us, D⟩ ps i ∧ colErr ⟨ls, us, D ++ D'⟩ ps i = colErr ⟨ls, us, D⟩ ps i ∧
    colUnit ⟨ls, us, D ++ D'⟩ ps = colUnit ⟨ls, us, D⟩ ps ∧ errUnit ⟨ls, us, D ++ D'⟩ ps = errUnit ⟨ls, us, D⟩ ps :=
  cols_same hr' hr (i := i) (row := D[i]) (by rw [List.getElem?_append_left hi, List.getElem?_eq_getElem hi]) (List.getElem?_eq_getElem hi)

theorem cols_right (hr : Reads ⟨ls, us, D'⟩ ps) (hr' : Reads ⟨ls, us, D ++ D'⟩ ps) {i : Nat} (hi : i < D'.length) :
    colVal ⟨ls, us, D ++ D'⟩ ps (D.length + i) = colVal ⟨ls, us, D'⟩ ps i ∧ colErr ⟨ls, us, D ++ D'⟩ ps (D.length + i) = colErr ⟨ls, us, D'⟩ ps i ∧
    colUnit ⟨ls, us, D ++ D'⟩ ps = colUnit ⟨ls, us, D'⟩ ps ∧ errUnit ⟨ls, us, D ++ D'⟩ ps = errUnit ⟨ls, us, D'⟩ ps :=
  cols_same hr' hr (row := D'[i]) (by rw [List.getElem?_append_right (by omega), Nat.add_sub_cancel_left, List.getElem?_eq_getElem hi])
    (List.getElem?_eq_getElem hi)

theorem noError_append (hr : Reads ⟨ls, us, D⟩ ps) (hr1 : Reads ⟨ls, us, D'⟩ ps) (hr' : Reads ⟨ls, us, D ++ D'⟩ ps) :
    NoError ⟨ls, us, D ++ D'⟩ ps ↔ NoError ⟨ls, us, D⟩ ps ∧ NoError ⟨ls, us, D'⟩ ps := by
  constructor
  · intro h
    refine ⟨fun i hi => ?_, fun i hi => ?_⟩
    · rw [← (cols_left hr hr' hi).2.1]; exact h i (by simp only [List.length_append] at hi ⊢; omega)
    · rw [← (cols_right hr1 hr' hi).2.1]; exact h _ (by simp only [List.length_append] at hi ⊢; omega)
  · rintro ⟨h1, h2⟩ i hi
    simp only [List.length_append] at hi
    by_cases h : i < D.length
    · rw [(cols_left hr hr' h).2.1]; exact h1 i h
    · have e := (cols_right hr1 hr' (D := D) (i := i - D.length) (by omega)).2.1
      rw [show D.length + (i - D.length) = i by omega] at e
      rw [e]; exact h2 _ (by simp only; omega)

theorem filter_same {α : Type} {p q : α → Bool} : ∀ {l : List α}, l.Nodup → l.filter p = l.filter q → ∀ a ∈ l, p a = q a := by
  intro l _ h a ha
  have : a ∈ l.filter p ↔ a ∈ l.filter q := by rw [h]
  simp only [List.mem_filter, ha, true_and] at this
  cases hp : p a <;> cases hq : q a <;> simp_all

theorem simplify_append {pm : Dict Str (List Pair)} {names : List Str} {failMissing : Bool} {r r' : Table N} (hn : names.Nodup)
    (hD : D ≠ []) (hD' : D' ≠ [])
    (h : simplifyTable ⟨ls, us, D⟩ pm names false failMissing = .ok r)
    (h' : simplifyTable ⟨ls, us, D'⟩ pm names false failMissing = .ok r') (hl : r.labels = r'.labels) :
    r.units = r'.units ∧ simplifyTable ⟨ls, us, D ++ D'⟩ pm names false failMissing = .ok { r with data := r.data ++ r'.data } := by
  classical
  obtain ⟨g1, g2, g3, g4⟩ := simplify_inv h
  obtain ⟨_, _, g3', g4'⟩ := simplify_inv h'
  have e := (simplify_ok g1 g2 g3 (g4 hD)).symm.trans h
  have e' := (simplify_ok g1 g2 g3' (g4' hD')).symm.trans h'
  have e := Except.ok.inj e
  have e' := Except.ok.inj e'
  subst e e'
  simp only at hl ⊢
  have hw := List.map_injective_iff.2 (fun a b => dName_inj) (List.append_cancel_left hl)
  have rd : ∀ n ∈ names, Reads ⟨ls, us, D⟩ (parsersOf pm n) := fun n hm => reads_of_mem (fun kv hkv => (g3 kv hkv).1) (g2 n hm)
  have rd' : ∀ n ∈ names, Reads ⟨ls, us, D'⟩ (parsersOf pm n) := fun n hm => reads_of_mem (fun kv hkv => (g3' kv hkv).1) (g2 n hm)
  have rda : ∀ n ∈ names, Reads ⟨ls, us, D ++ D'⟩ (parsersOf pm n) := fun n hm => reads_append (rd n hm) (rd' n hm) hD hD'
  have hsame : ∀ n ∈ names, NoError ⟨ls, us, D⟩ (parsersOf pm n) ↔ NoError ⟨ls, us, D'⟩ (parsersOf pm n) := by
    intro n hm
    have := filter_same hn hw n hm
    simpa using this
  have hna : ∀ n ∈ names, NoError ⟨ls, us, D ++ D'⟩ (parsersOf pm n) ↔ NoError ⟨ls, us, D⟩ (parsersOf pm n) := by
    intro n hm
    rw [noError_append (rd n hm) (rd' n hm) (rda n hm), ← hsame n hm, and_self]
  have hi0 : 0 < D.length := List.length_pos_of_ne_nil hD
  have hj0 : 0 < D'.length := List.length_pos_of_ne_nil hD'
  have hwa : withErr ⟨ls, us, D ++ D'⟩ pm false names = withErr ⟨ls, us, D⟩ pm false names := by
    apply List.filter_congr
    intro n hm
    simp [hna n hm]
  have hmem : ∀ n ∈ withErr ⟨ls, us, D⟩ pm false names, n ∈ names := fun n hn => List.mem_of_mem_filter hn
  have hval : ∀ kv ∈ pm, Reads ⟨ls, us, D ++ D'⟩ kv.2 ∧ ¬ NoValue ⟨ls, us, D ++ D'⟩ kv.2 := by
    intro kv hkv
    have ra := reads_append (g3 kv hkv).1 (g3' kv hkv).1 hD hD'
    refine ⟨ra, fun hv => (g3 kv hkv).2 fun i hi => ?_⟩
    rw [← (cols_left (g3 kv hkv).1 ra hi).1]
    exact hv i (by simp only [List.length_append] at hi ⊢; omega)
  constructor
  · rw [← hw]
    congr 1
    · apply List.map_congr_left
      intro n hm
      exact ((cols_left (rd n hm) (rda n hm) hi0).2.2.1).symm.trans ((cols_right (rd' n hm) (rda n hm) hj0).2.2.1)
    · apply List.map_congr_left
      intro n hm
      have hm := hmem n hm
      rw [← (cols_left (rd n hm) (rda n hm) hi0).2.2.1, ← (cols_left (rd n hm) (rda n hm) hi0).2.2.2,
        ← (cols_right (rd' n hm) (rda n hm) hj0).2.2.1, ← (cols_right (rd' n hm) (rda n hm) hj0).2.2.2]
      simp only [hsame n hm]
  · rw [simplify_ok g1 g2 hval (fun n hm => by rw [hna n hm]; exact g4 hD n hm)]
    refine congrArg Except.ok ?_
    rw [hwa]
    congr 1
    · congr 1
      · apply List.map_congr_left
        intro n hm
        exact (cols_left (rd n hm) (rda n hm) hi0).2.2.1
      · apply List.map_congr_left
        intro n hm
        have hm := hmem n hm
        rw [(cols_left (rd n hm) (rda n hm) hi0).2.2.1, (cols_left (rd n hm) (rda n hm) hi0).2.2.2]
        simp only [hna n hm]
    · simp only [List.length_append, List.range_add, List.map_append, List.map_map]
      congr 1
      · apply List.map_congr_left
        intro i hi
        rw [List.mem_range] at hi
        congr 1
        · apply List.map_congr_left
          intro n hm
          exact (cols_left (rd n hm) (rda n hm) hi).1
        · rw [List.flatMap_def, List.flatMap_def]
          congr 1
          apply List.map_congr_left
          intro n hm
          unfold errEntries
          simp only [hna n hm, (cols_left (rd n hm) (rda n hm) hi).2.1]
      · apply List.map_congr_left
        intro i hi
        rw [List.mem_range] at hi
        simp only [Function.comp_apply]
        congr 1
        · apply List.map_congr_left
          intro n hm
          exact (cols_right (rd' n hm) (rda n hm) hi).1
        · rw [List.flatMap_def, List.flatMap_def]
          congr 1
          apply List.map_congr_left
          intro n hm
          unfold errEntries
          simp only [hna n hm, hsame n hm, (cols_right (rd' n hm) (rda n hm) hi).2.1]

theorem data_nonempty {t r : Table N} {pm : Dict Str (List Pair)} {names : List Str} {makeAll failMissing : Bool} (hpm : pm ≠ [])
    (h : simplifyTable t pm names makeAll failMissing = .ok r) : t.data ≠ [] := by
  intro h0
  cases pm with
  | nil => exact hpm rfl
  | cons kv pm => exact ((simplify_inv h).2.2.1 kv (by simp)).2 (fun i hi => by rw [h0] at hi; simp at hi)

/-- C114: appending a compatible dataset of the same class and simplifying, or simplifying both and then appending: the result is
the same, if the simplified datasets have the same columns (and no columns are made up for missing uncertainties). -/
theorem C114_append_partial [DecidableEq ρ] (rx : RxOps ρ) (d o r r' : DataSet ρ N) (failMissing : Bool) (hk : d.kind = o.kind)
    (hp : (parserMapOf d.kind).isSome) (hs : d.simplified = false) (hs' : o.simplified = false) (hc : Compatible rx d o)
    (h : d.getSimplified false failMissing = .ok r) (h' : o.getSimplified false failMissing = .ok r') (hl : r.labels = r'.labels) :
    ∃ a x, d.append rx o = .ok a ∧ a.getSimplified false failMissing = .ok x ∧ r.append rx r' = .ok x ∧ x.data = r.data ++ r'.data := by
  obtain ⟨m, hm⟩ := Option.isSome_iff_exists.1 hp
  have hm' : parserMapOf o.kind = some m := hk ▸ hm
  obtain ⟨t, ht, rfl⟩ := (getSimplified_table hm hs).1 h
  obtain ⟨t', ht', rfl⟩ := (getSimplified_table hm' hs').1 h'
  obtain ⟨k1, k2, k3, k4⟩ := parserMap_keys hm
  have hD : d.data ≠ [] := data_nonempty k4 ht
  have hD' : o.data ≠ [] := data_nonempty k4 ht'
  have hN : m.2.Nodup := by
    clear * - hm
    generalize d.kind = k at hm
    cases k <;> first | (simp [parserMapOf] at hm; done) | (rw [← Option.some.inj hm]; decide)
  obtain ⟨c1, c2, c3⟩ := hc
  simp only at hl
  have hb : ¬ Blank d := fun h => hD h.2.2
  have htt' : simplifyTable ⟨d.labels, d.units, o.data⟩ m.1 m.2 false failMissing = .ok t' := by
    rw [c1, c2]; exact ht'
  obtain ⟨hu, ha⟩ := simplify_append hN hD hD' (show simplifyTable ⟨d.labels, d.units, d.data⟩ m.1 m.2 false failMissing = .ok t from ht) htt' hl
  have hne : t.data ≠ [] := by
    have := (C23_rectangular _ _ _ _ _ _ hD ht).1
    intro h0
    rw [h0] at this
    exact hD (List.length_eq_zero_iff.1 this.symm)
  refine ⟨_, _, C36_compatible rx d o hb ⟨c1, c2, c3⟩, (getSimplified_table (d := { d with data := d.data ++ o.data }) hm hs).2 ⟨_, ha, rfl⟩,
    C36_compatible rx _ _ (fun h => hne h.2.2) ⟨hl, hu, c3⟩, rfl⟩

/-! ### A dataset, row by row -/

/-- a cross section with energies, values and uncertainties -/
def rowsSet (rows : List (List (Option N))) : DataSet (Option (List Str) × List (List Str)) N :=
  { kind := .crossSection, info := {}, reaction := some ((some ["SIG".toList], []), []), monitor := none, coupled := false,
    labels := ["EN".toList, "DATA".toList, "DATA-ERR".toList], units := [some "KEV".toList, some "MB".toList, some "PER-CENT".toList],
    data := rows }
/-- with and without uncertainty -/
def rowA : List (Option N) := [some PyNum.one, some PyNum.one, some PyNum.one]
def rowB : List (Option N) := [some PyNum.one, some PyNum.one, none]

/-- C114: with `makeAllColumns`, an uncertainty that is missing in a row is `None` if another row has one, and 0 if no row has one:
the simplified row is not a function of the row. -/
theorem C114_rows_refuted : ∃ (d d' r r' : DataSet (Option (List Str) × List (List Str)) N), d.kind = d'.kind ∧ d.labels = d'.labels ∧
    d.units = d'.units ∧ d.getSimplified true false = .ok r ∧ d'.getSimplified true false = .ok r' ∧ d.data[0]? = d'.data[0]? ∧
    r.labels = r'.labels ∧ (r.data[0]?.getD [])[3]? = some (some PyNum.zero) ∧ (r'.data[0]?.getD [])[3]? = some none :=
  ⟨rowsSet [rowB], rowsSet [rowB, rowA], _, _, rfl, rfl, rfl, rfl, rfl, rfl, rfl, rfl, rfl⟩

/-- C114: and without it, the uncertainty column is there for the one and not for the other -/
theorem C114_append_refuted : ∃ (d d' r r' x : DataSet (Option (List Str) × List (List Str)) N), Compatible demoRx d d' ∧ d.kind = d'.kind ∧
    d.getSimplified false false = .ok r ∧ d'.getSimplified false false = .ok r' ∧ r.append demoRx r' = .ok x ∧ x = r ∧ r'.data ≠ [] ∧
    ∃ a y, d.append demoRx d' = .ok a ∧ a.getSimplified false false = .ok y ∧ y.data.length = r.data.length + r'.data.length := by
  refine ⟨rowsSet [rowB], rowsSet [rowA], _, _, _, ⟨rfl, rfl, _, _, _, rfl, rfl, rfl, rfl⟩, rfl, rfl, rfl, rfl, rfl, List.cons_ne_nil _ _, _, _, rfl, rfl, rfl⟩

/-- the hypotheses of `C114_rows_partial`: the same row at another place, with other rows around it -/
example : ∃ (r r' : DataSet (Option (List Str) × List (List Str)) N), (rowsSet (N := N) [rowA, rowB]).getSimplified false false = .ok r ∧
    (rowsSet (N := N) [rowB, rowB, rowA]).getSimplified false false = .ok r' ∧ r.labels[2]? = some "d(Data)".toList ∧
    r'.labels[2]? = some "d(Data)".toList ∧ (rowsSet (N := N) [rowA, rowB]).data[0]? = some rowA ∧
    (rowsSet (N := N) [rowB, rowB, rowA]).data[2]? = some rowA ∧ (parserMapOf .crossSection).isSome :=
  ⟨_, _, rfl, rfl, rfl, rfl, rfl, rfl, rfl⟩
/-- fewer rows: each of the cases -/
example : (∃ r, (rowsSet (N := N) [rowA, rowB]).getSimplified false false = .ok r) ∧
    (∃ r, (rowsSet (N := N) [rowB]).getSimplified false false = .ok r) := ⟨⟨_, rfl⟩, ⟨_, rfl⟩⟩
example : (∃ r, (rowsSet (N := N) [rowA, [some PyNum.one, none, none]]).getSimplified false false = .ok r) ∧
    (rowsSet (N := N) [[some PyNum.one, none, none]]).getSimplified false false = .error (.noValuesGivenError "Data".toList) :=
  ⟨⟨_, rfl⟩, rfl⟩
/-- the hypotheses of `C114_append_partial` -/
example : Compatible demoRx (rowsSet (N := N) [rowA]) (rowsSet [rowB, rowA]) ∧
    ∃ r r', (rowsSet (N := N) [rowA]).getSimplified false false = .ok r ∧ (rowsSet (N := N) [rowB, rowA]).getSimplified false false = .ok r' ∧
      r.labels = r'.labels := ⟨⟨rfl, rfl, _, _, _, rfl, rfl, rfl, rfl⟩, _, _, rfl, rfl, rfl⟩

end X4
