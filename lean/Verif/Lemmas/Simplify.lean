import Verif.Spec.Simplify
import Verif.Props.Column
import Verif.Lemmas.Dataset
namespace X4
variable {N : Type} [PyNum N]

theorem find_len {p : ColParser} {t : Table N} {k : Column N} (h : p.find t = .ok k) : k.vals.length = t.data.length := by
  have hd : (dummy t).vals.length = t.data.length := by simp [dummy]
  unfold ColParser.find ColParser.getColumn at h
  split at h
  · simp only [Except.ok.injEq] at h; rw [← h, hd]
  · split at h
    · split at h
      · unfold ColParser.readColumn at h
        simp only at h
        split at h
        · simp at h
        · rename_i vs hvs
          simp only [Except.ok.injEq] at h
          rw [← h]
          exact mapE_length hvs
      · simp only [Except.ok.injEq] at h; rw [← h, hd]
    · simp only [Except.ok.injEq] at h; rw [← h, hd]

theorem dummy_len (t : Table N) : (dummy t).vals.length = t.data.length := by simp [dummy]

theorem sqrtEColumn_error (t : Table N) (c : ColParser) : sqrtEColumn t c = .error .typeError := rfl

theorem getValue_len {t : Table N} {p : Pair} {k : Column N} (h : p.getValue t = .ok k) : k.vals.length = t.data.length := by
  have hd := dummy_len t
  cases p with
  | missing c1 => exact find_len h
  | constPct c1 => exact find_len h
  | indep c1 c2 =>
    simp only [Pair.getValue, Pair.value0] at h
    split at h
    · exact find_len h
    · simp only [Except.ok.injEq] at h; rw [← h, hd]
  | addErr c1 c2 c3 =>
    simp only [Pair.getValue, Pair.value0] at h
    split at h
    · exact find_len h
    · simp only [Except.ok.injEq] at h; rw [← h, hd]
  | highLow c1 c2 =>
    simp only [Pair.getValue, Pair.value0] at h
    split at h
    · split at h
      · simp at h
      · rename_i k1 h1
        split at h
        · simp at h
        · rename_i k2 h2
          simp only [Except.ok.injEq] at h
          rw [← h]
          simp [find_len h1, find_len h2]
    · simp only [Except.ok.injEq] at h; rw [← h, hd]
  | highMidLow c1 c2 c3 =>
    simp only [Pair.getValue, Pair.value0] at h
    split at h
    · split at h
      · simp at h
      · rename_i k1 h1
        split at h
        · simp at h
        · rename_i k2 h2
          split at h
          · simp at h
          · rename_i k3 h3
            simp only [Except.ok.injEq] at h
            rw [← h]
            simp [find_len h1, find_len h2, find_len h3]
    · simp only [Except.ok.injEq] at h; rw [← h, hd]
  | barnsSqrtE c2 c3 =>
    simp only [Pair.getValue] at h
    split at h
    · rw [sqrtEColumn_error] at h; simp at h
    · simp only [Except.ok.injEq] at h; rw [← h, hd]

theorem addErrColumn_len {k1 k2 k3 k : Column N} {n : Nat} (h1 : k1.vals.length = n) (h2 : k2.vals.length = n)
    (h3 : k3.vals.length = n) (h : addErrColumn k1 k2 k3 = .ok k) : k.vals.length = n := by
  unfold addErrColumn at h
  split at h
  · simp at h
  · rename_i vs hvs
    simp only [Except.ok.injEq] at h
    rw [← h]
    simp only
    rw [mapE_length hvs]
    unfold addErrCols
    split <;> simp [h1, h2, h3]

theorem error0_len {t : Table N} {p : Pair} {k : Column N} (h : p.error0 t = .ok k) : k.vals.length = t.data.length := by
  have hd := dummy_len t
  cases p with
  | missing c1 => simp only [Pair.error0, Except.ok.injEq] at h; rw [← h, hd]
  | constPct c1 =>
    simp only [Pair.error0] at h
    split at h
    · simp at h
    · rename_i k1 h1
      simp only [Except.ok.injEq] at h
      rw [← h]; simp [find_len h1]
  | indep c1 c2 =>
    simp only [Pair.error0] at h
    split at h
    · simp at h
    · rename_i k2 h2
      split at h
      · split at h
        · simp at h
        · rename_i k1 h1
          simp only [Except.ok.injEq] at h
          rw [← h]
          unfold indepErr
          split <;> simp [find_len h1, find_len h2]
      · simp only [Except.ok.injEq] at h; rw [← h, find_len h2]
  | highLow c1 c2 =>
    simp only [Pair.error0] at h
    split at h
    · simp at h
    · rename_i k1 h1
      split at h
      · simp at h
      · rename_i k2 h2
        simp only [Except.ok.injEq] at h
        rw [← h]
        simp [find_len h1, find_len h2]
  | highMidLow c1 c2 c3 =>
    simp only [Pair.error0] at h
    split at h
    · simp at h
    · rename_i k1 h1
      split at h
      · simp at h
      · rename_i k2 h2
        split at h
        · simp at h
        · rename_i k3 h3
          simp only [Except.ok.injEq] at h
          rw [← h]
          simp [find_len h1, find_len h2, find_len h3]
  | addErr c1 c2 c3 =>
    simp only [Pair.error0] at h
    split at h
    · simp at h
    · rename_i k2 h2
      split at h
      · simp at h
      · rename_i k3 h3
        split at h
        · split at h
          · simp at h
          · rename_i k1 h1
            exact addErrColumn_len (find_len h1) (find_len h2) (find_len h3) h
        · exact addErrColumn_len hd (find_len h2) (find_len h3) h
  | barnsSqrtE c2 c3 => simp only [Pair.error0, sqrtEColumn_error] at h; simp at h

theorem getError_len {t : Table N} {p : Pair} {k : Column N} (h : p.getError t = .ok k) : k.vals.length = t.data.length := by
  unfold Pair.getError at h
  split at h
  · split at h
    · simp at h
    · rename_i k' hk
      simp only [Except.ok.injEq] at h
      rw [← h]
      simp [absCol, error0_len hk]
  · simp only [Except.ok.injEq] at h; rw [← h, dummy_len]

/-- the condensed columns -/
def vColumn (t : Table N) (ps : List Pair) : Column N :=
  { label := firstSome (ps.map fun p => (valCol t p).label), unit := colUnit t ps, vals := (List.range t.data.length).map (colVal t ps) }
def eColumn (t : Table N) (ps : List Pair) : Column N :=
  { label := firstSome (ps.map fun p => (errCol t p).label), unit := errUnit t ps, vals := (List.range t.data.length).map (colErr t ps) }

theorem reduce_eq {cs : List (Column N)} {n : Nat} (hne : cs ≠ []) (h : ∀ c ∈ cs, c.vals.length = n) :
    reduceE condense cs = .ok (Column.mk (firstSome (cs.map Column.label)) (firstSome (cs.map Column.unit))
      ((List.range n).map fun i => firstSome (cs.map fun k => cell k.vals i))) := by
  obtain ⟨c, h1, h2, h3, h4, h5⟩ := C32_first n cs hne h
  rw [h1]
  congr 1
  cases c with
  | mk l u v =>
    simp only at h2 h3 h4 h5
    simp only [Column.mk.injEq]
    refine ⟨h4, h5, ?_⟩
    apply List.ext_getElem?
    intro i
    by_cases hi : i < n
    · rw [h3 i hi]; simp [hi]
    · rw [List.getElem?_eq_none (by omega), List.getElem?_eq_none (by simp; omega)]

theorem condensed_eq {t : Table N} {ps : List Pair} (h : Reads t ps) : condensed t ps = .ok (vColumn t ps, eColumn t ps) := by
  obtain ⟨hne, hr⟩ := h
  have e1 : mapE (Pair.getValue t) ps = .ok (ps.map (valCol t)) := by
    apply mapE_all_ok
    intro p hp
    obtain ⟨⟨k, hk⟩, _⟩ := hr p hp
    rw [valCol, hk]; rfl
  have e2 : mapE (Pair.getError t) ps = .ok (ps.map (errCol t)) := by
    apply mapE_all_ok
    intro p hp
    obtain ⟨_, k, hk⟩ := hr p hp
    rw [errCol, hk]; rfl
  have l1 : ∀ c ∈ ps.map (valCol t), c.vals.length = t.data.length := by
    intro c hc
    obtain ⟨p, hp, rfl⟩ := List.mem_map.1 hc
    obtain ⟨⟨k, hk⟩, _⟩ := hr p hp
    rw [valCol, hk]; exact getValue_len hk
  have l2 : ∀ c ∈ ps.map (errCol t), c.vals.length = t.data.length := by
    intro c hc
    obtain ⟨p, hp, rfl⟩ := List.mem_map.1 hc
    obtain ⟨_, k, hk⟩ := hr p hp
    rw [errCol, hk]; exact getError_len hk
  unfold condensed
  rw [e1, e2]
  simp only
  rw [reduce_eq (by simpa using hne) l1, reduce_eq (by simpa using hne) l2]
  simp only [vColumn, eColumn, colVal, colErr, colUnit, errUnit, List.map_map, Function.comp_def]
  rfl

theorem reads_of_condensed {t : Table N} {ps : List Pair} {c : Column N × Column N} (h : condensed t ps = .ok c) : Reads t ps := by
  unfold condensed at h
  split at h
  · simp at h
  · rename_i vs hvs
    split at h
    · simp at h
    · rename_i v hv
      split at h
      · simp at h
      · rename_i es hes
        refine ⟨?_, ?_⟩
        · rintro rfl
          simp only [mapE, Except.ok.injEq] at hvs
          rw [← hvs] at hv
          simp [reduceE] at hv
        · intro p hp
          obtain ⟨i, hi, hpi⟩ := List.mem_iff_getElem.1 hp
          obtain ⟨y, _, hy⟩ := mapE_get hvs i p (by rw [List.getElem?_eq_getElem hi, hpi])
          obtain ⟨z, _, hz⟩ := mapE_get hes i p (by rw [List.getElem?_eq_getElem hi, hpi])
          exact ⟨⟨y, hy⟩, z, hz⟩

theorem vColumn_empty {t : Table N} {ps : List Pair} : (vColumn t ps).empty = true ↔ NoValue t ps := by
  simp [Column.empty, vColumn, NoValue, List.all_eq_true]
theorem eColumn_empty {t : Table N} {ps : List Pair} : (eColumn t ps).empty = true ↔ NoError t ps := by
  simp [Column.empty, eColumn, NoError, List.all_eq_true]

/-- parsers for a name -/
def parsersOf (pm : Dict Str (List Pair)) (name : Str) : List Pair := (pm.get? name).getD []

/-- the entry computed for a name -/
def readOf (t : Table N) (pm : Dict Str (List Pair)) (name : Str) : Str × Column N × Column N :=
  (name, vColumn t (parsersOf pm name), eColumn t (parsersOf pm name))

open Classical in
/-- `mapE readColumns` when all lists can be read -/
theorem readColumns_eq {t : Table N} {kv : Str × List Pair} (h : Reads t kv.2) :
    readColumns t kv = if NoValue t kv.2 then .error (.noValuesGivenError kv.1)
      else .ok (kv.1, vColumn t kv.2, eColumn t kv.2) := by
  unfold readColumns
  rw [condensed_eq h]
  simp only
  by_cases hn : NoValue t kv.2
  · rw [if_pos (vColumn_empty.2 hn), if_pos hn]
  · rw [if_neg (fun hc => hn (vColumn_empty.1 hc)), if_neg hn]

theorem get?_map_val {κ α β} [DecidableEq κ] (d : Dict κ α) (f : κ → α → β) (k : κ) :
    Dict.get? (d.map fun kv => (kv.1, f kv.1 kv.2)) k = (Dict.get? d k).map (f k) := by
  induction d with
  | nil => rfl
  | cons x d ih =>
    obtain ⟨k', v⟩ := x
    simp only [List.map_cons, Dict.get?]
    by_cases h : k' = k
    · subst h; simp
    · simp [h, ih]

/-- picking the requested columns -/
theorem pickColumns_eq {t : Table N} {pm : Dict Str (List Pair)} {names : List Str} (h : ∀ n ∈ names, n ∈ pm.keys) :
    mapE (pickColumn (pm.map fun kv => (kv.1, vColumn t kv.2, eColumn t kv.2))) names = .ok (names.map (readOf t pm)) := by
  apply mapE_all_ok
  intro n hn
  have := h n hn
  rw [Dict.mem_keys_iff] at this
  obtain ⟨ps, hps⟩ := Option.isSome_iff_exists.1 this
  have e := get?_map_val pm (fun _ ps => (vColumn t ps, eColumn t ps)) n
  unfold pickColumn Dict.get
  rw [e, hps]
  simp [readOf, parsersOf, hps]

open Classical in
/-- uncertainty entries of a row -/
noncomputable def errEntries (t : Table N) (pm : Dict Str (List Pair)) (makeAll : Bool) (i : Nat) (name : Str) : List (Option N) :=
  if NoError t (parsersOf pm name) then if makeAll then [some PyNum.zero] else [] else [colErr t (parsersOf pm name) i]

open Classical in
theorem errCell_eq {t : Table N} {pm : Dict Str (List Pair)} {makeAll failMissing : Bool} {i : Nat} (hi : i < t.data.length) (name : Str) :
    errCell makeAll failMissing i (readOf t pm name) =
      if NoError t (parsersOf pm name) ∧ makeAll = false ∧ failMissing = true then .error (.noUncertaintyGivenError name)
      else .ok (errEntries t pm makeAll i name) := by
  unfold errCell errEntries readOf
  simp only
  by_cases hn : NoError t (parsersOf pm name)
  · rw [if_pos (eColumn_empty.2 hn), if_pos hn]
    cases makeAll <;> cases failMissing <;> simp [hn]
  · rw [if_neg (fun hc => hn (eColumn_empty.1 hc)), if_neg hn, if_neg (fun hc => hn hc.1)]
    simp [pyIdx, eColumn, hi]

theorem valCells_eq {t : Table N} {pm : Dict Str (List Pair)} {names : List Str} {i : Nat} (hi : i < t.data.length) :
    mapE (fun nc : Str × Column N × Column N => pyIdx nc.2.1.vals i) (names.map (readOf t pm)) =
      .ok (names.map fun n => colVal t (parsersOf pm n) i) := by
  rw [mapE_map]
  apply mapE_all_ok
  intro n _
  simp [readOf, vColumn, pyIdx, hi]

open Classical in
theorem errHead_eq {t : Table N} {pm : Dict Str (List Pair)} {makeAll : Bool} (name : Str) :
    errHead makeAll (readOf t pm name) =
      if NoError t (parsersOf pm name) then if makeAll then [(dName name, colUnit t (parsersOf pm name))] else []
      else [(dName name, errUnit t (parsersOf pm name))] := by
  unfold errHead readOf
  simp only
  by_cases hn : NoError t (parsersOf pm name)
  · rw [if_pos (eColumn_empty.2 hn), if_pos hn]; rfl
  · rw [if_neg (fun hc => hn (eColumn_empty.1 hc)), if_neg hn]; rfl

/-- `mapE` fails iff some element fails -/
theorem mapE_ok_or {ε α β} (f : α → Except ε β) (l : List α) : (∃ r, mapE f l = .ok r) ↔ ∀ x ∈ l, ∃ y, f x = .ok y := by
  constructor
  · rintro ⟨r, h⟩ x hx
    obtain ⟨i, hi, hxi⟩ := List.mem_iff_getElem.1 hx
    obtain ⟨y, _, hy⟩ := mapE_get h i x (by rw [List.getElem?_eq_getElem hi, hxi])
    exact ⟨y, hy⟩
  · intro h
    induction l with
    | nil => exact ⟨[], rfl⟩
    | cons x l ih =>
      obtain ⟨y, hy⟩ := h x (by simp)
      obtain ⟨r, hr⟩ := ih fun x hx => h x (by simp [hx])
      exact ⟨y :: r, by simp [mapE, hy, hr]⟩

end X4
