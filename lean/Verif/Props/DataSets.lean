import Verif.Lemmas.DataSets
import Verif.Props.Factory
/-! Properties of `getDataSets` (C17) and `getSimplifiedDataSets` (C18). -/
namespace X4
variable {ρ N : Type} [PyNum N]

theorem dsStep_nodup {rx : RxOps ρ} {acc : Str} {sub : Option Str} {ms : List (Option (DsMeta ρ))}
    {common : List (Option (Nat × DataSection))} {data : DataSection} {from_ : SubInfo ρ} (st : DsState ρ N)
    (pr : Char × (ρ × Str)) (st' : DsState ρ N) (hn : st.datasets.keys.Nodup)
    (h : dsStep rx acc sub ms common data from_ st pr = .ok st') : st'.datasets.keys.Nodup := by
  obtain ⟨-, ⟨d, -, h, -⟩ | ⟨e, -, -, -, h⟩⟩ := dsStep_eq rx acc sub ms common data from_ st st' pr h
  · rw [h]; exact Dict.nodup_keys_set hn _ _
  · rw [h]; exact hn

theorem getDataSets_nodup {rx : RxOps ρ} {e : Entry ρ} {errs : Dict DsKey PyErr} {st : DsState ρ N}
    (h : e.getDataSets rx errs = .ok st) : st.datasets.keys.Nodup := by
  unfold Entry.getDataSets at h
  split at h
  · simp at h
  · simp at h; subst h; simp [Dict.keys]
  · split at h
    · simp at h
    · split at h
      · simp at h
      · refine foldE_inv (I := fun st : DsState ρ N => st.datasets.keys.Nodup) ?_ (by simp [Dict.keys]) h
        intro st key st' hn hs
        unfold subStep at hs
        split at hs
        · simp at hs; subst hs; exact hn
        · split at hs
          · simp at hs; subst hs; exact hn
          · split at hs
            · simp at hs
            · split at hs
              · simp at hs
              · rename_i st1 h1
                refine foldE_inv dsStep_nodup ?_ hs
                refine foldE_inv (I := fun st : DsState ρ N => st.datasets.keys.Nodup) dsStep_nodup ?_ h1
                exact hn

/-! ### C17 -/

/-- C17: for an entry read from text, the dataset stored under (entry, subentry, pointer) is built
from the subentry's own reaction with that pointer when there is one and it can be built, otherwise
from the one in the first subentry, and there is no other. No key occurs twice. -/
theorem C17_values (P : FieldParsers ρ) (raw : List Str) (rx : RxOps ρ) (e : Entry ρ) (he : Entry.build P raw = .ok e)
    (errs : Dict DsKey PyErr) (st : DsState ρ N) (hdel : e.deleted = .ok false) (h : e.getDataSets rx errs = .ok st) :
    st.datasets.keys.Nodup ∧
    ∃ s main, e.subs.get? (some (e.accnum ++ "001".toList)) = some s ∧ s.info (e.accnum ++ "001".toList) = .ok main ∧
      ∀ a k p, st.datasets.get? (a, k, p) =
        if a = e.accnum then
          match e.dataOf k with
          | none => none
          | some di => (okPart (ownAttempt rx e main.1 k di p)).or (okPart (mainAttempt rx e main.1 k di p))
        else none := by
  refine ⟨getDataSets_nodup h, ?_⟩
  obtain ⟨s, main, h1, h2, h3, h4⟩ := getDataSets_eq rx e (Entry.build_sound he) errs st hdel h
  exact ⟨s, main, h1, h2, fun a k p => h3 (a, k, p)⟩

/-- C17 (partial: for a pointer that is not both in the first and in another subentry; errors
recorded by this call only): there is a dataset for a subentry and a pointer iff the subentry has a
DATA section, the pointer occurs in a REACTION field of the first or this subentry, and no error
was recorded. -/
theorem C17_exact_partial (P : FieldParsers ρ) (raw : List Str) (rx : RxOps ρ) (e : Entry ρ) (he : Entry.build P raw = .ok e)
    (st : DsState ρ N) (hdel : e.deleted = .ok false) (h : e.getDataSets rx [] = .ok st) :
    ∃ s main, e.subs.get? (some (e.accnum ++ "001".toList)) = some s ∧ s.info (e.accnum ++ "001".toList) = .ok main ∧
      ∀ a k p, (∀ di, e.dataOf k = some di → ¬ (p ∈ main.1.reactions.keys ∧ p ∈ di.2.reactions.keys)) →
        ((a, k, p) ∈ st.datasets.keys ↔ a = e.accnum ∧ (∃ di, e.dataOf k = some di ∧
          (p ∈ main.1.reactions.keys ∨ p ∈ di.2.reactions.keys)) ∧ (a, k, p) ∉ st.errors.keys) := by
  obtain ⟨s, main, h1, h2, h3, h4⟩ := getDataSets_eq rx e (Entry.build_sound he) [] st hdel h
  refine ⟨s, main, h1, h2, fun a k p hx => ?_⟩
  rw [Dict.mem_keys_iff, Dict.mem_keys_iff (d := st.errors), h3, h4]
  simp only [goodOf, badOf]
  by_cases ha : a = e.accnum
  · simp only [ha, if_true, true_and, Dict.get?, Option.or_none]
    cases hd : e.dataOf k with
    | none => simp
    | some di =>
      have hx := hx di hd
      simp only [Option.some.injEq, exists_eq_left', Dict.mem_keys_iff] at hx ⊢
      simp only [ownAttempt, mainAttempt, attempt]
      cases ho : di.2.reactions.get? p with
      | none =>
        cases hm : main.1.reactions.get? p with
        | none => simp [okPart, errPart]
        | some r =>
          simp only [Option.map_none, Option.map_some, okPart, errPart, Option.none_or, Option.isSome_some, Option.isSome_none,
            true_or, true_and]
          generalize dataSetFactory (N := N) rx _ _ r _ _ _ = f
          cases f <;> simp [okPart, errPart]
      | some r =>
        cases hm : main.1.reactions.get? p with
        | some r' => simp [ho, hm] at hx
        | none =>
          simp only [Option.map_none, Option.map_some, okPart, errPart, Option.or_none, Option.isSome_some, Option.isSome_none,
            or_true, true_and]
          generalize dataSetFactory (N := N) rx _ _ r _ _ _ = f
          cases f <;> simp [okPart, errPart]
  · simp [ha]

/-- C17: a subentry's own reaction replaces that of the first subentry, if a dataset can be built
from it. -/
theorem C17_own_reaction (P : FieldParsers ρ) (raw : List Str) (rx : RxOps ρ) (e : Entry ρ) (he : Entry.build P raw = .ok e)
    (errs : Dict DsKey PyErr) (st : DsState ρ N) (hdel : e.deleted = .ok false) (h : e.getDataSets rx errs = .ok st)
    (k : Option Str) (di : DataSection × SubInfo ρ) (hk : e.dataOf k = some di) (p : Char) (r : ρ × Str)
    (hr : di.2.reactions.get? p = some r) (herr : (e.accnum, k, p) ∉ st.errors.keys) :
    ∃ d, st.datasets.get? (e.accnum, k, p) = some d ∧ d.reaction = some r ∧ d.monitor = di.2.monitors.get? p := by
  obtain ⟨s, main, h1, h2, h3, h4⟩ := getDataSets_eq rx e (Entry.build_sound he) errs st hdel h
  have h3 := h3 (e.accnum, k, p)
  have h4 := h4 (e.accnum, k, p)
  rw [← Dict.get?_eq_none_iff, h4] at herr
  simp only [goodOf, badOf, hk, if_true, ownAttempt, mainAttempt, attempt, hr, Option.map_some] at h3 herr
  rw [h3]
  cases hf : dataSetFactory (N := N) rx [main.1.info, di.2.info] (commonList e.mainKey k main.1.common di.2.common) r
      (di.2.monitors.get? p) di.1 (some p) with
  | error x => rw [hf] at herr; simp [errPart] at herr
  | ok d =>
    obtain ⟨q, -, -, -, hr, hmon, -⟩ := C35_factory rx _ _ _ _ _ _ _ hf
    exact ⟨d, by simp [okPart], hr, hmon⟩

/-- C17: the datasets of deleted entries are not returned. -/
theorem C17_deleted (rx : RxOps ρ) (e : Entry ρ) (errs : Dict DsKey PyErr) (hdel : e.deleted = .ok true) :
    ∃ st : DsState ρ N, e.getDataSets rx errs = .ok st ∧ st.datasets = [] := by
  refine ⟨_, by unfold Entry.getDataSets; rw [hdel], rfl⟩

/-- a grammar that knows three texts -/
def demoP : FieldParsers (Option (List Str) × List (List Str)) :=
  ⟨fun t => if t = "CS".toList then .ok ((some ["SIG".toList], []), [])
    else if t = "DA".toList then .ok ((some ["DA".toList], []), [])
    else if t = "MIXED".toList then .ok ((none, [["SIG".toList], ["DA".toList]]), [])
    else .error .parseException,
   fun _ _ => .error .parseException, fun _ _ => [], fun _ => .error .parseException, fun _ => .error .parseException⟩

def mainText (rx : List Char) : Str :=
  "SUBENT        10001001   19991231\nBIB                  1          1\nREACTION   ".toList ++ rx ++
  "\nENDBIB               1\nENDSUBENT            3".toList
def subText (rx : List Char) : Str :=
  "SUBENT        10001002   19991231\nBIB                  1          1\nREACTION   ".toList ++ rx ++
  "\nENDBIB               1\nDATA                 2          1\nEN         DATA\nMEV        B\n 1.5        2.5\nENDDATA              1\nENDSUBENT            3".toList

/-- the entry with these texts in the REACTION fields of its two subentries -/
def demoEntry (rx1 rx2 : List Char) : Except PyErr (Entry (Option (List Str) × List (List Str))) :=
  Entry.build demoP [mainText rx1, subText rx2]

set_option maxRecDepth 20000 in
/-- a dataset from the first subentry's reaction is replaced, and errors are recorded -/
example : ∃ e, ∃ st : DsState _ N, demoEntry "CS".toList "DA".toList = .ok e ∧ e.deleted = .ok false ∧ e.getDataSets demoRx [] = .ok st ∧
    st.datasets.keys = [("10001".toList, some "10001002".toList, ' ')] ∧ st.datasets.values.map DataSet.kind = [.angular] ∧
    st.errors.keys = [] :=
  ⟨_, _, rfl, rfl, rfl, rfl, rfl, rfl⟩

set_option maxRecDepth 20000 in
/-- C17 is false of the code: when no dataset can be built for the subentry's own reaction, an error
is recorded, but the dataset for the reaction in the first subentry is returned under the same key. -/
theorem C17_refuted : ∃ e, ∃ st : DsState _ N, demoEntry "CS".toList "MIXED".toList = .ok e ∧ e.deleted = .ok false ∧
    e.getDataSets demoRx [] = .ok st ∧
    st.errors.get? ("10001".toList, some "10001002".toList, ' ') = some .notImplementedError ∧
    ∃ d, st.datasets.get? ("10001".toList, some "10001002".toList, ' ') = some d ∧ d.kind = .crossSection :=
  ⟨_, _, rfl, rfl, rfl, rfl, _, rfl, rfl⟩

/-! ### C18 -/

/-- the exceptions that `getSimplifiedDataSets` handles -/
def Handled (x : PyErr) : Prop :=
  x = .notImplementedError ∨ (∃ c, x = .noValuesGivenError c) ∨ (∃ c, x = .noUncertaintyGivenError c) ∨
  (∃ s, x = .brokenNumberError s) ∨ x = .typeError ∨ x = .indexError

theorem simplifyHandled_iff (x : PyErr) : simplifyHandled x = true ↔ Handled x := by
  unfold Handled
  cases x <;> simp [simplifyHandled]

theorem foldE_simplify (makeAll : Bool) (l : Dict DsKey (DataSet ρ N)) (hn : l.keys.Nodup) (st : DsState ρ N)
    (hk : ∀ k ∈ l.keys, k ∈ st.datasets.keys) :
    (∀ st', foldE (simplifyStep makeAll) st l = .ok st' →
      st'.datasets.keys = st.datasets.keys ∧ st'.entry = st.entry ∧
      (∀ k d, l.get? k = some d →
        (∃ d', d.getSimplified makeAll false = .ok d' ∧ st'.datasets.get? k = some d' ∧ st'.errors.get? k = st.errors.get? k) ∨
        (∃ x, d.getSimplified makeAll false = .error x ∧ Handled x ∧ st'.datasets.get? k = st.datasets.get? k ∧
          st'.errors.get? k = some x)) ∧
      (∀ k, k ∉ l.keys → st'.datasets.get? k = st.datasets.get? k ∧ st'.errors.get? k = st.errors.get? k)) ∧
    (∀ x, foldE (simplifyStep makeAll) st l = .error x → ¬ Handled x ∧ ∃ kd ∈ l, kd.2.getSimplified makeAll false = .error x) := by
  induction l generalizing st with
  | nil =>
    refine ⟨?_, by simp [foldE]⟩
    intro st' h
    simp only [foldE, Except.ok.injEq] at h
    subst h
    simp [Dict.get?]
  | cons kd l ih =>
    simp only [Dict.keys, List.map_cons, List.nodup_cons] at hn
    have hnone : Dict.get? l kd.1 = none := Dict.get?_eq_none_iff.2 hn.1
    have hkd : kd.1 ∈ st.datasets.keys := hk kd.1 (by simp [Dict.keys])
    have hl : ∀ k ∈ Dict.keys l, k ∈ st.datasets.keys := fun k h => hk k (by
      simp only [Dict.keys, List.map_cons, List.mem_cons]; exact .inr h)
    simp only [foldE]
    cases hs : kd.2.getSimplified makeAll false with
    | ok d =>
      have h1 : simplifyStep makeAll st kd = .ok { st with datasets := st.datasets.set kd.1 d } := by
        unfold simplifyStep; rw [hs]
      rw [h1]
      have hkeys : (st.datasets.set kd.1 d).keys = st.datasets.keys := by rw [Dict.keys_set, if_pos hkd]
      obtain ⟨i1, i2⟩ := ih hn.2 { st with datasets := st.datasets.set kd.1 d } (by rw [hkeys]; exact hl)
      refine ⟨fun st' h => ?_, fun x h => ?_⟩
      · obtain ⟨j1, j2, j3, j4⟩ := i1 st' h
        refine ⟨j1.trans hkeys, j2, fun k d' hd' => ?_, fun k hk' => ?_⟩
        · simp only [Dict.get?] at hd'
          by_cases e : kd.1 = k
          · rw [if_pos e] at hd'
            simp only [Option.some.injEq] at hd'
            subst hd'
            rw [← e]
            obtain ⟨m1, m2⟩ := j4 kd.1 hn.1
            exact .inl ⟨d, hs, by rw [m1]; exact Dict.get?_set_self _ _ _, m2⟩
          · rw [if_neg e] at hd'
            rcases j3 k d' hd' with h | ⟨x, a, b, c, f⟩
            · exact .inl h
            · exact .inr ⟨x, a, b, by rw [c]; exact Dict.get?_set_ne _ _ (fun h => e h.symm), f⟩
        · simp only [Dict.keys, List.map_cons, List.mem_cons, not_or] at hk'
          obtain ⟨m1, m2⟩ := j4 k hk'.2
          exact ⟨by rw [m1]; exact Dict.get?_set_ne _ _ hk'.1, m2⟩
      · obtain ⟨a, kd', b, c⟩ := i2 x h
        exact ⟨a, kd', by simp [b], c⟩
    | error x =>
      by_cases hx : simplifyHandled x = true
      · have h1 : simplifyStep makeAll st kd = .ok { st with errors := st.errors.set kd.1 x } := by
          unfold simplifyStep; rw [hs]; simp only; rw [if_pos hx]
        rw [h1]
        obtain ⟨i1, i2⟩ := ih hn.2 { st with errors := st.errors.set kd.1 x } hl
        refine ⟨fun st' h => ?_, fun x h => ?_⟩
        · obtain ⟨j1, j2, j3, j4⟩ := i1 st' h
          refine ⟨j1, j2, fun k d' hd' => ?_, fun k hk' => ?_⟩
          · simp only [Dict.get?] at hd'
            by_cases e : kd.1 = k
            · rw [if_pos e] at hd'
              simp only [Option.some.injEq] at hd'
              subst hd'
              rw [← e]
              obtain ⟨m1, m2⟩ := j4 kd.1 hn.1
              exact .inr ⟨x, hs, (simplifyHandled_iff x).1 hx, m1, by rw [m2]; exact Dict.get?_set_self _ _ _⟩
            · rw [if_neg e] at hd'
              rcases j3 k d' hd' with ⟨d, a, b, c⟩ | h
              · exact .inl ⟨d, a, b, by rw [c]; exact Dict.get?_set_ne _ _ (fun h => e h.symm)⟩
              · exact .inr h
          · simp only [Dict.keys, List.map_cons, List.mem_cons, not_or] at hk'
            obtain ⟨m1, m2⟩ := j4 k hk'.2
            exact ⟨m1, by rw [m2]; exact Dict.get?_set_ne _ _ hk'.1⟩
        · obtain ⟨a, kd', b, c⟩ := i2 x h
          exact ⟨a, kd', by simp [b], c⟩
      · have h1 : simplifyStep makeAll st kd = .error x := by
          unfold simplifyStep; rw [hs]; simp only; rw [if_neg hx]
        rw [h1]
        refine ⟨by simp, fun y h => ?_⟩
        simp only [Except.error.injEq] at h
        subst h
        exact ⟨fun h => hx ((simplifyHandled_iff x).2 h), kd, by simp, hs⟩

/-- C18: whenever `getSimplifiedDataSets` returns, its keys are those of `getDataSets`, and each
value is the simplified dataset or, when a handled exception was raised, the original one with the
exception recorded under its key. -/
theorem C18_same_keys (rx : RxOps ρ) (e : Entry ρ) (errs : Dict DsKey PyErr) (makeAll : Bool) (st st' : DsState ρ N)
    (h : e.getDataSets rx errs = .ok st) (h' : e.getSimplifiedDataSets rx errs makeAll = .ok st') :
    st'.datasets.keys = st.datasets.keys ∧
    ∀ k d, st.datasets.get? k = some d →
      (∃ d', d.getSimplified makeAll false = .ok d' ∧ st'.datasets.get? k = some d' ∧ st'.errors.get? k = st.errors.get? k) ∨
      (∃ x, d.getSimplified makeAll false = .error x ∧ Handled x ∧ st'.datasets.get? k = some d ∧ st'.errors.get? k = some x) := by
  unfold Entry.getSimplifiedDataSets at h'
  rw [h] at h'
  obtain ⟨a, b, c, d⟩ := (foldE_simplify makeAll st.datasets (getDataSets_nodup h) st (fun k h => h)).1 st' h'
  refine ⟨a, fun k d hd => ?_⟩
  rcases c k d hd with h | ⟨x, e1, e2, e3, e4⟩
  · exact .inl h
  · exact .inr ⟨x, e1, e2, by rw [e3, hd], e4⟩

/-- C18: a handled exception never escapes from the simplification; what escapes was raised by one
of the datasets. -/
theorem C18_escape (rx : RxOps ρ) (e : Entry ρ) (errs : Dict DsKey PyErr) (makeAll : Bool) (st : DsState ρ N)
    (h : e.getDataSets rx errs = .ok st) (x : PyErr) (h' : e.getSimplifiedDataSets (N := N) rx errs makeAll = .error x) :
    ¬ Handled x ∧ ∃ k d, st.datasets.get? k = some d ∧ d.getSimplified makeAll false = .error x := by
  unfold Entry.getSimplifiedDataSets at h'
  rw [h] at h'
  obtain ⟨a, kd, b, c⟩ := (foldE_simplify makeAll st.datasets (getDataSets_nodup h) st (fun k h => h)).2 x h'
  exact ⟨a, kd.1, kd.2, Dict.get?_eq_some_of_mem (getDataSets_nodup h) b, c⟩

set_option maxRecDepth 20000 in
example : ∃ e, ∃ st : DsState _ N, demoEntry "CS".toList "MIXED".toList = .ok e ∧ e.getSimplifiedDataSets demoRx [] true = .ok st ∧
    st.datasets.values.map DataSet.labels = [["Energy".toList, "Data".toList, "d(Energy)".toList, "d(Data)".toList]] :=
  ⟨_, _, rfl, rfl, rfl⟩

/-- a subentry with cosines and their uncertainties in per cent -/
def cosText : Str :=
  "SUBENT        10001002   19991231\nDATA                 4          1\nEN         COS        COS-ERR    DATA\nMEV        NO-DIM     PER-CENT   B/SR\n 1.5        0.5        2.         2.5\nENDDATA              1\nENDSUBENT            3".toList

/-- its dataset -/
noncomputable def cosDataSet (i : DsMeta (Option (List Str) × List (List Str))) : DataSet (Option (List Str) × List (List Str)) ℝ :=
  { kind := .angular, info := i, reaction := some ((some ["DA".toList], []), []), monitor := none, coupled := false,
    labels := ["EN".toList, "COS".toList, "COS-ERR".toList, "DATA".toList],
    units := [some "MEV".toList, some "NO-DIM".toList, some "PER-CENT".toList, some "B/SR".toList],
    data := [[some (litReal (.fin false 15 (-1))), some (litReal (.fin false 5 (-1))), some (litReal (.fin false 2 0)), some (litReal (.fin false 25 (-1)))]],
    frame := some "Lab".toList }

theorem cosDataSet_error (i : DsMeta (Option (List Str) × List (List Str))) : (cosDataSet i).getSimplified false false = .error .valueError := by
  have h1 : Finds (N := ℝ) ⟨labelsOf baseAngleKeys (variableSuffix ++ frameSuffix), angUnits ++ noUnits, .dec 1 0, true⟩
    (cosDataSet i).table 1 "COS".toList "NO-DIM".toList := finds_of rfl rfl rfl
  have h2 : Finds (N := ℝ) ⟨labelsOf baseAngleKeys (errorSuffix ++ resolutionHWSuffix), angUnits ++ noUnits ++ percentUnits, .dec 1 0, true⟩
    (cosDataSet i).table 2 "COS-ERR".toList "PER-CENT".toList := finds_of rfl rfl rfl
  have hrect : (cosDataSet i).table.Rect := by
    refine ⟨rfl, ?_⟩
    simp [cosDataSet, DataSet.table]
  have hv := find_cos hrect h1 (by decide) (by
    intro row hrow x hx
    simp [cosDataSet, DataSet.table] at hrow
    subst hrow
    simp [cell] at hx
    subst hx
    simp [litReal, Factor.val, RealNum.dec_eq]
    norm_num)
  have hm : (Pair.indep ⟨labelsOf baseAngleKeys (variableSuffix ++ frameSuffix), angUnits ++ noUnits, .dec 1 0, true⟩
      ⟨labelsOf baseAngleKeys (errorSuffix ++ resolutionHWSuffix), angUnits ++ noUnits ++ percentUnits, .dec 1 0, true⟩).isMatch
      (cosDataSet i).table = true := by
    simp only [Pair.isMatch, firstMatch_some h1, firstMatch_some h2, Option.isSome_some, Bool.and_self]
  have hac : (PyNum.acos (PyNum.add (PyNum.mul (litReal (.fin false 2 0)) (Factor.val (.dec 1 0))) PyNum.zero) : Except PyErr ℝ) = .error .valueError := by
    simp only [RealNum.add_eq, RealNum.mul_eq, RealNum.zero_eq, Factor.val, RealNum.dec_eq]
    show (if _ then _ else _) = _
    rw [if_pos (by norm_num [litReal])]
  have herr : (Pair.indep ⟨labelsOf baseAngleKeys (variableSuffix ++ frameSuffix), angUnits ++ noUnits, .dec 1 0, true⟩
      ⟨labelsOf baseAngleKeys (errorSuffix ++ resolutionHWSuffix), angUnits ++ noUnits ++ percentUnits, .dec 1 0, true⟩).getError
      (cosDataSet i).table = .error .valueError := by
    simp only [Pair.getError, if_pos hm, Pair.error0, ColParser.find, firstMatch_some h2, ColParser.getColumn, h2.label, h2.unit]
    rw [if_pos (isMatch_iff.2 ⟨_, _, h2.label, h2.unit, h2.accLabel, h2.accUnit⟩)]
    simp only [ColParser.readColumn]
    have hcos : (true && hasSub "COS".toList "COS-ERR".toList) = true := by decide
    rw [hcos]
    simp only [cosDataSet, DataSet.table, mapE, convCell, cellAt, pyIdx, List.getElem?_cons_succ, List.getElem?_cons_zero, if_true, acosVal]
    rw [hac]
  have hen : ∃ c, readColumns (cosDataSet i).table ("Energy".toList, incidentEnergyParserList) = .ok c := by
    refine ⟨_, rfl⟩
  obtain ⟨en, hen⟩ := hen
  have hang : condensed (cosDataSet i).table angleParserList = .error .valueError := by
    have h0 : mapE (Pair.getError (cosDataSet i).table) angleParserList = .error .valueError := by
      simp only [angleParserList, mapE, herr]
    obtain ⟨k, hk, hv⟩ : ∃ k : Column ℝ, k.vals.length = 1 ∧ ColParser.find _ (cosDataSet i).table = .ok k := ⟨_, rfl, hv⟩
    have hvs : mapE (Pair.getValue (cosDataSet i).table) angleParserList = .ok [k, dummy (cosDataSet i).table, k] := by
      simp only [angleParserList, mapE, Pair.getValue, Pair.value0]
      rw [if_pos hm, hv]
      rfl
    have hv' : ∃ v, reduceE condense [k, dummy (cosDataSet i).table, k] = .ok v := by
      obtain ⟨kl, ku, kv⟩ := k
      obtain ⟨x, rfl⟩ := List.length_eq_one_iff.1 hk
      cases x <;> exact ⟨_, rfl⟩
    obtain ⟨v, hv'⟩ := hv'
    unfold condensed
    rw [hvs]
    simp only
    rw [hv']
    simp only
    rw [h0]
  show (cosDataSet i).simplifyWith (parserMapOf .angular) false false = _
  simp only [DataSet.simplifyWith]
  rw [if_neg (by simp [cosDataSet])]
  have : simplifyTable (cosDataSet i).table [("Energy".toList, incidentEnergyParserList), ("Angle".toList, angleParserList),
      ("Data".toList, angDistParserList)] ["Energy".toList, "Angle".toList, "Data".toList] false false = .error .valueError := by
    unfold simplifyTable
    rw [if_pos (by decide)]
    have hang' : readColumns (cosDataSet i).table ("Angle".toList, angleParserList) = .error .valueError := by
      unfold readColumns; rw [hang]
    simp only [mapE, hen, hang']
  simp only [parserMapOf, this]

set_option maxRecDepth 20000 in
/-- C18: exceptions that are not handled do occur: one dataset with a cosine uncertainty of 2 % makes
`getSimplifiedDataSets` fail with `ValueError` (from `math.acos(2.)`), and no dataset is returned. -/
theorem C18_value_error_refuted : ∃ e, ∃ st : DsState _ ℝ, ∃ i, Entry.build demoP [mainText "DA".toList, cosText] = .ok e ∧ e.getDataSets demoRx [] = .ok st ∧
    st.datasets.values = [cosDataSet i] ∧ e.getSimplifiedDataSets (N := ℝ) demoRx [] false = .error .valueError := by
  have h : ∃ e, ∃ st : DsState _ ℝ, ∃ i, Entry.build demoP [mainText "DA".toList, cosText] = .ok e ∧ e.getDataSets demoRx [] = .ok st ∧
      st.datasets = [(("10001".toList, some "10001002".toList, ' '), cosDataSet i)] := ⟨_, _, _, rfl, rfl, rfl⟩
  obtain ⟨e, st, i, h1, h2, h3⟩ := h
  refine ⟨e, st, i, h1, h2, by rw [h3]; rfl, ?_⟩
  unfold Entry.getSimplifiedDataSets
  rw [h2]
  simp only [h3, foldE, simplifyStep, cosDataSet_error]
  rfl
end X4
