import Verif.Lemmas.Dataset
import Verif.Props.DataSection
namespace X4
variable {ρ N : Type}

/-! ### building the table (C19, C20, C21) -/

theorem wf_of_build {tag : Str} {sec : List Str} {d : DataSection} (h : DataSection.build tag sec = .ok d) : d.WF := by
  obtain ⟨q1, q2, _, q4, _, q6⟩ := C02_rectangular tag sec d h
  exact ⟨q1.symm, by rw [q2, q1], q4.symm, fun r hr => by rw [q6 r hr, q1]⟩

theorem pointersOf_nil {labels : List Str} (h : ∀ l ∈ labels, headPointer l = none) : pointersOf labels = [] := by
  unfold pointersOf
  have key : ∀ js : List Nat, js.foldl (pointerStep labels) [] = [] := by
    intro js
    induction js with
    | nil => rfl
    | cons j js ih =>
      rw [List.foldl_cons]
      have : pointerStep labels [] j = [] := by
        unfold pointerStep
        cases hl : labels[j]? with
        | none => rfl
        | some l =>
          have := h l (List.mem_of_getElem? hl)
          simp only
          by_cases h11 : l.length = 11
          · unfold headPointer at this
            rw [if_pos h11] at this
            rw [if_pos h11, this]
          · rw [if_neg h11]
      rw [this, ih]
  exact key _

theorem pointersOf_keys {labels : List Str} {p : Option Char} (h : ∀ l ∈ labels, headPointer l = none ∨ headPointer l = p) :
    ∀ q ∈ (pointersOf labels).keys, some q = p := by
  unfold pointersOf
  have key : ∀ (js : List Nat) (d : Dict Char (List Nat)), (∀ q ∈ d.keys, some q = p) →
      ∀ q ∈ (js.foldl (pointerStep labels) d).keys, some q = p := by
    intro js
    induction js with
    | nil => intro d hd; exact hd
    | cons j js ih =>
      intro d hd
      rw [List.foldl_cons]
      apply ih
      unfold pointerStep
      cases hl : labels[j]? with
      | none => exact hd
      | some l =>
        have := h l (List.mem_of_getElem? hl)
        simp only
        by_cases h11 : l.length = 11
        · unfold headPointer at this
          rw [if_pos h11] at this
          rw [if_pos h11]
          cases hc : l[10]? with
          | none => exact hd
          | some c =>
            rw [hc] at this
            intro q hq
            rw [Dict.keys_set] at hq
            have hor := this
            have : q ∈ d.keys ∨ q = c := by
              split at hq
              · exact .inl hq
              · simpa using hq
            rcases this with e | e
            · exact hd q e
            · subst e
              exact hor.resolve_left (by simp)
        · rw [if_neg h11]; exact hd
  exact key _ [] (by simp [Dict.keys])

theorem nodup_keys_pointersOf (labels : List Str) : (pointersOf labels).keys.Nodup := by
  unfold pointersOf
  have key : ∀ (js : List Nat) (d : Dict Char (List Nat)), d.keys.Nodup → (js.foldl (pointerStep labels) d).keys.Nodup := by
    intro js
    induction js with
    | nil => intro d h; exact h
    | cons j js ih =>
      intro d h
      rw [List.foldl_cons]
      apply ih
      unfold pointerStep
      split
      · exact h
      · split
        · split
          · exact Dict.nodup_keys_set h _ _
          · exact h
        · exact h
  exact key _ [] (by simp [Dict.keys])

/-- with distinct labels the columns kept are those that belong to the pointer -/
theorem keepCol_eq {tag : Str} {sec : List Str} {d : DataSection} (h : DataSection.build tag sec = .ok d) (hd : d.labels.Nodup)
    (p : Option Char) {j : Nat} (hj : j < d.labels.length) : keepCol d p j = belongs d.labels p j := by
  have hp : d.pointers = pointersOf d.labels := by
    obtain ⟨n, c, hs, rows, b⟩ := build_ok h
    rw [b.eq]
  have hk : d.pointers.keys.Nodup := hp ▸ nodup_keys_pointersOf d.labels
  have hg := C06_pointers_partial tag sec d h hd
  have hlj : d.labels[j]? = some d.labels[j] := List.getElem?_eq_getElem hj
  -- membership in the list of other columns
  have hmem : j ∈ otherColumns d p ↔ ∃ q, some q ≠ p ∧ headPointer d.labels[j] = some q := by
    unfold otherColumns
    simp only [List.mem_flatMap, List.mem_filter, decide_eq_true_eq]
    constructor
    · rintro ⟨⟨q, cols⟩, ⟨hm, hne⟩, hjc⟩
      refine ⟨q, hne, ?_⟩
      have := Dict.get?_eq_some_of_mem hk hm
      rw [hg q] at this
      split at this
      · simp at this
      · simp only [Option.some.injEq] at this
        simp only at hjc
        rw [← this] at hjc
        have := (List.mem_filter.1 hjc).2
        rw [hlj] at this
        exact of_decide_eq_true this
    · rintro ⟨q, hne, hq⟩
      have hm : j ∈ pointerColumns d.labels q := by
        unfold pointerColumns
        rw [List.mem_filter]
        exact ⟨by simpa using hj, by rw [hlj]; exact decide_eq_true hq⟩
      have := hg q
      rw [if_neg (List.ne_nil_of_mem hm)] at this
      exact ⟨(q, pointerColumns d.labels q), ⟨Dict.mem_of_get? this, hne⟩, hm⟩
  have hb : belongs d.labels p j = !decide (j ∈ otherColumns d p) := by
    unfold belongs
    rw [hlj]
    simp only [Option.bind_some]
    cases hq : headPointer d.labels[j] with
    | none =>
      have : ¬ j ∈ otherColumns d p := by rw [hmem]; simp [hq]
      simp [this]
    | some q =>
      by_cases he : some q = p
      · have : ¬ j ∈ otherColumns d p := by
          rw [hmem]; rintro ⟨q', hne, hq'⟩; rw [hq] at hq'; exact hne (by rw [← hq', he])
        simp [this, he]
      · have : j ∈ otherColumns d p := hmem.2 ⟨q, he, hq⟩
        simp [this, he]
  rw [hb]
  unfold keepCol
  by_cases h0 : d.pointers = []
  · have : otherColumns d p = [] := by unfold otherColumns; rw [h0]; rfl
    simp [h0, this]
  · simp [h0]

theorem pick_congr {α} {f g : Nat → Bool} (l : List α) (h : ∀ j < l.length, f j = g j) : pick f l = pick g l := by
  unfold pick
  congr 1
  apply List.filter_congr
  intro x hx
  obtain ⟨a, i⟩ := x
  exact h i (by have := List.mem_zipIdx hx; simpa using this.2.1)

theorem range_map_get {α} (f : Nat → α) {n i : Nat} (hi : i < n) : ((List.range n).map f)[i]? = some (f i) := by
  simp [hi]

/-- a COMMON section that was read from a file and whose labels carry no pointer or the given one -/
structure PlainCommon (p : Option Char) (c : DataSection) : Prop where
  read : ∃ sec, DataSection.build "COMMON".toList sec = .ok c
  plain : ∀ l ∈ c.labels, headPointer l = none ∨ headPointer l = p

theorem PlainCommon.ok {p : Option Char} {c : DataSection} (h : PlainCommon p c) : c.WF ∧ ∀ j < c.labels.length, keepCol c p j = true := by
  obtain ⟨sec, hs⟩ := h.read
  refine ⟨wf_of_build hs, ?_⟩
  have : c.pointers = pointersOf c.labels := by
    obtain ⟨n, c', hs', rows, b⟩ := build_ok hs
    rw [b.eq]
  have hk := pointersOf_keys h.plain
  rw [← this] at hk
  intro j _
  have : otherColumns c p = [] := by
    unfold otherColumns
    rw [List.filter_eq_nil_iff.2]
    · rfl
    · intro kv hkv
      simp only [decide_eq_true_eq, not_not]
      exact hk kv.1 (List.mem_map_of_mem hkv)
  simp [keepCol, this]

/-- numbering of the two COMMON sections: they are different objects -/
def numbered (c1 c2 : Option DataSection) : List (Option (Nat × DataSection)) :=
  [c1.map fun c => (0, c), c2.map fun c => (1, c)]

theorem setData_plain [PyNum N] {tag : Str} {sec : List Str} {d : DataSection} (h : DataSection.build tag sec = .ok d)
    (p : Option Char) {c1 c2 : Option DataSection} (h1 : ∀ c ∈ c1, PlainCommon p c) (h2 : ∀ c ∈ c2, PlainCommon p c) :
    setData (N := N) d (numbered c1 c2) p = .ok
      { labels := commonLabels (c1.map fun c => (0, c)) ++ commonLabels (c2.map fun c => (1, c)) ++
          (pick (keepCol d p) d.labels).map head10
        units := commonUnits (c1.map fun c => (0, c)) ++ commonUnits (c2.map fun c => (1, c)) ++
          (pick (keepCol d p) d.units).map fun u => some (head10 u)
        data := (List.range d.data.length).map fun i =>
          commonBlock (c1.map fun c => (0, c)) i ++ commonBlock (c2.map fun c => (1, c)) i ++
            (pick (keepCol d p) (d.data[i]?.getD [])).map cellNum } := by
  apply setData_eq (wf_of_build h)
  · intro x hx
    cases c1 with
    | none => simp at hx
    | some c => simp at hx; rw [← hx]; exact (h1 c rfl).ok
  · intro x hx
    cases c2 with
    | none => simp at hx
    | some c => simp at hx; rw [← hx]; exact (h2 c rfl).ok
  · intro x hx y hy
    cases c1 <;> cases c2 <;> simp at hx hy
    rw [← hx, ← hy]
    simp

/-- the headings and values an optional one-row section adds -/
def optLabels (c : Option DataSection) : List Str := (c.map fun c => c.labels.map head10).getD []
def optUnits (c : Option DataSection) : List (Option Str) := (c.map fun c => c.units.map fun u => some (head10 u)).getD []
def optRow [PyNum N] (c : Option DataSection) (i : Nat) : List (Option N) :=
  (c.map fun c => (c.data[i]?.getD []).map cellNum).getD []

/-- C19: labels, units and every row of a dataset are those of the COMMON sections followed by
those of the selected columns of DATA, in order; with distinct labels the selected columns are
those without pointer or with the dataset's pointer (C20). -/
theorem C19_aligned_partial [PyNum N] (tag : Str) (sec : List Str) (d : DataSection) (h : DataSection.build tag sec = .ok d)
    (p : Option Char) (c1 c2 : Option DataSection) (h1 : ∀ c ∈ c1, PlainCommon p c) (h2 : ∀ c ∈ c2, PlainCommon p c)
    (r1 : ∀ c ∈ c1, c.numrows = 1) (r2 : ∀ c ∈ c2, c.numrows = 1) :
    ∃ (sel : Nat → Bool) (t : Table N), setData d (numbered c1 c2) p = .ok t ∧
      t.labels = optLabels c1 ++ optLabels c2 ++ (pick sel d.labels).map head10 ∧
      t.units = optUnits c1 ++ optUnits c2 ++ ((pick sel d.units).map fun u => some (head10 u)) ∧
      t.data.length = d.data.length ∧
      (∀ (i : Nat) r, d.data[i]? = some r → t.data[i]? = some (optRow (N := N) c1 0 ++ optRow c2 0 ++ (pick sel r).map cellNum)) ∧
      (d.labels.Nodup → ∀ j < d.labels.length, sel j = belongs d.labels p j) := by
  refine ⟨keepCol d p, _, setData_plain h p h1 h2, ?_, ?_, by simp, ?_, fun hd j hj => keepCol_eq h hd p hj⟩
  · cases c1 <;> cases c2 <;> rfl
  · cases c1 <;> cases c2 <;> rfl
  · intro i r hr
    have hi : i < d.data.length := by
      by_contra hc
      rw [List.getElem?_eq_none (by omega)] at hr
      simp at hr
    have e1 : commonBlock (N := N) (c1.map fun c => (0, c)) i = optRow c1 0 := by
      cases c1 with
      | none => rfl
      | some c => simp only [commonBlock, Option.map_some, optRow, r1 c rfl, if_true, Option.getD_some]
    have e2 : commonBlock (N := N) (c2.map fun c => (1, c)) i = optRow c2 0 := by
      cases c2 with
      | none => rfl
      | some c => simp only [commonBlock, Option.map_some, optRow, r2 c rfl, if_true, Option.getD_some]
    simp only [List.getElem?_map, List.getElem?_range hi, Option.map_some, hr, Option.getD_some, e1, e2]

def demoCommon : List Str :=
  ["COMMON               2          1".toList, "EN         EN-RSL     ".toList, "MEV        MEV        ".toList,
   "14.1       0.2        ".toList, "ENDCOMMON".toList]
def demoPtr : List Str :=
  ["DATA                 3          2".toList, "ANG        DATA      1DATA      2".toList, "ADEG       MB         B          ".toList,
   "10.        1.0        2.0        ".toList, "20.        3.0        4.0        ".toList, "ENDDATA".toList]
def demoC : DataSection := (DataSection.build "COMMON".toList demoCommon).toOption.getD
  { tag := [], numcols := 0, numrows := 0, lpr := 0, labels := [], units := [], pointers := [], rawData := [], data := [] }
def demoD : DataSection := (DataSection.build "DATA".toList demoPtr).toOption.getD
  { tag := [], numcols := 0, numrows := 0, lpr := 0, labels := [], units := [], pointers := [], rawData := [], data := [] }

theorem demoC_plain (p : Option Char) : PlainCommon p demoC := ⟨⟨demoCommon, by decide +kernel⟩, fun l hl => .inl ((show ∀ l ∈ demoC.labels, headPointer l = none by decide +kernel) l hl)⟩
theorem demoD_built : DataSection.build "DATA".toList demoPtr = .ok demoD := by decide +kernel
example : demoC.numrows = 1 ∧ demoD.labels.Nodup ∧
    (setData (N := ℝ) demoD (numbered (some demoC) none) (some '2')).toOption.map (·.labels) =
      some ["EN".toList, "EN-RSL".toList, "ANG".toList, "DATA".toList] := by decide +kernel

/-- a COMMON section with a column for pointer 2 only, as C19_aligned_partial allows for the dataset with pointer 2 -/
example : ∃ c, PlainCommon (some '2') c ∧ c.numrows = 1 ∧ c.labels.map headPointer = [none, some '2'] := by
  refine ⟨_, ⟨⟨["COMMON               2          1".toList, "EN         EN-RSL    2".toList, "MEV        MEV        ".toList,
    "14.1       0.2        ".toList, "ENDCOMMON".toList], rfl⟩, ?_⟩, by decide +kernel, by decide +kernel⟩
  decide +kernel

/-- C19 is false when the two COMMON sections are the same object, as for a DATA section in the
first subentry: `common.index(c)` finds the first of the two, and the columns labelled for the
second hold zeros. -/
theorem C19_same_object_refuted [PyNum N] : ∃ t : Table N,
    setData demoD [some (0, demoC), some (0, demoC)] (some '1') = .ok t ∧
    t.labels = ["EN".toList, "EN-RSL".toList, "EN".toList, "EN-RSL".toList, "ANG".toList, "DATA".toList] ∧
    (t.data[0]?.getD [])[2]? = some (some PyNum.zero) ∧
    (t.data[0]?.getD [])[0]? = some (cellNum ((demoC.data[0]?.getD [])[0]?.getD none)) ∧
    (parseFORTRANNumber "14.1".toList).toOption = (demoC.data[0]?.getD [])[0]? := by
  refine ⟨_, rfl, ?_, ?_, ?_, ?_⟩
  · rfl
  · rfl
  · rfl
  · rfl

/-- C20 (partial: COMMON sections without other pointers, DATA labels distinct): the DATA columns in
the dataset for pointer `p` are exactly those without pointer or with pointer `p`, each with its
own label, unit and values. -/
theorem C20_selection_partial [PyNum N] (tag : Str) (sec : List Str) (d : DataSection) (h : DataSection.build tag sec = .ok d)
    (hd : d.labels.Nodup) (p : Option Char) (c1 c2 : Option DataSection) (h1 : ∀ c ∈ c1, PlainCommon p c) (h2 : ∀ c ∈ c2, PlainCommon p c) :
    ∃ t : Table N, setData d (numbered c1 c2) p = .ok t ∧
      t.labels = optLabels c1 ++ optLabels c2 ++ (pick (belongs d.labels p) d.labels).map head10 ∧
      t.units = optUnits c1 ++ optUnits c2 ++ ((pick (belongs d.labels p) d.units).map fun u => some (head10 u)) ∧
      (∀ (i : Nat) r, d.data[i]? = some r → ∃ tr, t.data[i]? = some tr ∧
        tr.drop (optLabels c1 ++ optLabels c2).length = (pick (belongs d.labels p) r).map cellNum) := by
  have wf := wf_of_build h
  have hsel : ∀ j < d.labels.length, keepCol d p j = belongs d.labels p j := fun j hj => keepCol_eq h hd p hj
  refine ⟨_, setData_plain h p h1 h2, ?_, ?_, ?_⟩
  · simp only
    rw [pick_congr d.labels hsel]
    cases c1 <;> cases c2 <;> rfl
  · simp only
    rw [pick_congr d.units (by rw [wf.units]; exact hsel)]
    cases c1 <;> cases c2 <;> rfl
  · intro i r hr
    have hi : i < d.data.length := by
      by_contra hc
      rw [List.getElem?_eq_none (by omega)] at hr
      simp at hr
    refine ⟨_, range_map_get _ hi, ?_⟩
    rw [hr]
    simp only [Option.getD_some]
    rw [pick_congr r (by rw [wf.rect r (List.mem_of_getElem? hr)]; exact hsel)]
    have ok1 : CommonOk p (c1.map fun c => (0, c)) := by
      intro x hx; cases c1 with
      | none => simp at hx
      | some c => simp at hx; rw [← hx]; exact (h1 c rfl).ok
    have ok2 : CommonOk p (c2.map fun c => (1, c)) := by
      intro x hx; cases c2 with
      | none => simp at hx
      | some c => simp at hx; rw [← hx]; exact (h2 c rfl).ok
    apply List.drop_left'
    rw [List.length_append, commonBlock_len ok1, commonBlock_len ok2, List.length_append]
    cases c1 <;> cases c2 <;> simp [commonCols, optLabels]

example : belongs demoD.labels (some '2') 0 = true ∧ belongs demoD.labels (some '2') 1 = false ∧
    belongs demoD.labels (some '2') 2 = true := by decide +kernel

theorem mem_of_mem_dict_set {κ α} [DecidableEq κ] {d : Dict κ α} {k : κ} {v : α} {e : κ × α} (h : e ∈ d.set k v) : e ∈ d ∨ e = (k, v) := by
  induction d with
  | nil => simpa [Dict.set] using h
  | cons x d ih =>
    unfold Dict.set at h
    split at h
    · rename_i hk
      rcases List.mem_cons.mp h with h | h
      · exact .inr (h.trans (by rw [hk]))
      · exact .inl (List.mem_cons_of_mem _ h)
    · rcases List.mem_cons.mp h with h | h
      · exact .inl (h ▸ List.mem_cons_self)
      · exact (ih h).imp_left (List.mem_cons_of_mem _)

/-- the columns listed for pointers are the first ones with their labels -/
theorem pointersOf_first (labels : List Str) {q : Char} {cols : List Nat} (h : (q, cols) ∈ pointersOf labels) :
    ∀ k ∈ cols, ∀ i < k, labels[i]? ≠ labels[k]? := by
  unfold pointersOf at h
  have key : ∀ (js : List Nat) (d : Dict Char (List Nat)), (∀ e ∈ d, ∀ k ∈ e.2, ∀ i < k, labels[i]? ≠ labels[k]?) →
      ∀ e ∈ js.foldl (pointerStep labels) d, ∀ k ∈ e.2, ∀ i < k, labels[i]? ≠ labels[k]? := by
    intro js
    induction js with
    | nil => intro d h; exact h
    | cons j js ih =>
      intro d hd
      rw [List.foldl_cons]
      apply ih
      unfold pointerStep
      cases hl : labels[j]? with
      | none => exact hd
      | some l =>
        simp only
        split
        · split
          · rename_i c _
            intro e he k hk
            rcases mem_of_mem_dict_set he with he | rfl
            · exact hd e he k hk
            · simp only [List.mem_append, List.mem_singleton] at hk
              rcases hk with hk | rfl
              · cases hg : d.get? c with
                | none => simp [hg] at hk
                | some v =>
                  rw [hg] at hk
                  exact hd _ (Dict.mem_of_get? hg) k hk
              · have hm : l ∈ labels.take (j + 1) := List.mem_of_getElem? (i := j) (by rw [List.getElem?_take_of_lt (by omega)]; exact hl)
                have hlt := List.idxOf_lt_length_of_mem hm
                intro i hi
                have hlt' : List.idxOf l (labels.take (j + 1)) < labels.length := by
                  rw [List.length_take] at hlt; omega
                have e1 : labels[List.idxOf l (labels.take (j + 1))]? = some l := by
                  have := List.getElem_idxOf hlt
                  rw [List.getElem_take] at this
                  rw [List.getElem?_eq_getElem hlt', this]
                rw [e1, List.getElem?_eq_getElem (by omega)]
                intro e2
                have e2 := Option.some.inj e2
                have := List.not_of_lt_findIdx (p := (· == l)) (xs := labels.take (j + 1)) (i := i) hi
                rw [List.getElem_take, e2] at this
                simp at this
          · exact hd
        · exact hd
  exact key _ [] (by simp) _ h

/-- C20 is false whenever a label with a pointer is repeated: the second column with the label is listed in the datasets of all other
pointers, heading and values. -/
theorem C20_repeated_label_refuted [PyNum N] (tag : Str) (sec : List Str) (d : DataSection) (h : DataSection.build tag sec = .ok d)
    (i j : Nat) (hij : i < j) (hj : j < d.labels.length) (he : d.labels[i]? = d.labels[j]?) (p : Option Char)
    (hb : belongs d.labels p j = false) :
    ∃ (t : Table N) (sel : Nat → Bool), setData d (numbered none none) p = .ok t ∧ sel j = true ∧
      t.labels = (pick sel d.labels).map head10 ∧
      t.data = d.data.map fun r => (pick sel r).map cellNum := by
  have hp : d.pointers = pointersOf d.labels := by
    obtain ⟨n, c, hs, rows, b⟩ := build_ok h
    rw [b.eq]
  refine ⟨_, keepCol d p, setData_plain h p (c1 := none) (c2 := none) (by simp) (by simp), ?_, rfl, ?_⟩
  · unfold keepCol
    have : j ∉ otherColumns d p := by
      unfold otherColumns
      rw [List.mem_flatMap]
      rintro ⟨⟨q, cols⟩, hm, hc⟩
      rw [hp] at hm
      exact pointersOf_first d.labels (List.mem_filter.mp hm).1 j hc i hij he
    simp [this]
  · apply List.ext_getElem
    · simp
    · intro k h1 h2
      have hk : k < d.data.length := by simpa using h2
      simp [commonBlock, List.getElem?_eq_getElem hk]

set_option maxRecDepth 20000 in
example : ∃ d, DataSection.build "DATA".toList
    ["DATA                 3          0".toList, "DATA      1DATA      1DATA      2".toList, [], "ENDDATA".toList] = .ok d ∧
    1 < d.labels.length ∧ d.labels[0]? = d.labels[1]? ∧ belongs d.labels (some '2') 1 = false :=
  ⟨_, rfl, by decide +kernel, by decide +kernel, by decide +kernel⟩

def pointerCommon : List Str :=
  ["COMMON               2          1".toList, "EN        1EN        2".toList, "MEV        MEV        ".toList,
   "14.1       2.5        ".toList, "ENDCOMMON".toList]

/-- writing a row of a section at the beginning of a row puts all its values there -/
theorem writeCommon_take [PyNum N] {c : DataSection} (wf : c.WF) {r : List (Option FloatLit)} {k : Nat} (hr : c.data[k]? = some r)
    {row row' : List (Option N)} (h : writeCommon c 0 k row = .ok row') : row'.take c.labels.length = r.map cellNum := by
  have hlen : r.length = c.labels.length := wf.rect r (List.mem_of_getElem? hr)
  unfold writeCommon at h
  rw [wf.cols] at h
  have key : ∀ n, n ≤ r.length → ∀ row', foldE (writeCell c 0 k) row (List.range n) = .ok row' →
      row'.take n = (r.map (cellNum (N := N))).take n := by
    intro n
    induction n with
    | zero => intro _ row' _; simp
    | succ n ih =>
      intro hn row' h
      rw [List.range_succ, foldE_append] at h
      cases hp : foldE (writeCell c 0 k) row (List.range n) with
      | error e => rw [hp] at h; simp at h
      | ok row1 =>
        rw [hp] at h
        have h1 : n < r.length := by omega
        simp only [foldE, writeCell, pyIdx, hr, List.getElem?_eq_getElem h1, setIdx, Nat.zero_add] at h
        by_cases hl : n < row1.length
        · simp only [if_pos hl] at h
          have h := Except.ok.inj h
          rw [← h, List.take_set, List.take_succ_eq_append_getElem hl, ih (by omega) row1 hp,
            List.take_succ_eq_append_getElem (by simpa using h1), List.set_append_right _ _ (by simp)]
          simp [Nat.min_eq_left (Nat.le_of_lt h1)]
        · simp only [if_neg hl] at h
          cases h
  have := key r.length (le_refl _) row' (by rw [hlen]; exact h)
  rw [hlen] at this
  rw [this, List.take_of_length_le (by simp; omega)]

theorem pick_length_lt {α} (sel : Nat → Bool) (l : List α) {j : Nat} (hj : j < l.length) (h : sel j = false) : (pick sel l).length < l.length := by
  unfold pick
  rw [List.length_map, show l.length = l.zipIdx.length by simp]
  apply List.length_filter_lt_length_iff_exists.mpr
  exact ⟨(l[j], j), by rw [List.mk_mem_zipIdx_iff_getElem?]; exact List.getElem?_eq_getElem hj, by simpa using h⟩

/-- C20 is false for every one-row COMMON section that has a column of another pointer, whatever the DATA section is: whenever the data
can be set at all, the headings of such columns are left out, while all values of the section are written to the beginning of every
row. So values of other pointers end up under the headings that are left, and under those of the DATA section. -/
theorem C20_common_refuted [PyNum N] (tag tag' : Str) (sec sec' : List Str) (d c : DataSection) (h : DataSection.build tag sec = .ok d)
    (hnd : d.labels.Nodup) (hc : DataSection.build tag' sec' = .ok c) (hn : c.labels.Nodup) (r : List (Option FloatLit)) (hr : c.data = [r]) (p : Option Char)
    (j : Nat) (hj : j < c.labels.length) (hb : belongs c.labels p j = false) (common : List (Option (Nat × DataSection)))
    (hcm : common = numbered (some c) none ∨ common = numbered none (some c)) (t : Table N) (ht : setData d common p = .ok t) :
    t.labels = (pick (belongs c.labels p) c.labels).map head10 ++ (pick (belongs d.labels p) d.labels).map head10 ∧
      (pick (belongs c.labels p) c.labels).length < c.labels.length ∧
      t.data.length = d.data.length ∧ ∀ row ∈ t.data, row.take c.labels.length = r.map cellNum := by
  have wfc := wf_of_build hc
  have wfd := wf_of_build h
  have hk : pick (keepCol c p) c.labels = pick (belongs c.labels p) c.labels := by
    unfold pick
    congr 1
    apply List.filter_congr
    intro x hx
    have := (List.mem_zipIdx (x := x.1) (i := x.2) hx).2.1
    exact keepCol_eq hc hn p (by omega)
  have hone : c.numrows = 1 := by
    have := wfc.rows
    rw [hr] at this
    simp at this
    omega
  have h0 : c.data[0]? = some r := by rw [hr]; rfl
  have fin : ∀ (offs : List Nat) (cid : Nat) (rows rows' : List (List (Option N))),
      pyIdx offs (common.findIdx fun x => x.map Prod.fst == some cid) = .ok 0 →
      commonStep common offs rows (some (cid, c)) = .ok rows' →
      rows'.length = rows.length ∧ ∀ row ∈ rows', row.take c.labels.length = r.map cellNum := by
    intro offs cid rows rows' ho hs
    unfold commonStep at hs
    simp only [ho, if_pos hone] at hs
    have hf := mapE_ok_iff.mp hs
    refine ⟨hf.length_eq.symm, ?_⟩
    intro row hrow
    obtain ⟨i, hi, rfl⟩ := List.mem_iff_getElem.mp hrow
    have := (List.forall₂_iff_get.mp hf).2 i (by rw [hf.length_eq]; exact hi) hi
    exact writeCommon_take wfc h0 this
  have lab : ((headsOf c (keepCol c p)).filterMap id).map Prod.fst = (pick (belongs c.labels p) c.labels).map head10 := by
    rw [headsOf_filterMap, List.map_map, ← hk]
    exact pick_zip_fst _ _ wfc.units _
  have labd : ((headsOf d (keepCol d p)).filterMap id).map Prod.fst = (pick (keepCol d p) d.labels).map head10 := by
    rw [headsOf_filterMap, List.map_map]
    exact pick_zip_fst _ _ wfd.units _
  have out : ∃ rows : List (List (Option N)), rows.length = d.data.length ∧
      t.labels = (pick (belongs c.labels p) c.labels).map head10 ++ (pick (keepCol d p) d.labels).map head10 ∧
      ∃ offs cid, pyIdx offs (common.findIdx fun x => x.map Prod.fst == some cid) = .ok 0 ∧
        commonStep common offs rows (some (cid, c)) = .ok t.data := by
    unfold setData at ht
    rcases hcm with rfl | rfl
    · simp only [numbered, Option.map_some, Option.map_none, mapE, optHeads, secHeads_eq wfc, secHeads_eq wfd, List.cons_append, List.nil_append] at ht
      split at ht
      · cases ht
      rename_i rows hrows
      have hl := (mapE_ok_iff.mp hrows).length_eq
      rw [List.length_range, wfd.rows] at hl
      split at ht
      · cases ht
      rename_i rows' hrows'
      have ht := Except.ok.inj ht
      refine ⟨rows, hl.symm, ?_, offsetsFrom 0 [headsOf c (keepCol c p), [], headsOf d (keepCol d p)], 0, ?_, ?_⟩
      · rw [← ht]
        simp [← lab, ← labd]
      · simp [numbered, offsetsFrom, pyIdx, List.findIdx_cons]
      · rw [← ht]
        simp only [foldE] at hrows'
        simp only [commonStep, numbered, Option.map_some, Option.map_none] at hrows' ⊢
        split at hrows' <;> simp_all
    · simp only [numbered, Option.map_some, Option.map_none, mapE, optHeads, secHeads_eq wfc, secHeads_eq wfd, List.cons_append, List.nil_append] at ht
      split at ht
      · cases ht
      rename_i rows hrows
      have hl := (mapE_ok_iff.mp hrows).length_eq
      rw [List.length_range, wfd.rows] at hl
      split at ht
      · cases ht
      rename_i rows' hrows'
      have ht := Except.ok.inj ht
      refine ⟨rows, hl.symm, ?_, offsetsFrom 0 [[], headsOf c (keepCol c p), headsOf d (keepCol d p)], 1, ?_, ?_⟩
      · rw [← ht]
        simp [← lab, ← labd]
      · simp [numbered, offsetsFrom, pyIdx, List.findIdx_cons]
      · rw [← ht]
        simp only [foldE] at hrows'
        simp only [commonStep, numbered, Option.map_some, Option.map_none] at hrows' ⊢
        split at hrows' <;> simp_all
  obtain ⟨rows, hl, h1, offs, cid, h2, h3⟩ := out
  obtain ⟨f1, f2⟩ := fin offs cid rows t.data h2 h3
  rw [pick_congr d.labels fun j hj => keepCol_eq h hnd p hj] at h1
  exact ⟨h1, pick_length_lt _ _ hj hb, f1.trans hl, f2⟩

example [PyNum N] : ∃ c, ∃ t : Table N, DataSection.build "COMMON".toList pointerCommon = .ok c ∧ c.labels.Nodup ∧ belongs c.labels (some '2') 0 = false ∧
    setData demoD (numbered (some c) none) (some '2') = .ok t ∧
    t.labels = ["EN".toList, "ANG".toList, "DATA".toList] ∧
    c.labels.map headPointer = [some '1', some '2'] ∧
    ∃ x y, c.data = [[x, y]] ∧ x ≠ y ∧ ∃ z, t.data[0]? = some [cellNum x, cellNum y, z] := by
  refine ⟨_, _, rfl, by decide +kernel, by decide +kernel, rfl, rfl, rfl, _, _, rfl, by decide +kernel, _, rfl⟩

/-! #### COMMON sections with several rows (C21) -/

/-- C21 (partial): dataset row `i` takes row `i` of a COMMON section with several rows as long as
there is one. -/
theorem C21_rows_partial [PyNum N] (tag : Str) (sec : List Str) (d : DataSection) (h : DataSection.build tag sec = .ok d)
    (p : Option Char) (c : DataSection) (hc : PlainCommon p c) (hr : c.numrows ≠ 1) :
    ∃ t : Table N, setData d (numbered (some c) none) p = .ok t ∧ t.data.length = d.data.length ∧
      ∀ (i : Nat) r cr, d.data[i]? = some r → c.data[i]? = some cr →
        ∃ tr, t.data[i]? = some tr ∧ tr.take c.labels.length = cr.map cellNum := by
  refine ⟨_, setData_plain h p (c1 := some c) (c2 := none) (by simpa using hc) (by simp), by simp, ?_⟩
  intro i r cr hi hcr
  have hi' : i < d.data.length := by
    by_contra hx
    rw [List.getElem?_eq_none (by omega)] at hi
    simp at hi
  have hci : i < c.data.length := by
    by_contra hx
    rw [List.getElem?_eq_none (by omega)] at hcr
    simp at hcr
  refine ⟨_, range_map_get _ hi', ?_⟩
  have e : commonBlock (N := N) ((some c).map fun c => (0, c)) i = cr.map cellNum := by
    simp only [commonBlock, Option.map_some]
    rw [if_neg hr, if_pos hci, hcr]
    rfl
  have hl : (cr.map (cellNum (N := N))).length = c.labels.length := by
    rw [List.length_map]; exact hc.ok.1.rect _ (List.mem_of_getElem? hcr)
  rw [e, List.append_assoc]
  exact List.take_left' hl

/-- C21 is false of the code for the remaining rows, whatever the sections are: they get zeros
under the labels of the COMMON section. -/
theorem C21_refuted [PyNum N] (tag : Str) (sec : List Str) (d : DataSection) (h : DataSection.build tag sec = .ok d)
    (p : Option Char) (c : DataSection) (hc : PlainCommon p c) (hr : c.numrows ≠ 1) :
    ∃ t : Table N, setData d (numbered (some c) none) p = .ok t ∧
      ∀ i : Nat, c.data.length ≤ i → i < d.data.length →
        ∃ tr, t.data[i]? = some tr ∧ tr.take c.labels.length = List.replicate c.labels.length (some PyNum.zero) := by
  refine ⟨_, setData_plain h p (c1 := some c) (c2 := none) (by simpa using hc) (by simp), ?_⟩
  intro i hci hi'
  refine ⟨_, range_map_get _ hi', ?_⟩
  have e : commonBlock (N := N) ((some c).map fun c => (0, c)) i = List.replicate c.labels.length (some PyNum.zero) := by
    simp only [commonBlock, Option.map_some]
    rw [if_neg hr, if_neg (by omega)]
  rw [e, List.append_assoc]
  exact List.take_left' (by simp)

/-- a COMMON section with no rows, and a DATA section with two -/
example : ∃ c, DataSection.build "COMMON".toList
    ["COMMON               1          0".toList, "EN".toList, "MEV".toList, "ENDCOMMON".toList] = .ok c ∧
    c.numrows ≠ 1 ∧ (∀ l ∈ c.labels, headPointer l = none) ∧ c.data.length ≤ 0 ∧ 0 < demoD.data.length :=
  ⟨_, rfl, by decide +kernel⟩
example : ∃ c, DataSection.build "COMMON".toList
    ["COMMON               1          2".toList, "EN".toList, "MEV".toList, "1.0".toList, "2.0".toList, "ENDCOMMON".toList] = .ok c ∧
    c.numrows ≠ 1 ∧ (∀ l ∈ c.labels, headPointer l = none) ∧ c.data.length = 2 :=
  ⟨_, rfl, by decide +kernel⟩

/-! ### metadata precedence (C22) -/

/-- a value other than `None` and 'None' -/
def given (x : Option Str) : Option Str := x.filter fun s => decide (s ≠ "None".toList)

theorem notNone_eq (x : Option Str) : notNone x = given x := by
  unfold notNone given
  cases x with
  | none => rfl
  | some s =>
    by_cases h : s = "None".toList
    · rw [if_pos (by rw [h]), Option.filter_some_neg (by rw [h]; decide)]
    · rw [if_neg (by rw [Option.some.injEq]; exact h), Option.filter_some_pos (by rw [decide_eq_true_eq]; exact h)]

theorem lastGiven_map {α β} (f : α → Option β) (l : List α) (x : Option β) :
    (l.foldl (fun acc m => (f m).or acc) x) = (lastGiven (l.map f)).or x := by
  induction l generalizing x with
  | nil => rfl
  | cons a l ih =>
    simp only [List.foldl_cons, List.map_cons, lastGiven, ih]
    rw [Option.or_assoc]

/-- the attribute `g` of the merged record -/
theorem mergeMeta_attr {α} (g : DsMeta ρ → Option α) (hg : ∀ a b : DsMeta ρ, g (a.over b) = (g b).or (g a))
    (ms : List (Option (DsMeta ρ))) (init : DsMeta ρ) :
    g (ms.foldl DsMeta.overOpt init) =
      (lastGiven (ms.map fun m => m.bind g)).or (g init) := by
  induction ms generalizing init with
  | nil => rfl
  | cons m ms ih =>
    rw [List.foldl_cons, ih]
    cases m with
    | none => simp [lastGiven, DsMeta.overOpt]
    | some m => simp only [List.map_cons, lastGiven, Option.bind_some, DsMeta.overOpt, hg, Option.or_assoc]

/-- C22: each attribute of the dataset is that of the last record in which it has a value. -/
theorem C22_precedence (ms : List (Option (BibMeta ρ))) :
    let m := mergeMeta (ms.map fun m => m.map BibMeta.attrs)
    m.year = lastGiven (ms.map fun m => m.bind fun m => given m.year) ∧
    m.pubType = lastGiven (ms.map fun m => m.bind fun m => given m.pubType) ∧
    m.reference = lastGiven (ms.map fun m => m.bind (·.reference)) ∧
    m.institute = lastGiven (ms.map fun m => m.bind (·.institute)) ∧
    m.author = lastGiven (ms.map fun m => m.bind (·.author)) ∧
    m.title = lastGiven (ms.map fun m => m.bind fun m => given (some m.title.titleText)) ∧
    m.subent = (lastGiven (ms.map fun m => m.bind fun m => given (some m.subent))).or (some "????????".toList) := by
  have key : ∀ {α : Type} (g : DsMeta ρ → Option α) (h : BibMeta ρ → Option α) (_ : ∀ m, g (BibMeta.attrs m) = h m),
      (ms.map fun m => m.map BibMeta.attrs).map (fun m => m.bind g) = ms.map fun m => m.bind h := by
    intro α g h hgh
    rw [List.map_map]
    apply List.map_congr_left
    intro m _
    cases m with
    | none => rfl
    | some m => exact hgh m
  simp only [mergeMeta]
  refine ⟨?_, ?_, ?_, ?_, ?_, ?_, ?_⟩
  · rw [mergeMeta_attr (·.year) (fun _ _ => rfl), key _ (fun m => given m.year) (fun m => notNone_eq _)]; simp
  · rw [mergeMeta_attr (·.pubType) (fun _ _ => rfl), key _ (fun m => given m.pubType) (fun m => notNone_eq _)]; simp
  · rw [mergeMeta_attr (·.reference) (fun _ _ => rfl), key _ (fun m => m.reference) (fun m => rfl)]; simp
  · rw [mergeMeta_attr (·.institute) (fun _ _ => rfl), key _ (fun m => m.institute) (fun m => rfl)]; simp
  · rw [mergeMeta_attr (·.author) (fun _ _ => rfl), key _ (fun m => m.author) (fun m => rfl)]; simp
  · rw [mergeMeta_attr (·.title) (fun _ _ => rfl), key _ (fun m => given (some m.title.titleText)) (fun m => notNone_eq _)]; simp
  · rw [mergeMeta_attr (·.subent) (fun _ _ => rfl), key _ (fun m => given (some m.subent)) (fun m => notNone_eq _)]

/-- what `lastGiven` means -/
theorem lastGiven_spec {α} (l : List (Option α)) (x : α) :
    lastGiven l = some x ↔ ∃ a b, l = a ++ some x :: b ∧ ∀ y ∈ b, y = none := by
  induction l with
  | nil => simp [lastGiven]
  | cons y l ih =>
    simp only [lastGiven]
    cases hl : lastGiven l with
    | some z =>
      rw [hl] at ih
      simp only [Option.some_or, Option.some.injEq] at ih ⊢
      rw [ih]
      constructor
      · rintro ⟨a, b, rfl, hb⟩; exact ⟨y :: a, b, rfl, hb⟩
      · rintro ⟨a, b, h, hb⟩
        cases a with
        | nil =>
          simp only [List.nil_append, List.cons.injEq] at h
          exfalso
          have : lastGiven l = none := by
            rw [h.2]
            clear h ih hl
            induction b with
            | nil => rfl
            | cons w b ih => simp [lastGiven, hb w (by simp), ih fun y hy => hb y (by simp [hy])]
          rw [hl] at this; simp at this
        | cons w a =>
          simp only [List.cons_append, List.cons.injEq] at h
          exact ⟨a, b, h.2, hb⟩
    | none =>
      have hnone : ∀ z ∈ l, z = none := by
        intro z hz
        clear ih
        induction l with
        | nil => simp at hz
        | cons w l ih =>
          simp only [lastGiven, Option.or_eq_none_iff] at hl
          rcases List.mem_cons.1 hz with rfl | hz
          · exact hl.2
          · exact ih hl.1 hz
      rw [Option.none_or]
      constructor
      · rintro rfl; exact ⟨[], l, rfl, hnone⟩
      · rintro ⟨a, b, h, hb⟩
        cases a with
        | nil => simp at h; exact h.1
        | cons w a =>
          simp only [List.cons_append, List.cons.injEq] at h
          have := hnone (some x) (by rw [h.2]; simp)
          simp at this

example : lastGiven [some 1, some 2, none] = some 2 := rfl
end X4
