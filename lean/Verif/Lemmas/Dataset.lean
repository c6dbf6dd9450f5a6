import Verif.Spec.Dataset
import Verif.Lemmas.Column
namespace X4

theorem foldE_append {ε σ α} (f : σ → α → Except ε σ) (s : σ) (l l' : List α) :
    foldE f s (l ++ l') = (match foldE f s l with | .error e => .error e | .ok s' => foldE f s' l') := by
  induction l generalizing s with
  | nil => rfl
  | cons x l ih =>
    simp only [List.cons_append, foldE]
    cases f s x with
    | error e => rfl
    | ok s' => exact ih s'

theorem mapE_map {ε α β γ} (f : β → Except ε γ) (g : α → β) (l : List α) : mapE f (l.map g) = mapE (fun x => f (g x)) l := by
  induction l with
  | nil => rfl
  | cons a l ih => simp only [List.map_cons, mapE, ih]

theorem zipIdx_range_map {α} (l : List α) : l.zipIdx = (List.range l.length).pmap (fun i (h : i < l.length) => (l[i], i))
    (fun i hi => by simpa using hi) := by
  apply List.ext_getElem <;> simp

theorem pick_append {α} (sel : Nat → Bool) (l : List α) (x : α) :
    pick sel (l ++ [x]) = pick sel l ++ (if sel l.length then [x] else []) := by
  unfold pick
  rw [List.zipIdx_append]
  simp only [List.filter_append, List.map_append, Nat.zero_add, List.zipIdx_singleton]
  congr 1
  by_cases h : sel l.length <;> simp [h]

section heads

theorem colHead_eq {d : DataSection} {p : Option Char} {j : Nat} {l u : Str} (hl : d.labels[j]? = some l)
    (hu : d.units[j]? = some u) :
    colHead d p j = .ok (if keepCol d p j then some (head10 l, head10 u) else none) := by
  unfold colHead
  split
  · rename_i h
    simp only [pyIdx, hl, hu, head10]
    rfl
  · rfl

theorem mapE_prefix {α} (f : Nat → Except PyErr α) (g : Nat → α) (n : Nat) (h : ∀ i < n, f i = .ok (g i)) :
    mapE f (List.range n) = .ok ((List.range n).map g) := by
  rw [← mapE_pure]
  exact mapE_congr fun x hx => h x (by simpa using hx)

/-- headings of a section, one entry per column -/
def headsOf (d : DataSection) (sel : Nat → Bool) : List (Option (Str × Str)) :=
  (d.labels.zip d.units).zipIdx.map fun x => if sel x.2 then some (head10 x.1.1, head10 x.1.2) else none

theorem secHeads_eq {d : DataSection} (wf : d.WF) (p : Option Char) : secHeads d p = .ok (headsOf d (keepCol d p)) := by
  unfold secHeads
  rw [wf.cols]
  have : ∀ i < d.labels.length, colHead d p i =
      .ok (if keepCol d p i then some (head10 (d.labels[i]?.getD []), head10 (d.units[i]?.getD [])) else none) := by
    intro i hi
    have hu : i < d.units.length := by rw [wf.units]; exact hi
    rw [colHead_eq (List.getElem?_eq_getElem hi) (List.getElem?_eq_getElem hu)]
    simp [hi, hu]
  rw [mapE_prefix _ _ _ this]
  congr 1
  apply List.ext_getElem
  · simp [headsOf, wf.units]
  · intro i h1 h2
    simp only [List.length_map, List.length_range] at h1
    have hu : i < d.units.length := by rw [wf.units]; exact h1
    simp [headsOf, h1, hu]

theorem filterMap_pick {α β} (f : α → β) (sel : Nat → Bool) (l : List α) :
    (l.zipIdx.map fun x => if sel x.2 then some (f x.1) else none).filterMap id = (pick sel l).map f := by
  unfold pick
  generalize 0 = n
  induction l generalizing n with
  | nil => rfl
  | cons a l ih =>
    simp only [List.zipIdx_cons, List.map_cons]
    by_cases h : sel n
    · rw [if_pos h, List.filter_cons_of_pos (by exact h), List.map_cons, List.map_cons, ← ih]
      rfl
    · rw [if_neg h, List.filter_cons_of_neg (by exact h), ← ih]
      rfl

theorem headsOf_filterMap (d : DataSection) (sel : Nat → Bool) :
    (headsOf d sel).filterMap id = (pick sel (d.labels.zip d.units)).map fun x => (head10 x.1, head10 x.2) :=
  filterMap_pick (fun x : Str × Str => (head10 x.1, head10 x.2)) sel _

theorem pick_map {α β} (f : α → β) (sel : Nat → Bool) (l : List α) : pick sel (l.map f) = (pick sel l).map f := by
  unfold pick
  rw [List.zipIdx_map, List.filter_map, List.map_map, List.map_map]
  rfl

theorem pick_zip_fst (a b : List Str) (h : b.length = a.length) (sel : Nat → Bool) :
    (pick sel (a.zip b)).map (fun x => head10 x.1) = (pick sel a).map head10 := by
  rw [← pick_map, ← pick_map]
  congr 1
  have : (a.zip b).map (fun x => head10 x.1) = ((a.zip b).map Prod.fst).map head10 := by rw [List.map_map]; rfl
  rw [this, List.map_fst_zip (by omega)]
theorem pick_zip_snd (a b : List Str) (h : b.length = a.length) (sel : Nat → Bool) :
    (pick sel (a.zip b)).map (fun x => some (head10 x.2)) = (pick sel b).map fun u => some (head10 u) := by
  rw [← pick_map, ← pick_map]
  congr 1
  have : (a.zip b).map (fun x => some (head10 x.2)) = ((a.zip b).map Prod.snd).map fun u => some (head10 u) := by
    rw [List.map_map]; rfl
  rw [this, List.map_snd_zip (by omega)]

theorem headsOf_isSome (d : DataSection) (sel : Nat → Bool) (wf : d.WF) :
    (headsOf d sel).map Option.isSome = (List.range d.labels.length).map sel := by
  apply List.ext_getElem
  · simp [headsOf, wf.units]
  · intro i h1 h2
    simp only [headsOf, List.map_map, List.getElem_map, List.getElem_range, Function.comp_apply, List.getElem_zipIdx, Nat.zero_add]
    split <;> simp_all

theorem pick_true {α} (l : List α) (sel : Nat → Bool) (h : ∀ i < l.length, sel i = true) : pick sel l = l := by
  unfold pick
  rw [List.filter_eq_self.2]
  · simp
  · intro x hx
    obtain ⟨a, i⟩ := x
    have := List.mem_zipIdx hx
    exact h i (by simpa using this.2.1)

theorem keepCol_nopointers {d : DataSection} (h : d.pointers = []) (p : Option Char) (j : Nat) : keepCol d p j = true := by
  simp [keepCol, h]

theorem headsOf_len (d : DataSection) (wf : d.WF) (sel : Nat → Bool) : (headsOf d sel).length = d.labels.length := by
  simp [headsOf, wf.units]

theorem filter_isSome_len {l : List (Option (Str × Str))} : (l.filter Option.isSome).length = (l.filterMap id).length := by
  induction l with
  | nil => rfl
  | cons a l ih => cases a <;> simp [ih]

end heads

section rows
variable {N : Type} [PyNum N]

theorem filterRow_eq (sel : Nat → Bool) (pre : List Bool) (r : List (Option FloatLit)) :
    filterRow (pre ++ (List.range r.length).map sel) pre.length r = .ok (pick sel r) := by
  -- generalise to a suffix of the row
  have key : ∀ (r : List (Option FloatLit)) (pre : List Bool) (k : Nat),
      filterRow (pre ++ (List.range r.length).map fun i => sel (k + i)) pre.length r =
        .ok ((r.zipIdx k |>.filter fun x => sel x.2).map Prod.fst) := by
    intro r
    induction r with
    | nil => intro pre k; rfl
    | cons a r ih =>
      intro pre k
      have := ih (pre ++ [sel k]) (k + 1)
      simp only [List.length_append, List.length_singleton] at this
      have e : pre ++ (List.range (a :: r).length).map (fun i => sel (k + i)) =
          pre ++ [sel k] ++ (List.range r.length).map fun i => sel (k + 1 + i) := by
        simp only [List.length_cons, List.range_succ_eq_map, List.map_cons, Nat.add_zero, List.map_map, List.append_assoc,
          List.singleton_append]
        congr 3
        funext i
        simp only [Function.comp_apply]
        congr 1
        omega
      rw [filterRow, e]
      have hidx : pyIdx (pre ++ [sel k] ++ (List.range r.length).map fun i => sel (k + 1 + i)) pre.length = .ok (sel k) := by
        simp
      rw [hidx]
      simp only [this, List.zipIdx_cons]
      by_cases hs : sel k <;> simp [hs]
  have := key r pre 0
  simpa [pick] using this

theorem writeCommon_eq {c : DataSection} (wf : c.WF) {r : List (Option FloatLit)} {crow : Nat} (hr : c.data[crow]? = some r)
    (pre mid post : List (Option N)) (hmid : mid.length = c.labels.length) :
    writeCommon c pre.length crow (pre ++ mid ++ post) = .ok (pre ++ r.map cellNum ++ post) := by
  have hlen : r.length = c.labels.length := wf.rect r (List.mem_of_getElem? hr)
  unfold writeCommon
  rw [wf.cols]
  have key : ∀ n, n ≤ c.labels.length → foldE (writeCell c pre.length crow) (pre ++ mid ++ post) (List.range n) =
      .ok (pre ++ ((r.map cellNum).take n ++ mid.drop n) ++ post) := by
    intro n hn
    induction n with
    | zero => simp [foldE]
    | succ n ih =>
      rw [List.range_succ, foldE_append, ih (by omega)]
      have h1 : n < r.length := by omega
      simp only [foldE, writeCell, pyIdx, hr, List.getElem?_eq_getElem h1, setIdx]
      rw [if_pos (by simp; omega)]
      have h2 : n < mid.length := by omega
      have h3 : ((r.map (cellNum (N := N))).take n).length = n := by simp; omega
      congr 1
      rw [List.append_assoc, List.set_append_right _ _ (by omega), Nat.add_sub_cancel_left, List.append_assoc,
        List.set_append_right _ _ (by omega), h3, Nat.sub_self, List.drop_eq_getElem_cons h2, List.cons_append,
        List.set_cons_zero]
      have h4 : (r.map (cellNum (N := N))).take (n + 1) = (r.map cellNum).take n ++ [cellNum r[n]] := by
        rw [List.take_succ_eq_append_getElem (by simpa using h1)]
        simp
      rw [h4]
      simp only [List.append_assoc, List.nil_append, List.cons_append]
  rw [key _ (le_refl _)]
  have e1 : (r.map (cellNum (N := N))).take c.labels.length = r.map cellNum := List.take_of_length_le (by simp; omega)
  rw [e1, List.drop_of_length_le (by omega)]
  simp

theorem commonStep_eq {common : List (Option (Nat × DataSection))} {offs : List Nat} {cid : Nat} {c : DataSection} {off : Nat}
    (wf : c.WF) (hoff : pyIdx offs (common.findIdx fun x => x.map Prod.fst == some cid) = .ok off) (m : Nat)
    (pre post : Nat → List (Option N)) (hpre : ∀ i < m, (pre i).length = off) :
    commonStep common offs
        ((List.range m).map fun i => pre i ++ List.replicate c.labels.length (some PyNum.zero) ++ post i) (some (cid, c)) =
      .ok ((List.range m).map fun i => pre i ++ commonBlock (some (cid, c)) i ++ post i) := by
  unfold commonStep
  simp only [hoff]
  split
  · rename_i h1
    have h1' : c.data.length = 1 := by rw [← wf.rows, h1]; rfl
    rw [mapE_map]
    rw [mapE_prefix _ (fun i => pre i ++ commonBlock (some (cid, c)) i ++ post i)]
    intro i hi
    have hz : c.data[0]? = some c.data[0] := List.getElem?_eq_getElem (by omega)
    rw [← hpre i hi, writeCommon_eq wf hz _ _ _ (by simp)]
    simp only [commonBlock, h1, if_true, hz, Option.getD_some]
  · rename_i h1
    rw [wf.rows]
    have e1 : ((List.range m).map fun i => pre i ++ List.replicate c.labels.length (some (PyNum.zero : N)) ++ post i).zipIdx.take c.data.length
        = (List.range (min c.data.length m)).map fun i =>
          (pre i ++ List.replicate c.labels.length (some (PyNum.zero : N)) ++ post i, i) := by
      apply List.ext_getElem
      · simp
      · intro i h1 h2; simp
    have e2 : ((List.range m).map fun i => pre i ++ List.replicate c.labels.length (some (PyNum.zero : N)) ++ post i).drop c.data.length
        = ((List.range m).drop c.data.length).map fun i => pre i ++ commonBlock (some (cid, c)) i ++ post i := by
      rw [← List.map_drop]
      apply List.map_congr_left
      intro i hi
      rw [List.mem_drop_iff_getElem] at hi
      obtain ⟨j, hj, rfl⟩ := hi
      simp only [List.getElem_range]
      simp only [commonBlock]
      rw [if_neg h1, if_neg (by omega)]
    rw [e1, e2, mapE_map]
    rw [mapE_prefix _ (fun i => pre i ++ commonBlock (some (cid, c)) i ++ post i)]
    · simp only
      rw [← List.map_append]
      congr 2
      conv_rhs => rw [← List.take_append_drop c.data.length (List.range m)]
      rw [List.take_range]
    · intro i hi
      have hz : c.data[i]? = some c.data[i] := List.getElem?_eq_getElem (by omega)
      simp only
      rw [← hpre i (by omega), writeCommon_eq wf hz _ _ _ (by simp)]
      simp only [commonBlock]
      rw [if_neg h1, if_pos (by omega), hz]
      rfl

/-- number of columns of an optional section -/
def commonCols (c : Option (Nat × DataSection)) : Nat :=
  match c with
  | none => 0
  | some c => c.2.labels.length
/-- headings of an optional section without pointers -/
def commonHeads (c : Option (Nat × DataSection)) : List (Option (Str × Str)) :=
  match c with
  | none => []
  | some c => headsOf c.2 fun _ => true
/-- an optional COMMON section that was read and of which no column is left out for the pointer -/
def CommonOk (p : Option Char) (c : Option (Nat × DataSection)) : Prop := ∀ x ∈ c, x.2.WF ∧ ∀ j < x.2.labels.length, keepCol x.2 p j = true

theorem optHeads_eq {c : Option (Nat × DataSection)} {p : Option Char} (h : CommonOk p c) : optHeads p c = .ok (commonHeads c) := by
  cases c with
  | none => rfl
  | some c =>
    have hc := h c rfl
    simp only [optHeads, commonHeads]
    rw [secHeads_eq hc.1]
    congr 1
    unfold headsOf
    apply List.map_congr_left
    intro x hx
    have hlt : x.2 < c.2.labels.length := by
      have := List.mem_zipIdx (x := x.1) (i := x.2) hx
      have hl := this.2.1
      simp only [List.length_zip, hc.1.units] at hl
      omega
    rw [hc.2 x.2 hlt]

theorem commonHeads_len {c : Option (Nat × DataSection)} {p : Option Char} (h : CommonOk p c) : (commonHeads c).length = commonCols c := by
  cases c with
  | none => rfl
  | some c =>
    simp only [commonHeads, commonCols]
    exact headsOf_len c.2 (h c rfl).1 _

theorem commonHeads_filter {c : Option (Nat × DataSection)} {p : Option Char} (h : CommonOk p c) :
    ((commonHeads c).filter Option.isSome).length = commonCols c := by
  cases c with
  | none => rfl
  | some c =>
    have hc := h c rfl
    simp only [commonHeads, commonCols]
    rw [filter_isSome_len, headsOf_filterMap, pick_true _ _ (by simp)]
    simp [hc.1.units]

theorem commonHeads_labels {c : Option (Nat × DataSection)} {p : Option Char} (h : CommonOk p c) :
    ((commonHeads c).filterMap id).map Prod.fst = commonLabels c := by
  cases c with
  | none => rfl
  | some c =>
    have hc := h c rfl
    simp only [commonHeads, commonLabels]
    rw [headsOf_filterMap, List.map_map]
    have := pick_zip_fst c.2.labels c.2.units hc.1.units fun _ => true
    rw [pick_true c.2.labels _ (by simp)] at this
    exact this
theorem commonHeads_units {c : Option (Nat × DataSection)} {p : Option Char} (h : CommonOk p c) :
    ((commonHeads c).filterMap id).map (fun x => some x.2) = commonUnits c := by
  cases c with
  | none => rfl
  | some c =>
    have hc := h c rfl
    simp only [commonHeads, commonUnits]
    rw [headsOf_filterMap, List.map_map]
    have := pick_zip_snd c.2.labels c.2.units hc.1.units fun _ => true
    rw [pick_true c.2.units _ (by simp)] at this
    exact this

theorem commonBlock_len {c : Option (Nat × DataSection)} {p : Option Char} (h : CommonOk p c) (i : Nat) :
    (commonBlock (N := N) c i).length = commonCols c := by
  cases c with
  | none => rfl
  | some c =>
    have wf := (h c rfl).1
    simp only [commonBlock, commonCols]
    split
    · rename_i h1
      have : 0 < c.2.data.length := by rw [← wf.rows, h1]; decide
      rw [List.getElem?_eq_getElem this]
      simp [wf.rect _ (List.getElem_mem this)]
    · split
      · rename_i h2
        rw [List.getElem?_eq_getElem h2]
        simp [wf.rect _ (List.getElem_mem h2)]
      · simp

/-- a step of the loop over the COMMON sections, `none` included -/
theorem commonStep_opt {common : List (Option (Nat × DataSection))} {offs : List Nat} {c : Option (Nat × DataSection)} {off : Nat}
    {p : Option Char} (h : CommonOk p c) (hoff : ∀ x ∈ c, pyIdx offs (common.findIdx fun y => y.map Prod.fst == some x.1) = .ok off) (m : Nat)
    (pre post : Nat → List (Option N)) (hpre : ∀ i < m, (pre i).length = off) :
    commonStep common offs
        ((List.range m).map fun i => pre i ++ List.replicate (commonCols c) (some PyNum.zero) ++ post i) c =
      .ok ((List.range m).map fun i => pre i ++ commonBlock c i ++ post i) := by
  cases c with
  | none => simp [commonStep, commonCols, commonBlock]
  | some c => exact commonStep_eq (h c rfl).1 (hoff c rfl) m pre post hpre

/-- the whole of `setData` for COMMON sections whose columns all belong to the dataset -/
theorem setData_eq {d : DataSection} {c1 c2 : Option (Nat × DataSection)} {p : Option Char} (wf : d.WF) (h1 : CommonOk p c1) (h2 : CommonOk p c2)
    (hne : ∀ x ∈ c1, ∀ y ∈ c2, x.1 ≠ y.1) :
    setData (N := N) d [c1, c2] p = .ok
      { labels := commonLabels c1 ++ commonLabels c2 ++ (pick (keepCol d p) d.labels).map head10
        units := commonUnits c1 ++ commonUnits c2 ++ (pick (keepCol d p) d.units).map fun u => some (head10 u)
        data := (List.range d.data.length).map fun i =>
          commonBlock c1 i ++ commonBlock c2 i ++ (pick (keepCol d p) (d.data[i]?.getD [])).map cellNum } := by
  unfold setData
  have e1 : mapE (optHeads p) [c1, c2] = .ok [commonHeads c1, commonHeads c2] := by
    simp only [mapE, optHeads_eq h1, optHeads_eq h2]
  rw [e1, secHeads_eq wf]
  simp only [List.cons_append, List.nil_append, offsetsFrom, Nat.zero_add, commonHeads_filter h1, commonHeads_filter h2]
  have hn : ∀ i < d.data.length, newRow (N := N) d
      ([commonHeads c1, commonHeads c2, headsOf d (keepCol d p)].flatten.map Option.isSome)
      [0, commonCols c1, commonCols c1 + commonCols c2] i =
      .ok (List.replicate (commonCols c1 + commonCols c2) (some PyNum.zero) ++
        (pick (keepCol d p) (d.data[i]?.getD [])).map cellNum) := by
    intro i hi
    unfold newRow
    have hr : d.data[i].length = d.labels.length := wf.rect _ (List.getElem_mem hi)
    have := filterRow_eq (keepCol d p) ((commonHeads c1 ++ commonHeads c2).map Option.isSome) d.data[i]
    rw [List.length_map, List.length_append, commonHeads_len h1, commonHeads_len h2, hr, ← headsOf_isSome d _ wf] at this
    have ef : [commonHeads c1, commonHeads c2, headsOf d (keepCol d p)].flatten.map Option.isSome =
      (commonHeads c1 ++ commonHeads c2).map Option.isSome ++ (headsOf d (keepCol d p)).map Option.isSome := by simp
    rw [ef]
    simp only [pyIdx, List.getElem?_eq_getElem hi, List.getElem?_cons_succ, List.getElem?_cons_zero, this, Option.getD_some]
  rw [wf.rows, mapE_prefix _ _ _ hn]
  simp only [foldE]
  have s1 := commonStep_opt (N := N) (common := [c1, c2]) (offs := [0, commonCols c1, commonCols c1 + commonCols c2]) (off := 0)
    h1 (by
      intro x hx
      have : c1 = some x := hx
      subst this
      simp [pyIdx, List.findIdx_cons]) d.data.length (fun _ => [])
      (fun i => List.replicate (commonCols c2) (some PyNum.zero) ++ (pick (keepCol d p) (d.data[i]?.getD [])).map cellNum)
      (fun _ _ => rfl)
  have er : ∀ i : Nat, List.replicate (commonCols c1 + commonCols c2) (some (PyNum.zero : N)) ++
        (pick (keepCol d p) (d.data[i]?.getD [])).map cellNum =
      [] ++ List.replicate (commonCols c1) (some PyNum.zero) ++ (List.replicate (commonCols c2) (some PyNum.zero) ++
        (pick (keepCol d p) (d.data[i]?.getD [])).map cellNum) := by
    intro i
    rw [List.replicate_add, List.nil_append, List.append_assoc]
  simp only [er, s1]
  have s2 := commonStep_opt (N := N) (common := [c1, c2]) (offs := [0, commonCols c1, commonCols c1 + commonCols c2])
    (off := commonCols c1) h2 (by
      intro x hx
      have : c2 = some x := hx
      subst this
      cases c1 with
      | none => simp [pyIdx, List.findIdx_cons]
      | some y =>
        have := hne y rfl x rfl
        have hb : (y.1 == x.1) = false := by simpa using this
        simp [pyIdx, List.findIdx_cons, hb]) d.data.length (fun i => commonBlock c1 i)
      (fun i => (pick (keepCol d p) (d.data[i]?.getD [])).map cellNum)
      (fun i _ => commonBlock_len h1 i)
  have er2 : ∀ i : Nat, [] ++ commonBlock c1 i ++ (List.replicate (commonCols c2) (some (PyNum.zero : N)) ++
        (pick (keepCol d p) (d.data[i]?.getD [])).map cellNum) =
      commonBlock c1 i ++ List.replicate (commonCols c2) (some PyNum.zero) ++
        (pick (keepCol d p) (d.data[i]?.getD [])).map cellNum := by
    intro i; simp
  simp only [er2, s2]
  have eh : [commonHeads c1, commonHeads c2, headsOf d (keepCol d p)].flatten.filterMap id =
      (commonHeads c1).filterMap id ++ (commonHeads c2).filterMap id ++ (headsOf d (keepCol d p)).filterMap id := by simp
  rw [eh, List.map_append, List.map_append, List.map_append, List.map_append, commonHeads_labels h1, commonHeads_labels h2,
    commonHeads_units h1, commonHeads_units h2, headsOf_filterMap, List.map_map, List.map_map]
  have a := pick_zip_fst d.labels d.units wf.units (keepCol d p)
  have b := pick_zip_snd d.labels d.units wf.units (keepCol d p)
  simp only [Function.comp_def, a, b]

end rows

end X4
