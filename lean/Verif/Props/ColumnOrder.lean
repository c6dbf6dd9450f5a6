import Verif.Spec.ColumnOrder
import Verif.Props.RowWise
/-! C117: the order of the columns, and other columns, do not matter. -/
namespace X4
variable {ρ N : Type} [PyNum N]

/-- a parser can use a column -/
def usable (p : ColParser) (c : WholeColumn N) : Bool :=
  match c.2.1 with
  | some (some u) => decide (c.1 ∈ p.labels) && decide (u ∈ p.units)
  | _ => false

/-- one cell, converted -/
def convWhole (p : ColParser) (cosine : Bool) (f : Factor) : Option (Option N) → Except PyErr (Option N)
  | none => .error .indexError
  | some none => .ok none
  | some (some x) => if cosine then (match acosVal p.scale x with | .error e => .error e | .ok a => .ok (some a)) else .ok (some (scaleVal f p.scale x))

/-- a column, converted -/
def readWhole (p : ColParser) (c : WholeColumn N) : Except PyErr (Column N) :=
  let u := match c.2.1 with | some (some u) => u | _ => []
  let cosine := p.angle && hasSub "COS".toList c.1
  let k := getConversion (if cosine then "RAD".toList else u)
  match mapE (convWhole p cosine k.1) c.2.2 with
  | .error e => .error e
  | .ok vs => .ok { label := some c.1, unit := some k.2, vals := vs }

theorem convCell_whole (p : ColParser) (cosine : Bool) (f : Factor) (i : Nat) (row : List (Option N)) :
    convCell p cosine f i row = convWhole p cosine f row[i]? := by
  unfold convCell cellAt pyIdx
  cases row[i]? with
  | none => rfl
  | some x => cases x <;> rfl

theorem mapE_map' {α β γ : Type} (f : β → Except PyErr γ) (g : α → β) (l : List α) : mapE f (l.map g) = mapE (fun x => f (g x)) l := by
  induction l with
  | nil => rfl
  | cons a l ih => simp only [List.map_cons, mapE, ih]

theorem columnsOf_get (t : Table N) (i : Nat) : (columnsOf t)[i]? = (t.labels[i]?).map fun l => (l, t.units[i]?, t.data.map fun r => r[i]?) := by
  unfold columnsOf
  rw [List.getElem?_map, List.getElem?_zipIdx]
  cases t.labels[i]? <;> simp

theorem columnsOf_length (t : Table N) : (columnsOf t).length = t.labels.length := by simp [columnsOf]

theorem isMatch_usable (p : ColParser) (t : Table N) (i : Nat) (c : WholeColumn N) (h : (columnsOf t)[i]? = some c) : p.isMatch t i = usable p c := by
  rw [columnsOf_get] at h
  obtain ⟨l, hl, rfl⟩ := Option.map_eq_some_iff.1 h
  unfold ColParser.isMatch usable
  rw [hl]
  cases t.units[i]? with
  | none => rfl
  | some u => cases u <;> rfl

/-- the first match is the first usable column -/
theorem firstMatch_column (p : ColParser) (t : Table N) :
    (p.firstMatch t).bind (fun i => (columnsOf t)[i]?) = (columnsOf t).find? (usable p) := by
  unfold ColParser.firstMatch
  rw [← columnsOf_length]
  generalize hc : columnsOf t = cs
  have hm : ∀ i c, cs[i]? = some c → p.isMatch t i = usable p c := fun i c h => isMatch_usable p t i c (hc ▸ h)
  clear hc
  have key : ∀ (l : List (WholeColumn N)) (n : Nat), (∀ i c, l[i]? = some c → p.isMatch t (n + i) = usable p c) →
      ((List.range' n l.length).find? (p.isMatch t)).bind (fun i => l[i - n]?) = l.find? (usable p) ∧
      ∀ i ∈ (List.range' n l.length).find? (p.isMatch t), n ≤ i := by
    intro l
    induction l with
    | nil => intro n _; simp
    | cons c l ih =>
      intro n h
      have h0 := h 0 c rfl
      rw [Nat.add_zero] at h0
      obtain ⟨g1, g2⟩ := ih (n + 1) (fun i c hi => by rw [Nat.add_assoc, Nat.add_comm 1 i]; exact h (i + 1) c (by simpa using hi))
      rw [List.length_cons, List.range'_succ, List.find?_cons, List.find?_cons]
      rw [h0]
      cases hu : usable p c with
      | true => simp
      | false =>
        refine ⟨?_, fun i hi => by have := g2 i hi; omega⟩
        simp only
        rw [← g1]
        cases hf : (List.range' (n + 1) l.length).find? (p.isMatch t) with
        | none => rfl
        | some i =>
          have := g2 i hf
          obtain ⟨j, rfl⟩ : ∃ j, i = n + 1 + j := ⟨i - (n + 1), by omega⟩
          simp only [Option.bind_some]
          rw [show n + 1 + j - n = j + 1 by omega, show n + 1 + j - (n + 1) = j by omega, List.getElem?_cons_succ]
  have := (key cs 0 (by simpa using hm)).1
  rw [List.range_eq_range']
  simpa using this

theorem firstMatch_isSome (p : ColParser) (t : Table N) : (p.firstMatch t).isSome = ((columnsOf t).find? (usable p)).isSome := by
  rw [← firstMatch_column]
  cases hf : p.firstMatch t with
  | none => rfl
  | some i =>
    have hi : i ∈ List.range t.labels.length := List.mem_of_find?_eq_some hf
    rw [← columnsOf_length, List.mem_range] at hi
    simp [List.getElem?_eq_getElem hi]

/-- the column a parser finds, in terms of the columns -/
theorem find_column (p : ColParser) (t : Table N) :
    p.find t = (((columnsOf t).find? (usable p)).map (readWhole p)).getD (.ok { label := none, unit := none, vals := List.replicate t.data.length none }) := by
  rw [← firstMatch_column]
  unfold ColParser.find ColParser.getColumn
  cases hf : p.firstMatch t with
  | none => rfl
  | some i =>
    have hi : i < t.labels.length := List.mem_range.1 (List.mem_of_find?_eq_some hf)
    have hm : p.isMatch t i = true := by simpa using List.find?_some hf
    simp only [Option.bind_some, columnsOf_get, List.getElem?_eq_getElem hi, Option.map_some]
    have hm' := hm
    unfold ColParser.isMatch at hm'
    rw [List.getElem?_eq_getElem hi] at hm'
    cases hu : t.units[i]? with
    | none => simp [hu] at hm'
    | some u =>
      cases u with
      | none => simp [hu] at hm'
      | some u =>
        simp only [hm, if_true]
        unfold ColParser.readColumn readWhole
        have hx : ∀ (b : Bool) (f : Factor), mapE (convCell p b f i) t.data = mapE (convWhole p b f) (t.data.map fun r => r[i]?) := by
          intro b f
          rw [mapE_map']
          congr 1
          funext r
          exact convCell_whole p b f i r
        simp only [hx]
        generalize mapE _ (t.data.map fun r => r[i]?) = z
        cases z <;> rfl

/-- two tables in which the parsers read the same columns -/
structure SameFor (ps : List ColParser) (t t' : Table N) : Prop where
  rows : t.data.length = t'.data.length
  cols : ∀ p ∈ ps, ((columnsOf t).find? (usable p)).map (readWhole p) = ((columnsOf t').find? (usable p)).map (readWhole p)

/-- the parsers of a pair -/
def Pair.parts : Pair → List ColParser
  | .missing c1 | .constPct c1 => [c1]
  | .indep c1 c2 | .highLow c1 c2 | .barnsSqrtE c1 c2 => [c1, c2]
  | .highMidLow c1 c2 c3 | .addErr c1 c2 c3 => [c1, c2, c3]

theorem dummy_same {t t' : Table N} (h : t.data.length = t'.data.length) : dummy t = dummy t' := by unfold dummy; rw [h]

theorem find_same {ps : List ColParser} {t t' : Table N} (h : SameFor ps t t') {p : ColParser} (hp : p ∈ ps) : p.find t = p.find t' := by
  rw [find_column, find_column, h.cols p hp, h.rows]
theorem first_same {ps : List ColParser} {t t' : Table N} (h : SameFor ps t t') {p : ColParser} (hp : p ∈ ps) :
    (p.firstMatch t).isSome = (p.firstMatch t').isSome := by
  have := congrArg Option.isSome (h.cols p hp)
  rw [Option.isSome_map, Option.isSome_map] at this
  rw [firstMatch_isSome, firstMatch_isSome, this]

theorem isMatch_same {q : Pair} {t t' : Table N} (h : SameFor q.parts t t') : q.isMatch t = q.isMatch t' := by
  have hf : ∀ p ∈ q.parts, (p.firstMatch t).isSome = (p.firstMatch t').isSome := fun p hp => first_same h hp
  cases q with
  | missing c1 => simp only [Pair.isMatch, hf c1 (by simp [Pair.parts])]
  | constPct c1 => simp only [Pair.isMatch, hf c1 (by simp [Pair.parts])]
  | indep c1 c2 => simp only [Pair.isMatch, hf c1 (by simp [Pair.parts]), hf c2 (by simp [Pair.parts])]
  | highLow c1 c2 => simp only [Pair.isMatch, hf c1 (by simp [Pair.parts]), hf c2 (by simp [Pair.parts])]
  | highMidLow c1 c2 c3 =>
    simp only [Pair.isMatch, hf c1 (by simp [Pair.parts]), hf c2 (by simp [Pair.parts]), hf c3 (by simp [Pair.parts])]
  | addErr c1 c2 c3 =>
    simp only [Pair.isMatch, hf c1 (by simp [Pair.parts]), hf c2 (by simp [Pair.parts]), hf c3 (by simp [Pair.parts])]
  | barnsSqrtE c2 c3 => simp only [Pair.isMatch, hf c2 (by simp [Pair.parts])]

theorem value0_same {q : Pair} {t t' : Table N} (h : SameFor q.parts t t') : q.value0 t = q.value0 t' := by
  have hd := dummy_same h.rows
  have hm := isMatch_same h
  cases q with
  | missing c1 => simp only [Pair.value0, find_same h (p := c1) (by simp [Pair.parts])]
  | constPct c1 => simp only [Pair.value0, find_same h (p := c1) (by simp [Pair.parts])]
  | indep c1 c2 => simp only [Pair.value0, find_same h (p := c1) (by simp [Pair.parts]), hm, hd]
  | highLow c1 c2 => simp only [Pair.value0, find_same h (p := c1) (by simp [Pair.parts]), find_same h (p := c2) (by simp [Pair.parts]), hm, hd]
  | highMidLow c1 c2 c3 =>
    simp only [Pair.value0, find_same h (p := c1) (by simp [Pair.parts]), find_same h (p := c2) (by simp [Pair.parts]),
      find_same h (p := c3) (by simp [Pair.parts]), hm, hd]
  | addErr c1 c2 c3 => simp only [Pair.value0, find_same h (p := c1) (by simp [Pair.parts]), hm, hd]
  | barnsSqrtE c2 c3 => simp only [Pair.value0, hd]

theorem sqrtE_same {ps : List ColParser} {t t' : Table N} (h : SameFor ps t t') {p : ColParser} (hp : p ∈ ps) : sqrtEColumn t p = sqrtEColumn t' p := by
  unfold sqrtEColumn
  have : energyColumn t = energyColumn t' := by unfold energyColumn energyParserList; rfl
  rw [this, find_same h hp]

theorem getValue_same {q : Pair} {t t' : Table N} (h : SameFor q.parts t t') : q.getValue t = q.getValue t' := by
  have hm := isMatch_same h
  have hd := dummy_same h.rows
  have hv := value0_same h
  cases q with
  | barnsSqrtE c2 c3 => simp only [Pair.getValue, hm, hd, sqrtE_same h (p := c2) (by simp [Pair.parts])]
  | _ => simpa only [Pair.getValue] using hv

theorem error0_same {q : Pair} {t t' : Table N} (h : SameFor q.parts t t') : q.error0 t = q.error0 t' := by
  have hd := dummy_same h.rows
  cases q with
  | missing c1 => simp only [Pair.error0, hd]
  | constPct c1 => simp only [Pair.error0, find_same h (p := c1) (by simp [Pair.parts])]
  | indep c1 c2 => simp only [Pair.error0, find_same h (p := c1) (by simp [Pair.parts]), find_same h (p := c2) (by simp [Pair.parts])]
  | highLow c1 c2 => simp only [Pair.error0, find_same h (p := c1) (by simp [Pair.parts]), find_same h (p := c2) (by simp [Pair.parts])]
  | highMidLow c1 c2 c3 =>
    simp only [Pair.error0, find_same h (p := c1) (by simp [Pair.parts]), find_same h (p := c2) (by simp [Pair.parts]),
      find_same h (p := c3) (by simp [Pair.parts])]
  | addErr c1 c2 c3 =>
    simp only [Pair.error0, find_same h (p := c1) (by simp [Pair.parts]), find_same h (p := c2) (by simp [Pair.parts]),
      find_same h (p := c3) (by simp [Pair.parts]), hd]
  | barnsSqrtE c2 c3 => simp only [Pair.error0, sqrtE_same h (p := c3) (by simp [Pair.parts])]

theorem getError_same {q : Pair} {t t' : Table N} (h : SameFor q.parts t t') : q.getError t = q.getError t' := by
  unfold Pair.getError
  rw [isMatch_same h, error0_same h, dummy_same h.rows]

theorem mapE_congr' {α β : Type} {f g : α → Except PyErr β} {l : List α} (h : ∀ x ∈ l, f x = g x) : mapE f l = mapE g l := by
  induction l with
  | nil => rfl
  | cons a l ih => simp only [mapE, h a (by simp), ih fun x hx => h x (by simp [hx])]

theorem condensed_same {ps : List Pair} {t t' : Table N} (h : ∀ q ∈ ps, q.getValue t = q.getValue t' ∧ q.getError t = q.getError t') :
    condensed t ps = condensed t' ps := by
  unfold condensed
  rw [mapE_congr' fun q hq => (h q hq).1, mapE_congr' fun q hq => (h q hq).2]

theorem simplifyTable_same {pm : Dict Str (List Pair)} {t t' : Table N} (hr : t.data.length = t'.data.length)
    (h : ∀ kv ∈ pm, ∀ q ∈ kv.2, q.getValue t = q.getValue t' ∧ q.getError t = q.getError t') (names : List Str) (makeAll failMissing : Bool) :
    simplifyTable t pm names makeAll failMissing = simplifyTable t' pm names makeAll failMissing := by
  unfold simplifyTable
  have : mapE (readColumns t) pm = mapE (readColumns t') pm := mapE_congr' fun kv hkv => by
    unfold readColumns
    rw [condensed_same (h kv hkv)]
  rw [this, hr]

/-- the headings of each parser are of one family -/
theorem parts_family {k : DsKind} {m : Dict Str (List Pair) × List Str} (h : parserMapOf k = some m) :
    ∀ kv ∈ m.1, ∀ q ∈ kv.2, ∀ p ∈ q.parts, ∃ F ∈ headingFamilies k, ∀ l ∈ p.labels, l ∈ F.map String.toList := by
  cases k <;> first | (simp [parserMapOf] at h; done) | (rw [← Option.some.inj h]; decide +kernel)

theorem find_filter {α : Type} {p q : α → Bool} (h : ∀ x, p x = true → q x = true) (l : List α) : l.find? p = (l.filter q).find? p := by
  induction l with
  | nil => rfl
  | cons a l ih =>
    rw [List.find?_cons, List.filter_cons]
    cases hp : p a with
    | true => simp [h a hp, hp]
    | false =>
      cases hq : q a with
      | true => simp [hp, ih]
      | false => simpa using ih

theorem perm_short {α : Type} {l l' : List α} (h : l.Perm l') (hl : l.length ≤ 1) : l = l' := by
  match l, hl with
  | [], _ => exact h.nil_eq
  | [a], _ => exact (List.perm_singleton.1 h.symm).symm

/-- two datasets from which the parsers of the class get the same values and uncertainties -/
theorem simplified_pairs (d d' : DataSet ρ N) (makeAll failMissing : Bool) (hk : d.kind = d'.kind)
    (hs : d.simplified = false) (hs' : d'.simplified = false) (hr : d.data.length = d'.data.length) (m : Dict Str (List Pair) × List Str)
    (hm : parserMapOf d.kind = some m) (h : ∀ kv ∈ m.1, ∀ q ∈ kv.2, q.getValue d.table = q.getValue d'.table ∧ q.getError d.table = q.getError d'.table) :
    (d.getSimplified makeAll failMissing).map DataSet.table = (d'.getSimplified makeAll failMissing).map DataSet.table := by
  have e : ∀ (d : DataSet ρ N), parserMapOf d.kind = some m → d.simplified = false →
      (d.getSimplified makeAll failMissing).map DataSet.table = simplifyTable d.table m.1 m.2 makeAll failMissing := by
    intro d hm hs
    have e1 : d.getSimplified makeAll failMissing = d.simplifyWith (some m) makeAll failMissing := by
      unfold DataSet.getSimplified
      cases hk : d.kind <;> rw [hk] at hm <;> first | (simp [parserMapOf] at hm; done) | (simp only [hm])
    rw [e1]
    unfold DataSet.simplifyWith
    rw [hs]
    simp only [Bool.false_eq_true, if_false]
    cases simplifyTable d.table m.1 m.2 makeAll failMissing <;> rfl
  rw [e d hm hs, e d' (hk ▸ hm) hs']
  exact simplifyTable_same hr h _ _ _

/-- two datasets in which the parsers of the class read the same columns -/
theorem simplified_same (d d' : DataSet ρ N) (makeAll failMissing : Bool) (hk : d.kind = d'.kind)
    (hs : d.simplified = false) (hs' : d'.simplified = false) (hr : d.data.length = d'.data.length) (m : Dict Str (List Pair) × List Str)
    (hm : parserMapOf d.kind = some m) (h : ∀ kv ∈ m.1, ∀ q ∈ kv.2, SameFor q.parts d.table d'.table) :
    (d.getSimplified makeAll failMissing).map DataSet.table = (d'.getSimplified makeAll failMissing).map DataSet.table :=
  simplified_pairs d d' makeAll failMissing hk hs hs' hr m hm fun kv hkv q hq => ⟨getValue_same (h kv hkv q hq), getError_same (h kv hkv q hq)⟩

theorem usable_family {p : ColParser} {F : List String} (hl : ∀ l ∈ p.labels, l ∈ F.map String.toList) (c : WholeColumn N) (hu : usable p c = true) :
    inFamily F c.1 = true := by
  unfold usable at hu
  have : c.1 ∈ p.labels := by
    split at hu
    · simp only [Bool.and_eq_true, decide_eq_true_eq] at hu; exact hu.1
    · cases hu
  obtain ⟨s, hs, he⟩ := List.mem_map.1 (hl _ this)
  exact List.any_eq_true.2 ⟨s, hs, by simpa using he⟩

/-- C117: simplifying datasets of the same class gives the same headings, units and rows, or the same exception, if for every family of
headings the columns are the same, in the same order. The places of columns of different families, and columns with other headings, do
not matter. -/
theorem C117_families (d d' : DataSet ρ N) (makeAll failMissing : Bool) (hk : d.kind = d'.kind) (hp : (parserMapOf d.kind).isSome)
    (hs : d.simplified = false) (hs' : d'.simplified = false) (hr : d.data.length = d'.data.length)
    (hc : ∀ F ∈ headingFamilies d.kind, ((columnsOf d.table).filter fun c => inFamily F c.1) = (columnsOf d'.table).filter fun c => inFamily F c.1) :
    (d.getSimplified makeAll failMissing).map DataSet.table = (d'.getSimplified makeAll failMissing).map DataSet.table := by
  obtain ⟨m, hm⟩ := Option.isSome_iff_exists.1 hp
  refine simplified_same d d' makeAll failMissing hk hs hs' hr m hm fun kv hkv q hq => ⟨hr, fun p hpp => ?_⟩
  obtain ⟨F, hF, hl⟩ := parts_family hm kv hkv q hq p hpp
  have hin := usable_family (N := N) hl
  rw [find_filter (q := fun c => inFamily F c.1) hin, find_filter (q := fun c => inFamily F c.1) hin (columnsOf d'.table), hc F hF]

/-- C117, for columns of interest in any order, if no family of headings comes twice. -/
theorem C117_order_partial (d d' : DataSet ρ N) (makeAll failMissing : Bool) (hk : d.kind = d'.kind) (hp : (parserMapOf d.kind).isSome)
    (hs : d.simplified = false) (hs' : d'.simplified = false) (hr : d.data.length = d'.data.length)
    (hc : ((columnsOf d.table).filter fun c => ofInterest d.kind c.1).Perm ((columnsOf d'.table).filter fun c => ofInterest d.kind c.1))
    (h1 : OneEach d.kind d.labels) :
    (d.getSimplified makeAll failMissing).map DataSet.table = (d'.getSimplified makeAll failMissing).map DataSet.table := by
  refine C117_families d d' makeAll failMissing hk hp hs hs' hr fun F hF => ?_
  have hint : ∀ c : WholeColumn N, inFamily F c.1 = true → ofInterest d.kind c.1 = true := fun c h => List.any_eq_true.2 ⟨F, hF, h⟩
  have hfil : ∀ l : List (WholeColumn N), (l.filter fun c => inFamily F c.1) = (l.filter fun c => ofInterest d.kind c.1).filter fun c => inFamily F c.1 := by
    intro l
    rw [List.filter_filter]
    apply List.filter_congr
    intro c _
    cases hi : inFamily F c.1 with
    | true => simp [hint c hi]
    | false => rfl
  have hperm : ((columnsOf d.table).filter fun c => inFamily F c.1).Perm ((columnsOf d'.table).filter fun c => inFamily F c.1) := by
    rw [hfil, hfil (columnsOf d'.table)]
    exact hc.filter _
  refine perm_short hperm ?_
  have hlab : (columnsOf d.table).map (fun c => c.1) = d.labels := by
    unfold columnsOf
    rw [List.map_map]
    exact List.zipIdx_map_fst 0 d.labels
  have := h1 F hF
  rw [← hlab, List.filter_map, List.length_map] at this
  exact this

/-! ### Datasets with columns in different order -/

/-- a cross section with the given columns (heading, unit, value), in one row -/
def oneRow (cols : List (Str × Str × Option N)) : DataSet (Option (List Str) × List (List Str)) N :=
  { kind := .crossSection, info := {}, reaction := some ((some ["SIG".toList], []), []), monitor := none, coupled := false,
    labels := cols.map fun c => c.1, units := cols.map fun c => some c.2.1, data := [cols.map fun c => c.2.2] }

/-- C117 is false if a family comes twice: of an energy and a mean energy the simplified dataset shows the one that stands further left. -/
theorem C117_order_refuted (x y v : N) : ∃ r r',
    (columnsOf (oneRow [("EN".toList, "MEV".toList, some x), ("EN-MEAN".toList, "MEV".toList, some y), ("DATA".toList, "B".toList, some v)]).table).Perm
      (columnsOf (oneRow [("EN-MEAN".toList, "MEV".toList, some y), ("EN".toList, "MEV".toList, some x), ("DATA".toList, "B".toList, some v)]).table) ∧
    (oneRow [("EN".toList, "MEV".toList, some x), ("EN-MEAN".toList, "MEV".toList, some y), ("DATA".toList, "B".toList, some v)]).getSimplified false false = .ok r ∧
    (oneRow [("EN-MEAN".toList, "MEV".toList, some y), ("EN".toList, "MEV".toList, some x), ("DATA".toList, "B".toList, some v)]).getSimplified false false = .ok r' ∧
    r.data = [[some (scaleVal (.dec 1 0) (.dec 1 0) x), some (scaleVal (.dec 1 0) (.dec 1 0) v)]] ∧
    r'.data = [[some (scaleVal (.dec 1 0) (.dec 1 0) y), some (scaleVal (.dec 1 0) (.dec 1 0) v)]] := by
  refine ⟨_, _, ?_, rfl, rfl, rfl, rfl⟩
  exact List.Perm.swap _ _ _

/-- the hypothesis of `C117_families`, with two energies -/
example (x y v : N) : ∀ F ∈ headingFamilies .crossSection,
    ((columnsOf (oneRow [("EN".toList, "MEV".toList, some x), ("EN-MEAN".toList, "MEV".toList, some y), ("DATA".toList, "B".toList, some v)]).table).filter
      fun c => inFamily F c.1) =
    (columnsOf (oneRow [("DATA".toList, "B".toList, some v), ("EN".toList, "MEV".toList, some x), ("EN-MEAN".toList, "MEV".toList, some y)]).table).filter
      fun c => inFamily F c.1 := by
  have h : ∀ F ∈ headingFamilies .crossSection,
      inFamily F "DATA".toList = false ∨ inFamily F "EN".toList = false ∧ inFamily F "EN-MEAN".toList = false := by decide +kernel
  have g : ∀ (f : WholeColumn N → Bool) (a b c : WholeColumn N), f c = false ∨ f a = false ∧ f b = false → [a, b, c].filter f = [c, a, b].filter f := by
    intro f a b c h
    rcases h with h | ⟨h, h'⟩ <;> simp [List.filter_cons, *]
  exact fun F hF => g _ _ _ _ (h F hF)

/-- the hypotheses of `C117_order_partial`: another order and a further column -/
example (x y v : N) : OneEach .crossSection (oneRow [("EN".toList, "MEV".toList, some x), ("DATA".toList, "B".toList, some v)]).labels ∧
    ((columnsOf (oneRow [("EN".toList, "MEV".toList, some x), ("DATA".toList, "B".toList, some v)]).table).filter fun c => ofInterest .crossSection c.1).Perm
      ((columnsOf (oneRow [("DATA".toList, "B".toList, some v), ("MISC".toList, "NO-DIM".toList, some y), ("EN".toList, "MEV".toList, some x)]).table).filter
        fun c => ofInterest .crossSection c.1) := by
  constructor
  · intro F hF
    have : ∀ F ∈ headingFamilies .crossSection, (["EN".toList, "DATA".toList].filter (inFamily F)).length ≤ 1 := by decide +kernel
    exact this F hF
  · exact List.Perm.swap _ _ _

end X4
