import Verif.Spec.UnitChoice
import Verif.Props.ColumnOrder
import Verif.Props.SI
/-! C118: the choice of units does not matter. -/
namespace X4
variable {ρ : Type}

/-- every parser of a class takes all the units of a kind, or none -/
theorem parts_units {k : DsKind} {m : Dict Str (List Pair) × List Str} (hm : parserMapOf k = some m) :
    ∀ kv ∈ m.1, ∀ q ∈ kv.2, ∀ p ∈ q.parts, ∀ x ∈ siUnits, x.1 ∈ freeUnits → ∀ y ∈ siUnits, y.1 ∈ freeUnits →
      x.2.1.dimension = y.2.1.dimension → (x.1 ∈ p.units ↔ y.1 ∈ p.units) := by
  cases k <;> first | (simp [parserMapOf] at hm; done) | (simp only [parserMapOf, Option.some.injEq] at hm; subst hm; decide +kernel)

/-- all the units of a kind become the same unit -/
theorem conversion_units : ∀ x ∈ siUnits, x.1 ∈ freeUnits → ∀ y ∈ siUnits, y.1 ∈ freeUnits →
      x.2.1.dimension = y.2.1.dimension → (getConversion x.1).2 = (getConversion y.1).2 := by decide +kernel

theorem free_units : ∀ u ∈ freeUnits, u ∉ ["K".toList, "SR".toList, "ARB-UNITS".toList] := by decide +kernel

theorem size_pos (b : BaseUnit) : 0 < b.size := by
  cases b <;> simp only [BaseUnit.size] <;> first | positivity | norm_num

/-- the same quantity becomes the same number -/
theorem scaleVal_same {u u' : Str} {b b' : BaseUnit} {n n' : ℤ} (hu : u ∈ freeUnits) (hu' : u' ∈ freeUnits) (hi : IsUnit u b n) (hi' : IsUnit u' b' n')
    (hd : b.dimension = b'.dimension) (s : Factor) {x x' : ℝ} (hx : x * (10 ^ n * b.size) = x' * (10 ^ n' * b'.size)) :
    scaleVal (getConversion u).1 s x = scaleVal (getConversion u').1 s x' := by
  obtain ⟨c, k, h1, -, h2⟩ := C92_quantity_partial u b n hi (free_units u hu) x
  obtain ⟨c', k', h1', -, h2'⟩ := C92_quantity_partial u' b' n' hi' (free_units u' hu') x'
  rw [conversion_units _ hi hu _ hi' hu' hd] at h1
  obtain ⟨rfl, rfl⟩ := h1.unique h1'
  have hk : (0 : ℝ) < 10 ^ k * c.size := mul_pos (zpow_pos (by norm_num) _) (size_pos c)
  have : scaleVal (getConversion u).1 (.dec 1 0) x = scaleVal (getConversion u').1 (.dec 1 0) x' := by
    rw [mul_assoc] at h2 h2'
    rw [mul_assoc] at h2 h2'
    exact mul_right_cancel₀ hk.ne' (by rw [h2, h2', hx])
  simp only [scaleVal, Factor.val, RealNum.dec_eq, RealNum.mul_eq, RealNum.add_eq, RealNum.zero_eq, add_zero, Int.cast_one, zpow_zero, mul_one] at this ⊢
  rw [this]

theorem mapE_forall₂ {α β : Type} {R : α → α → Prop} {f g : α → Except PyErr β} {l l' : List α} (h : List.Forall₂ R l l')
    (hf : ∀ a a', R a a' → f a = g a') : mapE f l = mapE g l' := by
  induction h with
  | nil => rfl
  | cons ha _ ih => simp only [mapE, hf _ _ ha, ih]

/-- a parser reads the same from both columns -/
theorem readWhole_units {p : ColParser} {c c' : WholeColumn ℝ} (h : OtherUnit c c') : readWhole p c = readWhole p c' := by
  obtain ⟨hh, hc, u, b, n, u', b', n', e, e', hu, hu', hi, hi', hd, hs⟩ := h
  have hcos : (p.angle && hasSub "COS".toList c.1) = false := by
    rw [Bool.not_eq_true] at hc
    rw [hc, Bool.and_false]
  unfold readWhole
  rw [e, e', ← hh, hcos]
  simp only [Bool.false_eq_true, if_false]
  rw [conversion_units _ hi hu _ hi' hu' hd, mapE_forall₂ hs]
  rintro (_ | _ | x) (_ | _ | x') hr
  all_goals first | (simp only [SameSize, reduceCtorEq, Option.some.injEq] at hr; done) | rfl | skip
  simp only [convWhole, Bool.false_eq_true, if_false]
  rw [scaleVal_same hu hu' hi hi' hd p.scale hr]

theorem usable_units {p : ColParser} {c c' : WholeColumn ℝ} (h : OtherUnit c c')
    (hp : ∀ x ∈ siUnits, x.1 ∈ freeUnits → ∀ y ∈ siUnits, y.1 ∈ freeUnits → x.2.1.dimension = y.2.1.dimension → (x.1 ∈ p.units ↔ y.1 ∈ p.units)) :
    usable p c = usable p c' := by
  obtain ⟨hh, hc, u, b, n, u', b', n', e, e', hu, hu', hi, hi', hd, hs⟩ := h
  unfold usable
  rw [e, e', hh]
  simp only
  rw [decide_eq_decide.2 (hp _ hi hu _ hi' hu' hd)]

theorem find_forall₂ {α β : Type} {f : α → Bool} {g : α → β} {l l' : List α} (h : List.Forall₂ (fun a a' => f a = f a' ∧ g a = g a') l l') :
    (l.find? f).map g = (l'.find? f).map g := by
  induction h with
  | nil => rfl
  | cons ha _ ih =>
    rw [List.find?_cons, List.find?_cons, ← ha.1]
    split
    · simp only [Option.map_some, ha.2]
    · exact ih

/-- C118, in exact arithmetic: simplifying datasets of the same class gives the same headings, units and rows, or the same exception, if
for every family of headings the columns are the same up to the choice of the units, in the same order. -/
theorem C118_units_partial (d d' : DataSet ρ ℝ) (makeAll failMissing : Bool) (hk : d.kind = d'.kind) (hp : (parserMapOf d.kind).isSome)
    (hs : d.simplified = false) (hs' : d'.simplified = false) (hr : d.data.length = d'.data.length)
    (hc : ∀ F ∈ headingFamilies d.kind, List.Forall₂ SameQuantities ((columnsOf d.table).filter fun c => inFamily F c.1)
      ((columnsOf d'.table).filter fun c => inFamily F c.1)) :
    (d.getSimplified makeAll failMissing).map DataSet.table = (d'.getSimplified makeAll failMissing).map DataSet.table := by
  obtain ⟨m, hm⟩ := Option.isSome_iff_exists.1 hp
  refine simplified_same d d' makeAll failMissing hk hs hs' hr m hm fun kv hkv q hq => ⟨hr, fun p hpp => ?_⟩
  obtain ⟨F, hF, hl⟩ := parts_family hm kv hkv q hq p hpp
  have hin := usable_family (N := ℝ) hl
  rw [find_filter (q := fun c => inFamily F c.1) hin, find_filter (q := fun c => inFamily F c.1) hin (columnsOf d'.table)]
  refine find_forall₂ ((hc F hF).imp fun a b hab => ?_)
  rcases hab with rfl | hab
  · exact ⟨rfl, rfl⟩
  · exact ⟨usable_units hab (parts_units hm kv hkv q hq p hpp), readWhole_units hab⟩

/-- C118, column by column: the units of any of the columns may be changed. -/
theorem C118_columns_partial (d d' : DataSet ρ ℝ) (makeAll failMissing : Bool) (hk : d.kind = d'.kind) (hp : (parserMapOf d.kind).isSome)
    (hs : d.simplified = false) (hs' : d'.simplified = false) (hr : d.data.length = d'.data.length)
    (hc : List.Forall₂ SameQuantities (columnsOf d.table) (columnsOf d'.table)) :
    (d.getSimplified makeAll failMissing).map DataSet.table = (d'.getSimplified makeAll failMissing).map DataSet.table := by
  refine C118_units_partial d d' makeAll failMissing hk hp hs hs' hr fun F _ => ?_
  generalize columnsOf d.table = l at hc
  generalize columnsOf d'.table = l' at hc
  induction hc with
  | nil => exact .nil
  | @cons a a' l l' ha _ ih =>
    have hh : a.1 = a'.1 := by rcases ha with rfl | ha; exacts [rfl, ha.heading]
    rw [List.filter_cons, List.filter_cons, ← hh]
    split
    · exact .cons ha ih
    · exact ih

theorem forall₂_filter {α : Type} {R : α → α → Prop} {f : α → Bool} {l l' : List α} (h : List.Forall₂ R l l') (hf : ∀ a a', R a a' → f a = f a') :
    List.Forall₂ R (l.filter f) (l'.filter f) := by
  induction h with
  | nil => exact .nil
  | @cons a a' l l' ha _ ih =>
    rw [List.filter_cons, List.filter_cons, ← hf a a' ha]
    split
    · exact .cons ha ih
    · exact ih

theorem SameQuantities.head {c c' : WholeColumn ℝ} (h : SameQuantities c c') : c.1 = c'.1 := by rcases h with rfl | h; exacts [rfl, h.heading]

/-- C118, for columns of interest in any order, if no family of headings comes twice. -/
theorem C118_order_partial (d d' : DataSet ρ ℝ) (makeAll failMissing : Bool) (hk : d.kind = d'.kind) (hp : (parserMapOf d.kind).isSome)
    (hs : d.simplified = false) (hs' : d'.simplified = false) (hr : d.data.length = d'.data.length) (ws : List (WholeColumn ℝ))
    (hw : ((columnsOf d.table).filter fun c => ofInterest d.kind c.1).Perm ws)
    (hc : List.Forall₂ SameQuantities ws ((columnsOf d'.table).filter fun c => ofInterest d.kind c.1)) (h1 : OneEach d.kind d.labels) :
    (d.getSimplified makeAll failMissing).map DataSet.table = (d'.getSimplified makeAll failMissing).map DataSet.table := by
  refine C118_units_partial d d' makeAll failMissing hk hp hs hs' hr fun F hF => ?_
  have hint : ∀ c : WholeColumn ℝ, inFamily F c.1 = true → ofInterest d.kind c.1 = true := fun c h => List.any_eq_true.2 ⟨F, hF, h⟩
  have hfil : ∀ l : List (WholeColumn ℝ), (l.filter fun c => inFamily F c.1) = (l.filter fun c => ofInterest d.kind c.1).filter fun c => inFamily F c.1 := by
    intro l
    rw [List.filter_filter]
    apply List.filter_congr
    intro c _
    cases hi : inFamily F c.1 with
    | true => simp [hint c hi]
    | false => rfl
  have hlab : (columnsOf d.table).map (fun c => c.1) = d.labels := by
    unfold columnsOf
    rw [List.map_map]
    exact List.zipIdx_map_fst 0 d.labels
  have hone := h1 F hF
  rw [← hlab, List.filter_map, List.length_map] at hone
  have hperm : ((columnsOf d.table).filter fun c => inFamily F c.1).Perm (ws.filter fun c => inFamily F c.1) := by
    rw [hfil]
    exact hw.filter _
  rw [perm_short hperm hone, hfil (columnsOf d'.table)]
  exact forall₂_filter hc fun a a' h => by rw [h.head]

/-! ### Datasets in different units -/

/-- C118_columns_partial: an energy in KEV or MEV, a cross section in MB or B -/
example (x v : ℝ) (makeAll failMissing : Bool) :
    ((oneRow [("EN".toList, "KEV".toList, some (1000 * x)), ("DATA".toList, "MB".toList, some (1000 * v))]).getSimplified makeAll failMissing).map DataSet.table =
    ((oneRow [("EN".toList, "MEV".toList, some x), ("DATA".toList, "B".toList, some v)]).getSimplified makeAll failMissing).map DataSet.table := by
  refine C118_columns_partial _ _ makeAll failMissing rfl rfl rfl rfl rfl (.cons (.inr ⟨rfl, show ¬ hasSub "COS".toList "EN".toList = true by decide, ?_⟩)
    (.cons (.inr ⟨rfl, show ¬ hasSub "COS".toList "DATA".toList = true by decide, ?_⟩) .nil))
  · refine ⟨"KEV".toList, .electronvolt, 3, "MEV".toList, .electronvolt, 6, rfl, rfl, by decide +kernel, by decide +kernel, by decide +kernel, by decide +kernel, rfl, .cons ?_ .nil⟩
    show 1000 * x * _ = x * _
    norm_num
    ring
  · refine ⟨"MB".toList, .barn, -3, "B".toList, .barn, 0, rfl, rfl, by decide +kernel, by decide +kernel, by decide +kernel, by decide +kernel, rfl, .cons ?_ .nil⟩
    show 1000 * v * _ = v * _
    norm_num
    ring

/-- C118 is false for temperatures: the same energy, once as a temperature in Kelvin and once in electronvolts, becomes two different
energies. -/
theorem C118_kelvin_refuted (T E v : ℝ) (hT : 0 < T) (hE : T * (10 ^ (0 : ℤ) * BaseUnit.kelvin.size) = E * (10 ^ (0 : ℤ) * BaseUnit.electronvolt.size)) : ∃ r r' x x' y,
    (oneRow [("EN".toList, "K".toList, some T), ("DATA".toList, "B".toList, some v)]).getSimplified false false = .ok r ∧
    (oneRow [("EN".toList, "EV".toList, some E), ("DATA".toList, "B".toList, some v)]).getSimplified false false = .ok r' ∧
    r.units = r'.units ∧ r.data = [[some x, y]] ∧ r'.data = [[some x', y]] ∧ x' < x := by
  refine ⟨_, _, scaleVal (getConversion "K".toList).1 (.dec 1 0) T, scaleVal (getConversion "EV".toList).1 (.dec 1 0) E, _, rfl, rfl, rfl, rfl, rfl, ?_⟩
  obtain ⟨-, -, h, -⟩ := C92_kelvin_refuted T hT
  have hpos : 0 < T * BaseUnit.kelvin.size := mul_pos hT (size_pos _)
  have he : scaleVal (getConversion "EV".toList).1 (.dec 1 0) E * 10 ^ (6 : ℤ) = E := by
    have : (getConversion "EV".toList).1 = .dec 1 (-6) := by decide
    rw [this]
    simp only [scaleVal, Factor.val, RealNum.dec_eq, RealNum.mul_eq, RealNum.add_eq, RealNum.zero_eq]
    norm_num
    ring
  rw [zpow_zero, one_mul, one_mul] at hE
  have hs := size_pos .electronvolt
  have h6 : (0 : ℝ) < 10 ^ (6 : ℤ) := by norm_num
  have : scaleVal (getConversion "EV".toList).1 (.dec 1 0) E * 10 ^ (6 : ℤ) * BaseUnit.electronvolt.size <
      scaleVal (getConversion "K".toList).1 (.dec 1 0) T * 10 ^ (6 : ℤ) * BaseUnit.electronvolt.size := by
    rw [he, ← hE]
    nlinarith
  exact lt_of_mul_lt_mul_right (lt_of_mul_lt_mul_right this hs.le) h6.le

example : ∃ E : ℝ, (293.6 : ℝ) * (10 ^ (0 : ℤ) * BaseUnit.kelvin.size) = E * (10 ^ (0 : ℤ) * BaseUnit.electronvolt.size) := by
  have := (size_pos .electronvolt).ne'
  exact ⟨293.6 * BaseUnit.kelvin.size / BaseUnit.electronvolt.size, by field_simp⟩

/-- C118 is false for units that are not in the tables: a cross section in nanobarns (NB) is as good as none, so that a dataset that can
be simplified in microbarns cannot be simplified in nanobarns. -/
theorem C118_nanobarn_refuted {N : Type} [PyNum N] (x v v' : N) (makeAll failMissing : Bool) :
    (oneRow [("EN".toList, "MEV".toList, some x), ("DATA".toList, "NB".toList, some v)]).getSimplified makeAll failMissing = .error (.noValuesGivenError "Data".toList) ∧
    ∃ r, (oneRow [("EN".toList, "MEV".toList, some x), ("DATA".toList, "MICRO-B".toList, some v')]).getSimplified false false = .ok r ∧
      r.labels = ["Energy".toList, "Data".toList] := by
  refine ⟨?_, _, rfl, by rfl⟩
  cases makeAll <;> cases failMissing <;> rfl

end X4
