import Verif.Spec.Column
import Verif.Lemmas.Dict
namespace X4
variable {N : Type}

theorem isMatch_iff {p : ColParser} {d : Table N} {i : Nat} :
    p.isMatch d i = true ↔ ∃ l u, d.labels[i]? = some l ∧ d.units[i]? = some (some u) ∧ l ∈ p.labels ∧ u ∈ p.units := by
  unfold ColParser.isMatch
  rcases h1 : d.labels[i]? with _ | l
  · simp
  · rcases h2 : d.units[i]? with _ | u
    · simp
    · rcases u with _ | u
      · simp
      · simp

theorem firstMatch_some {p : ColParser} {d : Table N} {i : Nat} {l u : Str} (h : Finds p d i l u) :
    p.firstMatch d = some i := by
  have hi : i < d.labels.length := (List.getElem?_eq_some_iff.1 h.label).1
  rw [ColParser.firstMatch, List.find?_range_eq_some]
  refine ⟨isMatch_iff.2 ⟨l, u, h.label, h.unit, h.accLabel, h.accUnit⟩, by simpa using hi, ?_⟩
  intro j hj
  simp only [Bool.not_eq_true']
  by_contra hc
  simp only [Bool.not_eq_false] at hc
  obtain ⟨l', u', h1, h2, h3⟩ := isMatch_iff.1 hc
  exact h.first j hj l' u' h1 h2 h3

theorem firstMatch_finds {p : ColParser} {d : Table N} {i : Nat} (h : p.firstMatch d = some i) :
    ∃ l u, Finds p d i l u := by
  rw [ColParser.firstMatch, List.find?_range_eq_some] at h
  obtain ⟨hm, hi, hf⟩ := h
  obtain ⟨l, u, h1, h2, h3, h4⟩ := isMatch_iff.1 hm
  refine ⟨l, u, h1, h2, h3, h4, ?_⟩
  intro j hj l' u' e1 e2 hc
  have := hf j hj
  rw [isMatch_iff.2 ⟨l', u', e1, e2, hc.1, hc.2⟩] at this
  simp at this

theorem firstMatch_none {p : ColParser} {d : Table N} : p.firstMatch d = none ↔ FindsNone p d := by
  rw [ColParser.firstMatch, List.find?_eq_none]
  constructor
  · intro h j l' u' h1 h2 hc
    have hj : j < d.labels.length := (List.getElem?_eq_some_iff.1 h1).1
    exact h j (by simpa using hj) (isMatch_iff.2 ⟨l', u', h1, h2, hc.1, hc.2⟩)
  · intro h j _ hc
    obtain ⟨l, u, h1, h2, h3⟩ := isMatch_iff.1 hc
    exact h j l u h1 h2 h3

/-- every table: a parser finds one column or none -/
theorem finds_or_none (p : ColParser) (d : Table N) : (∃ i l u, Finds p d i l u) ∨ FindsNone p d := by
  rcases h : p.firstMatch d with _ | i
  · exact .inr (firstMatch_none.1 h)
  · exact .inl ⟨i, firstMatch_finds h⟩

variable [PyNum N]

theorem find_none {p : ColParser} {d : Table N} (h : FindsNone p d) : p.find d = .ok (dummy d) := by
  rw [ColParser.find, firstMatch_none.2 h]; rfl

theorem mapE_pure {ε α β} (f : α → β) (l : List α) : mapE (fun x => (.ok (f x) : Except ε β)) l = .ok (l.map f) := by
  induction l with
  | nil => rfl
  | cons x l ih => simp [mapE, ih]

omit [PyNum N] in
theorem cellAt_ok {d : Table N} (hr : d.Rect) {row : List (Option N)} (hrow : row ∈ d.data) {i : Nat}
    (hi : i < d.labels.length) : cellAt row i = .ok (cell row i) := by
  have : i < row.length := by rw [hr.2 row hrow]; exact hi
  simp [cellAt, cell, this]

theorem find_eq {p : ColParser} {d : Table N} {i : Nat} {l u : Str} (hr : d.Rect) (h : Finds p d i l u)
    (ha : (p.angle && hasSub "COS".toList l) = false) :
    p.find d = .ok { label := some l, unit := some (getConversion u).2,
                     vals := d.data.map fun row => (cell row i).map (scaleVal (getConversion u).1 p.scale) } := by
  have hi : i < d.labels.length := (List.getElem?_eq_some_iff.1 h.label).1
  rw [ColParser.find, firstMatch_some h]
  simp only [ColParser.getColumn, h.label, h.unit]
  rw [if_pos (isMatch_iff.2 ⟨l, u, h.label, h.unit, h.accLabel, h.accUnit⟩)]
  simp only [ColParser.readColumn]
  rw [ha]
  simp only [Bool.false_eq_true, if_false]
  have : mapE (convCell p false (getConversion u).1 i) d.data =
      .ok (d.data.map fun row => (cell row i).map (scaleVal (getConversion u).1 p.scale)) := by
    rw [← mapE_pure]
    apply mapE_congr
    intro row hrow
    simp only [convCell, cellAt_ok hr hrow hi]
    cases cell row i <;> simp
  rw [this]

/-! ### units -/

theorem convLoop_none {u : Str} {ms : List (Str × UnitMap)} (h : ∀ m ∈ ms, m.2.get? u = none) :
    convLoop u ms = (.dec 1 0, u) := by
  induction ms with
  | nil => rfl
  | cons m ms ih =>
    obtain ⟨n, m⟩ := m
    have := h (n, m) (by simp)
    simp only at this
    rw [convLoop, this]
    exact ih fun m hm => h m (by simp [hm])

/-- factor of an entry of the table -/
def specFactor : Option (Int × Int) → Factor
  | some (m, e) => .dec m e
  | none => .degPerRad

theorem known_conv : ∀ x ∈ knownUnits, getConversion x.1 = (specFactor x.2.2, x.2.1) := by decide
theorem maps_known : ∀ m ∈ unitMaps, ∀ k ∈ m.2.keys, k ∈ knownUnits.map Prod.fst := by decide

theorem getConversion_unknown {u : Str} (h : u ∉ knownUnits.map Prod.fst) : getConversion u = (.dec 1 0, u) := by
  apply convLoop_none
  intro m hm
  cases hg : m.2.get? u with
  | none => rfl
  | some f =>
    exfalso
    apply h
    apply maps_known m hm
    rw [Dict.mem_keys_iff, hg]; simp

theorem getConversion_eq (u : Str) : ∃ f, getConversion u = (f, canonUnit u) ∧ (f.val : ℝ) = unitFactor u := by
  unfold canonUnit unitFactor
  rcases h : lookupUnit u with _ | ⟨u', c, f⟩
  · simp only
    refine ⟨_, getConversion_unknown ?_, by simp [Factor.val, RealNum.dec_eq]⟩
    rw [lookupUnit, List.find?_eq_none] at h
    intro hm
    obtain ⟨x, hx, hxu⟩ := List.mem_map.1 hm
    have := h x hx
    simp [hxu] at this
  · have hm := List.mem_of_find?_eq_some h
    have hu := List.find?_some h
    simp only [decide_eq_true_eq] at hu
    subst hu
    refine ⟨_, known_conv _ hm, ?_⟩
    rcases f with _ | ⟨m, e⟩
    · simp [specFactor, Factor.val]
    · simp [specFactor, Factor.val, RealNum.dec_eq]

theorem conv_unit (u : Str) : (getConversion u).2 = canonUnit u := by
  obtain ⟨f, h, _⟩ := getConversion_eq u; rw [h]
theorem conv_factor (u : Str) : ((getConversion u).1.val : ℝ) = unitFactor u := by
  obtain ⟨f, h, h'⟩ := getConversion_eq u; rw [h, h']

theorem canon_percent {u : Str} : canonUnit u = "PER-CENT".toList ↔ u = "PER-CENT".toList := by
  unfold canonUnit
  rcases h : lookupUnit u with _ | ⟨u', c, f⟩
  · simp
  · have hm := List.mem_of_find?_eq_some h
    have hu := List.find?_some h
    simp only [decide_eq_true_eq] at hu
    subst hu
    simp only
    have : ∀ x ∈ knownUnits, (x.2.1 = "PER-CENT".toList ↔ x.1 = "PER-CENT".toList) := by decide
    exact this _ hm

theorem find_real {p : ColParser} {d : Table ℝ} {i : Nat} {l u : Str} (hr : d.Rect) (h : Finds p d i l u)
    (ha : (p.angle && hasSub "COS".toList l) = false) :
    p.find d = .ok { label := some l, unit := some (canonUnit u), vals := d.data.map (canonCell p u i) } := by
  rw [find_eq hr h ha, conv_unit]
  congr 3
  funext row
  unfold canonCell
  congr 1
  funext x
  simp [scaleVal, conv_factor]

end X4
