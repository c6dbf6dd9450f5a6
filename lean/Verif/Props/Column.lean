import Verif.Lemmas.Column
/-! Properties C26-C34: unit conversion and column parsers. Numbers are reals. -/
namespace X4

theorem finds_of {N} {p : ColParser} {d : Table N} {i : Nat} {l u : Str} (h : p.firstMatch d = some i)
    (hl : d.labels[i]? = some l) (hu : d.units[i]? = some (some u)) : Finds p d i l u := by
  obtain ⟨l', u', hf⟩ := firstMatch_finds h
  have h1 := hf.label
  have h2 := hf.unit
  rw [hl] at h1; rw [hu] at h2
  simp only [Option.some.injEq] at h1 h2
  subst h1; subst h2; exact hf

/-- a table for the examples: energies with percent errors, a bin, asymmetric errors -/
def demoTable : Table ℝ :=
  { labels := ["EN".toList, "EN-ERR".toList, "EN-MIN".toList, "EN-MAX".toList, "DATA".toList, "-DATA-ERR".toList,
      "+DATA-ERR".toList, "ERR".toList, "ERR-S".toList],
    units := [some "KEV".toList, some "PER-CENT".toList, some "EV".toList, some "MEV".toList, some "MB".toList,
      some "MB".toList, some "B".toList, some "MB".toList, some "B".toList],
    data := [[some 100, some 10, some 3, some 4, some 1, some 2, some 5, some 3, some 4],
             [some (-100), some 10, none, some 4, some 1, some 2, some 5, none, some 4],
             [none, some 10, some 4, some 3, some 1, none, some 5, none, none]] }

theorem demoTable_rect : demoTable.Rect := by
  refine ⟨rfl, ?_⟩
  intro row hrow
  simp only [demoTable, List.mem_cons, List.not_mem_nil, or_false] at hrow
  rcases hrow with h | h | h <;> (rw [h]; rfl)

/-! ### C26 -/

/-- C26: each known unit goes to its documented unit and factor; any other string is left alone. -/
theorem C26_table (u : Str) : (getConversion u).2 = canonUnit u ∧ ((getConversion u).1.val : ℝ) = unitFactor u :=
  ⟨conv_unit u, conv_factor u⟩

/-- C26: a converted unit is not changed by a second conversion, nor is the value. -/
theorem C26_idempotent (u : Str) :
    (getConversion (getConversion u).2).2 = (getConversion u).2 ∧ ((getConversion (getConversion u).2).1.val : ℝ) = 1 := by
  rw [conv_factor, conv_unit, conv_unit]
  rcases h : lookupUnit u with _ | ⟨u', c, f⟩
  · have : canonUnit u = u := by simp only [canonUnit, h]
    rw [this]
    refine ⟨this, ?_⟩
    simp only [unitFactor, h]
  · have hm := List.mem_of_find?_eq_some h
    have hc : canonUnit u = c := by simp only [canonUnit, h]
    rw [hc]
    have key : ∀ x ∈ knownUnits, lookupUnit x.2.1 = none ∨ lookupUnit x.2.1 = some (x.2.1, x.2.1, some (1, 0)) := by decide
    rcases key _ hm with h' | h' <;> simp only at h' <;> simp [canonUnit, unitFactor, h']

/-- C26: hence a value converted twice is the value converted once. -/
theorem C26_value (u : Str) (x : ℝ) :
    scaleVal (getConversion (getConversion u).2).1 (.dec 1 0) (scaleVal (getConversion u).1 (.dec 1 0) x) =
      scaleVal (getConversion u).1 (.dec 1 0) x := by
  have h1 : ((Factor.dec 1 0).val : ℝ) = 1 := by simp [Factor.val, RealNum.dec_eq]
  simp only [scaleVal, (C26_idempotent u).2, h1, RealNum.add_eq, RealNum.mul_eq, RealNum.zero_eq]
  ring

example : getConversion "KEV".toList = (.dec 1 (-3), "MeV".toList) ∧ getConversion "MeV".toList = (.dec 1 0, "MeV".toList) ∧
    getConversion "FURLONG".toList = (.dec 1 0, "FURLONG".toList) := by decide

/-! ### C27 -/

/-- C27: no parser reports a negative uncertainty. -/
theorem C27_nonneg (d : Table ℝ) (p : Pair) (k : Column ℝ) (h : p.getError d = .ok k) (x : ℝ) (hx : some x ∈ k.vals) :
    0 ≤ x := by
  unfold Pair.getError at h
  split at h
  · split at h
    · simp at h
    · simp only [Except.ok.injEq] at h
      subst h
      simp only [absCol, List.mem_map, Option.map_eq_some_iff] at hx
      obtain ⟨y, _, z, _, hz⟩ := hx
      rw [← hz]; simp
  · simp only [Except.ok.injEq] at h
    subst h
    simp only [dummy, List.mem_replicate] at hx
    simp at hx

/-! ### C28 -/

/-- |value · percent / 100|, and nothing if one is missing -/
noncomputable def percentSpec : Option ℝ → Option ℝ → Option ℝ
  | some v, some p => some |v * p / 100|
  | _, _ => none

theorem map_zipWith_percent (l : List (List (Option ℝ))) (f g : List (Option ℝ) → Option ℝ) :
    (List.zipWith percentOf (l.map f) (l.map g)).map (Option.map PyNum.abs) = l.map fun row => percentSpec (f row) (g row) := by
  induction l with
  | nil => rfl
  | cons r l ih =>
    simp only [List.map_cons, List.zipWith_cons_cons, ih, List.cons.injEq, and_true]
    cases f r <;> cases g r <;> simp [percentOf, percentSpec]

/-- C28 for columns that are not cosines. `d` is any rectangular table, `c1` finds the value column
`i1` and `c2` the uncertainty column `i2`. (For cosines the property is false, see
`C28_cosine_refuted`.) -/
theorem C28_percent_partial (d : Table ℝ) (hr : d.Rect) (c1 c2 : ColParser) (i1 i2 : Nat) (l1 u1 l2 u2 : Str)
    (h1 : Finds c1 d i1 l1 u1) (h2 : Finds c2 d i2 l2 u2) (ha1 : (c1.angle && hasSub "COS".toList l1) = false)
    (ha2 : (c2.angle && hasSub "COS".toList l2) = false) :
    ∃ k, (Pair.indep c1 c2).getError d = .ok k ∧ k.label = some l2 ∧
      (u2 = "PER-CENT".toList → k.unit = some (canonUnit u1) ∧
        k.vals = d.data.map fun row => percentSpec (canonCell c1 u1 i1 row) (canonCell c2 u2 i2 row)) ∧
      (u2 ≠ "PER-CENT".toList → k.unit = some (canonUnit u2) ∧
        k.vals = d.data.map fun row => (canonCell c2 u2 i2 row).map fun x => |x|) := by
  have hm : (Pair.indep c1 c2).isMatch d = true := by
    simp [Pair.isMatch, firstMatch_some h1, firstMatch_some h2]
  unfold Pair.getError
  rw [if_pos hm]
  simp only [Pair.error0, find_real hr h2 ha2, find_real hr h1 ha1, Option.some.injEq, canon_percent]
  by_cases hp : u2 = "PER-CENT".toList
  · rw [if_pos hp]
    simp only
    have : (canonUnit u2 : Str) = "PER-CENT".toList := canon_percent.2 hp
    refine ⟨_, rfl, ?_, ?_, fun h => absurd hp h⟩
    · rw [indepErr, if_pos (by simp only [this])]; rfl
    · intro _
      rw [indepErr, if_pos (by simp only [this])]
      refine ⟨rfl, ?_⟩
      simp only [absCol]
      exact map_zipWith_percent _ _ _
  · rw [if_neg hp]
    refine ⟨_, rfl, rfl, fun h => absurd h hp, fun _ => ⟨rfl, ?_⟩⟩
    simp only [absCol, List.map_map]
    rfl

/-- the first parser of incident energies on the demo table: 10 % of 100 keV is 0.01 MeV -/
example : ∃ k, (Pair.indep ⟨labelsOf ["EN"] variableSuffix, energyUnits, .dec 1 0, false⟩
     ⟨labelsOf ["EN"] errorSuffix, energyUnits ++ percentUnits, .dec 1 0, false⟩).getError demoTable = .ok k ∧
    k.unit = some "MeV".toList ∧ k.vals[2]? = some none ∧ ∃ x, k.vals[0]? = some (some x) := by
  obtain ⟨k, hk, _, hp, _⟩ := C28_percent_partial demoTable demoTable_rect
    ⟨labelsOf ["EN"] variableSuffix, energyUnits, .dec 1 0, false⟩
    ⟨labelsOf ["EN"] errorSuffix, energyUnits ++ percentUnits, .dec 1 0, false⟩ 0 1 _ _ _ _
    (finds_of rfl rfl rfl) (finds_of rfl rfl rfl) rfl rfl
  obtain ⟨hu, hv⟩ := hp rfl
  refine ⟨k, hk, ?_, ?_, ?_⟩
  · rw [hu]; rfl
  · rw [hv]; rfl
  · rw [hv]; exact ⟨_, rfl⟩

/-! ### C29 -/

theorem getElem?_map_zipWith {α β γ δ} {l : List α} {f : α → β} {g : α → γ} {h : β → γ → δ} {r : Nat} {row : α}
    (hr : l[r]? = some row) : (List.zipWith h (l.map f) (l.map g))[r]? = some (h (f row) (g row)) := by
  simp [hr]

/-- C29: with a MIN and a MAX column, a row with both limits reports the midpoint and half of the
width, from which the limits are recovered; without one of them there is no uncertainty. A row with
only the upper limit reports half of it, as if the bin began at zero; a row without the upper limit
reports no value, even if the lower limit is given. -/
theorem C29_bin (d : Table ℝ) (hr : d.Rect) (c1 c2 : ColParser) (i1 i2 : Nat) (l1 u1 l2 u2 : Str)
    (h1 : Finds c1 d i1 l1 u1) (h2 : Finds c2 d i2 l2 u2) (ha1 : c1.angle = false) (ha2 : c2.angle = false) :
    ∃ kv ke, (Pair.highLow c1 c2).getValue d = .ok kv ∧ (Pair.highLow c1 c2).getError d = .ok ke ∧
      kv.unit = some (canonUnit u2) ∧ ke.unit = some (canonUnit u2) ∧
      kv.vals.length = d.data.length ∧ ke.vals.length = d.data.length ∧
      ∀ (r : Nat) (row : List (Option ℝ)), d.data[r]? = some row →
        (∀ lo hi, canonCell c1 u1 i1 row = some lo → canonCell c2 u2 i2 row = some hi →
          ∃ v e, kv.vals[r]? = some (some v) ∧ ke.vals[r]? = some (some e) ∧ v = (lo + hi) / 2 ∧ e = |hi - lo| / 2 ∧
            (lo ≤ hi → v - e = lo ∧ v + e = hi)) ∧
        (canonCell c1 u1 i1 row = none ∨ canonCell c2 u2 i2 row = none → ke.vals[r]? = some none) ∧
        (∀ hi, canonCell c1 u1 i1 row = none → canonCell c2 u2 i2 row = some hi → kv.vals[r]? = some (some (hi / 2))) ∧
        (canonCell c2 u2 i2 row = none → kv.vals[r]? = some none) := by
  have hm : (Pair.highLow c1 c2).isMatch d = true := by
    simp [Pair.isMatch, firstMatch_some h1]
  have f1 := find_real hr h1 (by simp [ha1])
  have f2 := find_real hr h2 (by simp [ha2])
  simp only [Pair.getValue, Pair.getError, if_pos hm, Pair.value0, Pair.error0, f1, f2]
  refine ⟨_, _, rfl, rfl, rfl, rfl, by simp, by simp [absCol], ?_⟩
  intro r row hrow
  refine ⟨?_, ?_, ?_, ?_⟩
  · intro lo hi hlo hhi
    refine ⟨_, _, ?_, ?_, rfl, rfl, ?_⟩
    · simp only [getElem?_map_zipWith hrow, hlo, hhi, highLowVal]
      simp; ring
    · simp only [absCol, List.getElem?_map, getElem?_map_zipWith hrow, hlo, hhi, highLowErr]
      simp only [RealNum.mul_eq, RealNum.half_eq, RealNum.abs_eq, RealNum.sub_eq, Option.map_some, Option.some.injEq]
      rw [abs_of_nonneg (by positivity), abs_sub_comm]; ring
    · intro hle
      rw [abs_of_nonneg (by linarith)]
      constructor <;> ring
  · intro hnone
    simp only [absCol, List.getElem?_map, getElem?_map_zipWith hrow]
    rcases hnone with h | h
    · rw [h]; simp [highLowErr]
    · rw [h]; cases canonCell c1 u1 i1 row <;> simp [highLowErr]
  · intro hi h1 h2
    simp only [getElem?_map_zipWith hrow, h1, h2, highLowVal]
    simp; ring
  · intro h
    simp only [getElem?_map_zipWith hrow, h]
    cases canonCell c1 u1 i1 row <;> rfl

/-- C29: with only one of the two columns no uncertainty is reported in any row. -/
theorem C29_single (d : Table ℝ) (hr : d.Rect) (c1 c2 : ColParser) (ha1 : c1.angle = false) (ha2 : c2.angle = false)
    (h : FindsNone c1 d ∨ FindsNone c2 d) :
    ∃ ke, (Pair.highLow c1 c2).getError d = .ok ke ∧ ke.vals = List.replicate d.data.length none := by
  have aux : ∀ f : List (Option ℝ) → Option ℝ,
      (List.zipWith highLowErr (List.replicate d.data.length none) (d.data.map f)).map (Option.map PyNum.abs) =
        List.replicate d.data.length none := by
    intro f
    generalize d.data = l
    induction l with
    | nil => rfl
    | cons a l ih => simp only [List.length_cons, List.replicate_succ, List.map_cons, List.zipWith_cons_cons, ih]; rfl
  have aux' : ∀ f : List (Option ℝ) → Option ℝ,
      (List.zipWith highLowErr (d.data.map f) (List.replicate d.data.length none)).map (Option.map PyNum.abs) =
        List.replicate d.data.length none := by
    intro f
    generalize d.data = l
    induction l with
    | nil => rfl
    | cons a l ih =>
      simp only [List.length_cons, List.replicate_succ, List.map_cons, List.zipWith_cons_cons, ih]
      cases f a <;> rfl
  have aux'' : (List.zipWith highLowErr (List.replicate d.data.length none)
      (List.replicate d.data.length (none : Option ℝ))).map (Option.map PyNum.abs) = List.replicate d.data.length none := by
    have := aux (fun _ => none)
    simpa using this
  by_cases hm : (Pair.highLow c1 c2).isMatch d = true
  · simp only [Pair.getError, if_pos hm, Pair.error0]
    rcases h with h | h
    · rw [find_none h]
      rcases finds_or_none c2 d with ⟨i, l, u, h2⟩ | h2
      · rw [find_real hr h2 (by simp [ha2])]
        exact ⟨_, rfl, aux _⟩
      · rw [find_none h2]
        exact ⟨_, rfl, aux''⟩
    · rw [find_none h]
      rcases finds_or_none c1 d with ⟨i, l, u, h2⟩ | h2
      · rw [find_real hr h2 (by simp [ha1])]
        exact ⟨_, rfl, aux' _⟩
      · rw [find_none h2]
        exact ⟨_, rfl, aux''⟩
  · simp only [Pair.getError, if_neg hm]
    exact ⟨_, rfl, rfl⟩

/-- the incident energy bins of the demo table: 3 eV .. 4 MeV in the first row -/
example : ∃ kv ke, (Pair.highLow ⟨["EN-MIN".toList], energyUnits, .dec 1 0, false⟩
      ⟨["EN-MAX".toList], energyUnits, .dec 1 0, false⟩).getValue demoTable = .ok kv ∧
    (Pair.highLow ⟨["EN-MIN".toList], energyUnits, .dec 1 0, false⟩
      ⟨["EN-MAX".toList], energyUnits, .dec 1 0, false⟩).getError demoTable = .ok ke ∧
    (∃ x, kv.vals[0]? = some (some x)) ∧ ke.vals[1]? = some none := by
  obtain ⟨kv, ke, h1, h2, _, _, _, _, h3⟩ := C29_bin demoTable demoTable_rect
    ⟨["EN-MIN".toList], energyUnits, .dec 1 0, false⟩ ⟨["EN-MAX".toList], energyUnits, .dec 1 0, false⟩ 2 3 _ _ _ _
    (finds_of rfl rfl rfl) (finds_of rfl rfl rfl) rfl rfl
  refine ⟨kv, ke, h1, h2, ?_, ?_⟩
  · obtain ⟨v, _, hv, _⟩ := (h3 0 _ rfl).1 _ _ rfl rfl
    exact ⟨v, hv⟩
  · exact (h3 1 _ rfl).2.1 (.inl rfl)

/-! ### C30 -/

/-- C30: value and uncertainty describe the interval from `x - a` to `x + b`. -/
theorem C30_interval (d : Table ℝ) (hr : d.Rect) (c1 c2 c3 : ColParser) (i1 i2 i3 : Nat) (l1 u1 l2 u2 l3 u3 : Str)
    (h1 : Finds c1 d i1 l1 u1) (h2 : Finds c2 d i2 l2 u2) (h3 : Finds c3 d i3 l3 u3)
    (ha1 : c1.angle = false) (ha2 : c2.angle = false) (ha3 : c3.angle = false) :
    ∃ kv ke, (Pair.highMidLow c1 c2 c3).getValue d = .ok kv ∧ (Pair.highMidLow c1 c2 c3).getError d = .ok ke ∧
      kv.vals.length = d.data.length ∧ ke.vals.length = d.data.length ∧
      kv.unit = some (canonUnit u3) ∧ ke.unit = some (canonUnit u3) ∧
      ∀ (r : Nat) (row : List (Option ℝ)), d.data[r]? = some row →
        (∀ x a b, canonCell c1 u1 i1 row = some x → canonCell c2 u2 i2 row = some a → canonCell c3 u3 i3 row = some b →
          ∃ v e, kv.vals[r]? = some (some v) ∧ ke.vals[r]? = some (some e) ∧
            (0 ≤ a + b → v - e = x - a ∧ v + e = x + b)) ∧
        (canonCell c1 u1 i1 row = none ∨ canonCell c2 u2 i2 row = none ∨ canonCell c3 u3 i3 row = none →
          kv.vals[r]? = some none ∧ ke.vals[r]? = some none) := by
  have hm : (Pair.highMidLow c1 c2 c3).isMatch d = true := by
    simp [Pair.isMatch, firstMatch_some h1, firstMatch_some h2]
  have f1 := find_real hr h1 (by simp [ha1])
  have f2 := find_real hr h2 (by simp [ha2])
  have f3 := find_real hr h3 (by simp [ha3])
  simp only [Pair.getValue, Pair.getError, if_pos hm, Pair.value0, Pair.error0, f1, f2, f3]
  refine ⟨_, _, rfl, rfl, by simp, by simp [absCol], rfl, rfl, ?_⟩
  intro r row hrow
  have e1 : (List.zipWith (fun f x => f x) (List.zipWith midVal (d.data.map (canonCell c1 u1 i1))
      (d.data.map (canonCell c2 u2 i2))) (d.data.map (canonCell c3 u3 i3)))[r]? =
      some (midVal (canonCell c1 u1 i1 row) (canonCell c2 u2 i2 row) (canonCell c3 u3 i3 row)) := by
    simp [hrow]
  have e2 : (List.zipWith (fun f x => f x) (List.zipWith midErr (d.data.map (canonCell c1 u1 i1))
      (d.data.map (canonCell c2 u2 i2))) (d.data.map (canonCell c3 u3 i3)))[r]? =
      some (midErr (canonCell c1 u1 i1 row) (canonCell c2 u2 i2 row) (canonCell c3 u3 i3 row)) := by
    simp [hrow]
  refine ⟨?_, ?_⟩
  · intro x a b hx ha hb
    refine ⟨1 / 2 * ((x - a) + (x + b)), |1 / 2 * ((x - a) - (x + b))|, ?_, ?_, ?_⟩
    · simp only [e1, hx, ha, hb, midVal]
      simp
    · simp only [absCol, List.getElem?_map, e2, hx, ha, hb, midErr, Option.map_some]
      simp only [RealNum.mul_eq, RealNum.half_eq, RealNum.abs_eq, RealNum.sub_eq, RealNum.add_eq, abs_abs]
    · intro hab
      rw [abs_of_nonpos (by linarith)]
      constructor <;> ring
  · intro hnone
    simp only [absCol, List.getElem?_map, e1, e2]
    rcases hnone with h | h | h
    · rw [h]; simp [midVal, midErr]
    · rw [h]; cases canonCell c1 u1 i1 row <;> simp [midVal, midErr]
    · rw [h]; cases canonCell c1 u1 i1 row <;> cases canonCell c2 u2 i2 row <;> simp [midVal, midErr]

example : ∃ kv, (dataHighMidLow crossSectionUnits).getValue demoTable = .ok kv ∧
    (∃ x, kv.vals[0]? = some (some x)) ∧ kv.vals[2]? = some none := by
  obtain ⟨kv, ke, h1, h2, _, _, _, _, h3⟩ := C30_interval demoTable demoTable_rect
    ⟨labelsOf baseDataKeys [""], crossSectionUnits, .dec 1 0, false⟩
    ⟨labelsOf ["-DATA", "-RATIO"] errorSuffix, crossSectionUnits, .dec 1 0, false⟩
    ⟨labelsOf ["+DATA", "+RATIO"] errorSuffix, crossSectionUnits, .dec 1 0, false⟩ 4 5 6 _ _ _ _ _ _
    (finds_of rfl rfl rfl) (finds_of rfl rfl rfl) (finds_of rfl rfl rfl) rfl rfl rfl
  refine ⟨kv, h1, ?_, ?_⟩
  · obtain ⟨v, _, hv, _⟩ := (h3 0 _ rfl).1 _ _ _ rfl rfl rfl
    exact ⟨v, hv⟩
  · exact ((h3 2 _ rfl).2 (.inr (.inl rfl))).1

/-! ### C31 -/

/-- absolute error of a row: a column in percent is scaled by the value -/
noncomputable def absErr (v : Option ℝ) (u : Str) (x : Option ℝ) : Option ℝ :=
  if u = "PER-CENT".toList then percentSpec v x else x

/-- sum in quadrature; a missing one of the two counts as 0 -/
noncomputable def quadSpec : Option ℝ → Option ℝ → Option ℝ
  | none, none => none
  | s, t => some (Real.sqrt (s.getD 0 ^ 2 + t.getD 0 ^ 2))

theorem quadSpec_sq {s t : Option ℝ} {u : ℝ} (h : quadSpec s t = some u) :
    0 ≤ u ∧ u ^ 2 = s.getD 0 ^ 2 + t.getD 0 ^ 2 := by
  have : u = Real.sqrt (s.getD 0 ^ 2 + t.getD 0 ^ 2) := by
    cases s <;> cases t <;> simp [quadSpec] at h ⊢ <;> exact h.symm
  rw [this]
  exact ⟨Real.sqrt_nonneg _, Real.sq_sqrt (by positivity)⟩

theorem quadSum_real (s t : Option ℝ) : quadSum s t = .ok (quadSpec s t) := by
  have h : ∀ x : ℝ, 0 ≤ x → (PyNum.sqrt x : Except PyErr ℝ) = .ok (Real.sqrt x) := by
    intro x hx
    show (if x < 0 then _ else _) = _
    rw [if_neg (by linarith)]
  cases s with
  | none =>
    cases t with
    | none => rfl
    | some t =>
      simp only [quadSum, quadSpec, Option.getD_none, Option.getD_some, RealNum.zero_eq, RealNum.mul_eq, RealNum.add_eq]
      rw [h _ (add_nonneg (mul_self_nonneg _) (mul_self_nonneg _))]; simp [sq]
  | some s =>
    simp only [quadSum, quadSpec, RealNum.zero_eq, RealNum.mul_eq, RealNum.add_eq]
    rw [h _ (add_nonneg (mul_self_nonneg _) (mul_self_nonneg _))]; simp [sq]

theorem quad_percent (v s t : Option ℝ) :
    quadSpec (percentOf v s) (percentOf v t) = quadSpec (percentSpec v s) (percentSpec v t) := by
  cases v <;> cases s <;> cases t <;>
    simp only [percentOf, percentSpec, quadSpec, RealNum.mul_eq, RealNum.pct_eq, Option.getD_some, Option.getD_none, sq_abs]

theorem quad_abs (x y : Option ℝ) : (quadSpec x y).map PyNum.abs = quadSpec x y := by
  rcases h : quadSpec x y with _ | u
  · rfl
  · simp [abs_of_nonneg (quadSpec_sq h).1]

theorem mapE_quad (l : List (List (Option ℝ))) (f g : List (Option ℝ) → Option ℝ) :
    mapE (fun x => quadSum x.1 x.2) ((l.map f).zip (l.map g)) = .ok (l.map fun row => quadSpec (f row) (g row)) := by
  induction l with
  | nil => rfl
  | cons a l ih =>
    rw [List.map_cons, List.map_cons, List.zip_cons_cons, mapE, ih]
    simp only [quadSum_real, List.map_cons]

theorem zipWith_map_map {α β γ δ} (l : List α) (f : α → β) (g : α → γ) (h : β → γ → δ) :
    List.zipWith h (l.map f) (l.map g) = l.map fun a => h (f a) (g a) := by
  induction l with
  | nil => rfl
  | cons a l ih => simp [ih]

/-- what the code reports for two error columns, whatever their units -/
theorem addErr_vals (d : Table ℝ) (hr : d.Rect) (c1 c2 c3 : ColParser) (i1 i2 i3 : Nat) (l1 u1 l2 u2 l3 u3 : Str)
    (h1 : Finds c1 d i1 l1 u1) (h2 : Finds c2 d i2 l2 u2) (h3 : Finds c3 d i3 l3 u3)
    (ha1 : c1.angle = false) (ha2 : c2.angle = false) (ha3 : c3.angle = false) :
    ∃ k, (Pair.addErr c1 c2 c3).getError d = .ok k ∧
      (u2 = "PER-CENT".toList ∨ u3 = "PER-CENT".toList → k.unit = some (canonUnit u1) ∧
        k.vals = d.data.map fun row => quadSpec (percentSpec (canonCell c1 u1 i1 row) (canonCell c2 u2 i2 row))
          (percentSpec (canonCell c1 u1 i1 row) (canonCell c3 u3 i3 row))) ∧
      (¬ (u2 = "PER-CENT".toList ∨ u3 = "PER-CENT".toList) → k.unit = some (canonUnit u3) ∧
        k.vals = d.data.map fun row => quadSpec (canonCell c2 u2 i2 row) (canonCell c3 u3 i3 row)) := by
  have hm : (Pair.addErr c1 c2 c3).isMatch d = true := by
    simp [Pair.isMatch, firstMatch_some h1, firstMatch_some h2]
  have f1 := find_real hr h1 (by simp [ha1])
  have f2 := find_real hr h2 (by simp [ha2])
  have f3 := find_real hr h3 (by simp [ha3])
  simp only [Pair.getError, if_pos hm, Pair.error0, f1, f2, f3, Option.some.injEq, canon_percent]
  by_cases hp : u2 = "PER-CENT".toList ∨ u3 = "PER-CENT".toList
  · rw [if_pos hp]
    have hp' : canonUnit u2 = "PER-CENT".toList ∨ canonUnit u3 = "PER-CENT".toList := by
      rw [canon_percent, canon_percent]; exact hp
    simp only [addErrColumn, addErrCols, Option.some.injEq, if_pos hp', zipWith_map_map, mapE_quad, quad_percent]
    refine ⟨_, rfl, fun _ => ⟨rfl, ?_⟩, fun h => absurd hp h⟩
    simp only [absCol, List.map_map, Function.comp_def, quad_abs]
  · rw [if_neg hp]
    have hp' : ¬ (canonUnit u2 = "PER-CENT".toList ∨ canonUnit u3 = "PER-CENT".toList) := by
      rw [canon_percent, canon_percent]; exact hp
    simp only [addErrColumn, addErrCols, Option.some.injEq, if_neg hp', mapE_quad]
    refine ⟨_, rfl, fun h => absurd h hp, fun _ => ⟨rfl, ?_⟩⟩
    simp only [absCol, List.map_map, Function.comp_def, quad_abs]

/-- C31 when both error columns are absolute or both in percent: sum in quadrature of the
absolute errors. (Missing from the full statement: one of them in percent, where it is
false, see `C31_mixed_refuted`.) -/
theorem C31_quadrature_partial (d : Table ℝ) (hr : d.Rect) (c1 c2 c3 : ColParser) (i1 i2 i3 : Nat)
    (l1 u1 l2 u2 l3 u3 : Str) (h1 : Finds c1 d i1 l1 u1) (h2 : Finds c2 d i2 l2 u2) (h3 : Finds c3 d i3 l3 u3)
    (ha1 : c1.angle = false) (ha2 : c2.angle = false) (ha3 : c3.angle = false)
    (hsame : u2 = "PER-CENT".toList ↔ u3 = "PER-CENT".toList) :
    ∃ k, (Pair.addErr c1 c2 c3).getError d = .ok k ∧
      k.vals = d.data.map fun row => quadSpec (absErr (canonCell c1 u1 i1 row) u2 (canonCell c2 u2 i2 row))
        (absErr (canonCell c1 u1 i1 row) u3 (canonCell c3 u3 i3 row)) := by
  obtain ⟨k, hk, hp, hn⟩ := addErr_vals d hr c1 c2 c3 i1 i2 i3 l1 u1 l2 u2 l3 u3 h1 h2 h3 ha1 ha2 ha3
  refine ⟨k, hk, ?_⟩
  by_cases h : u2 = "PER-CENT".toList
  · have h' := hsame.1 h
    rw [(hp (.inl h)).2]
    simp only [absErr, if_pos h, if_pos h']
  · have h' : ¬ u3 = "PER-CENT".toList := fun e => h (hsame.2 e)
    rw [(hn (by simp only [h, h', or_self, not_false_iff])).2]
    simp only [absErr, if_neg h, if_neg h']

/-- the demo table: systematic error in mb, statistical in b -/
example : ∃ k, (dataAddErr crossSectionUnits).getError demoTable = .ok k ∧
    (∃ x, k.vals[0]? = some (some x)) ∧ (∃ x, k.vals[1]? = some (some x)) ∧ k.vals[2]? = some none := by
  obtain ⟨k, hk, hv⟩ := C31_quadrature_partial demoTable demoTable_rect
    ⟨labelsOf baseDataKeys [""], crossSectionUnits, .dec 1 0, false⟩
    ⟨["ERR".toList], crossSectionUnits ++ percentUnits, .dec 1 0, false⟩
    ⟨["ERR-S".toList], crossSectionUnits ++ percentUnits, .dec 1 0, false⟩ 4 7 8 _ _ _ _ _ _
    (finds_of rfl rfl rfl) (finds_of rfl rfl rfl) (finds_of rfl rfl rfl) rfl rfl rfl (by decide)
  refine ⟨k, hk, ?_, ?_, ?_⟩
  · rw [hv]; exact ⟨_, rfl⟩
  · rw [hv]; exact ⟨_, rfl⟩
  · rw [hv]
    simp only [List.getElem?_map]
    rfl

/-- one row: 200 b, systematic error 10 b, statistical error 10 % -/
def mixedTable : Table ℝ :=
  { labels := ["DATA".toList, "ERR".toList, "ERR-S".toList],
    units := [some "B".toList, some "B".toList, some "PER-CENT".toList],
    data := [[some 200, some 10, some 10]] }

theorem unitFactor_B : unitFactor "B".toList = 1 := by
  have : lookupUnit "B".toList = some ("B".toList, "barns".toList, some (1, 0)) := by decide
  rw [unitFactor, this]; norm_num
theorem unitFactor_percent : unitFactor "PER-CENT".toList = 1 := by
  have : lookupUnit "PER-CENT".toList = none := by decide
  rw [unitFactor, this]

/-- C31 is false when exactly one error column is in percent: the absolute one is scaled too. For
200 ± 10 (syst.) ± 10 % (stat.) the code reports u² = 20² + 20² instead of 10² + 20². -/
theorem C31_mixed_refuted :
    ∃ k u, (dataAddErr crossSectionUnits).getError mixedTable = .ok k ∧ k.vals = [some u] ∧
      u ^ 2 = 20 ^ 2 + 20 ^ 2 ∧ u ^ 2 ≠ 10 ^ 2 + 20 ^ 2 := by
  obtain ⟨k, hk, hp, _⟩ := addErr_vals mixedTable
    (by refine ⟨rfl, ?_⟩; intro row hrow; simp only [mixedTable, List.mem_singleton] at hrow; rw [hrow]; rfl)
    ⟨labelsOf baseDataKeys [""], crossSectionUnits, .dec 1 0, false⟩
    ⟨["ERR".toList], crossSectionUnits ++ percentUnits, .dec 1 0, false⟩
    ⟨["ERR-S".toList], crossSectionUnits ++ percentUnits, .dec 1 0, false⟩ 0 1 2 _ _ _ _ _ _
    (finds_of rfl rfl rfl) (finds_of rfl rfl rfl) (finds_of rfl rfl rfl) rfl rfl rfl
  have hv := (hp (.inr rfl)).2
  have hval : k.vals = [quadSpec (some 20) (some 20)] := by
    rw [hv]
    simp only [mixedTable, List.map_cons, List.map_nil, canonCell, cell, List.getElem?_cons_zero, List.getElem?_cons_succ,
      Option.getD_some, Option.map_some, percentSpec, unitFactor_B, unitFactor_percent, Factor.val, RealNum.dec_eq]
    norm_num
  rcases hq : quadSpec (some 20) (some 20) with _ | u
  · simp [quadSpec] at hq
  · have hsq := (quadSpec_sq hq).2
    simp only [Option.getD_some] at hsq
    refine ⟨k, u, hk, by rw [hval, hq], hsq, ?_⟩
    rw [hsq]; norm_num

/-! ### C32 -/

theorem condenseVals_eq {N} {x y : List (Option N)} (h : x.length = y.length) :
    condenseVals x y = .ok (List.zipWith Option.or x y) := by
  induction x generalizing y with
  | nil => cases y <;> simp [condenseVals] at h ⊢
  | cons a x ih =>
    cases y with
    | nil => simp at h
    | cons b y =>
      simp only [List.length_cons, Nat.add_right_cancel_iff] at h
      cases a <;> simp [condenseVals, ih h]

theorem foldE_condense {N} [PyNum N] (n : Nat) (cs : List (Column N)) (x : Column N) (hx : x.vals.length = n)
    (h : ∀ c ∈ cs, c.vals.length = n) :
    ∃ c, foldE condense x cs = .ok c ∧ c.vals.length = n ∧
      (∀ i < n, c.vals[i]? = some (firstSome ((x :: cs).map fun k => cell k.vals i))) ∧
      c.label = firstSome ((x :: cs).map Column.label) ∧ c.unit = firstSome ((x :: cs).map Column.unit) := by
  induction cs generalizing x with
  | nil =>
    refine ⟨x, rfl, hx, ?_, ?_, ?_⟩
    · intro i hi
      have : i < x.vals.length := by omega
      simp only [List.map_cons, List.map_nil, cell, List.getElem?_eq_getElem this, Option.getD_some]
      cases x.vals[i] <;> rfl
    · simp only [List.map_cons, List.map_nil]; cases x.label <;> rfl
    · simp only [List.map_cons, List.map_nil]; cases x.unit <;> rfl
  | cons y cs ih =>
    have hy := h y (by simp)
    obtain ⟨c, h1, h2, h3, h4, h5⟩ := ih
      (Column.mk (x.label.or y.label) (x.unit.or y.unit) (List.zipWith Option.or x.vals y.vals)) (by simp [hx, hy]) fun c hc => h c (by simp [hc])
    refine ⟨c, ?_, h2, ?_, ?_, ?_⟩
    · rw [foldE]
      simp only [condense, condenseVals_eq (hx.trans hy.symm)]
      exact h1
    · intro i hi
      have e1 : i < x.vals.length := by omega
      have e2 : i < y.vals.length := by omega
      rw [h3 i hi]
      simp only [List.map_cons, cell, List.getElem?_zipWith, List.getElem?_eq_getElem e1, List.getElem?_eq_getElem e2,
        Option.getD_some]
      cases x.vals[i] <;> cases y.vals[i] <;> rfl
    · rw [h4]; simp only [List.map_cons]; cases x.label <;> cases y.label <;> rfl
    · rw [h5]; simp only [List.map_cons]; cases x.unit <;> cases y.unit <;> rfl

/-- C32: in every position (label, unit, rows) the condensed column has the first entry that is
not `None`, in the order of the parsers. -/
theorem C32_first {N} [PyNum N] (n : Nat) (cs : List (Column N)) (hne : cs ≠ []) (h : ∀ c ∈ cs, c.vals.length = n) :
    ∃ c, reduceE condense cs = .ok c ∧ c.vals.length = n ∧
      (∀ i < n, c.vals[i]? = some (firstSome (cs.map fun k => cell k.vals i))) ∧
      c.label = firstSome (cs.map Column.label) ∧ c.unit = firstSome (cs.map Column.unit) := by
  cases cs with
  | nil => exact absurd rfl hne
  | cons x cs => exact foldE_condense n cs x (h x (by simp)) fun c hc => h c (by simp [hc])

/-- C32: the reduction does not depend on the bracketing. -/
theorem C32_assoc {N} [PyNum N] (x y z : Column N) (h1 : x.vals.length = y.vals.length) (h2 : y.vals.length = z.vals.length) :
    ∃ xy yz c, condense x y = .ok xy ∧ condense y z = .ok yz ∧ condense xy z = .ok c ∧ condense x yz = .ok c := by
  have e : ∀ a b : Column N, a.vals.length = b.vals.length →
      condense a b = .ok ⟨a.label.or b.label, a.unit.or b.unit, List.zipWith Option.or a.vals b.vals⟩ := by
    intro a b h; simp only [condense, condenseVals_eq h]
  refine ⟨_, _, _, e x y h1, e y z h2, e _ z (by simp [h1, h2]), ?_⟩
  rw [e _ _ (by simp [h1, h2])]
  simp only [Except.ok.injEq, Column.mk.injEq]
  refine ⟨by cases x.label <;> cases y.label <;> rfl, by cases x.unit <;> cases y.unit <;> rfl, ?_⟩
  generalize x.vals = a at h1
  generalize y.vals = b at h1 h2
  generalize z.vals = c at h2
  induction a generalizing b c with
  | nil => cases b <;> simp at h1 ⊢
  | cons p a ih =>
    cases b with
    | nil => simp at h1
    | cons q b =>
      cases c with
      | nil => simp at h2
      | cons r c =>
        simp only [List.zipWith_cons_cons, List.cons.injEq]
        refine ⟨by cases p <;> cases q <;> rfl, ih b (by simpa using h1) c (by simpa using h2)⟩

example : reduceE condense ([⟨none, some "b".toList, [some 1, none, none]⟩, ⟨some "x".toList, none, [some 2, some 3, none]⟩] : List (Column ℝ)) =
    .ok ⟨some "x".toList, some "b".toList, [some 1, some 3, none]⟩ := rfl

/-! ### C33 -/

/-- C33 is false: whenever the parser for barn·√eV matches, reading value or uncertainty raises a
`TypeError`, because the list of energy parsers it reduces over is empty. -/
theorem C33_refuted {N} [PyNum N] (d : Table N) (c2 c3 : ColParser) (i : Nat) (l u : Str) (h : Finds c2 d i l u) :
    (Pair.barnsSqrtE c2 c3).getValue d = .error .typeError ∧ (Pair.barnsSqrtE c2 c3).getError d = .error .typeError := by
  have hm : (Pair.barnsSqrtE c2 c3).isMatch d = true := by simp [Pair.isMatch, firstMatch_some h]
  constructor
  · simp only [Pair.getValue, if_pos hm]; rfl
  · simp only [Pair.getError, if_pos hm]; rfl

def sqrtETable : Table ℝ :=
  { labels := ["EN".toList, "DATA".toList], units := [some "EV".toList, some "B*RT-EV".toList], data := [[some 1, some 2]] }

/-- hence such a dataset cannot be simplified; it has an energy column and a value -/
example : mapE (Pair.getValue sqrtETable) csDataParserList = .error .typeError := rfl

/-! ### C34 -/

/-- a cosine column within [-1, 1] is read as an angle -/
theorem find_cos {p : ColParser} {d : Table ℝ} {i : Nat} {l u : Str} (hr : d.Rect) (h : Finds p d i l u)
    (ha : (p.angle && hasSub "COS".toList l) = true)
    (hdom : ∀ row ∈ d.data, ∀ x, cell row i = some x → -1 ≤ x * p.scale.val ∧ x * p.scale.val ≤ 1) :
    p.find d = .ok { label := some l, unit := some "degrees".toList,
                     vals := d.data.map fun row => (cell row i).map fun x => Real.arccos (x * p.scale.val) * (180 / Real.pi) } := by
  have hi : i < d.labels.length := (List.getElem?_eq_some_iff.1 h.label).1
  rw [ColParser.find, firstMatch_some h]
  simp only [ColParser.getColumn, h.label, h.unit]
  rw [if_pos (isMatch_iff.2 ⟨l, u, h.label, h.unit, h.accLabel, h.accUnit⟩)]
  simp only [ColParser.readColumn]
  rw [ha]
  simp only [if_true]
  have hc : getConversion "RAD".toList = (.degPerRad, "degrees".toList) := by decide
  rw [hc]
  have : mapE (convCell p true .degPerRad i) d.data =
      .ok (d.data.map fun row => (cell row i).map fun x => Real.arccos (x * p.scale.val) * (180 / Real.pi)) := by
    rw [← mapE_pure]
    apply mapE_congr
    intro row hrow
    simp only [convCell, cellAt_ok hr hrow hi]
    rcases hx : cell row i with _ | x
    · simp
    · obtain ⟨h1, h2⟩ := hdom row hrow x hx
      have : (PyNum.acos (PyNum.add (PyNum.mul x p.scale.val) PyNum.zero) : Except PyErr ℝ) =
          .ok (Real.arccos (x * p.scale.val)) := by
        simp only [RealNum.add_eq, RealNum.mul_eq, RealNum.zero_eq, add_zero]
        show (if _ then _ else _) = _
        rw [if_neg (by push Not; exact ⟨h1, h2⟩)]
      simp only [if_true, acosVal, this, Option.map_some]
      rfl
  rw [this]

/-- C34 is false for every dataset with cosine columns: a quoted uncertainty of 0 is reported as
90 degrees. -/
theorem C34_refuted (d : Table ℝ) (hr : d.Rect) (c1 c2 : ColParser) (i1 i2 : Nat) (l1 u1 l2 u2 : Str)
    (h1 : Finds c1 d i1 l1 u1) (h2 : Finds c2 d i2 l2 u2) (ha : (c2.angle && hasSub "COS".toList l2) = true)
    (hdom : ∀ row ∈ d.data, ∀ x, cell row i2 = some x → -1 ≤ x * c2.scale.val ∧ x * c2.scale.val ≤ 1) :
    ∃ k, (Pair.indep c1 c2).getError d = .ok k ∧ k.unit = some "degrees".toList ∧
      ∀ (r : Nat) (row : List (Option ℝ)), d.data[r]? = some row → cell row i2 = some 0 → k.vals[r]? = some (some 90) := by
  have hm : (Pair.indep c1 c2).isMatch d = true := by
    simp [Pair.isMatch, firstMatch_some h1, firstMatch_some h2]
  simp only [Pair.getError, if_pos hm, Pair.error0, find_cos hr h2 ha hdom]
  rw [if_neg (by decide)]
  refine ⟨_, rfl, rfl, ?_⟩
  intro r row hrow h0
  simp only [absCol, List.getElem?_map, hrow, Option.map_some, h0, zero_mul, Real.arccos_zero, RealNum.abs_eq]
  have hpi := Real.pi_ne_zero
  have e : Real.pi / 2 * (180 / Real.pi) = 90 := by field_simp; norm_num
  rw [e]
  simp

noncomputable def cosTable : Table ℝ :=
  { labels := ["COS".toList, "COS-ERR".toList], units := [some "NO-DIM".toList, some "NO-DIM".toList],
    data := [[some (1 / 2), some 0]] }

/-- an instance: cos = 0.5 without uncertainty is reported as 60 ± 90 degrees -/
example : ∃ k, (Pair.indep ⟨labelsOf baseAngleKeys (variableSuffix ++ frameSuffix), angUnits ++ noUnits, .dec 1 0, true⟩
    ⟨labelsOf baseAngleKeys (errorSuffix ++ resolutionHWSuffix), angUnits ++ noUnits ++ percentUnits, .dec 1 0, true⟩).getError cosTable = .ok k ∧
    k.vals[0]? = some (some 90) := by
  obtain ⟨k, hk, _, h⟩ := C34_refuted cosTable
    (by refine ⟨rfl, ?_⟩; intro row hrow; simp only [cosTable, List.mem_singleton] at hrow; rw [hrow]; rfl)
    ⟨labelsOf baseAngleKeys (variableSuffix ++ frameSuffix), angUnits ++ noUnits, .dec 1 0, true⟩
    ⟨labelsOf baseAngleKeys (errorSuffix ++ resolutionHWSuffix), angUnits ++ noUnits ++ percentUnits, .dec 1 0, true⟩ 0 1
    _ _ _ _ (finds_of rfl rfl rfl) (finds_of rfl rfl rfl) rfl (by
      intro row hrow x hx
      simp only [cosTable, List.mem_singleton] at hrow
      rw [hrow] at hx
      simp only [cell, List.getElem?_cons_zero, List.getElem?_cons_succ, Option.getD_some, Option.some.injEq] at hx
      rw [← hx]; norm_num)
  exact ⟨k, hk, h 0 _ rfl rfl⟩

/-- C34 for angles: an angle uncertainty of 0 is reported as 0. -/
theorem C34_angle_partial (d : Table ℝ) (hr : d.Rect) (c1 c2 : ColParser) (i1 i2 : Nat) (l1 u1 l2 u2 : Str)
    (h1 : Finds c1 d i1 l1 u1) (h2 : Finds c2 d i2 l2 u2) (ha1 : (c1.angle && hasSub "COS".toList l1) = false)
    (ha2 : (c2.angle && hasSub "COS".toList l2) = false) (hu : u2 ≠ "PER-CENT".toList) :
    ∃ k, (Pair.indep c1 c2).getError d = .ok k ∧
      ∀ (r : Nat) (row : List (Option ℝ)), d.data[r]? = some row → cell row i2 = some 0 → k.vals[r]? = some (some 0) := by
  obtain ⟨k, hk, _, _, h⟩ := C28_percent_partial d hr c1 c2 i1 i2 l1 u1 l2 u2 h1 h2 ha1 ha2
  refine ⟨k, hk, ?_⟩
  intro r row hrow h0
  rw [(h hu).2]
  simp [hrow, canonCell, h0]

noncomputable def cosPercentTable : Table ℝ :=
  { labels := ["COS".toList, "COS-ERR".toList], units := [some "NO-DIM".toList, some "PER-CENT".toList],
    data := [[some (1 / 2), some 2]] }

/-- C28 is false for cosines: an uncertainty of 2 % makes the parser raise a `ValueError`. -/
theorem C28_cosine_refuted :
    (Pair.indep ⟨labelsOf baseAngleKeys (variableSuffix ++ frameSuffix), angUnits ++ noUnits, .dec 1 0, true⟩
      ⟨labelsOf baseAngleKeys (errorSuffix ++ resolutionHWSuffix), angUnits ++ noUnits ++ percentUnits, .dec 1 0, true⟩).getError
      cosPercentTable = .error .valueError := by
  have h2 : Finds (N := ℝ) ⟨labelsOf baseAngleKeys (errorSuffix ++ resolutionHWSuffix), angUnits ++ noUnits ++ percentUnits, .dec 1 0, true⟩
    cosPercentTable 1 "COS-ERR".toList "PER-CENT".toList := finds_of rfl rfl rfl
  have h1 : Finds (N := ℝ) ⟨labelsOf baseAngleKeys (variableSuffix ++ frameSuffix), angUnits ++ noUnits, .dec 1 0, true⟩
    cosPercentTable 0 "COS".toList "NO-DIM".toList := finds_of rfl rfl rfl
  have hm : (Pair.indep ⟨labelsOf baseAngleKeys (variableSuffix ++ frameSuffix), angUnits ++ noUnits, .dec 1 0, true⟩
      ⟨labelsOf baseAngleKeys (errorSuffix ++ resolutionHWSuffix), angUnits ++ noUnits ++ percentUnits, .dec 1 0, true⟩).isMatch
      cosPercentTable = true := by
    simp only [Pair.isMatch, firstMatch_some h1, firstMatch_some h2, Option.isSome_some, Bool.and_self]
  have hac : (PyNum.acos (PyNum.add (PyNum.mul (2 : ℝ) (Factor.val (.dec 1 0))) PyNum.zero) : Except PyErr ℝ) = .error .valueError := by
    simp only [RealNum.add_eq, RealNum.mul_eq, RealNum.zero_eq, Factor.val, RealNum.dec_eq]
    show (if _ then _ else _) = _
    rw [if_pos (by norm_num)]
  simp only [Pair.getError, if_pos hm, Pair.error0, ColParser.find, firstMatch_some h2, ColParser.getColumn, h2.label, h2.unit]
  rw [if_pos (isMatch_iff.2 ⟨_, _, h2.label, h2.unit, h2.accLabel, h2.accUnit⟩)]
  simp only [ColParser.readColumn]
  have hcos : (true && hasSub "COS".toList "COS-ERR".toList) = true := by decide
  rw [hcos]
  simp only [cosPercentTable, mapE, convCell, cellAt, pyIdx, List.getElem?_cons_succ, List.getElem?_cons_zero, if_true, acosVal]
  rw [hac]

end X4
