import Verif.Spec.Percent
import Verif.Props.UnitChoice
/-! C119: uncertainties in percent or in a unit. -/
namespace X4
variable {ρ : Type}

/-- the heading is one of an uncertainty that may be given in percent -/
def isRelative (l : Str) : Bool := relativeHeadings.any fun h => inFamily h.1 l

/-- the uncertainty `c2` belongs to the quantity `c1` -/
def partFacts (c1 c2 : ColParser) : Bool :=
  decide (c1.scale = .dec 1 0) && decide ("PER-CENT".toList ∈ c2.units) && (c1.units.all fun u => decide (u ∈ c2.units)) &&
  relativeHeadings.all fun h => (c2.labels.all fun l => !inFamily h.1 l) || c1.labels.all fun l => inFamily h.2 l

/-- what the parsers look for -/
def pairFacts : Pair → Bool
  | .indep c1 c2 => partFacts c1 c2 && c1.labels.all fun l => !isRelative l
  | .addErr c1 c2 c3 => partFacts c1 c2 && partFacts c1 c3 && (c1.labels.all fun l => !isRelative l) && decide (c2.labels = ["ERR".toList]) &&
      decide (c3.labels = ["ERR-S".toList])
  | .barnsSqrtE c1 _ => c1.labels.all fun l => !isRelative l
  | q => q.parts.all fun p => p.labels.all fun l => !isRelative l

theorem pair_facts {k : DsKind} {m : Dict Str (List Pair) × List Str} (hm : parserMapOf k = some m) : ∀ kv ∈ m.1, ∀ q ∈ kv.2, pairFacts q = true := by
  cases k <;> first | (simp [parserMapOf] at hm; done) | (simp only [parserMapOf, Option.some.injEq] at hm; subst hm; decide +kernel)

theorem relative_families {k : DsKind} (hk : (parserMapOf k).isSome) {h : List String × List String} (hh : h ∈ relativeHeadings) :
    (∀ F ∈ headingFamilies k, ∀ l ∈ h.1, l ∈ F → h.2 ∈ headingFamilies k) := by
  have : ∀ k ∈ [DsKind.crossSection, .nubar, .spectrumAve, .angular, .energyDist], ∀ h ∈ relativeHeadings, ∀ F ∈ headingFamilies k, ∀ l ∈ h.1, l ∈ F →
      h.2 ∈ headingFamilies k := by decide +kernel
  cases k <;> first | (simp [parserMapOf] at hk; done) | exact this _ (by simp) h hh

theorem mapE_cells {α : Type} (p : ColParser) (f : Factor) (g : α → Option ℝ) (rows : List α) :
    mapE (convWhole p false f) (rows.map fun r => some (g r)) = .ok (rows.map fun r => (g r).map (scaleVal f p.scale)) := by
  induction rows with
  | nil => rfl
  | cons r rows ih =>
    simp only [List.map_cons, mapE, ih]
    cases g r <;> simp [convWhole]

/-- what the parsers make of an uncertainty in percent, and of the same in a unit -/
theorem percent_columns {v c c' : WholeColumn ℝ} (h : InPercent v c c') {c1 c2 : ColParser} (hs : c1.scale = .dec 1 0) :
    ∃ k1 k2 k2' w, readWhole c1 v = .ok k1 ∧ readWhole c2 c = .ok k2 ∧ readWhole c2 c' = .ok k2' ∧ k2.unit = some "PER-CENT".toList ∧ k1.unit = some w ∧ w ≠ "PER-CENT".toList ∧
      k2' = { k2 with unit := k1.unit, vals := List.zipWith percentOf k1.vals k2.vals } ∧ k1.vals.length = c.2.2.length := by
  obtain ⟨hh, ⟨hc1, hc2⟩, -, hp, u, b, n, u', b', n', rows, ev, ec, ec', hu, hu', hi, hi', hd, hr⟩ := h
  rw [Bool.not_eq_true] at hc1 hc2
  have r1 : readWhole c1 v = .ok { label := some v.1, unit := some (getConversion u).2, vals := rows.map fun r => r.1.map (scaleVal (getConversion u).1 c1.scale) } := by
    unfold readWhole
    rw [ev, hc1]
    simp only [Bool.and_false, Bool.false_eq_true, if_false]
    rw [mapE_cells]
  have hpc : getConversion "PER-CENT".toList = (.dec 1 0, "PER-CENT".toList) := by decide
  have r2 : readWhole c2 c = .ok { label := some c.1, unit := some "PER-CENT".toList, vals := rows.map fun r => r.2.1.map (scaleVal (.dec 1 0) c2.scale) } := by
    unfold readWhole
    rw [ec, hp, hc2]
    simp only [Bool.and_false, Bool.false_eq_true, if_false]
    rw [mapE_cells, hpc]
  have r3 : readWhole c2 c' = .ok { label := some c.1, unit := some (getConversion u').2, vals := rows.map fun r => r.2.2.map (scaleVal (getConversion u').1 c2.scale) } := by
    unfold readWhole
    rw [ec', ← hh, hc2]
    simp only [Bool.and_false, Bool.false_eq_true, if_false]
    rw [mapE_cells]
  refine ⟨_, _, _, _, r1, r2, r3, rfl, rfl, ?_, ?_, by rw [ec]; simp⟩
  · have : ∀ u ∈ freeUnits, (getConversion u).2 ≠ "PER-CENT".toList := by decide +kernel
    exact this u hu
  · rw [conversion_units _ hi hu _ hi' hu' hd]
    congr 1
    rw [List.zipWith_map, List.zipWith_self]
    apply List.map_congr_left
    intro r hm
    have h0 := hr r hm
    obtain ⟨x, p, e⟩ := r
    cases x with
    | none => simp only [SameUncertainty] at h0; subst h0; rfl
    | some x =>
      cases p with
      | none => simp only [SameUncertainty] at h0; subst h0; rfl
      | some p =>
        obtain ⟨y, rfl, hy⟩ := h0
        have e1 := scaleVal_same hu' hu hi' hi hd.symm c2.scale (x := y) (x' := x * p / 100) (by rw [hy]; ring)
        simp only [Option.map_some, percentOf, Option.some.injEq]
        rw [e1, hs]
        simp only [scaleVal, Factor.val, RealNum.dec_eq, RealNum.mul_eq, RealNum.add_eq, RealNum.zero_eq, RealNum.pct_eq, add_zero, Int.cast_one, zpow_zero, mul_one]
        ring

/-- the same column, or an uncertainty in percent and the same in a unit -/
def PercentOrSame (cols : List (WholeColumn ℝ)) (c c' : WholeColumn ℝ) : Prop := c = c' ∨ ∃ v ∈ cols, InPercent v c c'

theorem PercentOrSame.head {cols : List (WholeColumn ℝ)} {c c' : WholeColumn ℝ} (h : PercentOrSame cols c c') : c.1 = c'.1 := by
  rcases h with rfl | ⟨_, _, h⟩; exacts [rfl, h.heading]

theorem inFamily_mem {F : List String} {l : Str} : inFamily F l = true ↔ l ∈ F.map String.toList := by
  unfold inFamily
  rw [List.any_eq_true, List.mem_map]
  simp only [decide_eq_true_eq]

theorem usable_of {p : ColParser} {c : WholeColumn ℝ} {u : Str} (hu : c.2.1 = some (some u)) (h1 : c.1 ∈ p.labels) (h2 : u ∈ p.units) : usable p c = true := by
  unfold usable
  rw [hu]
  exact Bool.and_eq_true_iff.2 ⟨decide_eq_true h1, decide_eq_true h2⟩
theorem usable_not {p : ColParser} {c : WholeColumn ℝ} (h1 : c.1 ∉ p.labels) : usable p c = false := by
  unfold usable
  split
  · rw [decide_eq_false h1]; rfl
  · rfl

/-- a parser for other headings finds the same -/
theorem find_other {cols cs cs' : List (WholeColumn ℝ)} (h : List.Forall₂ (PercentOrSame cols) cs cs') {p : ColParser}
    (hp : (p.labels.all fun l => !isRelative l) = true) : cs.find? (usable p) = cs'.find? (usable p) := by
  induction h with
  | nil => rfl
  | @cons a a' l l' ha _ ih =>
    rcases ha with rfl | ⟨v, hv, ha⟩
    · rw [List.find?_cons, List.find?_cons, ih]
    · obtain ⟨hd, hdm, hd1, -⟩ := ha.headings
      have hrel : isRelative a.1 = true := List.any_eq_true.2 ⟨hd, hdm, hd1⟩
      have hno : ∀ c : WholeColumn ℝ, c.1 = a.1 → usable p c = false := by
        intro c hc
        have : ¬ c.1 ∈ p.labels := by
          intro hm
          have := List.all_eq_true.1 hp _ hm
          rw [hc, hrel] at this
          cases this
        exact usable_not this
      rw [List.find?_cons, List.find?_cons, hno a rfl, hno a' ha.heading.symm]
      exact ih

/-- the only column of a family -/
theorem find_single {p : ColParser} {F : List String} (hl : ∀ l ∈ p.labels, l ∈ F.map String.toList) {cs : List (WholeColumn ℝ)} {a : WholeColumn ℝ}
    (h : (cs.filter fun c => inFamily F c.1) = [a]) : cs.find? (usable p) = if usable p a then some a else none := by
  rw [find_filter (q := fun c => inFamily F c.1) (usable_family hl), h, List.find?_cons]
  cases usable p a <;> rfl

/-- What the parser of an uncertainty finds: the same column, or the uncertainty in percent and the same in a unit. -/
theorem percent_find {k : DsKind} (hk : (parserMapOf k).isSome) {cs cs' : List (WholeColumn ℝ)} (h : List.Forall₂ (PercentOrSame cs) cs cs')
    (hone : ∀ F ∈ headingFamilies k, (cs.filter fun c => inFamily F c.1).length ≤ 1) {c1 c2 : ColParser} (hp : partFacts c1 c2 = true)
    {F : List String} (hF : F ∈ headingFamilies k) (hl : ∀ l ∈ c2.labels, l ∈ F.map String.toList)
    (hun : ∀ x ∈ siUnits, x.1 ∈ freeUnits → ∀ y ∈ siUnits, y.1 ∈ freeUnits → x.2.1.dimension = y.2.1.dimension → (x.1 ∈ c2.units ↔ y.1 ∈ c2.units)) :
    cs.find? (usable c2) = cs'.find? (usable c2) ∨ ∃ v c c', InPercent v c c' ∧ c ∈ cs ∧ c' ∈ cs' ∧ c.1 ∈ c2.labels ∧ cs.find? (usable c2) = some c ∧
      cs.find? (usable c1) = (if usable c1 v then some v else none) ∧ (usable c1 v = true → cs'.find? (usable c2) = some c') := by
  simp only [partFacts, Bool.and_eq_true, decide_eq_true_eq, List.all_eq_true, Bool.or_eq_true, Bool.not_eq_true'] at hp
  obtain ⟨⟨⟨-, hpc⟩, hun1⟩, hhd⟩ := hp
  have hfil := forall₂_filter (f := fun c : WholeColumn ℝ => inFamily F c.1) h fun a a' ha => by rw [ha.head]
  have hlen := hone F hF
  generalize hg : (cs.filter fun c => inFamily F c.1) = g at hfil hlen
  generalize hg' : (cs'.filter fun c => inFamily F c.1) = g' at hfil
  cases hfil with
  | nil =>
    left
    rw [find_filter (q := fun c => inFamily F c.1) (usable_family hl), find_filter (q := fun c => inFamily F c.1) (usable_family hl) cs', hg, hg']
  | @cons a a' l l' ha hrest =>
    have hl0 : l = [] := by
      cases l with
      | nil => rfl
      | cons b l => simp at hlen
    subst hl0
    cases hrest
    have f1 := find_single hl hg
    have f2 := find_single hl hg'
    rcases ha with rfl | ⟨v, hv, ha⟩
    · left; rw [f1, f2]
    · by_cases hlab : a.1 ∈ c2.labels
      · right
        obtain ⟨hd, hdm, hd1, hd2⟩ := ha.headings
        have hc1 : ∀ l ∈ c1.labels, inFamily hd.2 l = true := by
          rcases hhd hd hdm with h0 | h0
          · rw [h0 _ hlab] at hd1; cases hd1
          · exact h0
        have hV : hd.2 ∈ headingFamilies k := by
          have haF : a ∈ cs.filter fun c => inFamily F c.1 := by rw [hg]; simp
          have haF := (List.mem_filter.1 haF).2
          unfold inFamily at haF hd1
          obtain ⟨s, hs, hse⟩ := List.any_eq_true.1 hd1
          obtain ⟨s', hs', hse'⟩ := List.any_eq_true.1 haF
          have : s = s' := String.toList_inj.1 ((of_decide_eq_true hse).trans (of_decide_eq_true hse').symm)
          exact relative_families hk hdm F hF s hs (this ▸ hs')
        have hvF : v ∈ cs.filter fun c => inFamily hd.2 c.1 := List.mem_filter.2 ⟨hv, hd2⟩
        have hvo := hone _ hV
        have hvs : (cs.filter fun c => inFamily hd.2 c.1) = [v] := by
          generalize (cs.filter fun c => inFamily hd.2 c.1) = z at hvF hvo
          match z, hvo with
          | [], _ => simp at hvF
          | [b], _ => simp only [List.mem_singleton] at hvF; rw [hvF]
        have f3 := find_single (p := c1) (F := hd.2) (fun l hl => inFamily_mem.1 (hc1 l hl)) hvs
        have hua : usable c2 a = true := usable_of ha.percent hlab hpc
        refine ⟨v, a, a', ha, ?_, ?_, hlab, by rw [f1, hua]; rfl, f3, ?_⟩
        · exact (List.mem_filter.1 (show a ∈ cs.filter fun c => inFamily F c.1 by rw [hg]; simp)).1
        · exact (List.mem_filter.1 (show a' ∈ cs'.filter fun c => inFamily F c.1 by rw [hg']; simp)).1
        · intro huv
          have : usable c2 a' = true := by
            obtain ⟨u, b, n, u', b', n', rows, ev, ec, ec', hu, hu', hi, hi', hd, hr⟩ := ha.cells
            unfold usable at huv
            rw [ev] at huv
            simp only [Bool.and_eq_true, decide_eq_true_eq] at huv
            exact usable_of (by rw [ec']) (ha.heading ▸ hlab) ((hun _ hi hu _ hi' hu' hd).1 (hun1 u huv.2))
          rw [f2, this]; rfl
      · left
        have hno : ∀ c : WholeColumn ℝ, c.1 = a.1 → usable c2 c = false := by
          intro c hc
          exact usable_not (hc ▸ hlab)
        rw [f1, f2, hno a rfl, hno a' ha.heading.symm]
        rfl

theorem find_of {p : ColParser} {t : Table ℝ} {c : WholeColumn ℝ} {k : Column ℝ} (h : (columnsOf t).find? (usable p) = some c) (hk : readWhole p c = .ok k) :
    p.find t = .ok k := by
  rw [find_column, h, Option.map_some, hk]
  rfl
theorem find_dummy {p : ColParser} {t : Table ℝ} (h : (columnsOf t).find? (usable p) = none) : p.find t = .ok (dummy t) := by
  rw [find_column, h]
  rfl

theorem column_length {t : Table ℝ} {c : WholeColumn ℝ} (h : c ∈ columnsOf t) : c.2.2.length = t.data.length := by
  unfold columnsOf at h
  obtain ⟨x, -, rfl⟩ := List.mem_map.1 h
  simp

theorem zipWith_none (l : List (Option ℝ)) : List.zipWith percentOf l (List.replicate l.length (none : Option ℝ)) = List.replicate l.length none := by
  induction l with
  | nil => rfl
  | cons a l ih => simp only [List.length_cons, List.replicate_succ, List.zipWith_cons_cons, ih]; cases a <;> rfl

/-- a quantity with its uncertainty in percent or in a unit -/
theorem indep_percent {t t' : Table ℝ} (hr : t.data.length = t'.data.length) {c1 c2 : ColParser} (hs : c1.scale = .dec 1 0)
    (h1 : (columnsOf t).find? (usable c1) = (columnsOf t').find? (usable c1)) {v c c' : WholeColumn ℝ} (h : InPercent v c c')
    (f2 : (columnsOf t).find? (usable c2) = some c) (f1 : (columnsOf t).find? (usable c1) = if usable c1 v then some v else none)
    (f2' : usable c1 v = true → (columnsOf t').find? (usable c2) = some c') :
    (Pair.indep c1 c2).getValue t = (Pair.indep c1 c2).getValue t' ∧ (Pair.indep c1 c2).getError t = (Pair.indep c1 c2).getError t' := by
  have hd := dummy_same hr
  have e1 : c1.find t = c1.find t' := by rw [find_column, find_column, h1, hr]
  cases hu : usable c1 v with
  | false =>
    rw [hu, if_neg (by simp)] at f1
    have m1 : (Pair.indep c1 c2).isMatch t = false := by simp only [Pair.isMatch, firstMatch_isSome, f1]; rfl
    have m2 : (Pair.indep c1 c2).isMatch t' = false := by simp only [Pair.isMatch, firstMatch_isSome, ← h1, f1]; rfl
    simp [Pair.getValue, Pair.value0, Pair.getError, m1, m2, hd]
  | true =>
    rw [hu, if_pos rfl] at f1
    have f2' := f2' hu
    have m1 : (Pair.indep c1 c2).isMatch t = true := by simp only [Pair.isMatch, firstMatch_isSome, f1, f2]; rfl
    have m2 : (Pair.indep c1 c2).isMatch t' = true := by simp only [Pair.isMatch, firstMatch_isSome, ← h1, f1, f2']; rfl
    obtain ⟨k1, k2, k2', w, r1, r2, r2', hk2, hk1, hw, hk, -⟩ := percent_columns h (c2 := c2) hs
    have g1 := find_of f1 r1
    have g2 := find_of f2 r2
    have g2' := find_of f2' r2'
    have hn : k2'.unit ≠ some "PER-CENT".toList := by
      rw [hk]
      simp only [hk1, ne_eq, Option.some.injEq]
      exact hw
    refine ⟨?_, ?_⟩
    · simp only [Pair.getValue, Pair.value0, m1, m2, e1, if_true]
    · have hh : (Pair.indep c1 c2).error0 t = (Pair.indep c1 c2).error0 t' := by
        simp only [Pair.error0, g2, g2', g1, if_pos hk2, if_neg hn]
        rw [hk]
        unfold indepErr
        rw [if_pos hk2]
      unfold Pair.getError
      rw [m1, m2, hh, hd]

/-- a column in percent of `k1` and the same in a unit, or no column -/
def Converted (k1 k k' : Column ℝ) : Prop :=
  (k.unit = some "PER-CENT".toList ∧ k'.unit = k1.unit ∨ k.unit = none ∧ k'.unit = none) ∧ k'.vals = List.zipWith percentOf k1.vals k.vals

/-- a quantity with systematic and statistical uncertainties, in percent or in a unit -/
theorem addErr_percent {t t' : Table ℝ} (hr : t.data.length = t'.data.length) {c1 c2 c3 : ColParser} {k1 k2 k3 k2' k3' : Column ℝ}
    (g1 : c1.find t = .ok k1) (g1' : c1.find t' = .ok k1) (g2 : c2.find t = .ok k2) (g2' : c2.find t' = .ok k2') (g3 : c3.find t = .ok k3) (g3' : c3.find t' = .ok k3')
    (hm : (Pair.addErr c1 c2 c3).isMatch t = (Pair.addErr c1 c2 c3).isMatch t') {w : Str} (hw1 : k1.unit = some w) (hw : w ≠ "PER-CENT".toList)
    (d2 : Converted k1 k2 k2') (d3 : Converted k1 k3 k3') (hp : k2.unit = some "PER-CENT".toList ∨ k3.unit = some "PER-CENT".toList) :
    (Pair.addErr c1 c2 c3).getValue t = (Pair.addErr c1 c2 c3).getValue t' ∧ (Pair.addErr c1 c2 c3).getError t = (Pair.addErr c1 c2 c3).getError t' := by
  have hd := dummy_same hr
  have hn : ¬ (k2'.unit = some "PER-CENT".toList ∨ k3'.unit = some "PER-CENT".toList) := by
    have key : ∀ k k', Converted k1 k k' → k'.unit ≠ some "PER-CENT".toList := by
      rintro k k' ⟨⟨-, h⟩ | ⟨-, h⟩, -⟩
      · rw [h, hw1]; simp only [ne_eq, Option.some.injEq]; exact hw
      · rw [h]; exact nofun
    rintro (h | h)
    exacts [key _ _ d2 h, key _ _ d3 h]
  have hu : lastSome k2'.unit k3'.unit = k1.unit := by
    obtain ⟨a2, -⟩ := d2
    obtain ⟨a3, -⟩ := d3
    rcases a3 with ⟨-, h3⟩ | ⟨h3, h3'⟩
    · rw [h3, hw1]; rfl
    · rcases a2 with ⟨-, h2⟩ | ⟨h2, -⟩
      · rw [h3', h2, hw1]; rfl
      · rw [h2, h3] at hp
        rcases hp with hp | hp <;> exact absurd hp nofun
  have he : (Pair.addErr c1 c2 c3).error0 t = (Pair.addErr c1 c2 c3).error0 t' := by
    simp only [Pair.error0, g1, g2, g3, g2', g3', if_pos hp, if_neg hn]
    unfold addErrColumn addErrCols
    simp only [if_pos hp, if_neg hn, hu, d2.2, d3.2]
  refine ⟨?_, ?_⟩
  · simp only [Pair.getValue, Pair.value0, hm, g1, g1', hd]
  · unfold Pair.getError
    rw [hm, he, hd]

theorem converted_dummy {t t' : Table ℝ} (hr : t.data.length = t'.data.length) {k1 : Column ℝ} (hl : k1.vals.length = t.data.length) :
    Converted k1 (dummy t) (dummy t') := by
  refine ⟨.inr ⟨rfl, rfl⟩, ?_⟩
  unfold dummy
  simp only
  rw [← hr, ← hl, zipWith_none]

/-- the parsers get the same values and uncertainties -/
theorem pair_percent {k : DsKind} {m : Dict Str (List Pair) × List Str} (hm : parserMapOf k = some m) {t t' : Table ℝ}
    (hr : t.data.length = t'.data.length) (h : List.Forall₂ (PercentOrSame (columnsOf t)) (columnsOf t) (columnsOf t'))
    (hone : ∀ F ∈ headingFamilies k, ((columnsOf t).filter fun c => inFamily F c.1).length ≤ 1) (hx : NotMixed (columnsOf t)) (hx' : NotMixed (columnsOf t'))
    {kv : Str × List Pair} (hkv : kv ∈ m.1) {q : Pair} (hq : q ∈ kv.2) : q.getValue t = q.getValue t' ∧ q.getError t = q.getError t' := by
  have hf := pair_facts hm kv hkv q hq
  have hk : (parserMapOf k).isSome := by rw [hm]; rfl
  have hun := parts_units hm kv hkv q hq
  have hfam := parts_family hm kv hkv q hq
  have same : ∀ q : Pair, (∀ p ∈ q.parts, (columnsOf t).find? (usable p) = (columnsOf t').find? (usable p)) → q.getValue t = q.getValue t' ∧ q.getError t = q.getError t' :=
    fun q hs => ⟨getValue_same ⟨hr, fun p hp => by rw [hs p hp]⟩, getError_same ⟨hr, fun p hp => by rw [hs p hp]⟩⟩
  cases q with
  | missing c1 => exact same _ fun p hp => find_other h (List.all_eq_true.1 hf p hp)
  | constPct c1 => exact same _ fun p hp => find_other h (List.all_eq_true.1 hf p hp)
  | highLow c1 c2 => exact same _ fun p hp => find_other h (List.all_eq_true.1 hf p hp)
  | highMidLow c1 c2 c3 => exact same _ fun p hp => find_other h (List.all_eq_true.1 hf p hp)
  | barnsSqrtE c1 c2 =>
    have h1 := find_other h hf
    have hi : (Pair.barnsSqrtE c1 c2).isMatch t = (Pair.barnsSqrtE c1 c2).isMatch t' := by simp only [Pair.isMatch, firstMatch_isSome, h1]
    have hd := dummy_same hr
    have hs : ∀ (t : Table ℝ) p, sqrtEColumn t p = .error .typeError := fun t p => rfl
    simp only [Pair.getValue, Pair.getError, Pair.error0, hi, hd, hs, and_self]
  | indep c1 c2 =>
    simp only [pairFacts, Bool.and_eq_true] at hf
    have h1 := find_other h hf.2
    obtain ⟨F, hF, hl⟩ := hfam c2 (by simp [Pair.parts])
    rcases percent_find hk h hone hf.1 hF hl (hun c2 (by simp [Pair.parts])) with h2 | ⟨v, c, c', hv, -, -, -, f2, f1, f2'⟩
    · refine same _ fun p hp => ?_
      simp only [Pair.parts, List.mem_cons, List.not_mem_nil, or_false] at hp
      rcases hp with rfl | rfl
      exacts [h1, h2]
    · have hs : c1.scale = .dec 1 0 := by
        have := hf.1
        simp only [partFacts, Bool.and_eq_true, decide_eq_true_eq] at this
        exact this.1.1.1
      exact indep_percent hr hs h1 hv f2 f1 f2'
  | addErr c1 c2 c3 =>
    simp only [pairFacts, Bool.and_eq_true, decide_eq_true_eq] at hf
    obtain ⟨⟨⟨⟨p2, p3⟩, h1⟩, l2⟩, l3⟩ := hf
    have h1 := find_other h h1
    have hs : c1.scale = .dec 1 0 := by
      have := p2
      simp only [partFacts, Bool.and_eq_true, decide_eq_true_eq] at this
      exact this.1.1.1
    obtain ⟨F2, hF2, hl2⟩ := hfam c2 (by simp [Pair.parts])
    obtain ⟨F3, hF3, hl3⟩ := hfam c3 (by simp [Pair.parts])
    have e1 : c1.find t = c1.find t' := by rw [find_column, find_column, h1, hr]
    have hd := dummy_same hr
    -- without quantity
    have hno : ∀ v, (columnsOf t).find? (usable c1) = (if usable c1 v then some v else none) → usable c1 v = false →
        (Pair.addErr c1 c2 c3).getValue t = (Pair.addErr c1 c2 c3).getValue t' ∧ (Pair.addErr c1 c2 c3).getError t = (Pair.addErr c1 c2 c3).getError t' := by
      intro v f1 hu
      rw [hu, if_neg (by simp)] at f1
      have m1 : (Pair.addErr c1 c2 c3).isMatch t = false := by simp only [Pair.isMatch, firstMatch_isSome, f1]; rfl
      have m2 : (Pair.addErr c1 c2 c3).isMatch t' = false := by simp only [Pair.isMatch, firstMatch_isSome, ← h1, f1]; rfl
      simp [Pair.getValue, Pair.value0, Pair.getError, m1, m2, hd]
    have notPct : ∀ v c c', InPercent v c c' → c'.2.1 ≠ some (some "PER-CENT".toList) := by
      intro v c c' hv
      obtain ⟨u, b, n, u', b', n', rows, ev, ec, ec', hu, hu', -⟩ := hv.cells
      rw [ec']
      simp only [ne_eq, Option.some.injEq]
      have : ∀ u ∈ freeUnits, u ≠ "PER-CENT".toList := by decide +kernel
      exact this u' hu'
    rcases percent_find hk h hone p2 hF2 hl2 (hun c2 (by simp [Pair.parts])) with h2 | ⟨v, c, c', hv, hc, hc', hlab, f2, f1, f2'⟩ <;>
    rcases percent_find hk h hone p3 hF3 hl3 (hun c3 (by simp [Pair.parts])) with h3 | ⟨w, e, e', hw, he, he', hlae, f3, fw, f3'⟩
    · refine same _ fun p hp => ?_
      simp only [Pair.parts, List.mem_cons, List.not_mem_nil, or_false] at hp
      rcases hp with rfl | rfl | rfl
      exacts [h1, h2, h3]
    · -- only ERR-S
      cases hu : usable c1 w with
      | false => exact hno w fw hu
      | true =>
        cases hz : (columnsOf t).find? (usable c2) with
        | some z =>
          have hzu := List.find?_some hz
          have hzl : z.1 = "ERR".toList := by
            by_contra hne
            rw [usable_not (by rw [l2]; simpa using hne)] at hzu
            cases hzu
          have hel : e.1 = "ERR-S".toList := by rw [l3] at hlae; simpa using hlae
          have a1 := (hx z (List.mem_of_find?_eq_some hz) e he hzl hel).2 hw.percent
          have a2 := (hx' z (List.mem_of_find?_eq_some (h2 ▸ hz)) e' he' hzl (hw.heading ▸ hel)).1 a1
          exact absurd a2 (notPct _ _ _ hw)
        | none =>
          obtain ⟨k1, k3, k3', x, r1, r3, r3', hk3, hk1, hxx, hk, hlen⟩ := percent_columns hw (c2 := c3) hs
          have f3' := f3' hu
          rw [hu, if_pos rfl] at fw
          refine addErr_percent hr (find_of fw r1) (find_of (h1 ▸ fw) r1) (find_dummy hz) (find_dummy (h2 ▸ hz)) (find_of f3 r3) (find_of f3' r3') ?_ hk1 hxx
            (converted_dummy hr (by rw [hlen]; exact column_length he)) ⟨.inl ⟨hk3, by rw [hk]⟩, by rw [hk]⟩ (.inr hk3)
          simp only [Pair.isMatch, firstMatch_isSome, ← h1, ← h2, f3, f3', Option.isSome_some]
    · -- only ERR
      cases hu : usable c1 v with
      | false => exact hno v f1 hu
      | true =>
        cases hz : (columnsOf t).find? (usable c3) with
        | some z =>
          have hzu := List.find?_some hz
          have hzl : z.1 = "ERR-S".toList := by
            by_contra hne
            rw [usable_not (by rw [l3]; simpa using hne)] at hzu
            cases hzu
          have hel : c.1 = "ERR".toList := by rw [l2] at hlab; simpa using hlab
          have a1 := (hx c hc z (List.mem_of_find?_eq_some hz) hel hzl).1 hv.percent
          have a2 := (hx' c' hc' z (List.mem_of_find?_eq_some (h3 ▸ hz)) (hv.heading ▸ hel) hzl).2 a1
          exact absurd a2 (notPct _ _ _ hv)
        | none =>
          obtain ⟨k1, k2, k2', x, r1, r2, r2', hk2, hk1, hxx, hk, hlen⟩ := percent_columns hv (c2 := c2) hs
          have f2' := f2' hu
          rw [hu, if_pos rfl] at f1
          refine addErr_percent hr (find_of f1 r1) (find_of (h1 ▸ f1) r1) (find_of f2 r2) (find_of f2' r2') (find_dummy hz) (find_dummy (h3 ▸ hz)) ?_ hk1 hxx
            ⟨.inl ⟨hk2, by rw [hk]⟩, by rw [hk]⟩ (converted_dummy hr (by rw [hlen]; exact column_length hc)) (.inl hk2)
          simp only [Pair.isMatch, firstMatch_isSome, ← h1, f2, f2', ← h3, Option.isSome_some]
    · -- both
      cases hu : usable c1 v with
      | false => exact hno v f1 hu
      | true =>
        rw [hu, if_pos rfl] at f1
        have hvw : v = w := by
          rw [f1] at fw
          split at fw
          · exact Option.some.inj fw
          · cases fw
        subst hvw
        obtain ⟨k1, k2, k2', x, r1, r2, r2', hk2, hk1, hxx, hk, hlen⟩ := percent_columns hv (c2 := c2) hs
        obtain ⟨k1', k3, k3', x', r1', r3, r3', hk3, hk1', hxx', hk', hlen'⟩ := percent_columns hw (c2 := c3) hs
        obtain rfl := Except.ok.inj (r1.symm.trans r1')
        have f2' := f2' hu
        have f3' := f3' hu
        refine addErr_percent hr (find_of f1 r1) (find_of (h1 ▸ f1) r1) (find_of f2 r2) (find_of f2' r2') (find_of f3 r3) (find_of f3' r3') ?_ hk1 hxx
          ⟨.inl ⟨hk2, by rw [hk]⟩, by rw [hk]⟩ ⟨.inl ⟨hk3, by rw [hk']⟩, by rw [hk']⟩ (.inl hk2)
        simp only [Pair.isMatch, firstMatch_isSome, ← h1, f2, f2', f3, f3', Option.isSome_some]

/-- C119, in exact arithmetic: simplifying a dataset with uncertainties in percent gives the same headings, units and rows, or the same
exception, as with the same uncertainties in a unit, in any or all of the columns for uncertainties; if no family of headings comes
twice, and of ERR and ERR-S not only one is in percent. -/
theorem C119_percent_partial (d d' : DataSet ρ ℝ) (makeAll failMissing : Bool) (hk : d.kind = d'.kind) (hp : (parserMapOf d.kind).isSome)
    (hs : d.simplified = false) (hs' : d'.simplified = false) (hr : d.data.length = d'.data.length)
    (hc : List.Forall₂ (fun c c' => c = c' ∨ ∃ v ∈ columnsOf d.table, InPercent v c c') (columnsOf d.table) (columnsOf d'.table))
    (h1 : OneEach d.kind d.labels) (hx : NotMixed (columnsOf d.table)) (hx' : NotMixed (columnsOf d'.table)) :
    (d.getSimplified makeAll failMissing).map DataSet.table = (d'.getSimplified makeAll failMissing).map DataSet.table := by
  obtain ⟨m, hm⟩ := Option.isSome_iff_exists.1 hp
  have hlab : (columnsOf d.table).map (fun c => c.1) = d.labels := by
    unfold columnsOf
    rw [List.map_map]
    exact List.zipIdx_map_fst 0 d.labels
  have hone : ∀ F ∈ headingFamilies d.kind, ((columnsOf d.table).filter fun c => inFamily F c.1).length ≤ 1 := by
    intro F hF
    have := h1 F hF
    rw [← hlab, List.filter_map, List.length_map] at this
    exact this
  exact simplified_pairs d d' makeAll failMissing hk hs hs' hr m hm fun kv hkv q hq => pair_percent hm hr hc hone hx hx' hkv hq

/-! ### Datasets with uncertainties in percent -/

/-- C119_percent_partial: 5 % and the same in millibarns -/
example (x v : ℝ) (makeAll failMissing : Bool) :
    ((oneRow [("EN".toList, "KEV".toList, some x), ("DATA".toList, "B".toList, some v), ("DATA-ERR".toList, "PER-CENT".toList, some 5)]).getSimplified
      makeAll failMissing).map DataSet.table =
    ((oneRow [("EN".toList, "KEV".toList, some x), ("DATA".toList, "B".toList, some v), ("DATA-ERR".toList, "MB".toList, some (50 * v))]).getSimplified
      makeAll failMissing).map DataSet.table := by
  refine C119_percent_partial _ _ makeAll failMissing rfl rfl rfl rfl rfl (.cons (.inl rfl) (.cons (.inl rfl) (.cons (.inr ⟨("DATA".toList, some (some "B".toList), [some (some v)]), ?_, ?_⟩) .nil)))
    ?_ ?_ ?_
  · exact List.mem_cons_of_mem _ (List.mem_cons_self ..)
  · refine ⟨rfl, ⟨show ¬ hasSub "COS".toList "DATA".toList = true by decide, show ¬ hasSub "COS".toList "DATA-ERR".toList = true by decide⟩, ⟨(["DATA-ERR", "RATIO-ERR", "ERR-T"], dataFamilies.headD []), by decide +kernel,
      show inFamily ["DATA-ERR", "RATIO-ERR", "ERR-T"] "DATA-ERR".toList = true by decide +kernel, show inFamily (dataFamilies.headD []) "DATA".toList = true by decide +kernel⟩, rfl,
      "B".toList, .barn, 0, "MB".toList, .barn, -3, [(some v, some 5, some (50 * v))], rfl, rfl, rfl, by decide +kernel, by decide +kernel, by decide +kernel,
      by decide +kernel, rfl, ?_⟩
    intro r hr
    rw [List.mem_singleton] at hr
    subst hr
    refine ⟨_, rfl, ?_⟩
    norm_num
    ring
  · have : ∀ F ∈ headingFamilies .crossSection, (["EN".toList, "DATA".toList, "DATA-ERR".toList].filter (inFamily F)).length ≤ 1 := by decide +kernel
    exact this
  all_goals
    intro c hc e he h1 h2
    have : c.1 ∈ ["EN".toList, "DATA".toList, "DATA-ERR".toList] := List.mem_map_of_mem (f := fun c : WholeColumn ℝ => c.1) hc
    rw [h1] at this
    exact absurd this (by decide)

/-- C119 is false for asymmetric uncertainties: in percent they are ignored, whatever the numbers. -/
theorem C119_asymmetric_refuted {N : Type} [PyNum N] (x v a b a' b' : N) : ∃ r r',
    (oneRow [("EN".toList, "MEV".toList, some x), ("DATA".toList, "B".toList, some v), ("-DATA-ERR".toList, "PER-CENT".toList, some a),
      ("+DATA-ERR".toList, "PER-CENT".toList, some b)]).getSimplified false false = .ok r ∧ r.labels = ["Energy".toList, "Data".toList] ∧
    (oneRow [("EN".toList, "MEV".toList, some x), ("DATA".toList, "B".toList, some v), ("-DATA-ERR".toList, "B".toList, some a'),
      ("+DATA-ERR".toList, "B".toList, some b')]).getSimplified false false = .ok r' ∧ r'.labels = ["Energy".toList, "Data".toList, "d(Data)".toList] :=
  ⟨_, _, rfl, rfl, rfl, rfl⟩

end X4
