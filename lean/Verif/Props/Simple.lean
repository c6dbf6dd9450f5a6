import Verif.Spec.Simple
import Verif.Props.Simplify
/-! Simplified datasets on tables with the usual columns: energies in MeV, cross sections in barns, uncertainties in the same units. -/
namespace X4

/-! ### what one parser contributes -/

/-- a parser contributes the value `V row` and the uncertainty `E row` to every row, with unit `un` -/
structure PairGives (t : Table ℝ) (p : Pair) (un : Str) (V E : List (Option ℝ) → Option ℝ) : Prop where
  ok : (∃ k, p.getValue t = .ok k) ∧ ∃ k, p.getError t = .ok k
  val : ∀ (r : Nat) row, t.data[r]? = some row → cell (valCol t p).vals r = V row
  err : ∀ (r : Nat) row, t.data[r]? = some row → cell (errCol t p).vals r = E row
  vunit : (valCol t p).unit = none ∨ (valCol t p).unit = some un
  eunit : (errCol t p).unit = none ∨ (errCol t p).unit = some un
  vsome : (∃ row ∈ t.data, V row ≠ none) → (valCol t p).unit = some un
  esome : (∃ row ∈ t.data, E row ≠ none) → (errCol t p).unit = some un

theorem PairGives.mk' {t : Table ℝ} {p : Pair} {un : Str} {V E : List (Option ℝ) → Option ℝ} {kv ke : Column ℝ}
    (hv : p.getValue t = .ok kv) (he : p.getError t = .ok ke)
    (hvv : kv.vals = t.data.map V) (hee : ke.vals = t.data.map E)
    (hvu : kv.unit = some un ∨ (kv.unit = none ∧ ∀ row ∈ t.data, V row = none))
    (heu : ke.unit = some un ∨ (ke.unit = none ∧ ∀ row ∈ t.data, E row = none)) : PairGives t p un V E := by
  have e1 : valCol t p = kv := by rw [valCol, hv]; rfl
  have e2 : errCol t p = ke := by rw [errCol, he]; rfl
  refine ⟨⟨⟨_, hv⟩, _, he⟩, ?_, ?_, ?_, ?_, ?_, ?_⟩
  · intro r row hr; rw [e1, hvv, cell, List.getElem?_map, hr]; rfl
  · intro r row hr; rw [e2, hee, cell, List.getElem?_map, hr]; rfl
  · rw [e1]; exact hvu.symm.imp And.left id
  · rw [e2]; exact heu.symm.imp And.left id
  · rintro ⟨row, hrow, hne⟩
    rw [e1]
    exact hvu.resolve_right fun h => hne (h.2 row hrow)
  · rintro ⟨row, hrow, hne⟩
    rw [e2]
    exact heu.resolve_right fun h => hne (h.2 row hrow)

theorem dummy_vals (t : Table ℝ) : (dummy t).vals = t.data.map fun _ => none := by
  simp [dummy, List.map_const']

/-- a parser without matching columns -/
theorem gives_none {t : Table ℝ} {p : Pair} {un : Str} (hv : p.getValue t = .ok (dummy t)) (he : p.getError t = .ok (dummy t)) :
    PairGives t p un (fun _ => none) (fun _ => none) :=
  .mk' hv he (dummy_vals t) (dummy_vals t) (.inr ⟨rfl, fun _ _ => rfl⟩) (.inr ⟨rfl, fun _ _ => rfl⟩)

theorem firstSome_const {α β : Type} (l : List β) : firstSome (l.map fun _ => (none : Option α)) = none := by
  induction l with
  | nil => rfl
  | cons a l ih => simpa [firstSome] using ih

theorem firstSome_ne {α : Type} {l : List (Option α)} (h : firstSome l ≠ none) : ∃ x ∈ l, x ≠ none := by
  induction l with
  | nil => exact absurd rfl h
  | cons a l ih =>
    cases a with
    | some a => exact ⟨_, List.mem_cons_self .., by simp⟩
    | none =>
      obtain ⟨x, hx, hn⟩ := ih h
      exact ⟨x, List.mem_cons_of_mem _ hx, hn⟩

theorem firstSome_of {α : Type} {l : List (Option α)} {u : α} (h : ∀ x ∈ l, x = none ∨ x = some u) (he : some u ∈ l) : firstSome l = some u := by
  induction l with
  | nil => cases he
  | cons a l ih =>
    rcases h a (List.mem_cons_self ..) with rfl | rfl
    · rcases List.mem_cons.1 he with h' | h'
      · cases h'
      · exact ih (fun x hx => h x (List.mem_cons_of_mem _ hx)) h'
    · rfl

/-- `c` is what the parsers of a list give together -/
structure ListGives (t : Table ℝ) (ps : List Pair) (un : Str) (V E : List (Option ℝ) → Option ℝ) : Prop where
  reads : Reads t ps
  val : ∀ (r : Nat) row, t.data[r]? = some row → colVal t ps r = V row
  err : ∀ (r : Nat) row, t.data[r]? = some row → colErr t ps r = E row
  vsome : (∃ row ∈ t.data, V row ≠ none) → colUnit t ps = some un
  esome : (∃ row ∈ t.data, E row ≠ none) → errUnit t ps = some un

theorem listGives {t : Table ℝ} {ps : List Pair} {un : Str} {ves : List ((List (Option ℝ) → Option ℝ) × (List (Option ℝ) → Option ℝ))}
    (h : List.Forall₂ (fun p ve => PairGives t p un ve.1 ve.2) ps ves) (hne : ps ≠ []) :
    ListGives t ps un (fun row => firstSome (ves.map fun ve => ve.1 row)) (fun row => firstSome (ves.map fun ve => ve.2 row)) := by
  have hmem : ∀ p ∈ ps, ∃ V E, PairGives t p un V E := by
    clear hne
    induction h with
    | nil => simp
    | cons hp _ ih =>
      intro p hp'
      rcases List.mem_cons.1 hp' with rfl | hp'
      · exact ⟨_, _, hp⟩
      · exact ih p hp'
  have hback : ∀ ve ∈ ves, ∃ p ∈ ps, PairGives t p un ve.1 ve.2 := by
    clear hne hmem
    induction h with
    | nil => simp
    | cons hp _ ih =>
      intro p hp'
      rcases List.mem_cons.1 hp' with rfl | hp'
      · exact ⟨_, List.mem_cons_self .., hp⟩
      · obtain ⟨q, hq, h⟩ := ih p hp'
        exact ⟨q, List.mem_cons_of_mem _ hq, h⟩
  refine ⟨⟨hne, fun p hp => ?_⟩, ?_, ?_, ?_, ?_⟩
  · obtain ⟨V, E, hg⟩ := hmem p hp
    exact hg.ok
  · intro r row hr
    unfold colVal
    congr 1
    clear hne hmem hback
    induction h with
    | nil => rfl
    | cons hp _ ih => rw [List.map_cons, List.map_cons, ih, hp.val r row hr]
  · intro r row hr
    unfold colErr
    congr 1
    clear hne hmem hback
    induction h with
    | nil => rfl
    | cons hp _ ih => rw [List.map_cons, List.map_cons, ih, hp.err r row hr]
  · rintro ⟨row, hrow, hn⟩
    obtain ⟨x, hx, hxn⟩ := firstSome_ne hn
    obtain ⟨ve, hve, rfl⟩ := List.mem_map.1 hx
    obtain ⟨p, hp, hg⟩ := hback ve hve
    apply firstSome_of
    · intro x hx
      obtain ⟨q, hq, rfl⟩ := List.mem_map.1 hx
      obtain ⟨V, E, hg⟩ := hmem q hq
      exact hg.vunit
    · exact List.mem_map.2 ⟨p, hp, hg.vsome ⟨row, hrow, hxn⟩⟩
  · rintro ⟨row, hrow, hn⟩
    obtain ⟨x, hx, hxn⟩ := firstSome_ne hn
    obtain ⟨ve, hve, rfl⟩ := List.mem_map.1 hx
    obtain ⟨p, hp, hg⟩ := hback ve hve
    apply firstSome_of
    · intro x hx
      obtain ⟨q, hq, rfl⟩ := List.mem_map.1 hx
      obtain ⟨V, E, hg⟩ := hmem q hq
      exact hg.eunit
    · exact List.mem_map.2 ⟨p, hp, hg.esome ⟨row, hrow, hxn⟩⟩

theorem ListGives.congr {t : Table ℝ} {ps : List Pair} {un : Str} {V E V' E' : List (Option ℝ) → Option ℝ} (h : ListGives t ps un V E)
    (hV : ∀ row ∈ t.data, V row = V' row) (hE : ∀ row ∈ t.data, E row = E' row) : ListGives t ps un V' E' := by
  refine ⟨h.reads, ?_, ?_, ?_, ?_⟩
  · intro r row hr; rw [h.val r row hr, hV row (List.mem_of_getElem? hr)]
  · intro r row hr; rw [h.err r row hr, hE row (List.mem_of_getElem? hr)]
  · rintro ⟨row, hrow, hn⟩; exact h.vsome ⟨row, hrow, by rwa [hV row hrow]⟩
  · rintro ⟨row, hrow, hn⟩; exact h.esome ⟨row, hrow, by rwa [hE row hrow]⟩

/-! ### from the quantities to the simplified table -/

/-- the parsers of a map give quantities -/
def Describes (t : Table ℝ) (pm : Dict Str (List Pair)) (q : Quantity) : Prop :=
  ∃ ps, pm.get? q.name = some ps ∧ ListGives t ps q.unit q.val q.err

open Classical in
theorem simplify_quantities {t : Table ℝ} {pm : Dict Str (List Pair)} {qs : List Quantity} {makeAll failMissing : Bool}
    (hn : pm.keys = qs.map Quantity.name) (hnd : pm.keys.Nodup) (hq : ∀ q ∈ qs, Describes t pm q)
    (hv : ∀ q ∈ qs, ∃ row ∈ t.data, q.val row ≠ none)
    (he : makeAll = true ∨ failMissing = false ∨ ∀ q ∈ qs, q.HasErr t.data) :
    simplifyTable t pm (qs.map Quantity.name) makeAll failMissing = .ok (quantityTable qs t.data makeAll) := by
  have hps : ∀ q ∈ qs, ListGives t (parsersOf pm q.name) q.unit q.val q.err := by
    intro q hqm
    obtain ⟨ps, h1, h2⟩ := hq q hqm
    rw [parsersOf, h1]
    exact h2
  have hne : ∀ q ∈ qs, NoError t (parsersOf pm q.name) ↔ ¬ q.HasErr t.data := by
    intro q hqm
    constructor
    · rintro h ⟨row, hrow, hx⟩
      obtain ⟨i, hi, rfl⟩ := List.mem_iff_getElem.1 hrow
      apply hx
      rw [← (hps q hqm).err i _ (List.getElem?_eq_getElem hi)]
      exact h i hi
    · intro h i hi
      by_contra hc
      apply h
      refine ⟨t.data[i], List.getElem_mem hi, ?_⟩
      rwa [← (hps q hqm).err i _ (List.getElem?_eq_getElem hi)]
  have hnv : ∀ q ∈ qs, ¬ NoValue t (parsersOf pm q.name) := by
    intro q hqm h
    obtain ⟨row, hrow, hx⟩ := hv q hqm
    obtain ⟨i, hi, rfl⟩ := List.mem_iff_getElem.1 hrow
    apply hx
    rw [← (hps q hqm).val i _ (List.getElem?_eq_getElem hi)]
    exact h i hi
  have hwith : ∀ l : List Quantity, (∀ q ∈ l, q ∈ qs) → withErr t pm makeAll (l.map Quantity.name) = (withUncertainty l t.data makeAll).map Quantity.name := by
    intro l hl
    induction l with
    | nil => rfl
    | cons q l ih =>
      have ih := ih fun x hx => hl x (List.mem_cons_of_mem _ hx)
      unfold withErr withUncertainty at ih ⊢
      rw [List.map_cons, List.filter_cons, List.filter_cons, ih]
      have := hne q (hl q (List.mem_cons_self ..))
      by_cases hE : q.HasErr t.data
      · simp [this, hE]
      · cases makeAll <;> simp [this, hE]
  have hsub : ∀ q ∈ withUncertainty qs t.data makeAll, q ∈ qs := fun q h => List.mem_of_mem_filter h
  rw [simplify_ok]
  · unfold quantityTable
    have hcu : ∀ q ∈ qs, colUnit t (parsersOf pm q.name) = some q.unit := fun q hqm => (hps q hqm).vsome (hv q hqm)
    congr 2
    · rw [hwith qs fun _ h => h, List.map_map]; rfl
    · rw [hwith qs fun _ h => h, List.map_map, List.map_map]
      congr 1
      · exact List.map_congr_left fun q hqm => hcu q hqm
      · refine List.map_congr_left fun q hqw => ?_
        have hqm := hsub q hqw
        simp only [Function.comp_apply]
        by_cases hE : q.HasErr t.data
        · rw [if_neg (fun h => (hne q hqm).1 h hE)]; exact (hps q hqm).esome hE
        · rw [if_pos ((hne q hqm).2 hE)]; exact hcu q hqm
    · apply List.ext_getElem?
      intro i
      by_cases hi : i < t.data.length
      · have hrow := List.getElem?_eq_getElem hi
        rw [List.getElem?_map, List.getElem?_range hi, List.getElem?_map, hrow]
        simp only [Option.map_some, Option.some.injEq]
        congr 1
        · rw [List.map_map]
          exact List.map_congr_left fun q hqm => (hps q hqm).val i _ hrow
        · have : ∀ l : List Quantity, (∀ q ∈ l, q ∈ qs) → (l.map Quantity.name).flatMap (errEntries t pm makeAll i) =
              (withUncertainty l t.data makeAll).map fun q => if q.HasErr t.data then q.err t.data[i] else some 0 := by
            intro l hl
            induction l with
            | nil => rfl
            | cons q l ih =>
              have ih := ih fun x hx => hl x (List.mem_cons_of_mem _ hx)
              have hqm := hl q (List.mem_cons_self ..)
              unfold withUncertainty at ih ⊢
              rw [List.map_cons, List.flatMap_cons, ih, List.filter_cons]
              unfold errEntries
              by_cases hE : q.HasErr t.data
              · rw [if_neg (fun h => (hne q hqm).1 h hE), (hps q hqm).err i _ hrow]
                simp [hE]
              · rw [if_pos ((hne q hqm).2 hE)]
                cases makeAll <;> simp [hE]
          exact this qs fun _ h => h
      · rw [List.getElem?_eq_none (by simpa using hi), List.getElem?_eq_none (by simpa using hi)]
  · rw [hn]; exact fun _ h => h
  · rw [hn]; exact fun _ h => h
  · intro kv hkv
    have hk : kv.1 ∈ qs.map Quantity.name := hn ▸ List.mem_map.2 ⟨kv, hkv, rfl⟩
    obtain ⟨q, hqm, hqn⟩ := List.mem_map.1 hk
    have : parsersOf pm q.name = kv.2 := by
      rw [hqn, parsersOf, Dict.get?_eq_some_of_mem hnd hkv]; rfl
    rw [← this]
    exact ⟨(hps q hqm).reads, hnv q hqm⟩
  · intro n hn' ⟨h1, h2, h3⟩
    obtain ⟨q, hqm, rfl⟩ := List.mem_map.1 hn'
    rcases he with h | h | h
    · rw [h] at h2; cases h2
    · rw [h] at h3; cases h3
    · exact (hne q hqm).1 h1 (h q hqm)

/-! ### the parsers on the columns they find -/

/-- a parser that does not take the column for a cosine -/
def NoCos (c : ColParser) (l : Str) : Prop := (c.angle && hasSub "COS".toList l) = false

/-- the uncertainty column a parser finds, with the unit of the values or in percent -/
def FindsErr (c : ColParser) (t : Table ℝ) (un : Str) : Option (Nat × Str) → Prop
  | none => FindsNone c t
  | some (j, u) => ∃ l, Finds c t j l u ∧ NoCos c l ∧ (u = "PER-CENT".toList ∨ canonUnit u = un)

theorem map_abs_none (l : List (List (Option ℝ))) : (l.map fun _ => (none : Option ℝ)).map (Option.map PyNum.abs) = l.map fun _ => none := by
  simp [List.map_map, Function.comp_def]

theorem missing_gives' {t : Table ℝ} {c : ColParser} {i : Nat} {l u un : Str} {V : List (Option ℝ) → Option ℝ} (h : Finds c t i l u)
    (hV : c.find t = .ok ⟨some l, some un, t.data.map V⟩) : PairGives t (.missing c) un V (fun _ => none) := by
  refine .mk' (kv := ⟨some l, some un, t.data.map V⟩) (ke := absCol (dummy t)) hV ?_ rfl ?_ (.inl rfl) (.inr ⟨rfl, fun _ _ => rfl⟩)
  · have hm : (Pair.missing c).isMatch t = true := by simp [Pair.isMatch, firstMatch_some h]
    rw [Pair.getError, if_pos hm]; rfl
  · simp only [absCol, dummy_vals, map_abs_none]

theorem missing_gives {t : Table ℝ} (hr : t.Rect) {c : ColParser} {i : Nat} {l u : Str} (h : Finds c t i l u) (hc : NoCos c l) :
    PairGives t (.missing c) (canonUnit u) (canonCell c u i) (fun _ => none) := missing_gives' h (find_real hr h hc)

theorem missing_none {t : Table ℝ} {c : ColParser} {un : Str} (h : FindsNone c t) : PairGives t (.missing c) un (fun _ => none) (fun _ => none) := by
  apply gives_none
  · exact find_none h
  · have hm : ¬ (Pair.missing c).isMatch t = true := by simp [Pair.isMatch, firstMatch_none.2 h]
    rw [Pair.getError, if_neg hm]

/-- as `indep_gives`, for any column that the first parser reads -/
theorem indep_gives' {t : Table ℝ} (hr : t.Rect) {c1 c2 : ColParser} {i : Nat} {l u un : Str} {V : List (Option ℝ) → Option ℝ} (h : Finds c1 t i l u)
    (hV : c1.find t = .ok ⟨some l, some un, t.data.map V⟩) {e : Option (Nat × Str)} (he : FindsErr c2 t un e) :
    PairGives t (.indep c1 c2) un (fun row => if e.isSome then V row else none) (fun row => errorIn (V row) e c2.scale.val row) := by
  cases e with
  | none =>
    have hm : ¬ (Pair.indep c1 c2).isMatch t = true := by simp [Pair.isMatch, firstMatch_none.2 he]
    have := gives_none (t := t) (p := .indep c1 c2) (un := un) (by rw [Pair.getValue, Pair.value0, if_neg hm]; intro _ _ h; cases h) (by rw [Pair.getError, if_neg hm])
    simpa [errorIn] using this
  | some ju =>
    obtain ⟨j, u2⟩ := ju
    obtain ⟨l2, h2, hc2, hu⟩ := he
    have hm : (Pair.indep c1 c2).isMatch t = true := by simp [Pair.isMatch, firstMatch_some h, firstMatch_some h2]
    have hval : (Pair.indep c1 c2).getValue t = .ok ⟨some l, some un, t.data.map V⟩ := by
      simp only [Pair.getValue, Pair.value0, if_pos hm, hV]
    by_cases hp : u2 = "PER-CENT".toList
    · have hp' : (canonUnit u2 : Str) = "PER-CENT".toList := canon_percent.2 hp
      refine .mk' (ke := absCol (indepErr ⟨some l, some un, t.data.map V⟩ ⟨some l2, some (canonUnit u2), t.data.map (canonCell c2 u2 j)⟩)) hval ?_ rfl ?_ (.inl rfl) (.inl ?_)
      · simp only [Pair.getError, if_pos hm, Pair.error0, find_real hr h2 hc2, hV, hp', if_true]
      · rw [indepErr, if_pos (by simp only [hp'])]
        simp only [absCol]
        rw [map_zipWith_percent]
        refine List.map_congr_left fun row _ => ?_
        simp only [errorIn, canonCell, if_pos hp]
        subst hp
        rw [unitFactor_percent]
        cases V row <;> cases cell row j <;> simp [percentSpec]
      · rw [indepErr, if_pos (by simp only [hp'])]; rfl
    · have hp' : ¬ (canonUnit u2 : Str) = "PER-CENT".toList := fun h => hp (canon_percent.1 h)
      refine .mk' (ke := absCol ⟨some l2, some (canonUnit u2), t.data.map (canonCell c2 u2 j)⟩) hval ?_ rfl ?_ (.inl rfl) (.inl ?_)
      · simp only [Pair.getError, if_pos hm, Pair.error0, find_real hr h2 hc2, Option.some.injEq, hp', if_false]
      · simp only [absCol, List.map_map]
        refine List.map_congr_left fun row _ => ?_
        simp only [errorIn, canonCell, if_neg hp, Function.comp_apply]
        cases cell row j <;> simp
      · rw [hu.resolve_left hp]; rfl

theorem indep_gives {t : Table ℝ} (hr : t.Rect) {c1 c2 : ColParser} {i : Nat} {l u : Str} (h : Finds c1 t i l u) (hc : NoCos c1 l)
    {e : Option (Nat × Str)} (he : FindsErr c2 t (canonUnit u) e) :
    PairGives t (.indep c1 c2) (canonUnit u) (fun row => if e.isSome then canonCell c1 u i row else none)
      (fun row => errorIn (canonCell c1 u i row) e c2.scale.val row) := indep_gives' hr h (find_real hr h hc) he

theorem highLow_none {t : Table ℝ} {c1 c2 : ColParser} {un : Str} (h1 : FindsNone c1 t) (h2 : FindsNone c2 t) :
    PairGives t (.highLow c1 c2) un (fun _ => none) (fun _ => none) := by
  have hm : ¬ (Pair.highLow c1 c2).isMatch t = true := by simp [Pair.isMatch, firstMatch_none.2 h1, firstMatch_none.2 h2]
  apply gives_none
  · simp only [Pair.getValue, Pair.value0, if_neg hm]
  · rw [Pair.getError, if_neg hm]

theorem highMidLow_none {t : Table ℝ} {c1 c2 c3 : ColParser} {un : Str} (h2 : FindsNone c2 t) (h3 : FindsNone c3 t) :
    PairGives t (.highMidLow c1 c2 c3) un (fun _ => none) (fun _ => none) := by
  have hm : ¬ (Pair.highMidLow c1 c2 c3).isMatch t = true := by simp [Pair.isMatch, firstMatch_none.2 h2, firstMatch_none.2 h3]
  apply gives_none
  · simp only [Pair.getValue, Pair.value0, if_neg hm]
  · rw [Pair.getError, if_neg hm]

theorem barnsSqrtE_none {t : Table ℝ} {c1 c2 : ColParser} {un : Str} (h1 : FindsNone c1 t) :
    PairGives t (.barnsSqrtE c1 c2) un (fun _ => none) (fun _ => none) := by
  have hm : ¬ (Pair.barnsSqrtE c1 c2).isMatch t = true := by simp [Pair.isMatch, firstMatch_none.2 h1]
  apply gives_none
  · simp only [Pair.getValue, if_neg hm]
  · rw [Pair.getError, if_neg hm]

theorem quad_some_none (x : ℝ) : Real.sqrt (x ^ 2 + 0 ^ 2) = |x| := by rw [zero_pow two_ne_zero, add_zero, Real.sqrt_sq_eq_abs]
theorem quad_none_some (x : ℝ) : Real.sqrt (0 ^ 2 + x ^ 2) = |x| := by rw [zero_pow two_ne_zero, zero_add, Real.sqrt_sq_eq_abs]

theorem quadSpec_abs (x y : Option ℝ) : quadSpec x y = inQuadrature (x.map fun x => |x|) (y.map fun y => |y|) := by
  cases x <;> cases y <;> simp only [quadSpec, inQuadrature, Option.map_none, Option.map_some, Option.getD_none, Option.getD_some, quad_none_some, quad_some_none, sq_abs]

theorem errorIn_percent {v : Option ℝ} {j : Nat} {row : List (Option ℝ)} {s : ℝ} :
    errorIn v (some (j, "PER-CENT".toList)) s row = percentSpec v ((cell row j).map fun x => x * s) := by
  simp only [errorIn, if_true]
  cases v <;> cases cell row j <;> simp [percentSpec]

theorem errorIn_abs {v : Option ℝ} {j : Nat} {u : Str} {row : List (Option ℝ)} {s : ℝ} (h : u ≠ "PER-CENT".toList) :
    errorIn v (some (j, u)) s row = ((cell row j).map fun x => x * unitFactor u * s).map fun x => |x| := by
  simp only [errorIn, if_neg h]
  cases cell row j <;> simp

theorem percent_abs (v x : Option ℝ) : (percentOf v x).map (fun x => |x|) = percentSpec v x := by
  cases v <;> cases x <;> simp [percentOf, percentSpec]

theorem canonCell_percent (c : ColParser) (j : Nat) (row : List (Option ℝ)) :
    canonCell c "PER-CENT".toList j row = (cell row j).map fun x => x * c.scale.val := by
  unfold canonCell
  rw [unitFactor_percent]
  simp

theorem zip_none_left {α β γ : Type} (l : List α) (f : α → Option β) (g : Option β → Option β → γ) :
    List.zipWith g (l.map f) (l.map fun _ => none) = l.map fun a => g (f a) none := zipWith_map_map ..

theorem addErr_gives {t : Table ℝ} (hr : t.Rect) {c1 c2 c3 : ColParser} {i : Nat} {l u : Str} (h : Finds c1 t i l u) (hc : NoCos c1 l)
    {e2 e3 : Option (Nat × Str)} (he2 : FindsErr c2 t (canonUnit u) e2) (he3 : FindsErr c3 t (canonUnit u) e3) (hs : SameKind e2 e3) :
    PairGives t (.addErr c1 c2 c3) (canonUnit u) (fun row => if e2.isSome ∨ e3.isSome then canonCell c1 u i row else none)
      (fun row => inQuadrature (errorIn (canonCell c1 u i row) e2 c2.scale.val row) (errorIn (canonCell c1 u i row) e3 c3.scale.val row)) := by
  have hf1 := find_real hr h hc
  cases e2 with
  | none => cases e3 with
    | none =>
      have hm : ¬ (Pair.addErr c1 c2 c3).isMatch t = true := by simp [Pair.isMatch, firstMatch_none.2 he2, firstMatch_none.2 he3]
      have := gives_none (t := t) (p := .addErr c1 c2 c3) (un := canonUnit u) (by simp only [Pair.getValue, Pair.value0, if_neg hm]) (by rw [Pair.getError, if_neg hm])
      simpa [errorIn, inQuadrature] using this
    | some ju =>
      obtain ⟨j, u3⟩ := ju
      obtain ⟨l3, h3, hc3, hu3⟩ := he3
      have hm : (Pair.addErr c1 c2 c3).isMatch t = true := by simp [Pair.isMatch, firstMatch_some h, firstMatch_some h3]
      have f2 := find_none he2
      have f3 := find_real hr h3 hc3
      have hv : (Pair.addErr c1 c2 c3).getValue t = .ok ⟨some l, some (canonUnit u), t.data.map (canonCell c1 u i)⟩ := by
        simp only [Pair.getValue, Pair.value0, if_pos hm, hf1]
      by_cases hp : u3 = "PER-CENT".toList
      · refine .mk' hv (ke := absCol ⟨some "ERR".toList, some (canonUnit u), t.data.map fun row => quadSpec (percentOf (canonCell c1 u i row) none) (percentOf (canonCell c1 u i row) (canonCell c3 u3 j row))⟩)
          ?_ (by simp) ?_ (.inl rfl) (.inl rfl)
        · have hp' : canonUnit u3 = "PER-CENT".toList := canon_percent.2 hp
          simp only [Pair.getError, if_pos hm, Pair.error0, f2, f3, hf1, hp', or_true, if_true, addErrColumn, addErrCols, dummy_vals, zipWith_map_map, mapE_quad]
        · simp only [absCol, List.map_map, Function.comp_def, quad_abs]
          refine List.map_congr_left fun row _ => ?_
          subst hp
          rw [quadSpec_abs, percent_abs, percent_abs, errorIn_percent, canonCell_percent]
          simp only [errorIn]
          cases canonCell c1 u i row <;> rfl
      · refine .mk' hv (ke := absCol ⟨some "ERR".toList, some (canonUnit u), t.data.map fun row => quadSpec none (canonCell c3 u3 j row)⟩)
          ?_ (by simp) ?_ (.inl rfl) (.inl rfl)
        · have hp' : canonUnit u ≠ "PER-CENT".toList := fun h => hp (canon_percent.1 ((hu3.resolve_left hp).trans h))
          simp only [Pair.getError, if_pos hm, Pair.error0, f2, f3, dummy, hu3.resolve_left hp, Option.some.injEq, hp', or_self, if_false, reduceCtorEq, addErrColumn, addErrCols,
            lastSome, Option.or_none, Option.some_or]
          rw [← List.map_const', mapE_quad]
        · simp only [absCol, List.map_map, Function.comp_def, quad_abs]
          refine List.map_congr_left fun row _ => ?_
          rw [quadSpec_abs, errorIn_abs hp]
          rfl
  | some ju2 =>
    obtain ⟨j2, u2⟩ := ju2
    obtain ⟨l2, h2, hc2, hu2⟩ := he2
    have f2 := find_real hr h2 hc2
    have hm : (Pair.addErr c1 c2 c3).isMatch t = true := by simp [Pair.isMatch, firstMatch_some h, firstMatch_some h2]
    have hv : (Pair.addErr c1 c2 c3).getValue t = .ok ⟨some l, some (canonUnit u), t.data.map (canonCell c1 u i)⟩ := by
      simp only [Pair.getValue, Pair.value0, if_pos hm, hf1]
    cases e3 with
    | none =>
      have f3 := find_none he3
      by_cases hp : u2 = "PER-CENT".toList
      · refine .mk' hv (ke := absCol ⟨some "ERR".toList, some (canonUnit u), t.data.map fun row => quadSpec (percentOf (canonCell c1 u i row) (canonCell c2 u2 j2 row)) (percentOf (canonCell c1 u i row) none)⟩)
          ?_ (by simp) ?_ (.inl rfl) (.inl rfl)
        · have hp' : canonUnit u2 = "PER-CENT".toList := canon_percent.2 hp
          simp only [Pair.getError, if_pos hm, Pair.error0, f2, f3, hf1, hp', true_or, if_true, addErrColumn, addErrCols, dummy_vals, zipWith_map_map, mapE_quad]
        · simp only [absCol, List.map_map, Function.comp_def, quad_abs]
          refine List.map_congr_left fun row _ => ?_
          subst hp
          rw [quadSpec_abs, percent_abs, percent_abs, errorIn_percent, canonCell_percent]
          simp only [errorIn]
          cases canonCell c1 u i row <;> rfl
      · refine .mk' hv (ke := absCol ⟨some "ERR".toList, some (canonUnit u), t.data.map fun row => quadSpec (canonCell c2 u2 j2 row) none⟩)
          ?_ (by simp) ?_ (.inl rfl) (.inl rfl)
        · have hp' : canonUnit u ≠ "PER-CENT".toList := fun h => hp (canon_percent.1 ((hu2.resolve_left hp).trans h))
          simp only [Pair.getError, if_pos hm, Pair.error0, f2, f3, dummy, hu2.resolve_left hp, Option.some.injEq, hp', or_self, if_false, reduceCtorEq, addErrColumn, addErrCols,
            lastSome, Option.none_or]
          rw [← List.map_const', mapE_quad]
        · simp only [absCol, List.map_map, Function.comp_def, quad_abs]
          refine List.map_congr_left fun row _ => ?_
          rw [quadSpec_abs, errorIn_abs hp]
          rfl
    | some ju3 =>
      obtain ⟨j3, u3⟩ := ju3
      obtain ⟨l3, h3, hc3, hu3⟩ := he3
      have f3 := find_real hr h3 hc3
      by_cases hp : u2 = "PER-CENT".toList
      · have hp3 : u3 = "PER-CENT".toList := hs.1 hp
        refine .mk' hv (ke := absCol ⟨some "ERR".toList, some (canonUnit u), t.data.map fun row => quadSpec (percentOf (canonCell c1 u i row) (canonCell c2 u2 j2 row)) (percentOf (canonCell c1 u i row) (canonCell c3 u3 j3 row))⟩)
          ?_ (by simp) ?_ (.inl rfl) (.inl rfl)
        · have hp' : canonUnit u2 = "PER-CENT".toList := canon_percent.2 hp
          simp only [Pair.getError, if_pos hm, Pair.error0, f2, f3, hf1, hp', true_or, if_true, addErrColumn, addErrCols, zipWith_map_map, mapE_quad]
        · simp only [absCol, List.map_map, Function.comp_def, quad_abs]
          refine List.map_congr_left fun row _ => ?_
          subst hp hp3
          rw [quadSpec_abs, percent_abs, percent_abs, errorIn_percent, errorIn_percent, canonCell_percent, canonCell_percent]
      · have hp3 : u3 ≠ "PER-CENT".toList := fun h => hp (hs.2 h)
        refine .mk' hv (ke := absCol ⟨some "ERR".toList, some (canonUnit u), t.data.map fun row => quadSpec (canonCell c2 u2 j2 row) (canonCell c3 u3 j3 row)⟩)
          ?_ (by simp) ?_ (.inl rfl) (.inl rfl)
        · have hp' : canonUnit u2 ≠ "PER-CENT".toList := fun h => hp (canon_percent.1 h)
          have hp3' : canonUnit u ≠ "PER-CENT".toList := fun h => hp3 (canon_percent.1 ((hu3.resolve_left hp3).trans h))
          simp only [Pair.getError, if_pos hm, Pair.error0, f2, f3, hu3.resolve_left hp3, Option.some.injEq, hp', hp3', or_self, if_false, addErrColumn, addErrCols,
            lastSome, Option.some_or, mapE_quad]
        · simp only [absCol, List.map_map, Function.comp_def, quad_abs]
          refine List.map_congr_left fun row _ => ?_
          rw [quadSpec_abs, errorIn_abs hp, errorIn_abs hp3]
          rfl

/-! ### finding the columns -/

theorem FirstCol.finds {t : Table ℝ} {ls : List Str} {i : Nat} {l u : Str} (h : FirstCol t ls i l u) (c : ColParser) (hsub : ∀ x ∈ c.labels, x ∈ ls)
    (hl : l ∈ c.labels) (hu : u ∈ c.units) : Finds c t i l u :=
  ⟨h.label, h.unit, hl, hu, fun j hj l' _ hl' _ hc => h.first j l' hj hl' (hsub l' hc.1)⟩

theorem OneCol.first {t : Table ℝ} {ls : List Str} {i : Nat} {l u : Str} (h : OneCol t ls i l u) : FirstCol t ls i l u :=
  ⟨h.label, h.unit, h.mem, fun j l' hj hl hm => absurd (h.only j l' hl hm) (by omega)⟩

theorem OneCol.finds {t : Table ℝ} {ls : List Str} {i : Nat} {l u : Str} (h : OneCol t ls i l u) (c : ColParser) (hsub : ∀ x ∈ c.labels, x ∈ ls)
    (hl : l ∈ c.labels) (hu : u ∈ c.units) : Finds c t i l u :=
  ⟨h.label, h.unit, hl, hu, fun j hj l' u' hl' _ hc => absurd (h.only j l' hl' (hsub l' hc.1)) (by omega)⟩

theorem NoCol.finds {t : Table ℝ} {ls : List Str} (h : NoCol t ls) (c : ColParser) (hsub : ∀ x ∈ c.labels, x ∈ ls) : FindsNone c t :=
  fun _ l' _ hl' _ hc => h l' (List.mem_of_getElem? hl') (hsub l' hc.1)

theorem OptCol.finds {t : Table ℝ} {ls us : List Str} {un : Str} {e : Option (Nat × Str)} (h : OptCol t ls us un e) (c : ColParser)
    (hsub : ∀ x, x ∈ c.labels ↔ x ∈ ls) (hu : ∀ x ∈ us, x ∈ c.units) (hp : "PER-CENT".toList ∈ c.units) (hc : ∀ l ∈ ls, NoCos c l) : FindsErr c t un e := by
  cases e with
  | none => exact NoCol.finds h c fun x hx => (hsub x).1 hx
  | some ju =>
    obtain ⟨j, u⟩ := ju
    obtain ⟨⟨l, hl⟩, hun⟩ := h
    refine ⟨l, hl.finds c (fun x hx => (hsub x).1 hx) ((hsub l).2 hl.mem) ?_, hc l hl.mem, hun.imp id And.right⟩
    rcases hun with rfl | ⟨h, -⟩
    · exact hp
    · exact hu u h

theorem noCos_false (c : ColParser) (h : c.angle = false) (l : Str) : NoCos c l := by simp [NoCos, h]

theorem labelsOf_single (b : String) (es : List String) : labelsOf [b] es = withEnding b.toList es := by
  simp [labelsOf, withEnding]

theorem energyUnits_spec : energyUnits = unitsOfEnergy := by decide
theorem canon_energy : ∀ u ∈ unitsOfEnergy, canonUnit u = "MeV".toList := by decide

theorem val_one (m : ℤ) (h : m = 1) : ((Factor.dec m 0).val : ℝ) = 1 := by simp [Factor.val, RealNum.dec_eq, h]
theorem val_half : ((Factor.dec 5 (-1)).val : ℝ) = 1 / 2 := by simp only [Factor.val, RealNum.dec_eq]; norm_num

theorem canonCell_one (ls us : List Str) (a : Bool) (u : Str) (i : Nat) (row : List (Option ℝ)) :
    canonCell ⟨ls, us, .dec 1 0, a⟩ u i row = valueIn i u row := by
  unfold canonCell valueIn
  rw [val_one 1 rfl]
  simp

theorem firstSome_same {α : Type} (v : Option α) (l : List (Option α)) (h : ∀ x ∈ l, x = none ∨ x = v) : firstSome (l ++ [v]) = v := by
  induction l with
  | nil => cases v <;> rfl
  | cons a l ih =>
    have ih := ih fun x hx => h x (List.mem_cons_of_mem _ hx)
    rcases h a (List.mem_cons_self ..) with rfl | rfl
    · exact ih
    · cases a with
      | none => exact ih
      | some a => rfl

theorem if_or {α : Type} (p : Prop) [Decidable p] (v : Option α) : (if p then v else none) = none ∨ (if p then v else none) = v := by
  by_cases h : p
  · exact .inr (if_pos h)
  · exact .inl (if_neg h)

theorem indep_none {t : Table ℝ} {c1 c2 : ColParser} {un : Str} (h1 : FindsNone c1 t) :
    PairGives t (.indep c1 c2) un (fun _ => none) (fun _ => none) := by
  have hm : ¬ (Pair.indep c1 c2).isMatch t = true := by simp [Pair.isMatch, firstMatch_none.2 h1]
  apply gives_none
  · simp only [Pair.getValue, Pair.value0, if_neg hm]
  · rw [Pair.getError, if_neg hm]

theorem highMidLow_none' {t : Table ℝ} {c1 c2 c3 : ColParser} {un : Str} (h1 : FindsNone c1 t) :
    PairGives t (.highMidLow c1 c2 c3) un (fun _ => none) (fun _ => none) := by
  have hm : ¬ (Pair.highMidLow c1 c2 c3).isMatch t = true := by simp [Pair.isMatch, firstMatch_none.2 h1]
  apply gives_none
  · simp only [Pair.getValue, Pair.value0, if_neg hm]
  · rw [Pair.getError, if_neg hm]

theorem highLow_gives {t : Table ℝ} (hr : t.Rect) {ls1 us1 ls2 us2 : List Str} {i j : Nat} {l l' u u' : Str}
    (h1 : Finds ⟨ls1, us1, .dec 1 0, false⟩ t i l u) (h2 : Finds ⟨ls2, us2, .dec 1 0, false⟩ t j l' u')
    (hu : canonUnit u = canonUnit u') (hb : ∀ row ∈ t.data, cell row i = none ↔ cell row j = none) :
    PairGives t (.highLow ⟨ls1, us1, .dec 1 0, false⟩ ⟨ls2, us2, .dec 1 0, false⟩) (canonUnit u) (fun row => middle (valueIn i u row) (valueIn j u' row))
      (fun row => halfWidth (valueIn i u row) (valueIn j u' row)) := by
  have hm : (Pair.highLow ⟨ls1, us1, .dec 1 0, false⟩ ⟨ls2, us2, .dec 1 0, false⟩).isMatch t = true := by
    simp [Pair.isMatch, firstMatch_some h1]
  have f1 := find_real hr h1 rfl
  have f2 := find_real hr h2 rfl
  refine .mk' (kv := ⟨some l', some (canonUnit u), t.data.map fun row => highLowVal (valueIn i u row) (valueIn j u' row)⟩)
    (ke := absCol ⟨some l', some (canonUnit u), t.data.map fun row => highLowErr (valueIn i u row) (valueIn j u' row)⟩) ?_ ?_ ?_ ?_ (.inl rfl) (.inl rfl)
  · simp only [Pair.getValue, if_pos hm, Pair.value0, f1, f2, hu, lastSome, Option.some_or, zipWith_map_map, canonCell_one]
  · simp only [Pair.getError, if_pos hm, Pair.error0, f1, f2, hu, lastSome, Option.some_or, zipWith_map_map, canonCell_one]
  · refine List.map_congr_left fun row hrow => ?_
    have := hb row hrow
    unfold valueIn
    cases h1 : cell row i <;> cases h2 : cell row j <;> simp [h1, h2, highLowVal, middle] at this ⊢
    ring
  · simp only [absCol, List.map_map]
    refine List.map_congr_left fun row hrow => ?_
    simp only [Function.comp_apply, valueIn]
    cases h1 : cell row i <;> cases h2 : cell row j <;> simp [highLowErr, halfWidth]
    rw [abs_sub_comm]
    ring

theorem highMidLow_gives {t : Table ℝ} (hr : t.Rect) {ls1 us1 ls2 us2 ls3 us3 : List Str} {i j k : Nat} {l l' l'' u u' u'' : Str}
    (h1 : Finds ⟨ls1, us1, .dec 1 0, false⟩ t i l u) (h2 : Finds ⟨ls2, us2, .dec 1 0, false⟩ t j l' u') (h3 : Finds ⟨ls3, us3, .dec 1 0, false⟩ t k l'' u'')
    (hu : canonUnit u'' = canonUnit u) :
    PairGives t (.highMidLow ⟨ls1, us1, .dec 1 0, false⟩ ⟨ls2, us2, .dec 1 0, false⟩ ⟨ls3, us3, .dec 1 0, false⟩) (canonUnit u)
      (fun row => middleOf (valueIn i u row) (valueIn j u' row) (valueIn k u'' row)) (fun row => halfWidthOf (valueIn i u row) (valueIn j u' row) (valueIn k u'' row)) := by
  have hm : (Pair.highMidLow ⟨ls1, us1, .dec 1 0, false⟩ ⟨ls2, us2, .dec 1 0, false⟩ ⟨ls3, us3, .dec 1 0, false⟩).isMatch t = true := by
    simp [Pair.isMatch, firstMatch_some h1, firstMatch_some h2]
  have f1 := find_real hr h1 rfl
  have f2 := find_real hr h2 rfl
  have f3 := find_real hr h3 rfl
  have z : ∀ g : Option ℝ → Option ℝ → Option ℝ → Option ℝ, List.zipWith (fun f x => f x) (t.data.map fun row => g (valueIn i u row) (valueIn j u' row)) (t.data.map fun row => valueIn k u'' row) =
      t.data.map fun row => g (valueIn i u row) (valueIn j u' row) (valueIn k u'' row) := fun g => by rw [zipWith_map_map]
  refine .mk' (kv := ⟨some l'', some (canonUnit u), t.data.map fun row => midVal (valueIn i u row) (valueIn j u' row) (valueIn k u'' row)⟩)
    (ke := absCol ⟨some l'', some (canonUnit u), t.data.map fun row => midErr (valueIn i u row) (valueIn j u' row) (valueIn k u'' row)⟩) ?_ ?_ ?_ ?_ (.inl rfl) (.inl rfl)
  · simp only [Pair.getValue, if_pos hm, Pair.value0, f1, f2, f3, hu, lastSome, Option.some_or, zipWith_map_map, canonCell_one]
  · simp only [Pair.getError, if_pos hm, Pair.error0, f1, f2, f3, hu, lastSome, Option.some_or, zipWith_map_map, canonCell_one]
  · refine List.map_congr_left fun row hrow => ?_
    unfold valueIn
    cases cell row i <;> cases cell row j <;> cases cell row k <;> simp [midVal, middleOf]
    ring
  · simp only [absCol, List.map_map]
    refine List.map_congr_left fun row hrow => ?_
    simp only [Function.comp_apply, valueIn]
    cases cell row i <;> cases cell row j <;> cases cell row k <;> simp only [midErr, halfWidthOf, Option.map_none, Option.map_some]
    rename_i x y z
    simp only [RealNum.mul_eq, RealNum.half_eq, RealNum.abs_eq, RealNum.sub_eq, RealNum.add_eq, abs_abs]
    rw [show (1 / 2 : ℝ) * (x * unitFactor u - y * unitFactor u' - (x * unitFactor u + z * unitFactor u'')) = -((y * unitFactor u' + z * unitFactor u'') / 2) by ring, abs_neg, abs_div]
    norm_num

theorem gives_cons {t : Table ℝ} {p : Pair} {un : Str} {V E : List (Option ℝ) → Option ℝ} {ps : List Pair}
    {ves : List ((List (Option ℝ) → Option ℝ) × (List (Option ℝ) → Option ℝ))} (h : PairGives t p un V E)
    (hs : List.Forall₂ (fun p ve => PairGives t p un ve.1 ve.2) ps ves) :
    List.Forall₂ (fun p (ve : (List (Option ℝ) → Option ℝ) × (List (Option ℝ) → Option ℝ)) => PairGives t p un ve.1 ve.2) (p :: ps) ((V, E) :: ves) := .cons h hs

/-- The parsers of energies read the energies of the table, in MeV. -/
theorem energy_list {t : Table ℝ} (hr : t.Rect) (b : String) {name : Str} {q : Quantity} (h : EnergyGiven b.toList name t q) :
    ListGives t (energyParsers b) q.unit q.val q.err := by
  cases h with
  | points i l u e1 e2 e3 h hl hu h1 h2 h3 hn =>
    have hcu := canon_energy u hu
    have hu' : u ∈ energyUnits := energyUnits_spec ▸ hu
    have hL : ∀ x ∈ labelsOf [b] variableSuffix, x ∈ valueHeads b.toList ++ ["MOM".toList] := by
      intro x hx; rw [labelsOf_single] at hx; exact List.mem_append_left _ hx
    have hl' : l ∈ labelsOf [b] variableSuffix := by rw [labelsOf_single]; exact hl
    have f1 : ∀ us, (∀ x ∈ energyUnits, x ∈ us) → Finds ⟨labelsOf [b] variableSuffix, us, .dec 1 0, false⟩ t i l u := fun us hus =>
      h.finds _ hL hl' (hus u hu')
    have f6 : Finds ⟨labelsOf [b] variableSuffix ++ baseMomKeys, energyUnits ++ momUnits, .dec 1 0, false⟩ t i l u :=
      h.finds _ (by
        intro x hx
        rcases List.mem_append.1 hx with hx | hx
        · exact hL x hx
        · exact List.mem_append_right _ hx) (List.mem_append_left _ hl') (List.mem_append_left _ hu')
    have hus : ∀ x ∈ unitsOfEnergy, x ∈ energyUnits ++ percentUnits := fun x hx => List.mem_append_left _ (energyUnits_spec ▸ hx)
    have hpc : "PER-CENT".toList ∈ energyUnits ++ percentUnits := by decide
    have g1 : FindsErr ⟨labelsOf [b] errorSuffix, energyUnits ++ percentUnits, .dec 1 0, false⟩ t (canonUnit u) e1 :=
      hcu ▸ h1.finds _ (fun x => by rw [labelsOf_single]; rfl) hus hpc (fun l _ => noCos_false _ rfl l)
    have g2 : FindsErr ⟨labelsOf [b] resolutionFWSuffix, energyUnits ++ percentUnits, .dec 5 (-1), false⟩ t (canonUnit u) e2 :=
      hcu ▸ h2.finds _ (fun x => by rw [labelsOf_single]; rfl) hus hpc (fun l _ => noCos_false _ rfl l)
    have g3 : FindsErr ⟨labelsOf [b] resolutionHWSuffix, energyUnits ++ percentUnits, .dec 1 0, false⟩ t (canonUnit u) e3 :=
      hcu ▸ h3.finds _ (fun x => by rw [labelsOf_single]; rfl) hus hpc (fun l _ => noCos_false _ rfl l)
    have n : ∀ x, x ∈ [b.toList ++ "-MIN".toList, b.toList ++ "-MAX".toList, "-".toList ++ b.toList ++ "-ERR".toList, "+".toList ++ b.toList ++ "-ERR".toList] →
        ∀ us s, FindsNone ⟨[x], us, s, false⟩ t := fun x hx us s => hn.finds _ (by simp only [List.mem_singleton]; rintro _ rfl; exact hx)
    have key := listGives (t := t) (ps := energyParsers b) (un := canonUnit u)
      (gives_cons (indep_gives hr (f1 _ fun _ h => h) (noCos_false _ rfl l) g1)
        (gives_cons (indep_gives hr (f1 _ fun _ h => h) (noCos_false _ rfl l) g2)
          (gives_cons (indep_gives hr (f1 _ fun _ h => h) (noCos_false _ rfl l) g3)
            (gives_cons (highLow_none (n (b ++ "-MIN").toList (by simp [String.toList_append]) _ _) (n (b ++ "-MAX").toList (by simp [String.toList_append]) _ _))
              (gives_cons (highMidLow_none (n ("-" ++ b ++ "-ERR").toList (by simp [String.toList_append]) _ _) (n ("+" ++ b ++ "-ERR").toList (by simp [String.toList_append]) _ _))
                (gives_cons (missing_gives hr f6 (noCos_false _ rfl l)) .nil)))))) (by simp [energyParsers])
    rw [hcu] at key
    refine key.congr ?_ ?_
    · intro row _
      simp only [List.map_cons, List.map_nil, canonCell_one]
      exact firstSome_same _ [_, _, _, _, _] (by
        intro x hx
        simp only [List.mem_cons, List.not_mem_nil, or_false] at hx
        rcases hx with rfl | rfl | rfl | rfl | rfl
        · exact if_or ..
        · exact if_or ..
        · exact if_or ..
        · exact .inl rfl
        · exact .inl rfl)
    · intro row _
      simp only [List.map_cons, List.map_nil, canonCell_one, val_one, val_half]
      cases errorIn (valueIn i u row) e1 1 row <;> cases errorIn (valueIn i u row) e2 (1 / 2) row <;> cases errorIn (valueIn i u row) e3 1 row <;> rfl
  | both i j k l l' l'' u u' u'' e1 e2 e3 h hl hu h1 h2 h3 h' h'' hv' hv'' hb hn =>
    have hcu := canon_energy u hu
    have e1' : l' = b.toList ++ "-MIN".toList := by simpa using h'.mem
    have e2' : l'' = b.toList ++ "-MAX".toList := by simpa using h''.mem
    have k1 : Finds ⟨[(b ++ "-MIN").toList], energyUnits, .dec 1 0, false⟩ t j l' u' :=
      h'.finds _ (by simp [String.toList_append]) (by simp [String.toList_append, e1']) (energyUnits_spec ▸ hv')
    have k2 : Finds ⟨[(b ++ "-MAX").toList], energyUnits, .dec 1 0, false⟩ t k l'' u'' :=
      h''.finds _ (by simp [String.toList_append]) (by simp [String.toList_append, e2']) (energyUnits_spec ▸ hv'')
    have hl2 := highLow_gives hr k1 k2 ((canon_energy u' hv').trans (canon_energy u'' hv'').symm) hb
    rw [canon_energy u' hv', ← hcu] at hl2
    have hu' : u ∈ energyUnits := energyUnits_spec ▸ hu
    have hL : ∀ x ∈ labelsOf [b] variableSuffix, x ∈ valueHeads b.toList ++ ["MOM".toList] := by
      intro x hx; rw [labelsOf_single] at hx; exact List.mem_append_left _ hx
    have hl' : l ∈ labelsOf [b] variableSuffix := by rw [labelsOf_single]; exact hl
    have f1 : ∀ us, (∀ x ∈ energyUnits, x ∈ us) → Finds ⟨labelsOf [b] variableSuffix, us, .dec 1 0, false⟩ t i l u := fun us hus =>
      h.finds _ hL hl' (hus u hu')
    have f6 : Finds ⟨labelsOf [b] variableSuffix ++ baseMomKeys, energyUnits ++ momUnits, .dec 1 0, false⟩ t i l u :=
      h.finds _ (by
        intro x hx
        rcases List.mem_append.1 hx with hx | hx
        · exact hL x hx
        · exact List.mem_append_right _ hx) (List.mem_append_left _ hl') (List.mem_append_left _ hu')
    have hus : ∀ x ∈ unitsOfEnergy, x ∈ energyUnits ++ percentUnits := fun x hx => List.mem_append_left _ (energyUnits_spec ▸ hx)
    have hpc : "PER-CENT".toList ∈ energyUnits ++ percentUnits := by decide
    have g1 : FindsErr ⟨labelsOf [b] errorSuffix, energyUnits ++ percentUnits, .dec 1 0, false⟩ t (canonUnit u) e1 :=
      hcu ▸ h1.finds _ (fun x => by rw [labelsOf_single]; rfl) hus hpc (fun l _ => noCos_false _ rfl l)
    have g2 : FindsErr ⟨labelsOf [b] resolutionFWSuffix, energyUnits ++ percentUnits, .dec 5 (-1), false⟩ t (canonUnit u) e2 :=
      hcu ▸ h2.finds _ (fun x => by rw [labelsOf_single]; rfl) hus hpc (fun l _ => noCos_false _ rfl l)
    have g3 : FindsErr ⟨labelsOf [b] resolutionHWSuffix, energyUnits ++ percentUnits, .dec 1 0, false⟩ t (canonUnit u) e3 :=
      hcu ▸ h3.finds _ (fun x => by rw [labelsOf_single]; rfl) hus hpc (fun l _ => noCos_false _ rfl l)
    have n : ∀ x, x ∈ ["-".toList ++ b.toList ++ "-ERR".toList, "+".toList ++ b.toList ++ "-ERR".toList] →
        ∀ us s, FindsNone ⟨[x], us, s, false⟩ t := fun x hx us s => hn.finds _ (by simp only [List.mem_singleton]; rintro _ rfl; exact hx)
    have key := listGives (t := t) (ps := energyParsers b) (un := canonUnit u)
      (gives_cons (indep_gives hr (f1 _ fun _ h => h) (noCos_false _ rfl l) g1)
        (gives_cons (indep_gives hr (f1 _ fun _ h => h) (noCos_false _ rfl l) g2)
          (gives_cons (indep_gives hr (f1 _ fun _ h => h) (noCos_false _ rfl l) g3)
            (gives_cons hl2
              (gives_cons (highMidLow_none (n ("-" ++ b ++ "-ERR").toList (by simp [String.toList_append]) _ _) (n ("+" ++ b ++ "-ERR").toList (by simp [String.toList_append]) _ _))
                (gives_cons (missing_gives hr f6 (noCos_false _ rfl l)) .nil)))))) (by simp [energyParsers])
    rw [hcu] at key
    refine key.congr ?_ ?_
    · intro row _
      simp only [List.map_cons, List.map_nil, canonCell_one]
      cases e1 <;> cases e2 <;> cases e3 <;> cases valueIn i u row <;> cases middle (valueIn j u' row) (valueIn k u'' row) <;> rfl
    · intro row _
      simp only [List.map_cons, List.map_nil, canonCell_one, val_one, val_half]
      cases errorIn (valueIn i u row) e1 1 row <;> cases errorIn (valueIn i u row) e2 (1 / 2) row <;> cases errorIn (valueIn i u row) e3 1 row <;>
        cases halfWidth (valueIn j u' row) (valueIn k u'' row) <;> rfl
  | bins i j l l' u u' h h' hu hu' hb hn =>
    have hcu := canon_energy u hu
    have hcu' := canon_energy u' hu'
    have e1 : l = b.toList ++ "-MIN".toList := by simpa using h.mem
    have e2 : l' = b.toList ++ "-MAX".toList := by simpa using h'.mem
    have f1 : Finds ⟨[(b ++ "-MIN").toList], energyUnits, .dec 1 0, false⟩ t i l u :=
      h.finds _ (by simp [String.toList_append]) (by simp [String.toList_append, e1]) (energyUnits_spec ▸ hu)
    have f2 : Finds ⟨[(b ++ "-MAX").toList], energyUnits, .dec 1 0, false⟩ t j l' u' :=
      h'.finds _ (by simp [String.toList_append]) (by simp [String.toList_append, e2]) (energyUnits_spec ▸ hu')
    have n1 : ∀ us s, FindsNone ⟨labelsOf [b] variableSuffix, us, s, false⟩ t := fun us s => hn.finds _ fun x hx => by
      rw [labelsOf_single] at hx; exact List.mem_append_left _ hx
    have n2 : ∀ us s, FindsNone ⟨b.toList :: baseMomKeys, us, s, false⟩ t := fun us s => hn.finds _ fun x hx => by
      rcases List.mem_cons.1 hx with rfl | hx
      · exact List.mem_append_left _ (by simp [valueHeads, withEnding])
      · exact List.mem_append_right _ hx
    have n3 : ∀ us s, FindsNone ⟨labelsOf [b] variableSuffix ++ baseMomKeys, us, s, false⟩ t := fun us s => hn.finds _ fun x hx => by
      rw [labelsOf_single] at hx; exact hx
    have key := listGives (t := t) (ps := energyParsers b) (un := canonUnit u)
      (gives_cons (indep_none (n1 _ _)) (gives_cons (indep_none (n1 _ _)) (gives_cons (indep_none (n1 _ _))
        (gives_cons (highLow_gives hr f1 f2 (hcu.trans hcu'.symm) hb) (gives_cons (highMidLow_none' (n2 _ _)) (gives_cons (missing_none (n3 _ _)) .nil)))))) (by simp [energyParsers])
    rw [hcu] at key
    refine key.congr ?_ ?_
    · intro row _
      simp only [List.map_cons, List.map_nil]
      cases middle (valueIn i u row) (valueIn j u' row) <;> rfl
    · intro row _
      simp only [List.map_cons, List.map_nil]
      cases halfWidth (valueIn i u row) (valueIn j u' row) <;> rfl
  | asym i j k l l' u u' u'' h h' h'' hu hu' hu'' hn =>
    have hcu := canon_energy u hu
    have e1 : l = "-".toList ++ b.toList ++ "-ERR".toList := by simpa using h'.mem
    have e2 : l' = "+".toList ++ b.toList ++ "-ERR".toList := by simpa using h''.mem
    have hL : ∀ x ∈ labelsOf [b] variableSuffix, x ∈ valueHeads b.toList ++ ["MOM".toList] := by
      intro x hx; rw [labelsOf_single] at hx; exact List.mem_append_left _ hx
    have hl' : b.toList ∈ labelsOf [b] variableSuffix := by rw [labelsOf_single]; simp [withEnding, variableSuffix]
    have f0 : Finds ⟨labelsOf [b] variableSuffix, energyUnits, .dec 1 0, false⟩ t i b.toList u := h.finds _ hL hl' (energyUnits_spec ▸ hu)
    have f1 : Finds ⟨b.toList :: baseMomKeys, energyUnits, .dec 1 0, false⟩ t i b.toList u :=
      h.finds _ (by
        intro x hx
        rcases List.mem_cons.1 hx with rfl | hx
        · exact hL _ hl'
        · exact List.mem_append_right _ hx) (List.mem_cons_self ..) (energyUnits_spec ▸ hu)
    have f2 : Finds ⟨[("-" ++ b ++ "-ERR").toList], energyUnits, .dec 1 0, false⟩ t j l u' :=
      h'.finds _ (by simp [String.toList_append]) (by simp [String.toList_append, e1]) (energyUnits_spec ▸ hu')
    have f3 : Finds ⟨[("+" ++ b ++ "-ERR").toList], energyUnits, .dec 1 0, false⟩ t k l' u'' :=
      h''.finds _ (by simp [String.toList_append]) (by simp [String.toList_append, e2]) (energyUnits_spec ▸ hu'')
    have f6 : Finds ⟨labelsOf [b] variableSuffix ++ baseMomKeys, energyUnits ++ momUnits, .dec 1 0, false⟩ t i b.toList u :=
      h.finds _ (by
        intro x hx
        rcases List.mem_append.1 hx with hx | hx
        · exact hL x hx
        · exact List.mem_append_right _ hx) (List.mem_append_left _ hl') (List.mem_append_left _ (energyUnits_spec ▸ hu))
    have n : ∀ ls us s, (∀ x ∈ ls, x ∈ [b.toList ++ "-ERR".toList, b.toList ++ "-RSL-HW".toList, b.toList ++ "-MIN".toList, b.toList ++ "-MAX".toList] ++ fullWidthHeads b.toList) →
        FindsNone ⟨ls, us, s, false⟩ t := fun ls us s hx => hn.finds _ hx
    have g : ∀ ls us s, (∀ x ∈ ls, x ∈ [b.toList ++ "-ERR".toList, b.toList ++ "-RSL-HW".toList, b.toList ++ "-MIN".toList, b.toList ++ "-MAX".toList] ++ fullWidthHeads b.toList) →
        FindsErr ⟨ls, us, s, false⟩ t (canonUnit u) none := fun ls us s hx => n ls us s hx
    have key := listGives (t := t) (ps := energyParsers b) (un := canonUnit u)
      (gives_cons (indep_gives hr f0 (noCos_false _ rfl _) (g _ _ _ (by rw [labelsOf_single]; simp [withEnding, errorSuffix])))
        (gives_cons (indep_gives hr f0 (noCos_false _ rfl _) (g _ _ _ (by rw [labelsOf_single]; exact fun x hx => List.mem_append_right _ hx)))
          (gives_cons (indep_gives hr f0 (noCos_false _ rfl _) (g _ _ _ (by rw [labelsOf_single]; simp [withEnding, resolutionHWSuffix])))
            (gives_cons (highLow_none (n _ _ _ (by simp [String.toList_append])) (n _ _ _ (by simp [String.toList_append])))
              (gives_cons (highMidLow_gives hr f1 f2 f3 ((canon_energy u'' hu'').trans hcu.symm))
                (gives_cons (missing_gives hr f6 (noCos_false _ rfl _)) .nil)))))) (by simp [energyParsers])
    rw [hcu] at key
    refine key.congr ?_ ?_
    · intro row _
      simp only [List.map_cons, List.map_nil, canonCell_one]
      rfl
    · intro row _
      simp only [List.map_cons, List.map_nil]
      cases halfWidthOf (valueIn i u row) (valueIn j u' row) (valueIn k u'' row) <;> rfl

theorem OneCol.findsNone {t : Table ℝ} {ls : List Str} {i : Nat} {l u : Str} (h : OneCol t ls i l u) (c : ColParser) (hsub : ∀ x ∈ c.labels, x ∈ ls)
    (hu : u ∉ c.units) : FindsNone c t := by
  intro j l' u' h1 h2 hc
  have := h.only j l' h1 (hsub l' hc.1)
  subst this
  rw [h.unit] at h2
  cases h2
  exact hu hc.2

theorem data_labels : (∀ x ∈ labelsOf baseDataKeys (variableSuffix ++ frameSuffix), x ∈ dataHeads) ∧ (∀ x ∈ labelsOf baseDataKeys variableSuffix, x ∈ dataHeads) ∧
    (∀ x ∈ labelsOf baseDataKeys [""], x ∈ dataHeads) := by decide
theorem data_exact : ∀ l ∈ ["DATA".toList, "RATIO".toList], l ∈ labelsOf baseDataKeys (variableSuffix ++ frameSuffix) ∧ l ∈ labelsOf baseDataKeys variableSuffix ∧
    l ∈ labelsOf baseDataKeys [""] := by decide
theorem data_err_labels : labelsOf baseDataKeys errorSuffix ++ ["ERR-T".toList] = ["DATA-ERR".toList, "RATIO-ERR".toList, "ERR-T".toList] := by decide

/-- what the parsers of measured values have in common -/
structure DataColumns (U : List Str) (us : List Str) (t : Table ℝ) (i : Nat) (l u : Str) (e1' e2' e3' : Option (Nat × Str)) : Prop where
  sub : ∀ x ∈ us ++ dimensionless, x ∈ U
  one : OneCol t dataHeads i l u
  exact : l ∈ ["DATA".toList, "RATIO".toList]
  unit : u ∈ us ++ dimensionless
  e1 : OptCol t ["DATA-ERR".toList, "RATIO-ERR".toList, "ERR-T".toList] (us ++ dimensionless) (canonUnit u) e1'
  e2 : OptCol t ["ERR".toList] (us ++ dimensionless) (canonUnit u) e2'
  e3 : OptCol t ["ERR-S".toList] (us ++ dimensionless) (canonUnit u) e3'
  same : SameKind e2' e3'
  no : NoCol t (withEnding "DATA".toList ["-MIN", "-MAX"] ++ withEnding "RATIO".toList ["-MIN", "-MAX"] ++
        ["-DATA-ERR".toList, "+DATA-ERR".toList, "-RATIO-ERR".toList, "+RATIO-ERR".toList])

theorem percent_mem (U : List Str) : "PER-CENT".toList ∈ U ++ percentUnits := List.mem_append_right _ (by decide)

theorem data_indep {t : Table ℝ} (hr : t.Rect) {U us : List Str} {i : Nat} {l u : Str} {e : Option (Nat × Str)} (sub : ∀ x ∈ us ++ dimensionless, x ∈ U)
    (one : FirstCol t dataHeads i l u) (unit : u ∈ us ++ dimensionless)
    (he : OptCol t ["DATA-ERR".toList, "RATIO-ERR".toList, "ERR-T".toList] (us ++ dimensionless) (canonUnit u) e)
    (S : List String) (hS : ∀ x ∈ labelsOf baseDataKeys S, x ∈ dataHeads) (hl : l ∈ labelsOf baseDataKeys S) :
    PairGives t (dataIndep S U) (canonUnit u) (fun row => if e.isSome then valueIn i u row else none) (fun row => errorIn (valueIn i u row) e 1 row) := by
  have f : Finds ⟨labelsOf baseDataKeys S, U, .dec 1 0, false⟩ t i l u := one.finds _ hS hl (sub u unit)
  have g : FindsErr ⟨labelsOf baseDataKeys errorSuffix ++ ["ERR-T".toList], U ++ percentUnits, .dec 1 0, false⟩ t (canonUnit u) e :=
    he.finds _ (fun x => by rw [data_err_labels]) (fun x hx => List.mem_append_left _ (sub x hx)) (percent_mem U) (fun l _ => noCos_false _ rfl l)
  have := indep_gives hr f (noCos_false _ rfl l) g
  simp only [canonCell_one, val_one] at this
  exact this

theorem data_missing {t : Table ℝ} (hr : t.Rect) {U us : List Str} {i : Nat} {l u : Str} (sub : ∀ x ∈ us ++ dimensionless, x ∈ U)
    (one : FirstCol t dataHeads i l u) (unit : u ∈ us ++ dimensionless)
    (S : List String) (hS : ∀ x ∈ labelsOf baseDataKeys S, x ∈ dataHeads) (hl : l ∈ labelsOf baseDataKeys S) :
    PairGives t (dataMissing S U) (canonUnit u) (valueIn i u) (fun _ => none) := by
  have f : Finds ⟨labelsOf baseDataKeys S, U, .dec 1 0, false⟩ t i l u := one.finds _ hS hl (sub u unit)
  have := missing_gives hr f (noCos_false _ rfl l)
  have e : canonCell ⟨labelsOf baseDataKeys S, U, .dec 1 0, false⟩ u i = valueIn i u := funext fun row => canonCell_one ..
  rwa [e] at this

theorem DataColumns.middle {t : Table ℝ} (hr : t.Rect) {U us : List Str} {i : Nat} {l u : Str} {e1 e2 e3 : Option (Nat × Str)} (h : DataColumns U us t i l u e1 e2 e3) :
    PairGives t (dataHighLow U) (canonUnit u) (fun _ => none) (fun _ => none) ∧ PairGives t (dataHighMidLow U) (canonUnit u) (fun _ => none) (fun _ => none) ∧
    PairGives t (dataAddErr U) (canonUnit u) (fun row => if e2.isSome ∨ e3.isSome then valueIn i u row else none)
      (fun row => inQuadrature (errorIn (valueIn i u row) e2 1 row) (errorIn (valueIn i u row) e3 1 row)) := by
  refine ⟨highLow_none (h.no.finds _ ?_) (h.no.finds _ ?_), highMidLow_none (h.no.finds _ ?_) (h.no.finds _ ?_), ?_⟩
  · exact (by decide : ∀ x ∈ labelsOf baseDataKeys ["-MIN"], x ∈ withEnding "DATA".toList ["-MIN", "-MAX"] ++ withEnding "RATIO".toList ["-MIN", "-MAX"] ++
      ["-DATA-ERR".toList, "+DATA-ERR".toList, "-RATIO-ERR".toList, "+RATIO-ERR".toList])
  · exact (by decide : ∀ x ∈ labelsOf baseDataKeys ["-MAX"], x ∈ withEnding "DATA".toList ["-MIN", "-MAX"] ++ withEnding "RATIO".toList ["-MIN", "-MAX"] ++
      ["-DATA-ERR".toList, "+DATA-ERR".toList, "-RATIO-ERR".toList, "+RATIO-ERR".toList])
  · exact (by decide : ∀ x ∈ labelsOf ["-DATA", "-RATIO"] errorSuffix, x ∈ withEnding "DATA".toList ["-MIN", "-MAX"] ++ withEnding "RATIO".toList ["-MIN", "-MAX"] ++
      ["-DATA-ERR".toList, "+DATA-ERR".toList, "-RATIO-ERR".toList, "+RATIO-ERR".toList])
  · exact (by decide : ∀ x ∈ labelsOf ["+DATA", "+RATIO"] errorSuffix, x ∈ withEnding "DATA".toList ["-MIN", "-MAX"] ++ withEnding "RATIO".toList ["-MIN", "-MAX"] ++
      ["-DATA-ERR".toList, "+DATA-ERR".toList, "-RATIO-ERR".toList, "+RATIO-ERR".toList])
  · have f : Finds ⟨labelsOf baseDataKeys [""], U, .dec 1 0, false⟩ t i l u := h.one.finds _ data_labels.2.2 (data_exact l h.exact).2.2 (h.sub u h.unit)
    have hU : ∀ x ∈ us ++ dimensionless, x ∈ U ++ percentUnits := fun x hx => List.mem_append_left _ (h.sub x hx)
    have g2 : FindsErr ⟨["ERR".toList], U ++ percentUnits, .dec 1 0, false⟩ t (canonUnit u) e2 := h.e2.finds _ (fun x => .rfl) hU (percent_mem U) (fun l _ => noCos_false _ rfl l)
    have g3 : FindsErr ⟨["ERR-S".toList], U ++ percentUnits, .dec 1 0, false⟩ t (canonUnit u) e3 := h.e3.finds _ (fun x => .rfl) hU (percent_mem U) (fun l _ => noCos_false _ rfl l)
    have := addErr_gives hr f (noCos_false _ rfl l) g2 g3 h.same
    simp only [canonCell_one, val_one] at this
    exact this

/-- what the parsers of measured values have in common, for different errors below and above -/
structure AsymColumns (U : List Str) (us : List Str) (t : Table ℝ) (i j k : Nat) (l l' l'' u u' u'' : Str) : Prop where
  sub : ∀ x ∈ us ++ dimensionless, x ∈ U
  one : OneCol t dataHeads i l u
  exact : l ∈ ["DATA".toList, "RATIO".toList]
  below : FirstCol t ["-DATA-ERR".toList, "-RATIO-ERR".toList] j l' u'
  above : FirstCol t ["+DATA-ERR".toList, "+RATIO-ERR".toList] k l'' u''
  unit : u ∈ us ++ dimensionless
  unit' : u' ∈ us ++ dimensionless
  unit'' : u'' ∈ us ++ dimensionless
  same : canonUnit u'' = canonUnit u
  no : NoCol t (withEnding "DATA".toList ["-MIN", "-MAX", "-ERR"] ++ withEnding "RATIO".toList ["-MIN", "-MAX", "-ERR"] ++ ["ERR-T".toList, "ERR".toList, "ERR-S".toList])

theorem AsymColumns.all {t : Table ℝ} (hr : t.Rect) {U us : List Str} {i j k : Nat} {l l' l'' u u' u'' : Str} (h : AsymColumns U us t i j k l l' l'' u u' u'')
    (S : List String) (hS : ∀ x ∈ labelsOf baseDataKeys S, x ∈ dataHeads) (hl : l ∈ labelsOf baseDataKeys S) :
    PairGives t (dataIndep S U) (canonUnit u) (fun _ => none) (fun _ => none) ∧ PairGives t (dataHighLow U) (canonUnit u) (fun _ => none) (fun _ => none) ∧
    PairGives t (dataHighMidLow U) (canonUnit u) (fun row => middleOf (valueIn i u row) (valueIn j u' row) (valueIn k u'' row)) (fun row => halfWidthOf (valueIn i u row) (valueIn j u' row) (valueIn k u'' row)) ∧
    PairGives t (dataAddErr U) (canonUnit u) (fun _ => none) (fun _ => none) ∧
    PairGives t (dataMissing variableSuffix U) (canonUnit u) (valueIn i u) (fun _ => none) := by
  have f : Finds ⟨labelsOf baseDataKeys S, U, .dec 1 0, false⟩ t i l u := h.one.finds _ hS hl (h.sub u h.unit)
  have f0 : Finds ⟨labelsOf baseDataKeys [""], U, .dec 1 0, false⟩ t i l u := h.one.finds _ data_labels.2.2 (data_exact l h.exact).2.2 (h.sub u h.unit)
  have f1 : Finds ⟨labelsOf ["-DATA", "-RATIO"] errorSuffix, U, .dec 1 0, false⟩ t j l' u' := h.below.finds _ (by decide : ∀ x ∈ labelsOf ["-DATA", "-RATIO"] errorSuffix, x ∈ ["-DATA-ERR".toList, "-RATIO-ERR".toList])
    ((by decide : ∀ x ∈ ["-DATA-ERR".toList, "-RATIO-ERR".toList], x ∈ labelsOf ["-DATA", "-RATIO"] errorSuffix) l' h.below.mem) (h.sub u' h.unit')
  have f2 : Finds ⟨labelsOf ["+DATA", "+RATIO"] errorSuffix, U, .dec 1 0, false⟩ t k l'' u'' := h.above.finds _ (by decide : ∀ x ∈ labelsOf ["+DATA", "+RATIO"] errorSuffix, x ∈ ["+DATA-ERR".toList, "+RATIO-ERR".toList])
    ((by decide : ∀ x ∈ ["+DATA-ERR".toList, "+RATIO-ERR".toList], x ∈ labelsOf ["+DATA", "+RATIO"] errorSuffix) l'' h.above.mem) (h.sub u'' h.unit'')
  refine ⟨?_, highLow_none (h.no.finds _ ?_) (h.no.finds _ ?_), highMidLow_gives hr f0 f1 f2 h.same, ?_, data_missing hr h.sub h.one.first h.unit _ data_labels.2.1 (data_exact l h.exact).2.1⟩
  · have g : FindsErr ⟨labelsOf baseDataKeys errorSuffix ++ ["ERR-T".toList], U ++ percentUnits, .dec 1 0, false⟩ t (canonUnit u) none :=
      h.no.finds _ (by decide : ∀ x ∈ labelsOf baseDataKeys errorSuffix ++ ["ERR-T".toList], x ∈ withEnding "DATA".toList ["-MIN", "-MAX", "-ERR"] ++ withEnding "RATIO".toList ["-MIN", "-MAX", "-ERR"] ++ ["ERR-T".toList, "ERR".toList, "ERR-S".toList])
    exact indep_gives hr f (noCos_false _ rfl l) g
  · exact (by decide : ∀ x ∈ labelsOf baseDataKeys ["-MIN"], x ∈ withEnding "DATA".toList ["-MIN", "-MAX", "-ERR"] ++ withEnding "RATIO".toList ["-MIN", "-MAX", "-ERR"] ++ ["ERR-T".toList, "ERR".toList, "ERR-S".toList])
  · exact (by decide : ∀ x ∈ labelsOf baseDataKeys ["-MAX"], x ∈ withEnding "DATA".toList ["-MIN", "-MAX", "-ERR"] ++ withEnding "RATIO".toList ["-MIN", "-MAX", "-ERR"] ++ ["ERR-T".toList, "ERR".toList, "ERR-S".toList])
  · have g2 : FindsErr ⟨["ERR".toList], U ++ percentUnits, .dec 1 0, false⟩ t (canonUnit u) none :=
      h.no.finds _ (by decide : ∀ x ∈ ["ERR".toList], x ∈ withEnding "DATA".toList ["-MIN", "-MAX", "-ERR"] ++ withEnding "RATIO".toList ["-MIN", "-MAX", "-ERR"] ++ ["ERR-T".toList, "ERR".toList, "ERR-S".toList])
    have g3 : FindsErr ⟨["ERR-S".toList], U ++ percentUnits, .dec 1 0, false⟩ t (canonUnit u) none :=
      h.no.finds _ (by decide : ∀ x ∈ ["ERR-S".toList], x ∈ withEnding "DATA".toList ["-MIN", "-MAX", "-ERR"] ++ withEnding "RATIO".toList ["-MIN", "-MAX", "-ERR"] ++ ["ERR-T".toList, "ERR".toList, "ERR-S".toList])
    have := addErr_gives hr f0 (noCos_false _ rfl l) g2 g3 trivial
    simp only [errorIn, inQuadrature, Option.isSome_none, Bool.false_eq_true, or_self, if_false] at this
    exact this

theorem addErr_none {t : Table ℝ} {c1 c2 c3 : ColParser} {un : Str} (h1 : FindsNone c1 t) :
    PairGives t (.addErr c1 c2 c3) un (fun _ => none) (fun _ => none) := by
  have hm : ¬ (Pair.addErr c1 c2 c3).isMatch t = true := by simp [Pair.isMatch, firstMatch_none.2 h1]
  apply gives_none
  · simp only [Pair.getValue, Pair.value0, if_neg hm]
  · rw [Pair.getError, if_neg hm]

/-- the parsers of measured values on a table with limits of them only -/
theorem limits_all {t : Table ℝ} (hr : t.Rect) {U us : List Str} (hU : ∀ x ∈ us ++ dimensionless, x ∈ U) {i j : Nat} {l l' u u' : Str}
    (h : FirstCol t ["DATA-MIN".toList, "RATIO-MIN".toList] i l u) (h' : FirstCol t ["DATA-MAX".toList, "RATIO-MAX".toList] j l' u')
    (hu : u ∈ us ++ dimensionless) (hu' : u' ∈ us ++ dimensionless) (he : canonUnit u' = canonUnit u) (hb : ∀ row ∈ t.data, cell row i = none ↔ cell row j = none)
    (hn : NoCol t dataHeads) (S : List String) (hS : ∀ x ∈ labelsOf baseDataKeys S, x ∈ dataHeads) :
    PairGives t (dataIndep S U) (canonUnit u) (fun _ => none) (fun _ => none) ∧
    PairGives t (dataHighLow U) (canonUnit u) (fun row => middle (valueIn i u row) (valueIn j u' row)) (fun row => halfWidth (valueIn i u row) (valueIn j u' row)) ∧
    PairGives t (dataHighMidLow U) (canonUnit u) (fun _ => none) (fun _ => none) ∧ PairGives t (dataAddErr U) (canonUnit u) (fun _ => none) (fun _ => none) ∧
    PairGives t (dataMissing variableSuffix U) (canonUnit u) (fun _ => none) (fun _ => none) := by
  have f1 : Finds ⟨labelsOf baseDataKeys ["-MIN"], U, .dec 1 0, false⟩ t i l u := h.finds _ (by decide : ∀ x ∈ labelsOf baseDataKeys ["-MIN"], x ∈ ["DATA-MIN".toList, "RATIO-MIN".toList])
    ((by decide : ∀ x ∈ ["DATA-MIN".toList, "RATIO-MIN".toList], x ∈ labelsOf baseDataKeys ["-MIN"]) l h.mem) (hU u hu)
  have f2 : Finds ⟨labelsOf baseDataKeys ["-MAX"], U, .dec 1 0, false⟩ t j l' u' := h'.finds _ (by decide : ∀ x ∈ labelsOf baseDataKeys ["-MAX"], x ∈ ["DATA-MAX".toList, "RATIO-MAX".toList])
    ((by decide : ∀ x ∈ ["DATA-MAX".toList, "RATIO-MAX".toList], x ∈ labelsOf baseDataKeys ["-MAX"]) l' h'.mem) (hU u' hu')
  exact ⟨indep_none (hn.finds _ hS), highLow_gives hr f1 f2 he.symm hb, highMidLow_none' (hn.finds _ data_labels.2.2), addErr_none (hn.finds _ data_labels.2.2),
    missing_none (hn.finds _ data_labels.2.1)⟩

theorem cs_units : ∀ x ∈ unitsOfCrossSection ++ dimensionless, x ∈ crossSectionUnits ++ noUnits := by decide
theorem nubar_units : ∀ x ∈ unitsOfNubar ++ dimensionless, x ∈ nubarUnits ++ noUnits := by decide
theorem angDist_units : ∀ x ∈ unitsOfAngDist ++ dimensionless, x ∈ angDistUnits ++ noUnits := by decide
theorem energyDist_units : ∀ x ∈ unitsOfSpectrum ++ dimensionless, x ∈ energyDistUnits ++ noUnits := by decide
theorem cs_not_sqrt : ∀ x ∈ unitsOfCrossSection ++ dimensionless, x ∉ sqrtEnCrossSectUnits := by decide

/-- the parsers of cross sections read the measured values of the table -/
theorem cs_list {t : Table ℝ} (hr : t.Rect) {q : Quantity} (h : DataGiven unitsOfCrossSection t q) : ListGives t csDataParserList q.unit q.val q.err := by
  cases h with
  | points i l u e1 e2 e3 h hl hu h1 h2 h3 hs hn =>
    have hd : DataColumns (crossSectionUnits ++ noUnits) unitsOfCrossSection t i l u e1 e2 e3 := ⟨cs_units, h, hl, hu, h1, h2, h3, hs, hn⟩
    obtain ⟨m1, m2, m3⟩ := hd.middle hr
    have key := listGives (t := t) (ps := csDataParserList) (un := canonUnit u)
      (gives_cons (data_indep hr cs_units h.first hu h1 (variableSuffix ++ frameSuffix) data_labels.1 (data_exact l hl).1)
        (gives_cons m1 (gives_cons m2 (gives_cons m3
          (gives_cons (barnsSqrtE_none (h.findsNone ⟨["DATA".toList], sqrtEnCrossSectUnits, .dec 1 0, false⟩ (by decide) (cs_not_sqrt u hu)))
            (gives_cons (data_missing hr cs_units h.first hu variableSuffix data_labels.2.1 (data_exact l hl).2.1) .nil)))))) (by simp [csDataParserList])
    refine key.congr ?_ ?_
    · intro row _
      simp only [List.map_cons, List.map_nil]
      exact firstSome_same _ [_, _, _, _, _] (by
        intro x hx
        simp only [List.mem_cons, List.not_mem_nil, or_false] at hx
        rcases hx with rfl | rfl | rfl | rfl | rfl
        · exact if_or ..
        · exact .inl rfl
        · exact .inl rfl
        · exact if_or ..
        · exact .inl rfl)
    · intro row _
      simp only [List.map_cons, List.map_nil]
      cases errorIn (valueIn i u row) e1 1 row <;> cases inQuadrature (errorIn (valueIn i u row) e2 1 row) (errorIn (valueIn i u row) e3 1 row) <;> rfl
  | asym i j k l l' l'' u u' u'' h hl h' h'' hu hu' hu'' he' he'' hn =>
    have hd : AsymColumns (crossSectionUnits ++ noUnits) unitsOfCrossSection t i j k l l' l'' u u' u'' := ⟨cs_units, h, hl, h', h'', hu, hu', hu'', he'', hn⟩
    obtain ⟨m1, m2, m3, m4, m5⟩ := hd.all hr (variableSuffix ++ frameSuffix) data_labels.1 (data_exact l hl).1
    have key := listGives (t := t) (ps := csDataParserList) (un := canonUnit u) (gives_cons m1 (gives_cons m2 (gives_cons m3 (gives_cons m4 (gives_cons (barnsSqrtE_none (h.findsNone ⟨["DATA".toList], sqrtEnCrossSectUnits, .dec 1 0, false⟩ (by decide) (cs_not_sqrt u hu))) (gives_cons m5 .nil))))))
      (by simp [csDataParserList])
    refine key.congr ?_ ?_
    · intro row _
      simp only [List.map_cons, List.map_nil]
      cases middleOf (valueIn i u row) (valueIn j u' row) (valueIn k u'' row) <;> rfl
    · intro row _
      simp only [List.map_cons, List.map_nil]
      cases halfWidthOf (valueIn i u row) (valueIn j u' row) (valueIn k u'' row) <;> rfl
  | bins i j l l' u u' h h' hu hu' he hb hn =>
    obtain ⟨m1, m2, m3, m4, m5⟩ := limits_all hr cs_units h h' hu hu' he hb hn (variableSuffix ++ frameSuffix) data_labels.1
    have key := listGives (t := t) (ps := csDataParserList) (un := canonUnit u) (gives_cons m1 (gives_cons m2 (gives_cons m3 (gives_cons m4 (gives_cons (barnsSqrtE_none (hn.finds _ (by decide : ∀ x ∈ ["DATA".toList], x ∈ dataHeads))) (gives_cons m5 .nil))))))
      (by simp [csDataParserList])
    refine key.congr ?_ ?_
    · intro row _
      simp only [List.map_cons, List.map_nil]
      cases middle (valueIn i u row) (valueIn j u' row) <;> rfl
    · intro row _
      simp only [List.map_cons, List.map_nil]
      cases halfWidth (valueIn i u row) (valueIn j u' row) <;> rfl

/-- the parsers of neutron multiplicities read the measured values of the table -/
theorem nubar_list {t : Table ℝ} (hr : t.Rect) {q : Quantity} (h : DataGiven unitsOfNubar t q) : ListGives t nubarParserList q.unit q.val q.err := by
  cases h with
  | points i l u e1 e2 e3 h hl hu h1 h2 h3 hs hn =>
    have hd : DataColumns (nubarUnits ++ noUnits) unitsOfNubar t i l u e1 e2 e3 := ⟨nubar_units, h, hl, hu, h1, h2, h3, hs, hn⟩
    obtain ⟨m1, m2, m3⟩ := hd.middle hr
    have key := listGives (t := t) (ps := nubarParserList) (un := canonUnit u)
      (gives_cons (data_indep hr nubar_units h.first hu h1 variableSuffix data_labels.2.1 (data_exact l hl).2.1)
        (gives_cons m1 (gives_cons m2 (gives_cons m3
            (gives_cons (data_missing hr nubar_units h.first hu variableSuffix data_labels.2.1 (data_exact l hl).2.1) .nil))))) (by simp [nubarParserList])
    refine key.congr ?_ ?_
    · intro row _
      simp only [List.map_cons, List.map_nil]
      exact firstSome_same _ [_, _, _, _] (by
        intro x hx
        simp only [List.mem_cons, List.not_mem_nil, or_false] at hx
        rcases hx with rfl | rfl | rfl | rfl
        · exact if_or ..
        · exact .inl rfl
        · exact .inl rfl
        · exact if_or ..)
    · intro row _
      simp only [List.map_cons, List.map_nil]
      cases errorIn (valueIn i u row) e1 1 row <;> cases inQuadrature (errorIn (valueIn i u row) e2 1 row) (errorIn (valueIn i u row) e3 1 row) <;> rfl
  | asym i j k l l' l'' u u' u'' h hl h' h'' hu hu' hu'' he' he'' hn =>
    have hd : AsymColumns (nubarUnits ++ noUnits) unitsOfNubar t i j k l l' l'' u u' u'' := ⟨nubar_units, h, hl, h', h'', hu, hu', hu'', he'', hn⟩
    obtain ⟨m1, m2, m3, m4, m5⟩ := hd.all hr variableSuffix data_labels.2.1 (data_exact l hl).2.1
    have key := listGives (t := t) (ps := nubarParserList) (un := canonUnit u) (gives_cons m1 (gives_cons m2 (gives_cons m3 (gives_cons m4 (gives_cons m5 .nil)))))
      (by simp [nubarParserList])
    refine key.congr ?_ ?_
    · intro row _
      simp only [List.map_cons, List.map_nil]
      cases middleOf (valueIn i u row) (valueIn j u' row) (valueIn k u'' row) <;> rfl
    · intro row _
      simp only [List.map_cons, List.map_nil]
      cases halfWidthOf (valueIn i u row) (valueIn j u' row) (valueIn k u'' row) <;> rfl
  | bins i j l l' u u' h h' hu hu' he hb hn =>
    obtain ⟨m1, m2, m3, m4, m5⟩ := limits_all hr nubar_units h h' hu hu' he hb hn variableSuffix data_labels.2.1
    have key := listGives (t := t) (ps := nubarParserList) (un := canonUnit u) (gives_cons m1 (gives_cons m2 (gives_cons m3 (gives_cons m4 (gives_cons m5 .nil)))))
      (by simp [nubarParserList])
    refine key.congr ?_ ?_
    · intro row _
      simp only [List.map_cons, List.map_nil]
      cases middle (valueIn i u row) (valueIn j u' row) <;> rfl
    · intro row _
      simp only [List.map_cons, List.map_nil]
      cases halfWidth (valueIn i u row) (valueIn j u' row) <;> rfl

theorem data_all : ∀ l ∈ dataHeads, l ∈ labelsOf baseDataKeys (variableSuffix ++ frameSuffix) := by decide

/-- the parsers of distributions read the measured values of the table -/
theorem dist_list {t : Table ℝ} (hr : t.Rect) {U us : List Str} (hU : ∀ x ∈ us ++ dimensionless, x ∈ U) {q : Quantity} (h : DistGiven us t q) :
    ListGives t [dataIndep (variableSuffix ++ frameSuffix) U, dataMissing (variableSuffix ++ frameSuffix) U] q.unit q.val q.err := by
  cases h with
  | points i l u e h hu h1 =>
    have key := listGives (t := t) (un := canonUnit u)
      (gives_cons (data_indep hr hU h hu h1 (variableSuffix ++ frameSuffix) data_labels.1 (data_all l h.mem))
        (gives_cons (data_missing hr hU h hu (variableSuffix ++ frameSuffix) data_labels.1 (data_all l h.mem)) .nil)) (by simp)
    refine key.congr ?_ ?_
    · intro row _
      simp only [List.map_cons, List.map_nil]
      exact firstSome_same _ [_] (by
        intro x hx
        simp only [List.mem_singleton] at hx
        rw [hx]
        exact if_or ..)
    · intro row _
      simp only [List.map_cons, List.map_nil]
      cases errorIn (valueIn i u row) e 1 row <;> rfl

theorem OptCol.findsMore {t : Table ℝ} {ls ls' us : List Str} {un : Str} {e : Option (Nat × Str)} (h : OptCol t ls us un e) (hn : NoCol t ls') (c : ColParser)
    (hsub : ∀ x ∈ c.labels, x ∈ ls ∨ x ∈ ls') (hl : ∀ x ∈ ls, x ∈ c.labels) (hu : ∀ x ∈ us, x ∈ c.units) (hp : "PER-CENT".toList ∈ c.units)
    (hc : ∀ l ∈ ls, NoCos c l) : FindsErr c t un e := by
  cases e with
  | none =>
    intro j l' u' h1 h2 hm
    rcases hsub l' hm.1 with h' | h'
    · exact h l' (List.mem_of_getElem? h1) h'
    · exact hn l' (List.mem_of_getElem? h1) h'
  | some ju =>
    obtain ⟨j, u⟩ := ju
    obtain ⟨⟨l, hl'⟩, hun⟩ := h
    refine ⟨l, ⟨hl'.label, hl'.unit, hl l hl'.mem, ?_, ?_⟩, hc l hl'.mem, hun.imp id And.right⟩
    · rcases hun with rfl | ⟨h, -⟩
      · exact hp
      · exact hu u h
    · intro k hk l2 u2 h1 h2 hm
      rcases hsub l2 hm.1 with h' | h'
      · exact hl'.first k l2 hk h1 h'
      · exact hn l2 (List.mem_of_getElem? h1) h'

theorem angle_heads : (∀ x ∈ labelsOf baseAngleKeys (variableSuffix ++ frameSuffix), x ∈ angleHeads ["", "-DUMMY", "-ASSUM", "-MEAN", "-APRX", "-CM"]) ∧
    (∀ x ∈ withEnding "ANG".toList ["", "-DUMMY", "-ASSUM", "-MEAN", "-APRX", "-CM"], x ∈ labelsOf baseAngleKeys (variableSuffix ++ frameSuffix) ∧ hasSub "COS".toList x = false) ∧
    (∀ x ∈ labelsOf baseAngleKeys (errorSuffix ++ resolutionHWSuffix), x ∈ withEnding "ANG".toList ["-ERR", "-RSL-HW"] ∨ x ∈ withEnding "COS".toList ["-ERR", "-RSL-HW", "-RES", "-RSL", "-RSL-FW"]) ∧
    (∀ x ∈ withEnding "ANG".toList ["-ERR", "-RSL-HW"], x ∈ labelsOf baseAngleKeys (errorSuffix ++ resolutionHWSuffix) ∧ hasSub "COS".toList x = false) ∧
    (∀ x ∈ labelsOf baseAngleKeys resolutionFWSuffix, x ∈ withEnding "ANG".toList ["-RES", "-RSL", "-RSL-FW"] ∨ x ∈ withEnding "COS".toList ["-ERR", "-RSL-HW", "-RES", "-RSL", "-RSL-FW"]) ∧
    (∀ x ∈ withEnding "ANG".toList ["-RES", "-RSL", "-RSL-FW"], x ∈ labelsOf baseAngleKeys resolutionFWSuffix ∧ hasSub "COS".toList x = false) ∧
    (∀ x ∈ unitsOfAngle, x ∈ angUnits ++ noUnits ∧ canonUnit x = "degrees".toList) := by decide

theorem cosine_heads : (∀ x ∈ withEnding "COS".toList ["", "-DUMMY", "-ASSUM", "-MEAN", "-APRX", "-CM"],
    x ∈ labelsOf baseAngleKeys (variableSuffix ++ frameSuffix) ∧ hasSub "COS".toList x = true) ∧ (∀ x ∈ dimensionless, x ∈ angUnits ++ noUnits) := by decide

theorem noCos_true {ls us : List Str} {s : Factor} {l : Str} (h : hasSub "COS".toList l = false) : NoCos ⟨ls, us, s, true⟩ l := by simp only [NoCos, h, Bool.and_false]

/-- the parsers of angles read the angles of the table, in degrees -/
theorem angle_list {t : Table ℝ} (hr : t.Rect) {q : Quantity} (h : AngleGiven t q) : ListGives t angleParserList q.unit q.val q.err := by
  obtain ⟨a1, a2, a3, a4, a5, a6, a7⟩ := angle_heads
  cases h with
  | points i l u e1 e2 h hl hu h1 h2 hn =>
    have hcu : canonUnit u = "degrees".toList := (a7 u hu).2
    have hc : ∀ {ls us s}, NoCos ⟨ls, us, s, true⟩ l := noCos_true (a2 l hl).2
    have f : Finds ⟨labelsOf baseAngleKeys (variableSuffix ++ frameSuffix), angUnits ++ noUnits, .dec 1 0, true⟩ t i l u :=
      h.finds _ a1 (a2 l hl).1 (a7 u hu).1
    have hU : ∀ x ∈ unitsOfAngle, x ∈ angUnits ++ noUnits ++ percentUnits := fun x hx => List.mem_append_left _ (a7 x hx).1
    have g1 : FindsErr ⟨labelsOf baseAngleKeys (errorSuffix ++ resolutionHWSuffix), angUnits ++ noUnits ++ percentUnits, .dec 1 0, true⟩ t (canonUnit u) e1 :=
      hcu ▸ h1.findsMore hn _ a3 (fun x hx => (a4 x hx).1) hU (percent_mem _) (fun x hx => noCos_true (a4 x hx).2)
    have g2 : FindsErr ⟨labelsOf baseAngleKeys resolutionFWSuffix, angUnits ++ noUnits ++ percentUnits, .dec 5 (-1), true⟩ t (canonUnit u) e2 :=
      hcu ▸ h2.findsMore hn _ a5 (fun x hx => (a6 x hx).1) hU (percent_mem _) (fun x hx => noCos_true (a6 x hx).2)
    have key := listGives (t := t) (ps := angleParserList) (un := canonUnit u)
      (gives_cons (indep_gives hr f hc g1) (gives_cons (indep_gives hr f hc g2) (gives_cons (missing_gives hr f hc) .nil))) (by simp [angleParserList])
    rw [hcu] at key
    refine key.congr ?_ ?_
    · intro row _
      simp only [List.map_cons, List.map_nil, canonCell_one]
      exact firstSome_same _ [_, _] (by
        intro x hx
        simp only [List.mem_cons, List.not_mem_nil, or_false] at hx
        rcases hx with rfl | rfl
        · exact if_or ..
        · exact if_or ..)
    · intro row _
      simp only [List.map_cons, List.map_nil, canonCell_one, val_one, val_half]
      cases errorIn (valueIn i u row) e1 1 row <;> cases errorIn (valueIn i u row) e2 (1 / 2) row <;> rfl
  | cosines i l u e1 e2 h hl hu hx h1 h2 hn =>
    obtain ⟨b1, b2⟩ := cosine_heads
    have f : Finds ⟨labelsOf baseAngleKeys (variableSuffix ++ frameSuffix), angUnits ++ noUnits, .dec 1 0, true⟩ t i l u :=
      h.finds _ a1 (b1 l hl).1 (b2 u hu)
    have hU : ∀ x ∈ unitsOfAngle, x ∈ angUnits ++ noUnits ++ percentUnits := fun x hx => List.mem_append_left _ (a7 x hx).1
    have hV : ColParser.find ⟨labelsOf baseAngleKeys (variableSuffix ++ frameSuffix), angUnits ++ noUnits, .dec 1 0, true⟩ t =
        .ok ⟨some l, some "degrees".toList, t.data.map (angleOfCosine i)⟩ := by
      rw [find_cos hr f (by simp only [(b1 l hl).2, Bool.and_self]) (by simpa only [val_one, mul_one] using hx)]
      simp only [val_one, mul_one]
      rfl
    have g1 : FindsErr ⟨labelsOf baseAngleKeys (errorSuffix ++ resolutionHWSuffix), angUnits ++ noUnits ++ percentUnits, .dec 1 0, true⟩ t "degrees".toList e1 :=
      h1.findsMore hn _ a3 (fun x hx => (a4 x hx).1) hU (percent_mem _) (fun x hx => noCos_true (a4 x hx).2)
    have g2 : FindsErr ⟨labelsOf baseAngleKeys resolutionFWSuffix, angUnits ++ noUnits ++ percentUnits, .dec 5 (-1), true⟩ t "degrees".toList e2 :=
      h2.findsMore hn _ a5 (fun x hx => (a6 x hx).1) hU (percent_mem _) (fun x hx => noCos_true (a6 x hx).2)
    have key := listGives (t := t) (ps := angleParserList) (un := "degrees".toList)
      (gives_cons (indep_gives' hr f hV g1) (gives_cons (indep_gives' hr f hV g2) (gives_cons (missing_gives' f hV) .nil))) (by simp [angleParserList])
    refine key.congr ?_ ?_
    · intro row _
      simp only [List.map_cons, List.map_nil]
      exact firstSome_same _ [_, _] (by
        intro x hx
        simp only [List.mem_cons, List.not_mem_nil, or_false] at hx
        rcases hx with rfl | rfl
        · exact if_or ..
        · exact if_or ..)
    · intro row _
      simp only [List.map_cons, List.map_nil, val_one, val_half]
      cases errorIn (angleOfCosine i row) e1 1 row <;> cases errorIn (angleOfCosine i row) e2 (1 / 2) row <;> rfl

/-! ### C88 -/

/-- a dataset with the simplified table of the quantities -/
noncomputable def DataSet.with {ρ : Type} (d : DataSet ρ ℝ) (qs : List Quantity) (makeAll : Bool) : DataSet ρ ℝ :=
  { d with labels := (quantityTable qs d.data makeAll).labels
           units := (quantityTable qs d.data makeAll).units
           data := (quantityTable qs d.data makeAll).data
           simplified := true }

theorem simplified_of {ρ : Type} {d : DataSet ρ ℝ} {pm : Dict Str (List Pair)} {qs : List Quantity} {makeAll failMissing : Bool} (hs : d.simplified = false)
    (hn : pm.keys = qs.map Quantity.name) (hnd : pm.keys.Nodup) (hq : ∀ q ∈ qs, Describes d.table pm q) (hv : ∀ q ∈ qs, ∃ row ∈ d.data, q.val row ≠ none)
    (he : makeAll = true ∨ failMissing = false ∨ ∀ q ∈ qs, q.HasErr d.data) {names : List Str} (hnames : names = qs.map Quantity.name) :
    d.simplifyWith (some (pm, names)) makeAll failMissing = .ok (d.with qs makeAll) := by
  unfold DataSet.simplifyWith
  rw [if_neg (by simp [hs])]
  simp only [hnames, simplify_quantities hn hnd hq hv he]
  rfl

theorem EnergyGiven.name_eq {b name : Str} {t : Table ℝ} {q : Quantity} (h : EnergyGiven b name t q) : q.name = name := by cases h <;> rfl
theorem DataGiven.name_eq {us : List Str} {t : Table ℝ} {q : Quantity} (h : DataGiven us t q) : q.name = "Data".toList := by cases h <;> rfl
theorem DistGiven.name_eq {us : List Str} {t : Table ℝ} {q : Quantity} (h : DistGiven us t q) : q.name = "Data".toList := by cases h; rfl
theorem AngleGiven.name_eq {t : Table ℝ} {q : Quantity} (h : AngleGiven t q) : q.name = "Angle".toList := by cases h <;> rfl

variable {ρ : Type}

/-- C88 for cross sections: the simplified dataset has the incident energies in MeV and the cross sections in barns (or
without dimension, as they are given), with the uncertainties given for them. -/
theorem C88_cross_section_partial (d : DataSet ρ ℝ) (hk : d.kind = .crossSection) (hs : d.simplified = false) (hr : d.table.Rect) (q1 q2 : Quantity)
    (h1 : EnergyGiven "EN".toList "Energy".toList d.table q1) (h2 : DataGiven unitsOfCrossSection d.table q2)
    (hv : ∀ q ∈ [q1, q2], ∃ row ∈ d.data, q.val row ≠ none) (makeAll failMissing : Bool)
    (he : makeAll = true ∨ failMissing = false ∨ ∀ q ∈ [q1, q2], q.HasErr d.data) :
    d.getSimplified makeAll failMissing = .ok (d.with [q1, q2] makeAll) := by
  unfold DataSet.getSimplified
  rw [hk]
  refine simplified_of hs ?_ (by decide) ?_ hv he ?_
  · simp only [List.map_cons, List.map_nil, h1.name_eq, h2.name_eq]; rfl
  · intro q hq
    simp only [List.mem_cons, List.not_mem_nil, or_false] at hq
    rcases hq with rfl | rfl
    · exact ⟨incidentEnergyParserList, by rw [h1.name_eq]; rfl, energy_list hr "EN" h1⟩
    · exact ⟨csDataParserList, by rw [h2.name_eq]; rfl, cs_list hr h2⟩
  · simp only [List.map_cons, List.map_nil, h1.name_eq, h2.name_eq]

/-- C88 for neutron multiplicities -/
theorem C88_nubar_partial (d : DataSet ρ ℝ) (hk : d.kind = .nubar) (hs : d.simplified = false) (hr : d.table.Rect) (q1 q2 : Quantity)
    (h1 : EnergyGiven "EN".toList "Energy".toList d.table q1) (h2 : DataGiven unitsOfNubar d.table q2)
    (hv : ∀ q ∈ [q1, q2], ∃ row ∈ d.data, q.val row ≠ none) (makeAll failMissing : Bool)
    (he : makeAll = true ∨ failMissing = false ∨ ∀ q ∈ [q1, q2], q.HasErr d.data) :
    d.getSimplified makeAll failMissing = .ok (d.with [q1, q2] makeAll) := by
  unfold DataSet.getSimplified
  rw [hk]
  refine simplified_of hs ?_ (by decide) ?_ hv he ?_
  · simp only [List.map_cons, List.map_nil, h1.name_eq, h2.name_eq]; rfl
  · intro q hq
    simp only [List.mem_cons, List.not_mem_nil, or_false] at hq
    rcases hq with rfl | rfl
    · exact ⟨incidentEnergyParserList, by rw [h1.name_eq]; rfl, energy_list hr "EN" h1⟩
    · exact ⟨nubarParserList, by rw [h2.name_eq]; rfl, nubar_list hr h2⟩
  · simp only [List.map_cons, List.map_nil, h1.name_eq, h2.name_eq]

/-- C88 for angular distributions: the angles are in degrees. -/
theorem C88_angular_partial (d : DataSet ρ ℝ) (hk : d.kind = .angular) (hs : d.simplified = false) (hr : d.table.Rect) (q1 q2 q3 : Quantity)
    (h1 : EnergyGiven "EN".toList "Energy".toList d.table q1) (h2 : AngleGiven d.table q2) (h3 : DistGiven unitsOfAngDist d.table q3)
    (hv : ∀ q ∈ [q1, q2, q3], ∃ row ∈ d.data, q.val row ≠ none) (makeAll failMissing : Bool)
    (he : makeAll = true ∨ failMissing = false ∨ ∀ q ∈ [q1, q2, q3], q.HasErr d.data) :
    d.getSimplified makeAll failMissing = .ok (d.with [q1, q2, q3] makeAll) := by
  unfold DataSet.getSimplified
  rw [hk]
  refine simplified_of hs ?_ (by decide) ?_ hv he ?_
  · simp only [List.map_cons, List.map_nil, h1.name_eq, h2.name_eq, h3.name_eq]; rfl
  · intro q hq
    simp only [List.mem_cons, List.not_mem_nil, or_false] at hq
    rcases hq with rfl | rfl | rfl
    · exact ⟨incidentEnergyParserList, by rw [h1.name_eq]; rfl, energy_list hr "EN" h1⟩
    · exact ⟨angleParserList, by rw [h2.name_eq]; rfl, angle_list hr h2⟩
    · exact ⟨angDistParserList, by rw [h3.name_eq]; rfl, dist_list hr angDist_units h3⟩
  · simp only [List.map_cons, List.map_nil, h1.name_eq, h2.name_eq, h3.name_eq]

/-- C88 for energy distributions: the outgoing energies are in MeV. -/
theorem C88_energy_distribution_partial (d : DataSet ρ ℝ) (hk : d.kind = .energyDist) (hs : d.simplified = false) (hr : d.table.Rect) (q1 q2 q3 : Quantity)
    (h1 : EnergyGiven "EN".toList "Energy".toList d.table q1) (h2 : EnergyGiven "E".toList "E'".toList d.table q2) (h3 : DistGiven unitsOfSpectrum d.table q3)
    (hv : ∀ q ∈ [q1, q2, q3], ∃ row ∈ d.data, q.val row ≠ none) (makeAll failMissing : Bool)
    (he : makeAll = true ∨ failMissing = false ∨ ∀ q ∈ [q1, q2, q3], q.HasErr d.data) :
    d.getSimplified makeAll failMissing = .ok (d.with [q1, q2, q3] makeAll) := by
  unfold DataSet.getSimplified
  rw [hk]
  refine simplified_of hs ?_ (by decide) ?_ hv he ?_
  · simp only [List.map_cons, List.map_nil, h1.name_eq, h2.name_eq, h3.name_eq]; rfl
  · intro q hq
    simp only [List.mem_cons, List.not_mem_nil, or_false] at hq
    rcases hq with rfl | rfl | rfl
    · exact ⟨incidentEnergyParserList, by rw [h1.name_eq]; rfl, energy_list hr "EN" h1⟩
    · exact ⟨outgoingEnergyParserList, by rw [h2.name_eq]; rfl, energy_list hr "E" h2⟩
    · exact ⟨energyDistParserList, by rw [h3.name_eq]; rfl, dist_list hr energyDist_units h3⟩
  · simp only [List.map_cons, List.map_nil, h1.name_eq, h2.name_eq, h3.name_eq]

/-! the datasets of the examples -/
theorem oneCol_of {t : Table ℝ} {L : List Str} {U : List (Option Str)} (hL : t.labels = L) (hU : t.units = U) {ls : List Str} {i : Nat} {l u : Str}
    (h : L[i]? = some l ∧ U[i]? = some (some u) ∧ l ∈ ls ∧ ∀ x ∈ L.zipIdx, x.1 ∈ ls → x.2 = i) : OneCol t ls i l u := by
  subst hL hU
  refine ⟨h.1, h.2.1, h.2.2.1, fun j l' hj hm => h.2.2.2 (l', j) ?_ hm⟩
  rw [List.mem_zipIdx_iff_getElem?]
  exact hj

theorem firstCol_of {t : Table ℝ} {L : List Str} {U : List (Option Str)} (hL : t.labels = L) (hU : t.units = U) {ls : List Str} {i : Nat} {l u : Str}
    (h : L[i]? = some l ∧ U[i]? = some (some u) ∧ l ∈ ls ∧ ∀ x ∈ L.zipIdx, x.2 < i → x.1 ∉ ls) : FirstCol t ls i l u := by
  subst hL hU
  refine ⟨h.1, h.2.1, h.2.2.1, fun j l' hlt hj hm => h.2.2.2 (l', j) ?_ hlt hm⟩
  rw [List.mem_zipIdx_iff_getElem?]
  exact hj

theorem noCol_of {t : Table ℝ} {L : List Str} (hL : t.labels = L) {ls : List Str} (h : ∀ l ∈ L, l ∉ ls) : NoCol t ls := by subst hL; exact h

/-- a dataset with these headings, units and rows -/
def plainSet (k : DsKind) (L U : List String) (rows : List (List (Option ℝ))) : DataSet Unit ℝ :=
  { kind := k, info := mergeMeta [], reaction := none, monitor := none, coupled := false, labels := L.map String.toList,
    units := U.map fun u => some u.toList, data := rows }

theorem plainSet_labels (k : DsKind) (L U : List String) (rows : List (List (Option ℝ))) : (plainSet k L U rows).table.labels = L.map String.toList := rfl
theorem plainSet_units (k : DsKind) (L U : List String) (rows : List (List (Option ℝ))) : (plainSet k L U rows).table.units = U.map fun u => some u.toList := rfl

/-- energies in keV with a resolution (full width) in keV, cross sections in mb with a total error in percent and a statistical one -/
def csSet : DataSet Unit ℝ := plainSet .crossSection ["EN", "EN-RSL-FW", "DATA", "ERR-T", "ERR-S"] ["KEV", "KEV", "MB", "PER-CENT", "MB"]
  [[some 100, some 10, some 500, some 5, none], [some 200, none, some 400, none, some 12], [some 300, none, none, none, none]]

/-- `csSet` satisfies the hypotheses of `C88_cross_section_partial`. -/
theorem csSet_energy : EnergyGiven "EN".toList "Energy".toList csSet.table ⟨"Energy".toList, "MeV".toList, valueIn 0 "KEV".toList, fun row =>
    firstSome [errorIn (valueIn 0 "KEV".toList row) none 1 row, errorIn (valueIn 0 "KEV".toList row) (some (1, "KEV".toList)) (1 / 2) row,
      errorIn (valueIn 0 "KEV".toList row) none 1 row]⟩ :=
  .points 0 "EN".toList _ none (some (1, "KEV".toList)) none (firstCol_of (plainSet_labels ..) (plainSet_units ..) (by decide)) (by decide) (by decide) (noCol_of (plainSet_labels ..) (by decide))
    ⟨⟨"EN-RSL-FW".toList, firstCol_of (plainSet_labels ..) (plainSet_units ..) (by decide)⟩, by decide⟩ (noCol_of (plainSet_labels ..) (by decide)) (noCol_of (plainSet_labels ..) (by decide))
theorem csSet_data : DataGiven unitsOfCrossSection csSet.table ⟨"Data".toList, "barns".toList, valueIn 2 "MB".toList, fun row =>
    firstSome [errorIn (valueIn 2 "MB".toList row) (some (3, "PER-CENT".toList)) 1 row,
      inQuadrature (errorIn (valueIn 2 "MB".toList row) none 1 row) (errorIn (valueIn 2 "MB".toList row) (some (4, "MB".toList)) 1 row)]⟩ :=
  .points 2 "DATA".toList "MB".toList (some (3, "PER-CENT".toList)) none (some (4, "MB".toList)) (oneCol_of (plainSet_labels ..) (plainSet_units ..) (by decide)) (by decide) (by decide)
    ⟨⟨"ERR-T".toList, firstCol_of (plainSet_labels ..) (plainSet_units ..) (by decide)⟩, by decide⟩ (noCol_of (plainSet_labels ..) (by decide))
    ⟨⟨"ERR-S".toList, firstCol_of (plainSet_labels ..) (plainSet_units ..) (by decide)⟩, by decide⟩ trivial (noCol_of (plainSet_labels ..) (by decide))

theorem knownUnit_keV : unitFactor "KEV".toList = 10 ^ (-3 : ℤ) := by
  have h : lookupUnit "KEV".toList = some ("KEV".toList, "MeV".toList, some (1, -3)) := by decide
  unfold unitFactor; rw [h]; norm_num
theorem knownUnit_mb : unitFactor "MB".toList = 10 ^ (-3 : ℤ) := by
  have h : lookupUnit "MB".toList = some ("MB".toList, "barns".toList, some (1, -3)) := by decide
  unfold unitFactor; rw [h]; norm_num

/-- 100 keV ± 5 keV (half of the full width) and 500 mb ± 5 % become 0.1 ± 0.005 MeV and 0.5 ± 0.025 b. -/
example : ∃ r, csSet.getSimplified false false = .ok r ∧ r.labels = ["Energy", "Data", "d(Energy)", "d(Data)"].map String.toList ∧
    r.units = ["MeV", "barns", "MeV", "barns"].map (fun u => some u.toList) ∧
    r.data = [[some (0.1 : ℝ), some 0.5, some 0.005, some 0.025], [some 0.2, some 0.4, none, some 0.012], [some 0.3, none, none, none]] := by
  refine ⟨_, C88_cross_section_partial csSet rfl rfl ?_ _ _ csSet_energy csSet_data ?_ false false (.inr (.inl rfl)), ?_⟩
  · exact ⟨rfl, by intro row hrow; simp [DataSet.table, csSet, plainSet] at hrow ⊢; rcases hrow with rfl | rfl | rfl <;> rfl⟩
  · intro q hq
    simp only [List.mem_cons, List.not_mem_nil, or_false] at hq
    refine ⟨_, List.mem_cons_self .., ?_⟩
    rcases hq with rfl | rfl <;> simp [valueIn, cell]
  · have hw : ∀ q1 q2 : Quantity, q1.HasErr csSet.data → q2.HasErr csSet.data → withUncertainty [q1, q2] csSet.data false = [q1, q2] := by
      intro q1 q2 h1 h2
      rw [withUncertainty, List.filter_eq_self]
      intro q hq
      simp only [List.mem_cons, List.not_mem_nil, or_false] at hq
      rcases hq with rfl | rfl
      · simp [h1]
      · simp [h2]
    have h1 : Quantity.HasErr ⟨"Energy".toList, "MeV".toList, valueIn 0 "KEV".toList, fun row =>
        firstSome [errorIn (valueIn 0 "KEV".toList row) none 1 row, errorIn (valueIn 0 "KEV".toList row) (some (1, "KEV".toList)) (1 / 2) row,
          errorIn (valueIn 0 "KEV".toList row) none 1 row]⟩ csSet.data :=
      ⟨_, List.mem_cons_self .., by simp [errorIn, cell, firstSome]⟩
    have h2 : Quantity.HasErr ⟨"Data".toList, "barns".toList, valueIn 2 "MB".toList, fun row =>
        firstSome [errorIn (valueIn 2 "MB".toList row) (some (3, "PER-CENT".toList)) 1 row,
          inQuadrature (errorIn (valueIn 2 "MB".toList row) none 1 row) (errorIn (valueIn 2 "MB".toList row) (some (4, "MB".toList)) 1 row)]⟩ csSet.data :=
      ⟨_, List.mem_cons_self .., by simp [errorIn, cell, firstSome, valueIn]⟩
    refine ⟨?_, ?_, ?_⟩
    · simp only [DataSet.with, quantityTable, hw _ _ h1 h2]; rfl
    · simp only [DataSet.with, quantityTable, hw _ _ h1 h2]; rfl
    · show (quantityTable _ csSet.data false).data = _
      unfold quantityTable
      rw [hw _ _ h1 h2]
      simp only [List.map_cons, List.map_nil, List.cons_append, List.nil_append, if_pos h1, if_pos h2]
      have e1 : unitFactor ['K', 'E', 'V'] = 10 ^ (-3 : ℤ) := knownUnit_keV
      have e2 : unitFactor ['M', 'B'] = 10 ^ (-3 : ℤ) := knownUnit_mb
      simp [csSet, plainSet, valueIn, errorIn, cell, firstSome, inQuadrature, e1, e2]
      norm_num

/-- a small tactic for the existence of the columns in the examples -/
macro "col_dec" : tactic => `(tactic| first
  | exact firstCol_of (plainSet_labels ..) (plainSet_units ..) (by decide)
  | exact oneCol_of (plainSet_labels ..) (plainSet_units ..) (by decide)
  | exact noCol_of (plainSet_labels ..) (by decide))

/-- the other three theorems apply: neutron multiplicities with energy bins, an angular distribution, and a spectrum -/
example (a b c : ℝ) : ∃ q1 q2, EnergyGiven "EN".toList "Energy".toList (plainSet .nubar ["EN-MIN", "EN-MAX", "DATA", "DATA-ERR"] ["EV", "KEV", "PRT/FIS", "PER-CENT"] [[some a, some b, some c, none]]).table q1 ∧
    DataGiven unitsOfNubar (plainSet .nubar ["EN-MIN", "EN-MAX", "DATA", "DATA-ERR"] ["EV", "KEV", "PRT/FIS", "PER-CENT"] [[some a, some b, some c, none]]).table q2 ∧
    q1.val [some a, some b, some c, none] ≠ none ∧ q2.val [some a, some b, some c, none] ≠ none := by
  refine ⟨_, _, .bins 0 1 "EN-MIN".toList "EN-MAX".toList "EV".toList "KEV".toList (by col_dec) (by col_dec) (by decide) (by decide) ?_ (by col_dec),
    .points 2 "DATA".toList "PRT/FIS".toList (some (3, "PER-CENT".toList)) none none (by col_dec) (by decide) (by decide) ⟨⟨"DATA-ERR".toList, by col_dec⟩, by decide⟩ (by col_dec) (by col_dec) trivial (by col_dec), ?_, ?_⟩
  · intro row hrow
    simp only [DataSet.table, plainSet, List.mem_singleton] at hrow
    subst hrow
    simp [cell]
  · simp [middle, valueIn, cell]
  · simp [valueIn, cell]

example (a b c : ℝ) : ∃ q1 q2 q3, EnergyGiven "EN".toList "Energy".toList (plainSet .angular ["EN", "ANG-CM", "DATA-CM"] ["MEV", "ADEG", "MB/SR"] [[some a, some b, some c]]).table q1 ∧
    AngleGiven (plainSet .angular ["EN", "ANG-CM", "DATA-CM"] ["MEV", "ADEG", "MB/SR"] [[some a, some b, some c]]).table q2 ∧
    DistGiven unitsOfAngDist (plainSet .angular ["EN", "ANG-CM", "DATA-CM"] ["MEV", "ADEG", "MB/SR"] [[some a, some b, some c]]).table q3 ∧
    ∀ q ∈ [q1, q2, q3], q.val [some a, some b, some c] ≠ none := by
  refine ⟨_, _, _, .points 0 "EN".toList "MEV".toList none none none (by col_dec) (by decide) (by decide) (by col_dec) (by col_dec) (by col_dec) (by col_dec),
    .points 1 "ANG-CM".toList "ADEG".toList none none (by col_dec) (by decide) (by decide) (by col_dec) (by col_dec) (by col_dec),
    .points 2 "DATA-CM".toList "MB/SR".toList none (by col_dec) (by decide) (by col_dec), ?_⟩
  intro q hq
  simp only [List.mem_cons, List.not_mem_nil, or_false] at hq
  rcases hq with rfl | rfl | rfl <;> simp [valueIn, cell]

example (a b c : ℝ) : ∃ q1 q2 q3, EnergyGiven "EN".toList "Energy".toList (plainSet .energyDist ["EN", "E", "DATA"] ["EV", "KEV", "1/EV"] [[some a, some b, some c]]).table q1 ∧
    EnergyGiven "E".toList "E'".toList (plainSet .energyDist ["EN", "E", "DATA"] ["EV", "KEV", "1/EV"] [[some a, some b, some c]]).table q2 ∧
    DistGiven unitsOfSpectrum (plainSet .energyDist ["EN", "E", "DATA"] ["EV", "KEV", "1/EV"] [[some a, some b, some c]]).table q3 ∧
    ∀ q ∈ [q1, q2, q3], q.val [some a, some b, some c] ≠ none := by
  refine ⟨_, _, _, .points 0 "EN".toList "EV".toList none none none (by col_dec) (by decide) (by decide) (by col_dec) (by col_dec) (by col_dec) (by col_dec),
    .points 1 "E".toList "KEV".toList none none none (by col_dec) (by decide) (by decide) (by col_dec) (by col_dec) (by col_dec) (by col_dec),
    .points 2 "DATA".toList "1/EV".toList none (by col_dec) (by decide) (by col_dec), ?_⟩
  intro q hq
  simp only [List.mem_cons, List.not_mem_nil, or_false] at hq
  rcases hq with rfl | rfl | rfl <;> simp [valueIn, cell]

/-- different errors below and above: 500 mb, - 20 mb, + 40 mb becomes the middle of the interval, 0.51 b, with half its width, 0.03 b -/
example (a b : ℝ) : ∃ q1 q2, EnergyGiven "EN".toList "Energy".toList (plainSet .crossSection ["EN", "-EN-ERR", "+EN-ERR", "DATA", "-DATA-ERR", "+DATA-ERR"] ["MEV", "KEV", "KEV", "MB", "MB", "MB"]
      [[some a, some b, none, some 500, some 20, some 40]]).table q1 ∧
    DataGiven unitsOfCrossSection (plainSet .crossSection ["EN", "-EN-ERR", "+EN-ERR", "DATA", "-DATA-ERR", "+DATA-ERR"] ["MEV", "KEV", "KEV", "MB", "MB", "MB"]
      [[some a, some b, none, some 500, some 20, some 40]]).table q2 ∧
    q1.val [some a, some b, none, some 500, some 20, some 40] = some (a * unitFactor "MEV".toList) ∧
    q2.val [some a, some b, none, some 500, some 20, some 40] = some 0.51 ∧ q2.err [some a, some b, none, some 500, some 20, some 40] = some 0.03 := by
  refine ⟨_, _, .asym 0 1 2 "-EN-ERR".toList "+EN-ERR".toList "MEV".toList "KEV".toList "KEV".toList (by col_dec) (by col_dec) (by col_dec) (by decide) (by decide) (by decide) (by col_dec),
    .asym 3 4 5 "DATA".toList "-DATA-ERR".toList "+DATA-ERR".toList "MB".toList "MB".toList "MB".toList (by col_dec) (by decide) (by col_dec) (by col_dec) (by decide) (by decide) (by decide)
      (by decide) (by decide) (by col_dec), ?_, ?_, ?_⟩
  all_goals
    have e2 : unitFactor ['M', 'B'] = 10 ^ (-3 : ℤ) := knownUnit_mb
    simp [middleOf, halfWidthOf, valueIn, cell, firstSome, e2]
  all_goals norm_num

/-- limits of the measured values: 400 mb to 600 mb is 0.5 b with 0.1 b -/
example : ∃ q, DataGiven unitsOfCrossSection (plainSet .crossSection ["EN", "DATA-MIN", "DATA-MAX"] ["MEV", "MB", "MB"] [[some 1, some 400, some 600], [some 2, none, none]]).table q ∧
    q.val [some 1, some 400, some 600] = some 0.5 ∧ q.err [some 1, some 400, some 600] = some 0.1 ∧ q.val [some 2, none, none] = none := by
  refine ⟨_, .bins 1 2 "DATA-MIN".toList "DATA-MAX".toList "MB".toList "MB".toList (by col_dec) (by col_dec) (by decide) (by decide) (by decide) ?_ (by col_dec), ?_, ?_, ?_⟩
  · intro row hrow
    simp only [DataSet.table, plainSet, List.mem_cons, List.not_mem_nil, or_false] at hrow
    rcases hrow with rfl | rfl <;> simp [cell]
  all_goals
    have e2 : unitFactor ['M', 'B'] = 10 ^ (-3 : ℤ) := knownUnit_mb
    simp [middle, halfWidth, valueIn, cell, e2]
  all_goals norm_num

/-- a cosine of 0.5 with an error of the angle: 60 degrees, 2 degrees -/
example : ∃ q, AngleGiven (plainSet .angular ["EN", "COS-CM", "ANG-ERR", "DATA"] ["MEV", "NO-DIM", "ADEG", "MB/SR"] [[some 1, some (1 / 2), some 2, some 3]]).table q ∧
    q.val [some 1, some (1 / 2), some 2, some 3] = some 60 ∧ q.err [some 1, some (1 / 2), some 2, some 3] = some 2 := by
  refine ⟨_, .cosines 1 "COS-CM".toList "NO-DIM".toList (some (2, "ADEG".toList)) none (by col_dec) (by decide) (by decide) ?_
    ⟨⟨"ANG-ERR".toList, firstCol_of (plainSet_labels ..) (plainSet_units ..) (by decide)⟩, by decide⟩ (noCol_of (plainSet_labels ..) (by decide)) (by col_dec), ?_, ?_⟩
  · intro row hrow x hx
    simp only [DataSet.table, plainSet, List.mem_singleton] at hrow
    subst hrow
    simp only [cell, List.getElem?_cons_succ, List.getElem?_cons_zero, Option.getD_some, Option.some.injEq] at hx
    subst hx
    norm_num
  · have e : Real.arccos (1 / 2) = Real.pi / 3 := by
      rw [← Real.cos_pi_div_three]
      exact Real.arccos_cos (by positivity) (by linarith [Real.pi_pos])
    have hpi := Real.pi_ne_zero
    show some (Real.arccos (1 / 2) * (180 / Real.pi)) = some 60
    rw [e]
    congr 1
    field_simp
    norm_num
  · have e2 : unitFactor "ADEG".toList = 1 := by
      have h : lookupUnit "ADEG".toList = some ("ADEG".toList, "degrees".toList, some (1, 0)) := by decide
      unfold unitFactor; rw [h]; norm_num
    show firstSome [errorIn _ (some (2, "ADEG".toList)) 1 _, _] = some 2
    simp only [errorIn, cell, List.getElem?_cons_succ, List.getElem?_cons_zero, Option.getD_some, e2]
    rw [if_neg (by decide)]
    norm_num [firstSome]

/-! ### where the claim fails -/

theorem single_rect (k : DsKind) (L U : List String) (row : List (Option ℝ)) (h : U.length = L.length ∧ row.length = L.length) : (plainSet k L U [row]).table.Rect := by
  refine ⟨by simp [DataSet.table, plainSet, h.1], ?_⟩
  intro r hr
  simp only [DataSet.table, plainSet, List.mem_singleton] at hr
  subst hr
  simp [DataSet.table, plainSet, h.2]

/-- C88 is false for cross sections in the center of mass without uncertainties: whatever the rows of the table are, the
dataset is reported to have no data, although the same column with a column of uncertainties is read. -/
theorem C88_cm_refuted (d : DataSet ρ ℝ) (hk : d.kind = .crossSection) (hs : d.simplified = false) (hr : d.table.Rect)
    (hl : d.labels = ["EN".toList, "DATA-CM".toList]) (hu : d.units = [some "EV".toList, some "B".toList]) (hv : ∃ row ∈ d.data, cell row 0 ≠ none)
    (makeAll failMissing : Bool) : d.getSimplified makeAll failMissing = .error (.noValuesGivenError "Data".toList) := by
  classical
  have hL : d.table.labels = ["EN".toList, "DATA-CM".toList] := hl
  have hU : d.table.units = [some "EV".toList, some "B".toList] := hu
  have nc : ∀ ls, (∀ l ∈ ["EN".toList, "DATA-CM".toList], l ∉ ls) → NoCol d.table ls := fun ls h => noCol_of hL h
  have E := energy_list hr "EN" (name := "Energy".toList) (.points 0 "EN".toList "EV".toList none none none (firstCol_of hL hU (by decide)) (by decide) (by decide) (nc _ (by decide)) (nc _ (by decide)) (nc _ (by decide)) (nc _ (by decide)))
  have n : ∀ c : ColParser, (∀ l ∈ ["EN".toList, "DATA-CM".toList], l ∉ c.labels) → FindsNone c d.table := fun c h => (nc c.labels h).finds c fun _ hx => hx
  have D := listGives (t := d.table) (ps := csDataParserList) (un := "barns".toList)
    (gives_cons (V := fun _ => none) (E := fun _ => none) (by
        have hm : ¬ (dataIndep (variableSuffix ++ frameSuffix) (crossSectionUnits ++ noUnits)).isMatch d.table = true := by
          simp only [dataIndep, Pair.isMatch, firstMatch_none.2 (n ⟨labelsOf baseDataKeys errorSuffix ++ ["ERR-T".toList], crossSectionUnits ++ noUnits ++ percentUnits, .dec 1 0, false⟩ (by decide))]
          simp
        apply gives_none
        · unfold dataIndep at hm ⊢; simp only [Pair.getValue, Pair.value0, if_neg hm]
        · rw [Pair.getError, if_neg hm])
      (gives_cons (highLow_none (n _ (by decide)) (n _ (by decide)))
        (gives_cons (highMidLow_none' (n _ (by decide)))
          (gives_cons (V := fun _ => none) (E := fun _ => none) (by
            have hm : ¬ (dataAddErr (crossSectionUnits ++ noUnits)).isMatch d.table = true := by
              simp only [dataAddErr, Pair.isMatch, firstMatch_none.2 (n ⟨labelsOf baseDataKeys [""], crossSectionUnits ++ noUnits, .dec 1 0, false⟩ (by decide))]
              simp
            apply gives_none
            · unfold dataAddErr at hm ⊢; simp only [Pair.getValue, Pair.value0, if_neg hm]
            · rw [Pair.getError, if_neg hm])
            (gives_cons (barnsSqrtE_none (n _ (by decide))) (gives_cons (missing_none (n _ (by decide))) .nil)))))) (by simp [csDataParserList])
  have hE : ¬ NoValue d.table incidentEnergyParserList := by
    intro h
    obtain ⟨row, hrow, hx⟩ := hv
    obtain ⟨r, hlt, hget⟩ := List.mem_iff_getElem.1 hrow
    have := E.val r row (by rw [← hget]; exact List.getElem?_eq_getElem hlt)
    have h' : colVal d.table incidentEnergyParserList r = none := h r hlt
    rw [show energyParsers "EN" = incidentEnergyParserList from rfl, h'] at this
    simp only [valueIn] at this
    cases hc : cell row 0 with
    | none => exact hx hc
    | some x => rw [hc] at this; cases this
  have hD : NoValue d.table csDataParserList := by
    intro r hr'
    have hrow : d.table.data[r]? = some d.table.data[r] := List.getElem?_eq_getElem hr'
    rw [D.val r _ hrow]
    rfl
  unfold DataSet.getSimplified
  rw [hk]
  show d.simplifyWith (some _) _ _ = _
  unfold DataSet.simplifyWith
  rw [if_neg (by simp [hs])]
  have key : mapE (readColumns d.table) [("Energy".toList, incidentEnergyParserList), ("Data".toList, csDataParserList)] = .error (.noValuesGivenError "Data".toList) := by
    simp only [mapE, readColumns_eq (kv := ("Energy".toList, incidentEnergyParserList)) E.reads, if_neg hE,
      readColumns_eq (kv := ("Data".toList, csDataParserList)) D.reads, if_pos hD]
  simp only [simplifyTable]
  rw [if_pos (by decide), key]

example : ∃ d : DataSet Unit ℝ, d.kind = .crossSection ∧ d.simplified = false ∧ d.table.Rect ∧ d.labels = ["EN".toList, "DATA-CM".toList] ∧
    d.units = [some "EV".toList, some "B".toList] ∧ ∃ row ∈ d.data, cell row 0 ≠ none :=
  ⟨plainSet .crossSection ["EN", "DATA-CM"] ["EV", "B"] [[some 1, some 2]], rfl, rfl, single_rect _ _ _ _ ⟨rfl, rfl⟩, rfl, rfl, _, List.mem_cons_self .., by simp [cell]⟩

/-- the table of `C88_momentum_refuted` -/
def momTable (lo hi p y z : ℝ) : Table ℝ :=
  { labels := ["EN-MIN".toList, "EN-MAX".toList, "MOM".toList, "DATA".toList], units := [some "MEV".toList, some "MEV".toList, some "GEV/C".toList, some "B".toList],
    data := [[some lo, some hi, none, some y], [none, none, some p, some z]] }

/-- C88 is false for tables giving some of the energies as momenta: a momentum of `p` GeV/c appears in the energy column, whose
unit is MeV, as `p`. -/
theorem C88_momentum_refuted (lo hi p y z : ℝ) : ∃ r, simplifyTable (momTable lo hi p y z) csMap csNames false false = .ok r ∧
    r.labels[0]? = some "Energy".toList ∧ r.units[0]? = some (some "MeV".toList) ∧ r.data.map (fun row => cell row 0) = [some ((lo + hi) / 2), some p] := by
  refine ⟨_, rfl, rfl, rfl, ?_⟩
  show [some (PyNum.mul PyNum.half (PyNum.add (scaleVal (.dec 1 0) (.dec 1 0) lo) (scaleVal (.dec 1 0) (.dec 1 0) hi))), some (scaleVal (.dec 1 0) (.dec 1 0) p)] = _
  simp [scaleVal, Factor.val, RealNum.dec_eq]
  ring

/-- C88 for tables with energies and limits of them, without uncertainties: the energies that are given do not appear in the
simplified table, but the middle between the limits. -/
theorem C88_limits_refuted (d : DataSet ρ ℝ) (hk : d.kind = .crossSection) (hs : d.simplified = false) (hr : d.table.Rect)
    (hl : d.labels = ["EN", "EN-MIN", "EN-MAX", "DATA"].map String.toList) (hu : d.units = ["MEV", "MEV", "MEV", "B"].map fun u => some u.toList)
    (hv : d.data ≠ [] ∧ ∀ row ∈ d.data, ∀ i < 4, cell row i ≠ none) :
    ∃ r, d.getSimplified false false = .ok r ∧ r.labels[0]? = some "Energy".toList ∧
      r.data.map (fun row => cell row 0) = d.data.map fun row => middle (cell row 1) (cell row 2) := by
  have hL : d.table.labels = ["EN", "EN-MIN", "EN-MAX", "DATA"].map String.toList := hl
  have hU : d.table.units = ["MEV", "MEV", "MEV", "B"].map fun u => some u.toList := hu
  have nc : ∀ ls, (∀ l ∈ ["EN", "EN-MIN", "EN-MAX", "DATA"].map String.toList, l ∉ ls) → NoCol d.table ls := fun ls h => noCol_of hL h
  have one : ∀ u, u = "MEV".toList ∨ u = "B".toList → ∀ i (row : List (Option ℝ)), valueIn i u row = cell row i := by
    intro u hu i row
    have : unitFactor u = 1 := by
      rcases hu with rfl | rfl
      · have h : lookupUnit "MEV".toList = some ("MEV".toList, "MeV".toList, some (1, 0)) := by decide
        unfold unitFactor; rw [h]; norm_num
      · have h : lookupUnit "B".toList = some ("B".toList, "barns".toList, some (1, 0)) := by decide
        unfold unitFactor; rw [h]; norm_num
    simp [valueIn, this]
  have full : ∀ row ∈ d.data, ∀ i < 4, ∃ x, cell row i = some x := fun row h i hi => Option.ne_none_iff_exists'.1 (hv.2 row h i hi)
  obtain ⟨row0, hrow0⟩ := List.exists_mem_of_ne_nil _ hv.1
  refine ⟨_, C88_cross_section_partial d hk hs hr _ _
    (.both 0 1 2 "EN".toList "EN-MIN".toList "EN-MAX".toList "MEV".toList "MEV".toList "MEV".toList none none none (firstCol_of hL hU (by decide)) (by decide) (by decide)
      (nc _ (by decide)) (nc _ (by decide)) (nc _ (by decide)) (firstCol_of hL hU (by decide)) (firstCol_of hL hU (by decide)) (by decide) (by decide) ?_ (nc _ (by decide)))
    (.points 3 "DATA".toList "B".toList none none none (oneCol_of hL hU (by decide)) (by decide) (by decide) (nc _ (by decide)) (nc _ (by decide)) (nc _ (by decide)) trivial (nc _ (by decide)))
    ?_ false false (.inr (.inl rfl)), rfl, ?_⟩
  · intro row hrow
    exact ⟨fun h => absurd h (hv.2 row hrow 1 (by omega)), fun h => absurd h (hv.2 row hrow 2 (by omega))⟩
  · intro q hq
    simp only [List.mem_cons, List.not_mem_nil, or_false] at hq
    obtain ⟨x0, e0⟩ := full row0 hrow0 0 (by omega)
    obtain ⟨x1, e1⟩ := full row0 hrow0 1 (by omega)
    obtain ⟨x2, e2⟩ := full row0 hrow0 2 (by omega)
    obtain ⟨x3, e3⟩ := full row0 hrow0 3 (by omega)
    refine ⟨row0, hrow0, ?_⟩
    rcases hq with rfl | rfl
    · simp [one, e0, e1, e2, middle, firstSome]
    · simp [one, e3]
  · show (List.map _ d.data).map _ = _
    rw [List.map_map]
    refine List.map_congr_left fun row hrow => ?_
    obtain ⟨x1, e1⟩ := full row hrow 1 (by omega)
    obtain ⟨x2, e2⟩ := full row hrow 2 (by omega)
    simp [cell] at e1 e2
    simp [one, middle, firstSome, cell, e1, e2]

/-- 14.1 MeV between 13 and 15 MeV becomes 14 MeV -/
example : ∃ r, (plainSet .crossSection ["EN", "EN-MIN", "EN-MAX", "DATA"] ["MEV", "MEV", "MEV", "B"] [[some 14.1, some 13, some 15, some 2]]).getSimplified false false = .ok r ∧
    r.data.map (fun row => cell row 0) = [some 14] := by
  obtain ⟨r, h1, -, h2⟩ := C88_limits_refuted (plainSet .crossSection ["EN", "EN-MIN", "EN-MAX", "DATA"] ["MEV", "MEV", "MEV", "B"] [[some 14.1, some 13, some 15, some 2]])
    rfl rfl (single_rect _ _ _ _ ⟨rfl, rfl⟩) rfl rfl ⟨by simp [plainSet], by
      intro row hrow i hi
      simp only [plainSet, List.mem_singleton] at hrow
      subst hrow
      match i, hi with
      | 0, _ | 1, _ | 2, _ | 3, _ => simp [cell]⟩
  refine ⟨r, h1, h2.trans ?_⟩
  simp [plainSet, cell, middle]
  norm_num

/-- the columns of 21815002, and those of 22225002 with two total errors: the energies beside limits, the first total error -/
example (rows : List (List (Option ℝ))) (hb : ∀ row ∈ rows, cell row 0 = none ↔ cell row 1 = none) : ∃ q,
    EnergyGiven "EN".toList "Energy".toList (plainSet .angular ["EN-MIN", "EN-MAX", "EN-MEAN", "EN-ERR", "ANG-CM", "DATA", "ERR-S"] ["MEV", "MEV", "MEV", "MEV", "ADEG", "MB/SR", "MB/SR"] rows).table q :=
  ⟨_, .both 2 0 1 "EN-MEAN".toList "EN-MIN".toList "EN-MAX".toList "MEV".toList "MEV".toList "MEV".toList (some (3, "MEV".toList)) none none (by col_dec) (by decide) (by decide)
    ⟨⟨"EN-ERR".toList, by col_dec⟩, by decide⟩ (noCol_of (plainSet_labels ..) (by decide)) (noCol_of (plainSet_labels ..) (by decide)) (by col_dec) (by col_dec) (by decide) (by decide) hb (by col_dec)⟩
example (rows : List (List (Option ℝ))) : ∃ q,
    DistGiven unitsOfAngDist (plainSet .angular ["EN", "ERR-T", "ANG-CM", "DATA", "ERR-T"] ["MEV", "PER-CENT", "ADEG", "MB/SR", "MB/SR"] rows).table q :=
  ⟨_, .points 3 "DATA".toList "MB/SR".toList (some (1, "PER-CENT".toList)) (by col_dec) (by decide) ⟨⟨"ERR-T".toList, by col_dec⟩, by decide⟩⟩

end X4
