import Verif.Lemmas.RoundedTable
import Verif.Spec.Rounded
/-! Simplification on rounded numbers and on exact ones, side by side. -/
namespace X4
open PyNum
variable {R : Rounding}

theorem le_foldr_max {l : List ℝ} {x : ℝ} (h : x ∈ l) : x ≤ l.foldr max 0 := by
  induction l with
  | nil => simp at h
  | cons y l ih =>
    rcases List.mem_cons.1 h with rfl | h
    · exact le_max_left _ _
    · exact (ih h).trans (le_max_right _ _)

theorem foldr_max_nonneg (l : List ℝ) : 0 ≤ l.foldr max 0 := by
  induction l with
  | nil => exact le_rfl
  | cons y l ih => exact ih.trans (le_max_right _ _)

theorem rowSize_nonneg (us : List (Option Str)) (row : List (Option ℝ)) : 0 ≤ rowSize us row := foldr_max_nonneg _

theorem le_rowSize {us : List (Option Str)} {row : List (Option ℝ)} {i : Nat} {x : ℝ} {u : Str} (h : row[i]? = some (some x)) (hu : us[i]? = some (some u)) :
    |x * unitFactor u| ≤ rowSize us row := by
  refine le_foldr_max ?_
  refine List.mem_of_getElem? (i := i) ?_
  rw [List.getElem?_zipWith, h, hu]
  rfl

/-- the relation of converted entries and of results in a row -/
abbrev P0 (us : List (Option Str)) (row : List (Option ℝ)) : Option (Fl R) → Option ℝ → Prop := OptRel (CellRel (rowSize us row))
abbrev P1 (us : List (Option Str)) (row : List (Option ℝ)) : Option (Fl R) → Option ℝ → Prop := OptRel (OutRel (rowSize us row))

/-- a parser with one of the usual scale factors, and not for cosines -/
structure GoodCol (t : Table ℝ) (p : ColParser) : Prop where
  scale : p.scale = .dec 1 0 ∨ p.scale = .dec 5 (-1)
  plain : ∀ l ∈ t.labels, (p.angle && hasSub "COS".toList l) = false

theorem rounded_match (t : Table ℝ) (p : ColParser) : p.firstMatch (t.rounded R) = p.firstMatch t := rfl
theorem rounded_isMatch (t : Table ℝ) (p : Pair) : p.isMatch (t.rounded R) = p.isMatch t := by cases p <;> rfl

theorem scale_le {t : Table ℝ} {p : ColParser} (hp : GoodCol t p) : ∃ m e, p.scale = .dec m e ∧ |((Factor.dec m e).val : ℝ)| ≤ 1 := by
  rcases hp.scale with h | h
  · exact ⟨_, _, h, by norm_num [Factor.val, RealNum.dec_eq]⟩
  · exact ⟨_, _, h, by norm_num [Factor.val, RealNum.dec_eq]⟩

theorem conv_rel {t : Table ℝ} {p : ColParser} (hp : GoodCol t p) {i : Nat} {u : Str} (hu : t.units[i]? = some (some u)) (row : List (Option ℝ)) :
    ExRel (P0 t.units row) (convCell p false (getConversion u).1 i (row.map (Option.map fun x => (⟨R.rnd x⟩ : Fl R)))) (convCell p false (getConversion u).1 i row) := by
  unfold convCell cellAt pyIdx
  rw [List.getElem?_map]
  rcases h : row[i]? with _ | _ | x
  · exact .error _
  · exact .ok .none
  · obtain ⟨m, e, hs, h1⟩ := scale_le hp
    simp only [Option.map_some, Bool.false_eq_true, if_false, hs]
    have h2 := near_scale (R := R) (getConversion u).1 (m := m) (e := e) (a := ⟨R.rnd x⟩) (near_rnd x)
    have h3 : (scaleVal (getConversion u).1 (.dec m e) x : ℝ) = x * (getConversion u).1.val * ((Factor.dec m e).val : ℝ) := by
      simp [scaleVal]
    have h4 : |x| * |((getConversion u).1.val : ℝ)| * |((Factor.dec m e).val : ℝ)| = |(scaleVal (getConversion u).1 (.dec m e) x : ℝ)| := by
      rw [h3, abs_mul, abs_mul]
    refine .ok (.some ⟨h2.mono le_rfl h4.le, ?_⟩)
    rw [← h4, conv_factor, ← abs_mul]
    calc _ ≤ |x * unitFactor u| * 1 := by gcongr
      _ ≤ _ := by rw [mul_one]; exact le_rowSize h hu

theorem rel3_self {α β γ : Type} {P : α → β → γ → Prop} {f : α → β} {g : α → γ} (h : ∀ r, P r (f r) (g r)) (l : List α) : Rel3 P l (l.map f) (l.map g) := by
  induction l with
  | nil => exact .nil
  | cons x l ih => exact .cons (h x) ih

theorem rel3_none {α N M : Type} {T : α → N → M → Prop} (l : List α) : Rel3 (fun r => OptRel (T r)) l (List.replicate l.length none) (List.replicate l.length none) := by
  induction l with
  | nil => exact .nil
  | cons x l ih => exact .cons .none ih

theorem dummy_rel {T : List (Option ℝ) → Fl R → ℝ → Prop} (t : Table ℝ) :
    ColRel (fun r => OptRel (T r)) t.data (dummy (t.rounded R)) (dummy t) := by
  refine ⟨rfl, rfl, ?_⟩
  have : (t.rounded R).data.length = t.data.length := by simp [Table.rounded]
  simp only [dummy, this]
  exact rel3_none _

/-- the column a parser finds -/
theorem find_rel {t : Table ℝ} {p : ColParser} (hp : GoodCol t p) : ExRel (ColRel (P0 t.units) t.data) (p.find (t.rounded R)) (p.find t) := by
  unfold ColParser.find
  rw [rounded_match]
  rcases h : p.firstMatch t with _ | i
  · exact .ok (dummy_rel t)
  · obtain ⟨l, u, hf⟩ := firstMatch_finds h
    have e1 : ∀ {N : Type} [PyNum N] (d : Table N), d.labels = t.labels → d.units = t.units →
        p.getColumn d (some i) = (match mapE (convCell p false (getConversion u).1 i) d.data with
          | .error e => .error e
          | .ok vs => .ok { label := some l, unit := some (getConversion u).2, vals := vs }) := by
      intro N _ d hl hu
      have hm : p.isMatch d i = true := isMatch_iff.2 ⟨l, u, by rw [hl]; exact hf.label, by rw [hu]; exact hf.unit, hf.accLabel, hf.accUnit⟩
      have hc := hp.plain l (List.mem_of_getElem? hf.label)
      simp only [ColParser.getColumn, hl, hu, hf.label, hf.unit, hm, if_true, ColParser.readColumn, hc, Bool.false_eq_true, if_false]
      rfl
    rw [e1 (t.rounded R) rfl rfl, e1 t rfl rfl]
    have h1 : Rel3 (fun row a b => a = row.map (Option.map fun x => (⟨R.rnd x⟩ : Fl R)) ∧ b = row) t.data (t.rounded R).data t.data := by
      have := rel3_self (P := fun row a b => a = row.map (Option.map fun x => (⟨R.rnd x⟩ : Fl R)) ∧ b = row) (f := fun row => row.map (Option.map fun x => (⟨R.rnd x⟩ : Fl R))) (g := id) (fun _ => ⟨rfl, rfl⟩) t.data
      simpa [Table.rounded] using this
    have h2 := rel3_mapE (f := convCell p false (getConversion u).1 i) (g := convCell p false (getConversion u).1 i) (W := P0 t.units) (by
      rintro r a b ⟨rfl, rfl⟩; exact conv_rel hp hf.unit _) h1
    generalize mapE _ (t.rounded R).data = x at h2 ⊢
    generalize mapE _ t.data = y at h2 ⊢
    cases h2 with
    | error e => exact .error e
    | ok h3 => exact .ok ⟨rfl, rfl, h3⟩

/-- all column parsers of a pair -/
def GoodPair (t : Table ℝ) : Pair → Prop
  | .missing c | .constPct c => GoodCol t c
  | .indep c c' | .highLow c c' | .barnsSqrtE c c' => GoodCol t c ∧ GoodCol t c'
  | .highMidLow c c' c'' | .addErr c c' c'' => GoodCol t c ∧ GoodCol t c' ∧ GoodCol t c''

theorem P0.out {us : List (Option Str)} {row : List (Option ℝ)} {a : Option (Fl R)} {b : Option ℝ} (h : P0 us row a b) : P1 us row a b :=
  h.imp fun _ _ h => h.out

theorem ColRel.out {us : List (Option Str)} {rows : List (List (Option ℝ))} {a : Column (Fl R)} {b : Column ℝ} (h : ColRel (P0 us) rows a b) :
    ColRel (P1 us) rows a b := ⟨h.label, h.unit, h.vals.imp fun _ _ _ h => P0.out h⟩

theorem ExRel.imp {α β : Type} {T U : α → β → Prop} (h : ∀ a b, T a b → U a b) {x : Except PyErr α} {y : Except PyErr β} (hx : ExRel T x y) : ExRel U x y := by
  cases hx with
  | error e => exact .error e
  | ok h' => exact .ok (h _ _ h')

theorem find_out {t : Table ℝ} {p : ColParser} (hp : GoodCol t p) : ExRel (ColRel (P1 t.units) t.data) (p.find (t.rounded R)) (p.find t) :=
  (find_rel hp).imp fun _ _ h => h.out

/-- the value of a pair -/
theorem value_rel {t : Table ℝ} {p : Pair} (hp : GoodPair t p) : ExRel (ColRel (P1 t.units) t.data) (p.getValue (t.rounded R)) (p.getValue t) := by
  cases p with
  | missing c => exact find_out hp
  | constPct c => exact find_out hp
  | indep c c' =>
    simp only [Pair.getValue, Pair.value0, rounded_isMatch]
    split
    · exact find_out hp.1
    · exact .ok (dummy_rel t)
  | addErr c c' c'' =>
    simp only [Pair.getValue, Pair.value0, rounded_isMatch]
    split
    · exact find_out hp.1
    · exact .ok (dummy_rel t)
  | barnsSqrtE c c' =>
    simp only [Pair.getValue, rounded_isMatch]
    split
    · exact .error _
    · exact .ok (dummy_rel t)
  | highLow c c' =>
    simp only [Pair.getValue, Pair.value0, rounded_isMatch]
    split
    · have h1 := find_rel (R := R) hp.1
      have h2 := find_rel (R := R) hp.2
      generalize c.find (t.rounded R) = x1 at h1 ⊢
      generalize c.find t = y1 at h1 ⊢
      generalize c'.find (t.rounded R) = x2 at h2 ⊢
      generalize c'.find t = y2 at h2 ⊢
      cases h1 with
      | error e => exact .error e
      | ok k1 => cases h2 with
        | error e => exact .error e
        | ok k2 => exact .ok ⟨by simp only [k1.label, k2.label], by simp only [k1.unit, k2.unit], k1.vals.zip (fun _ _ _ _ _ h h' => out_highLowVal h h') k2.vals⟩
    · exact .ok (dummy_rel t)
  | highMidLow c c' c'' =>
    simp only [Pair.getValue, Pair.value0, rounded_isMatch]
    split
    · have h1 := find_rel (R := R) hp.1
      have h2 := find_rel (R := R) hp.2.1
      have h3 := find_rel (R := R) hp.2.2
      generalize c.find (t.rounded R) = x1 at h1 ⊢
      generalize c.find t = y1 at h1 ⊢
      generalize c'.find (t.rounded R) = x2 at h2 ⊢
      generalize c'.find t = y2 at h2 ⊢
      generalize c''.find (t.rounded R) = x3 at h3 ⊢
      generalize c''.find t = y3 at h3 ⊢
      cases h1 with
      | error e => exact .error e
      | ok k1 => cases h2 with
        | error e => exact .error e
        | ok k2 => cases h3 with
          | error e => exact .error e
          | ok k3 =>
            refine .ok ⟨by simp only [k1.label, k2.label, k3.label], by simp only [k1.unit, k2.unit, k3.unit], ?_⟩
            exact (k1.vals.zip (P := P0 t.units) (Q := P0 t.units) (W := fun r f g => ∀ a b, P0 t.units r a b → P1 t.units r (f a) (g b)) (fun _ _ _ _ _ h h' _ _ h'' => out_midVal h h' h'') k2.vals).zip
              (fun _ _ _ _ _ h h' => h _ _ h') k3.vals
    · exact .ok (dummy_rel t)

theorem indepErr_rel {us : List (Option Str)} {rows : List (List (Option ℝ))} {a a' : Column (Fl R)} {b b' : Column ℝ} (h : ColRel (P0 us) rows a b)
    (h' : ColRel (P0 us) rows a' b') : ColRel (P1 us) rows (indepErr a a') (indepErr b b') := by
  unfold indepErr
  rw [h'.unit]
  split
  · exact ⟨h'.label, h.unit, h.vals.zip (P := P0 us) (Q := P0 us) (W := P1 us) (f := percentOf) (g := percentOf) (fun r _ _ _ _ h h' => (err_percentOf h h').imp fun _ _ h => ErrRel.out (rowSize_nonneg us r) h) h'.vals⟩
  · exact h'.out

theorem addErr_rel {us : List (Option Str)} {rows : List (List (Option ℝ))} {a a' a'' : Column (Fl R)} {b b' b'' : Column ℝ} (h : ColRel (P0 us) rows a b)
    (h' : ColRel (P0 us) rows a' b') (h'' : ColRel (P0 us) rows a'' b'') : ExRel (ColRel (P1 us) rows) (addErrColumn a a' a'') (addErrColumn b b' b'') := by
  have key : (addErrCols a a' a'').1 = (addErrCols b b' b'').1 ∧ Rel3 (fun _ => OptRel ErrRel) rows (addErrCols a a' a'').2.1 (addErrCols b b' b'').2.1 ∧
      Rel3 (fun _ => OptRel ErrRel) rows (addErrCols a a' a'').2.2 (addErrCols b b' b'').2.2 := by
    unfold addErrCols
    rw [h'.unit, h''.unit]
    split
    · exact ⟨h.unit, h.vals.zip (fun _ _ _ _ _ h h' => err_percentOf h h') h'.vals, h.vals.zip (fun _ _ _ _ _ h h' => err_percentOf h h') h''.vals⟩
    · exact ⟨rfl, h'.vals.imp fun _ _ _ h => h.imp fun _ _ h => h.err, h''.vals.imp fun _ _ _ h => h.imp fun _ _ h => h.err⟩
  obtain ⟨k1, k2, k3⟩ := key
  unfold addErrColumn
  rw [List.zip_eq_zipWith, List.zip_eq_zipWith]
  have h4 := rel3_mapE (f := fun x => quadSum x.1 x.2) (g := fun x => quadSum x.1 x.2) (W := P1 us)
    (P := fun _ a b => OptRel ErrRel a.1 b.1 ∧ OptRel ErrRel a.2 b.2) (fun r a b h => out_quadSum (rowSize_nonneg us r) h.1 h.2)
    (k2.zip (f := Prod.mk) (g := Prod.mk) (fun _ _ _ _ _ h h' => ⟨h, h'⟩) k3)
  generalize mapE (fun x : Option (Fl R) × Option (Fl R) => quadSum x.1 x.2) _ = x at h4 ⊢
  generalize mapE (fun x : Option ℝ × Option ℝ => quadSum x.1 x.2) _ = y at h4 ⊢
  cases h4 with
  | error e => exact .error e
  | ok h5 => exact .ok ⟨rfl, k1, h5⟩

/-- the uncertainty of a pair -/
theorem error0_rel {t : Table ℝ} {p : Pair} (hp : GoodPair t p) : ExRel (ColRel (P1 t.units) t.data) (p.error0 (t.rounded R)) (p.error0 t) := by
  cases p with
  | missing c => exact .ok (dummy_rel t)
  | constPct c =>
    have h1 := find_rel (R := R) hp
    simp only [Pair.error0]
    generalize c.find (t.rounded R) = x1 at h1 ⊢
    generalize c.find t = y1 at h1 ⊢
    cases h1 with
    | error e => exact .error e
    | ok k1 =>
      refine .ok ⟨k1.label, k1.unit, k1.vals.map fun r a b h => ?_⟩
      cases h with
      | none => exact .none
      | some h => exact .some (out_constPct h)
  | indep c c' =>
    have h1 := find_rel (R := R) hp.1
    have h2 := find_rel (R := R) hp.2
    simp only [Pair.error0]
    generalize c.find (t.rounded R) = x1 at h1 ⊢
    generalize c.find t = y1 at h1 ⊢
    generalize c'.find (t.rounded R) = x2 at h2 ⊢
    generalize c'.find t = y2 at h2 ⊢
    cases h2 with
    | error e => exact .error e
    | ok k2 =>
      simp only [k2.unit]
      split
      · cases h1 with
        | error e => exact .error e
        | ok k1 => exact .ok (indepErr_rel k1 k2)
      · exact .ok k2.out
  | highLow c c' =>
    have h1 := find_rel (R := R) hp.1
    have h2 := find_rel (R := R) hp.2
    simp only [Pair.error0]
    generalize c.find (t.rounded R) = x1 at h1 ⊢
    generalize c.find t = y1 at h1 ⊢
    generalize c'.find (t.rounded R) = x2 at h2 ⊢
    generalize c'.find t = y2 at h2 ⊢
    cases h1 with
    | error e => exact .error e
    | ok k1 => cases h2 with
      | error e => exact .error e
      | ok k2 => exact .ok ⟨by simp only [k1.label, k2.label], by simp only [k1.unit, k2.unit], k1.vals.zip (fun _ _ _ _ _ h h' => out_highLowErr h h') k2.vals⟩
  | highMidLow c c' c'' =>
    have h1 := find_rel (R := R) hp.1
    have h2 := find_rel (R := R) hp.2.1
    have h3 := find_rel (R := R) hp.2.2
    simp only [Pair.error0]
    generalize c.find (t.rounded R) = x1 at h1 ⊢
    generalize c.find t = y1 at h1 ⊢
    generalize c'.find (t.rounded R) = x2 at h2 ⊢
    generalize c'.find t = y2 at h2 ⊢
    generalize c''.find (t.rounded R) = x3 at h3 ⊢
    generalize c''.find t = y3 at h3 ⊢
    cases h1 with
    | error e => exact .error e
    | ok k1 => cases h2 with
      | error e => exact .error e
      | ok k2 => cases h3 with
        | error e => exact .error e
        | ok k3 =>
          refine .ok ⟨by simp only [k1.label, k2.label, k3.label], by simp only [k1.unit, k2.unit, k3.unit], ?_⟩
          exact (k1.vals.zip (P := P0 t.units) (Q := P0 t.units) (W := fun r f g => ∀ a b, P0 t.units r a b → P1 t.units r (f a) (g b)) (fun _ _ _ _ _ h h' _ _ h'' => out_midErr h h' h'') k2.vals).zip
            (fun _ _ _ _ _ h h' => h _ _ h') k3.vals
  | addErr c c' c'' =>
    have h1 := find_rel (R := R) hp.1
    have h2 := find_rel (R := R) hp.2.1
    have h3 := find_rel (R := R) hp.2.2
    simp only [Pair.error0]
    generalize c.find (t.rounded R) = x1 at h1 ⊢
    generalize c.find t = y1 at h1 ⊢
    generalize c'.find (t.rounded R) = x2 at h2 ⊢
    generalize c'.find t = y2 at h2 ⊢
    generalize c''.find (t.rounded R) = x3 at h3 ⊢
    generalize c''.find t = y3 at h3 ⊢
    cases h2 with
    | error e => exact .error e
    | ok k2 => cases h3 with
      | error e => exact .error e
      | ok k3 =>
        simp only [k2.unit, k3.unit]
        split
        · cases h1 with
          | error e => exact .error e
          | ok k1 => exact addErr_rel k1 k2 k3
        · exact addErr_rel (dummy_rel t) k2 k3
  | barnsSqrtE c c' => exact .error _

theorem error_rel {t : Table ℝ} {p : Pair} (hp : GoodPair t p) : ExRel (ColRel (P1 t.units) t.data) (p.getError (t.rounded R)) (p.getError t) := by
  unfold Pair.getError
  rw [rounded_isMatch]
  split
  · have h := error0_rel (R := R) hp
    generalize p.error0 (t.rounded R) = x at h ⊢
    generalize p.error0 t = y at h ⊢
    cases h with
    | error e => exact .error e
    | ok k =>
      refine .ok ⟨k.label, k.unit, k.vals.map fun r a b h => ?_⟩
      cases h with
      | none => exact .none
      | some h => exact .some h.abs
  · exact .ok (dummy_rel t)

/-! ### simplification -/

theorem condenseVals_rel {α N M : Type} {T : α → Option N → Option M → Prop} (hT : ∀ r a b, T r a b → (a = none ↔ b = none)) {rows : List α} {a a' : List (Option N)}
    {b b' : List (Option M)} (h : Rel3 T rows a b) (h' : Rel3 T rows a' b') : ExRel (Rel3 T rows) (condenseVals a a') (condenseVals b b') := by
  induction h generalizing a' b' with
  | nil => cases h'; exact .ok .nil
  | @cons r x y rs as bs h1 _ ih => cases h' with
    | @cons _ x' y' _ as' bs' h2 h3 =>
      have ih := ih h3
      have hn := hT _ _ _ h1
      cases x with
      | none =>
        obtain rfl := hn.1 rfl
        simp only [condenseVals]
        generalize condenseVals as as' = u at ih ⊢
        generalize condenseVals bs bs' = v at ih ⊢
        cases ih with
        | error e => exact .error e
        | ok h4 => exact .ok (.cons h2 h4)
      | some x =>
        cases y with
        | none => exact absurd (hn.2 rfl) (by simp)
        | some y =>
          simp only [condenseVals, List.tail_cons]
          generalize condenseVals as as' = u at ih ⊢
          generalize condenseVals bs bs' = v at ih ⊢
          cases ih with
          | error e => exact .error e
          | ok h4 => exact .ok (.cons h1 h4)

theorem OptRel.none_iff {α β : Type} {T : α → β → Prop} {a : Option α} {b : Option β} (h : OptRel T a b) : a = Option.none ↔ b = Option.none := by
  cases h <;> simp

theorem condense_rel {us : List (Option Str)} {rows : List (List (Option ℝ))} {a a' : Column (Fl R)} {b b' : Column ℝ} (h : ColRel (P1 us) rows a b)
    (h' : ColRel (P1 us) rows a' b') : ExRel (ColRel (P1 us) rows) (condense a a') (condense b b') := by
  have h1 := condenseVals_rel (fun _ _ _ h => h.none_iff) h.vals h'.vals
  unfold condense
  generalize condenseVals a.vals a'.vals = u at h1 ⊢
  generalize condenseVals b.vals b'.vals = v at h1 ⊢
  cases h1 with
  | error e => exact .error e
  | ok h2 => exact .ok ⟨by simp only [h.label, h'.label], by simp only [h.unit, h'.unit], h2⟩

theorem foldE_rel {α β : Type} {T : α → β → Prop} {f : α → α → Except PyErr α} {g : β → β → Except PyErr β}
    (h : ∀ a b a' b', T a b → T a' b' → ExRel T (f a a') (g b b')) {l l'} (hl : List.Forall₂ T l l') {a b} (hab : T a b) :
    ExRel T (foldE f a l) (foldE g b l') := by
  induction hl generalizing a b with
  | nil => exact .ok hab
  | cons h1 _ ih =>
    have h2 := h _ _ _ _ hab h1
    simp only [foldE]
    generalize f a _ = x at h2 ⊢
    generalize g b _ = y at h2 ⊢
    cases h2 with
    | error e => exact .error e
    | ok h3 => exact ih h3

theorem reduceE_rel {α β : Type} {T : α → β → Prop} {f : α → α → Except PyErr α} {g : β → β → Except PyErr β}
    (h : ∀ a b a' b', T a b → T a' b' → ExRel T (f a a') (g b b')) {l l'} (hl : List.Forall₂ T l l') : ExRel T (reduceE f l) (reduceE g l') := by
  cases hl with
  | nil => exact .error _
  | cons h1 h2 => exact foldE_rel h h2 h1

theorem condensed_rel {t : Table ℝ} {ps : List Pair} (hp : ∀ p ∈ ps, GoodPair t p) :
    ExRel (fun a b => ColRel (P1 t.units) t.data a.1 b.1 ∧ ColRel (P1 t.units) t.data a.2 b.2) (condensed (t.rounded R) ps) (condensed t ps) := by
  have h1 := mapE_rel (f := Pair.getValue (t.rounded R)) (g := Pair.getValue t) (fun p h => value_rel (hp p h))
  have h2 := mapE_rel (f := Pair.getError (t.rounded R)) (g := Pair.getError t) (fun p h => error_rel (hp p h))
  unfold condensed
  generalize mapE (Pair.getValue (t.rounded R)) ps = x1 at h1 ⊢
  generalize mapE (Pair.getValue t) ps = y1 at h1 ⊢
  generalize mapE (Pair.getError (t.rounded R)) ps = x2 at h2 ⊢
  generalize mapE (Pair.getError t) ps = y2 at h2 ⊢
  cases h1 with
  | error e => exact .error e
  | @ok a b k1 =>
    have h3 := reduceE_rel (fun _ _ _ _ h h' => condense_rel h h') k1
    simp only
    generalize reduceE condense a = x at h3 ⊢
    generalize reduceE condense b = y at h3 ⊢
    cases h3 with
    | error e => exact .error e
    | ok k3 => cases h2 with
      | error e => exact .error e
      | @ok a' b' k2 =>
        have h4 := reduceE_rel (fun _ _ _ _ h h' => condense_rel h h') k2
        simp only
        generalize reduceE condense a' = x at h4 ⊢
        generalize reduceE condense b' = y at h4 ⊢
        cases h4 with
        | error e => exact .error e
        | ok k4 => exact .ok ⟨k3, k4⟩

theorem empty_rel {us : List (Option Str)} {rows : List (List (Option ℝ))} {a : Column (Fl R)} {b : Column ℝ} (h : ColRel (P1 us) rows a b) : a.empty = b.empty := by
  have h1 := h.vals
  unfold Column.empty
  generalize a.vals = u at h1 ⊢
  generalize b.vals = v at h1 ⊢
  clear h
  induction h1 with
  | nil => rfl
  | cons h2 _ ih => rw [List.all_cons, List.all_cons, ih]; cases h2 <;> rfl

/-- a name with its two columns -/
def NamedRel (us : List (Option Str)) (rows : List (List (Option ℝ))) (a : Str × Column (Fl R) × Column (Fl R)) (b : Str × Column ℝ × Column ℝ) : Prop :=
  a.1 = b.1 ∧ ColRel (P1 us) rows a.2.1 b.2.1 ∧ ColRel (P1 us) rows a.2.2 b.2.2

theorem readColumns_rel {t : Table ℝ} {kv : Str × List Pair} (hp : ∀ p ∈ kv.2, GoodPair t p) :
    ExRel (NamedRel t.units t.data) (readColumns (t.rounded R) kv) (readColumns t kv) := by
  have h1 := condensed_rel (R := R) hp
  unfold readColumns
  generalize condensed (t.rounded R) kv.2 = x1 at h1 ⊢
  generalize condensed t kv.2 = y1 at h1 ⊢
  cases h1 with
  | error e => exact .error e
  | ok k =>
    simp only [empty_rel k.1]
    split
    · exact .error _
    · exact .ok ⟨rfl, k.1, k.2⟩

theorem get_rel {us : List (Option Str)} {rows : List (List (Option ℝ))} {a : Dict Str (Column (Fl R) × Column (Fl R))} {b : Dict Str (Column ℝ × Column ℝ)}
    (h : List.Forall₂ (NamedRel us rows) a b) (n : Str) : ExRel (NamedRel us rows) (pickColumn a n) (pickColumn b n) := by
  unfold pickColumn Dict.get
  induction h with
  | nil => exact .error _
  | @cons x y _ _ h1 _ ih =>
    obtain ⟨k, c⟩ := x
    obtain ⟨k', c'⟩ := y
    obtain ⟨rfl, h2⟩ := h1
    by_cases hk : k = n
    · simp only [Dict.get?, if_pos hk]; exact .ok ⟨rfl, h2⟩
    · simp only [Dict.get?, if_neg hk]; exact ih

theorem rel3_range' {α : Type} (l pre : List α) : Rel3 (fun r i j => i = j ∧ (pre ++ l)[i]? = some r) l (List.range' pre.length l.length) (List.range' pre.length l.length) := by
  induction l generalizing pre with
  | nil => exact .nil
  | cons x l ih =>
    have := ih (pre ++ [x])
    rw [List.length_cons, List.range'_succ]
    refine .cons ⟨rfl, by simp⟩ ?_
    simpa using this

theorem rel3_range {α : Type} (l : List α) : Rel3 (fun r i j => i = j ∧ l[i]? = some r) l (List.range l.length) (List.range l.length) := by
  rw [List.range_eq_range']; simpa using rel3_range' l []

theorem pyIdx_rel {us : List (Option Str)} {rows : List (List (Option ℝ))} {a : List (Option (Fl R))} {b : List (Option ℝ)} (h : Rel3 (P1 us) rows a b)
    {i : Nat} {row : List (Option ℝ)} (hr : rows[i]? = some row) : ExRel (P1 us row) (pyIdx a i) (pyIdx b i) := by
  obtain ⟨x, y, h1, h2, h3⟩ := h.get hr
  unfold pyIdx
  rw [h1, h2]
  exact .ok h3

theorem zero_out {s : ℝ} (hs : 0 ≤ s) : OutRel s (PyNum.zero : Fl R) (PyNum.zero : ℝ) := by
  unfold OutRel
  rw [near_zero, RealNum.zero_eq]
  simpa using mul_nonneg (bound_nonneg R 47) (by linarith : 0 ≤ 2 * s)

theorem errCell_rel {us : List (Option Str)} {rows : List (List (Option ℝ))} {a b} (h : NamedRel (R := R) us rows a b) (makeAll failMissing : Bool) {i : Nat}
    {row : List (Option ℝ)} (hr : rows[i]? = some row) : ExRel (List.Forall₂ (P1 us row)) (errCell makeAll failMissing i a) (errCell makeAll failMissing i b) := by
  unfold errCell
  rw [empty_rel h.2.2, h.1]
  split
  · split
    · exact .ok (.cons (.some (zero_out (rowSize_nonneg _ _))) .nil)
    · split
      · exact .error _
      · exact .ok .nil
  · have h1 := pyIdx_rel h.2.2.vals hr
    generalize pyIdx a.2.2.vals i = x at h1 ⊢
    generalize pyIdx b.2.2.vals i = y at h1 ⊢
    cases h1 with
    | error e => exact .error e
    | ok h2 => exact .ok (.cons h2 .nil)

theorem flatten_rel {α β : Type} {T : α → β → Prop} {l : List (List α)} {l' : List (List β)} (h : List.Forall₂ (List.Forall₂ T) l l') : List.Forall₂ T l.flatten l'.flatten := by
  induction h with
  | nil => exact .nil
  | cons h1 _ ih => rw [List.flatten_cons, List.flatten_cons]; exact List.rel_append h1 ih

theorem simpleRow_rel {us : List (Option Str)} {rows : List (List (Option ℝ))} {a b} (h : List.Forall₂ (NamedRel (R := R) us rows) a b) (makeAll failMissing : Bool)
    {i : Nat} {row : List (Option ℝ)} (hr : rows[i]? = some row) :
    ExRel (List.Forall₂ (P1 us row)) (simpleRow makeAll failMissing a i) (simpleRow makeAll failMissing b i) := by
  have h1 := forall2_mapE (f := fun nc => pyIdx nc.2.1.vals i) (g := fun nc => pyIdx nc.2.1.vals i) (fun _ _ h => pyIdx_rel h.2.1.vals hr) h
  have h2 := forall2_mapE (f := errCell makeAll failMissing i) (g := errCell makeAll failMissing i) (fun _ _ h => errCell_rel h makeAll failMissing hr) h
  unfold simpleRow
  generalize mapE _ a = x1 at h1 ⊢
  generalize mapE _ b = y1 at h1 ⊢
  generalize mapE _ a = x2 at h2 ⊢
  generalize mapE _ b = y2 at h2 ⊢
  cases h1 with
  | error e => exact .error e
  | ok k1 => cases h2 with
    | error e => exact .error e
    | ok k2 => exact .ok (List.rel_append k1 (flatten_rel k2))

theorem map_rel_eq {α β γ : Type} {T : α → β → Prop} {f : α → γ} {g : β → γ} (h : ∀ a b, T a b → f a = g b) {l l'} (hl : List.Forall₂ T l l') : l.map f = l'.map g := by
  induction hl with
  | nil => rfl
  | cons h1 _ ih => rw [List.map_cons, List.map_cons, h _ _ h1, ih]

theorem simplify_rel {t : Table ℝ} {pm : Dict Str (List Pair)} (hp : ∀ kv ∈ pm, ∀ p ∈ kv.2, GoodPair t p) (names : List Str) (makeAll failMissing : Bool) :
    ExRel (fun a b => a.labels = b.labels ∧ a.units = b.units ∧ Rel3 (fun row => List.Forall₂ (P1 t.units row)) t.data a.data b.data)
      (simplifyTable (t.rounded R) pm names makeAll failMissing) (simplifyTable t pm names makeAll failMissing) := by
  unfold simplifyTable
  split
  · have h1 := mapE_rel (f := readColumns (t.rounded R)) (g := readColumns t) (fun kv h => readColumns_rel (hp kv h))
    generalize mapE (readColumns (t.rounded R)) pm = x1 at h1 ⊢
    generalize mapE (readColumns t) pm = y1 at h1 ⊢
    cases h1 with
    | error e => exact .error e
    | @ok a b k1 =>
      have h2 := mapE_rel (l := names) (f := pickColumn a) (g := pickColumn b) (fun n _ => get_rel k1 n)
      simp only
      generalize mapE (pickColumn a) names = x2 at h2 ⊢
      generalize mapE (pickColumn b) names = y2 at h2 ⊢
      cases h2 with
      | error e => exact .error e
      | @ok a' b' k2 =>
        have hl : (t.rounded R).data.length = t.data.length := by simp [Table.rounded]
        have h3 := rel3_mapE (f := simpleRow makeAll failMissing a') (g := simpleRow makeAll failMissing b') (W := fun row => List.Forall₂ (P1 t.units row))
          (fun r i j h => by obtain ⟨rfl, hr⟩ := h; exact simpleRow_rel k2 makeAll failMissing hr) (rel3_range t.data)
        simp only [hl]
        generalize mapE (simpleRow makeAll failMissing a') _ = x3 at h3 ⊢
        generalize mapE (simpleRow makeAll failMissing b') _ = y3 at h3 ⊢
        cases h3 with
        | error e => exact .error e
        | ok k3 =>
          have e1 : List.map (errHead makeAll) a' = List.map (errHead makeAll) b' :=
            map_rel_eq (fun x y h => by unfold errHead; rw [empty_rel h.2.2, h.1, h.2.1.unit, h.2.2.unit]) k2
          have e2 : a'.flatMap (errHead makeAll) = b'.flatMap (errHead makeAll) := by rw [List.flatMap_def, List.flatMap_def, e1]
          refine .ok ⟨?_, ?_, k3⟩
          · simp only [e2, map_rel_eq (f := Prod.fst) (g := Prod.fst) (fun x y h => h.1) k2]
          · simp only [e2, map_rel_eq (f := fun nc => nc.2.1.unit) (g := fun nc => nc.2.1.unit) (fun x y h => h.2.1.unit) k2]
  · exact .error _

end X4
