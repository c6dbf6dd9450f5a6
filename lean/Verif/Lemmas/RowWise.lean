import Verif.Lemmas.Simplify
/-! The column parsers work row by row. -/
namespace X4
variable {N : Type} [PyNum N]

/-- a function of two columns of the row -/
def both {ε α β γ δ : Type} (g1 : α → Except ε β) (g2 : α → Except ε γ) (f : β → γ → Except ε δ) (x : α) : Except ε δ :=
  match g1 x with
  | .error e => .error e
  | .ok y1 => match g2 x with
    | .error e => .error e
    | .ok y2 => f y1 y2

/-- a loop over rows of two columns, as one loop -/
theorem mapE_two {ε α β γ δ : Type} (g1 : α → Except ε β) (g2 : α → Except ε γ) (f : β → γ → Except ε δ) (l : List α) (v : List δ) :
    mapE (both g1 g2 f) l = .ok v ↔
    ∃ v1 v2, mapE g1 l = .ok v1 ∧ mapE g2 l = .ok v2 ∧ mapE (fun x => f x.1 x.2) (v1.zip v2) = .ok v := by
  induction l generalizing v with
  | nil => simp [mapE]
  | cons x l ih =>
    simp only [mapE, both]
    cases h1 : g1 x with
    | error e => simp
    | ok y1 =>
      cases h2 : g2 x with
      | error e =>
        simp only [reduceCtorEq, false_and, and_false, exists_false]
      | ok y2 =>
        constructor
        · intro h
          cases hf : f y1 y2 with
          | error e => simp [hf] at h
          | ok z =>
            simp only [hf] at h
            generalize hm : mapE (both g1 g2 f) l = m at h
            cases m with
            | error e => simp at h
            | ok zs =>
              obtain ⟨v1, v2, e1, e2, e3⟩ := (ih zs).1 hm
              simp only [Except.ok.injEq] at h
              refine ⟨y1 :: v1, y2 :: v2, by rw [e1], by rw [e2], ?_⟩
              simp only [List.zip_cons_cons, mapE, hf, e3, h]
        · rintro ⟨v1, v2, e1, e2, e3⟩
          generalize hm1 : mapE g1 l = m1 at e1
          generalize hm2 : mapE g2 l = m2 at e2
          cases m1 with
          | error e => simp at e1
          | ok w1 =>
            cases m2 with
            | error e => simp at e2
            | ok w2 =>
              simp only [Except.ok.injEq] at e1 e2
              subst e1 e2
              simp only [List.zip_cons_cons, mapE] at e3
              cases hf : f y1 y2 with
              | error e => simp [hf] at e3
              | ok z =>
                simp only [hf] at e3
                generalize hm : mapE _ (w1.zip w2) = m at e3
                cases m with
                | error e => simp at e3
                | ok zs =>
                  have := (ih zs).2 ⟨w1, w2, hm1, hm2, hm⟩
                  simp only [hf, this]
                  exact e3

/-- a function from tables with given headings to columns: label and unit do not depend on the data, and every value is computed from
its row alone -/
def RowWise (ls : List Str) (us : List (Option Str)) (F : Table N → Except PyErr (Column N)) : Prop :=
  ∃ (l u : Option Str) (g : List (Option N) → Except PyErr (Option N)), ∀ D c, D ≠ [] → (F ⟨ls, us, D⟩ = .ok c ↔ c.label = l ∧ c.unit = u ∧ mapE g D = .ok c.vals)

variable {ls : List Str} {us : List (Option Str)}

theorem column_ext {a b : Column N} (h1 : a.label = b.label) (h2 : a.unit = b.unit) (h3 : a.vals = b.vals) : a = b := by
  cases a; cases b; simp_all

theorem rowWise_dummy : RowWise (N := N) ls us (fun t => .ok (dummy t)) := by
  refine ⟨none, none, fun _ => .ok none, fun D c hD => ?_⟩
  have e : mapE (fun _ => (.ok none : Except PyErr (Option N))) D = .ok (List.replicate D.length none) := by
    rw [mapE_pure (fun _ => none)]
    simp
  rw [e]
  constructor
  · intro h
    rw [← Except.ok.inj h]
    exact ⟨rfl, rfl, rfl⟩
  · rintro ⟨h1, h2, h3⟩
    exact congrArg _ (column_ext h1.symm h2.symm (Except.ok.inj h3))

theorem rowWise_find (p : ColParser) : RowWise (N := N) ls us (fun t => p.find t) := by
  unfold ColParser.find ColParser.getColumn
  have e : ∀ D : List (List (Option N)), p.firstMatch ⟨ls, us, D⟩ = p.firstMatch (⟨ls, us, []⟩ : Table N) := fun _ => rfl
  cases hf : p.firstMatch (⟨ls, us, []⟩ : Table N) with
  | none =>
    obtain ⟨l, u, g, h⟩ := rowWise_dummy (N := N) (ls := ls) (us := us)
    refine ⟨l, u, g, fun D c hD => ?_⟩
    simp only [e, hf]
    exact h D c hD
  | some i =>
    have em : ∀ D : List (List (Option N)), p.isMatch ⟨ls, us, D⟩ i = p.isMatch (⟨ls, us, []⟩ : Table N) i := fun _ => rfl
    rcases hl : ls[i]? with _ | l
    · obtain ⟨l, u, g, h⟩ := rowWise_dummy (N := N) (ls := ls) (us := us)
      refine ⟨l, u, g, fun D c hD => ?_⟩
      simp only [e, hf, hl]
      exact h D c hD
    · rcases hu : us[i]? with _ | _ | u
      · obtain ⟨l, u, g, h⟩ := rowWise_dummy (N := N) (ls := ls) (us := us)
        refine ⟨l, u, g, fun D c hD => ?_⟩
        simp only [e, hf, hl, hu]
        exact h D c hD
      · obtain ⟨l, u, g, h⟩ := rowWise_dummy (N := N) (ls := ls) (us := us)
        refine ⟨l, u, g, fun D c hD => ?_⟩
        simp only [e, hf, hl, hu]
        exact h D c hD
      · cases hm : p.isMatch (⟨ls, us, []⟩ : Table N) i with
        | false =>
          obtain ⟨l', u', g, h⟩ := rowWise_dummy (N := N) (ls := ls) (us := us)
          refine ⟨l', u', g, fun D c hD => ?_⟩
          simp only [e, hf, hl, hu, em, hm]
          exact h D c hD
        | true =>
          refine ⟨some l, some (getConversion (if (p.angle && hasSub "COS".toList l) = true then "RAD".toList else u)).2,
            convCell p (p.angle && hasSub "COS".toList l)
              (getConversion (if (p.angle && hasSub "COS".toList l) = true then "RAD".toList else u)).1 i, fun D c hD => ?_⟩
          simp only [e, hf, hl, hu, em, hm, if_true, ColParser.readColumn]
          generalize mapE _ D = m
          cases m with
          | error e => simp
          | ok vs =>
            simp only [Except.ok.injEq]
            constructor
            · rintro rfl; exact ⟨rfl, rfl, rfl⟩
            · rintro ⟨h1, h2, h3⟩; exact column_ext h1.symm h2.symm h3

/-- two columns, row by row -/
theorem RowWise.two {F1 F2 G : Table N → Except PyErr (Column N)} (h1 : RowWise ls us F1) (h2 : RowWise ls us F2)
    (L U : Option Str → Option Str → Option Str → Option Str → Option Str) (f : Option N → Option N → Except PyErr (Option N))
    (hG : ∀ D c, D ≠ [] → (G ⟨ls, us, D⟩ = .ok c ↔ ∃ k1 k2, F1 ⟨ls, us, D⟩ = .ok k1 ∧ F2 ⟨ls, us, D⟩ = .ok k2 ∧
      c.label = L k1.label k1.unit k2.label k2.unit ∧ c.unit = U k1.label k1.unit k2.label k2.unit ∧
      mapE (fun x => f x.1 x.2) (k1.vals.zip k2.vals) = .ok c.vals)) : RowWise ls us G := by
  obtain ⟨l1, u1, g1, e1⟩ := h1
  obtain ⟨l2, u2, g2, e2⟩ := h2
  refine ⟨L l1 u1 l2 u2, U l1 u1 l2 u2, both g1 g2 f, fun D c hD => ?_⟩
  rw [hG D c hD, mapE_two g1 g2 f]
  constructor
  · rintro ⟨k1, k2, a1, a2, a3, a4, a5⟩
    obtain ⟨b1, b2, b3⟩ := (e1 D k1 hD).1 a1
    obtain ⟨c1, c2, c3⟩ := (e2 D k2 hD).1 a2
    rw [b1, b2, c1, c2] at a3 a4
    exact ⟨a3, a4, _, _, b3, c3, a5⟩
  · rintro ⟨a3, a4, v1, v2, b3, c3, a5⟩
    exact ⟨⟨l1, u1, v1⟩, ⟨l2, u2, v2⟩, (e1 D _ hD).2 ⟨rfl, rfl, b3⟩, (e2 D _ hD).2 ⟨rfl, rfl, c3⟩, a3, a4, a5⟩

/-- three columns, row by row -/
theorem RowWise.three {F1 F2 F3 G : Table N → Except PyErr (Column N)} (h1 : RowWise ls us F1) (h2 : RowWise ls us F2)
    (h3 : RowWise ls us F3) (L U : Option Str × Option Str → Option Str × Option Str → Option Str × Option Str → Option Str)
    (f : Option N → Option N → Option N → Except PyErr (Option N))
    (hG : ∀ D c, D ≠ [] → (G ⟨ls, us, D⟩ = .ok c ↔ ∃ k1 k2 k3, F1 ⟨ls, us, D⟩ = .ok k1 ∧ F2 ⟨ls, us, D⟩ = .ok k2 ∧ F3 ⟨ls, us, D⟩ = .ok k3 ∧
      c.label = L (k1.label, k1.unit) (k2.label, k2.unit) (k3.label, k3.unit) ∧
      c.unit = U (k1.label, k1.unit) (k2.label, k2.unit) (k3.label, k3.unit) ∧
      mapE (fun x => f x.1 x.2.1 x.2.2) (k1.vals.zip (k2.vals.zip k3.vals)) = .ok c.vals)) : RowWise ls us G := by
  obtain ⟨l1, u1, g1, e1⟩ := h1
  obtain ⟨l2, u2, g2, e2⟩ := h2
  obtain ⟨l3, u3, g3, e3⟩ := h3
  have hp : ∀ D v, mapE (both g2 g3 fun a b => .ok (a, b)) D = .ok v ↔ ∃ v2 v3, mapE g2 D = .ok v2 ∧ mapE g3 D = .ok v3 ∧ v = v2.zip v3 := by
    intro D v
    rw [mapE_two g2 g3 fun a b => .ok (a, b)]
    have : ∀ l : List (Option N × Option N), mapE (fun x => (.ok (x.1, x.2) : Except PyErr _)) l = .ok l := by
      intro l
      rw [mapE_pure fun x : Option N × Option N => (x.1, x.2)]
      simp
    simp only [this, Except.ok.injEq]
    constructor
    · rintro ⟨a, b, c, d, e⟩; exact ⟨a, b, c, d, e.symm⟩
    · rintro ⟨a, b, c, d, e⟩; exact ⟨a, b, c, d, e.symm⟩
  refine ⟨L (l1, u1) (l2, u2) (l3, u3), U (l1, u1) (l2, u2) (l3, u3),
    both g1 (both g2 g3 fun a b => .ok (a, b)) (fun a b => f a b.1 b.2), fun D c hD => ?_⟩
  rw [hG D c hD, mapE_two]
  constructor
  · rintro ⟨k1, k2, k3, a1, a2, a0, a3, a4, a5⟩
    obtain ⟨b1, b2, b3⟩ := (e1 D k1 hD).1 a1
    obtain ⟨c1, c2, c3⟩ := (e2 D k2 hD).1 a2
    obtain ⟨d1, d2, d3⟩ := (e3 D k3 hD).1 a0
    rw [b1, b2, c1, c2, d1, d2] at a3 a4
    exact ⟨a3, a4, _, _, b3, (hp D _).2 ⟨_, _, c3, d3, rfl⟩, a5⟩
  · rintro ⟨a3, a4, v1, v, b3, hv, a5⟩
    obtain ⟨v2, v3, c3, d3, rfl⟩ := (hp D _).1 hv
    exact ⟨⟨l1, u1, v1⟩, ⟨l2, u2, v2⟩, ⟨l3, u3, v3⟩, (e1 D _ hD).2 ⟨rfl, rfl, b3⟩, (e2 D _ hD).2 ⟨rfl, rfl, c3⟩,
      (e3 D _ hD).2 ⟨rfl, rfl, d3⟩, a3, a4, a5⟩

theorem mapE_zip_pure {α β γ : Type} (f : α → β → γ) (a : List α) (b : List β) :
    mapE (fun x => (.ok (f x.1 x.2) : Except PyErr γ)) (a.zip b) = .ok (List.zipWith f a b) := by
  rw [mapE_pure fun x : α × β => f x.1 x.2]
  congr 1
  induction a generalizing b with
  | nil => simp
  | cons x a ih => cases b with
    | nil => simp
    | cons y b => simp [ih]

theorem mapE_zip3_pure {α β γ δ : Type} (f : α → β → γ → δ) (a : List α) (b : List β) (c : List γ) :
    mapE (fun x => (.ok (f x.1 x.2.1 x.2.2) : Except PyErr δ)) (a.zip (b.zip c)) =
      .ok (List.zipWith (fun f x => f x) (List.zipWith f a b) c) := by
  rw [mapE_pure fun x : α × β × γ => f x.1 x.2.1 x.2.2]
  congr 1
  induction a generalizing b c with
  | nil => simp
  | cons x a ih => cases b with
    | nil => simp
    | cons y b => cases c with
      | nil => simp
      | cons z c => simp [ih]

/-- a condition that depends on the headings only -/
theorem RowWise.ite {F G : Table N → Except PyErr (Column N)} {b : Table N → Bool} (hb : ∀ D, b ⟨ls, us, D⟩ = b ⟨ls, us, []⟩)
    (hF : RowWise ls us F) (hG : RowWise ls us G) : RowWise ls us fun t => if b t then F t else G t := by
  cases h : b ⟨ls, us, []⟩ with
  | false =>
    obtain ⟨l, u, g, e⟩ := hG
    refine ⟨l, u, g, fun D c hD => ?_⟩
    simp only [hb D, h]
    exact e D c hD
  | true =>
    obtain ⟨l, u, g, e⟩ := hF
    refine ⟨l, u, g, fun D c hD => ?_⟩
    simp only [hb D, h, if_true]
    exact e D c hD

theorem isMatch_heads (p : Pair) (D : List (List (Option N))) : p.isMatch ⟨ls, us, D⟩ = p.isMatch (⟨ls, us, []⟩ : Table N) := by
  cases p <;> rfl

theorem rowWise_zip (c1 c2 : ColParser) (f : Option N → Option N → Option N) :
    RowWise (N := N) ls us fun t => match c1.find t with
      | .error e => .error e
      | .ok k1 => match c2.find t with
        | .error e => .error e
        | .ok k2 => .ok { label := lastSome k1.label k2.label, unit := lastSome k1.unit k2.unit, vals := List.zipWith f k1.vals k2.vals } := by
  refine RowWise.two (rowWise_find c1) (rowWise_find c2) (fun l1 _ l2 _ => lastSome l1 l2) (fun _ u1 _ u2 => lastSome u1 u2)
    (fun a b => .ok (f a b)) fun D c hD => ?_
  simp only [mapE_zip_pure]
  generalize c1.find (⟨ls, us, D⟩ : Table N) = a
  generalize c2.find (⟨ls, us, D⟩ : Table N) = b
  cases a with
  | error e => simp
  | ok k1 => cases b with
    | error e => simp
    | ok k2 =>
      simp only [Except.ok.injEq, exists_eq_left', exists_and_left]
      constructor
      · rintro rfl; exact ⟨rfl, rfl, rfl⟩
      · rintro ⟨h1, h2, h3⟩; exact column_ext h1.symm h2.symm h3

theorem rowWise_zip3 (c1 c2 c3 : ColParser) (f : Option N → Option N → Option N → Option N) :
    RowWise (N := N) ls us fun t => match c1.find t with
      | .error e => .error e
      | .ok k1 => match c2.find t with
        | .error e => .error e
        | .ok k2 => match c3.find t with
          | .error e => .error e
          | .ok k3 => .ok { label := lastSome (lastSome k1.label k2.label) k3.label, unit := lastSome (lastSome k1.unit k2.unit) k3.unit,
                            vals := List.zipWith (fun f x => f x) (List.zipWith f k1.vals k2.vals) k3.vals } := by
  refine RowWise.three (rowWise_find c1) (rowWise_find c2) (rowWise_find c3) (fun a b c => lastSome (lastSome a.1 b.1) c.1)
    (fun a b c => lastSome (lastSome a.2 b.2) c.2) (fun a b c => .ok (f a b c)) fun D c hD => ?_
  simp only [mapE_zip3_pure]
  generalize c1.find (⟨ls, us, D⟩ : Table N) = a
  generalize c2.find (⟨ls, us, D⟩ : Table N) = b
  generalize c3.find (⟨ls, us, D⟩ : Table N) = d
  cases a with
  | error e => simp
  | ok k1 => cases b with
    | error e => simp
    | ok k2 => cases d with
      | error e => simp
      | ok k3 =>
        simp only [Except.ok.injEq, exists_eq_left', exists_and_left]
        constructor
        · rintro rfl; exact ⟨rfl, rfl, rfl⟩
        · rintro ⟨h1, h2, h3⟩; exact column_ext h1.symm h2.symm h3

/-- a function that raises always -/
theorem rowWise_error {e : PyErr} : RowWise (N := N) ls us (fun _ => .error e) := by
  refine ⟨none, none, fun _ => .error e, fun D c hD => ?_⟩
  cases D with
  | nil => exact absurd rfl hD
  | cons r D => simp [mapE]

theorem rowWise_getValue (p : Pair) : RowWise (N := N) ls us fun t => p.getValue t := by
  cases p with
  | missing c1 => exact rowWise_find c1
  | constPct c1 => exact rowWise_find c1
  | indep c1 c2 => exact RowWise.ite (isMatch_heads (.indep c1 c2)) (rowWise_find c1) rowWise_dummy
  | addErr c1 c2 c3 => exact RowWise.ite (isMatch_heads (.addErr c1 c2 c3)) (rowWise_find c1) rowWise_dummy
  | highLow c1 c2 => exact RowWise.ite (isMatch_heads (.highLow c1 c2)) (rowWise_zip c1 c2 highLowVal) rowWise_dummy
  | highMidLow c1 c2 c3 =>
    exact RowWise.ite (isMatch_heads (.highMidLow c1 c2 c3)) (rowWise_zip3 c1 c2 c3 midVal) rowWise_dummy
  | barnsSqrtE c2 c3 => exact RowWise.ite (isMatch_heads (.barnsSqrtE c2 c3)) rowWise_error rowWise_dummy

/-- a function applied to every value -/
theorem RowWise.map {F : Table N → Except PyErr (Column N)} (hF : RowWise ls us F) (f : Option N → Option N) :
    RowWise ls us fun t => match F t with
      | .error e => .error e
      | .ok k => .ok { k with vals := k.vals.map f } := by
  obtain ⟨l, u, g, e⟩ := hF
  refine ⟨l, u, fun x => match g x with | .error e => .error e | .ok y => .ok (f y), fun D c hD => ?_⟩
  have key : ∀ (D : List (List (Option N))) v, mapE (fun x => match g x with | .error e => .error e | .ok y => .ok (f y)) D = .ok v ↔
      ∃ w, mapE g D = .ok w ∧ v = w.map f := by
    intro D
    induction D with
    | nil => intro v; simp [mapE, eq_comm]
    | cons x D ih =>
      intro v
      simp only [mapE]
      cases hx : g x with
      | error e => simp
      | ok y =>
        simp only
        generalize hm : mapE g D = m at ih ⊢
        generalize hn : mapE (fun x => match g x with | .error e => .error e | .ok y => .ok (f y)) D = n at ih ⊢
        cases n with
        | error e =>
          cases m with
          | error e => simp
          | ok w => have := (ih (w.map f)).2 ⟨w, rfl, rfl⟩; simp at this
        | ok v' =>
          obtain ⟨w, hw, hv⟩ := (ih v').1 rfl
          subst hw
          simp [hv, eq_comm]
  rw [key]
  cases hk : F ⟨ls, us, D⟩ with
  | error x =>
    simp only [hk, reduceCtorEq, false_iff]
    rintro ⟨h1, h2, w, hw, hv⟩
    have := (e D ⟨l, u, w⟩ hD).2 ⟨rfl, rfl, hw⟩
    rw [hk] at this
    simp at this
  | ok k =>
    obtain ⟨h1, h2, h3⟩ := (e D k hD).1 hk
    simp only [hk, Except.ok.injEq]
    constructor
    · rintro rfl
      exact ⟨h1, h2, _, h3, rfl⟩
    · rintro ⟨a1, a2, w, hw, hv⟩
      rw [h3] at hw
      refine column_ext (h1.trans a1.symm) (h2.trans a2.symm) ?_
      simp only [hv, Except.ok.inj hw]

theorem zip_percent (v1 v2 v3 : List (Option N)) :
    (List.zipWith percentOf v1 v2).zip (List.zipWith percentOf v1 v3) =
      (v1.zip (v2.zip v3)).map fun x => (percentOf x.1 x.2.1, percentOf x.1 x.2.2) := by
  induction v1 generalizing v2 v3 with
  | nil => simp
  | cons x v1 ih => cases v2 with
    | nil => simp
    | cons y v2 => cases v3 with
      | nil => simp
      | cons z v3 => simp [ih]

theorem rowWise_error0 (p : Pair) : RowWise (N := N) ls us fun t => p.error0 t := by
  cases p with
  | missing c1 => exact rowWise_dummy
  | constPct c1 => exact (rowWise_find c1).map _
  | highLow c1 c2 => exact rowWise_zip c1 c2 highLowErr
  | highMidLow c1 c2 c3 => exact rowWise_zip3 c1 c2 c3 midErr
  | barnsSqrtE c2 c3 => exact rowWise_error
  | indep c1 c2 =>
    obtain ⟨l2, u2, g2, e2⟩ := rowWise_find (N := N) (ls := ls) (us := us) c2
    by_cases hu : u2 = some "PER-CENT".toList
    · refine RowWise.two (rowWise_find c1) (rowWise_find c2) (fun _ _ l2 _ => l2) (fun _ u1 _ _ => u1)
        (fun a b => .ok (percentOf a b)) fun D c hD => ?_
      have h2 : ∀ k, c2.find (⟨ls, us, D⟩ : Table N) = .ok k → k.unit = u2 := fun k hk => ((e2 D k hD).1 hk).2.1
      simp only [mapE_zip_pure, Pair.error0]
      generalize c1.find (⟨ls, us, D⟩ : Table N) = a
      generalize c2.find (⟨ls, us, D⟩ : Table N) = b at h2
      cases b with
      | error e => simp
      | ok k2 =>
        have h2 := h2 k2 rfl
        have h3 := h2.trans hu
        simp only [if_pos h3, indepErr]
        cases a with
        | error e => simp
        | ok k1 =>
          simp only [Except.ok.injEq, exists_eq_left', exists_and_left]
          constructor
          · rintro rfl; exact ⟨rfl, rfl, rfl⟩
          · rintro ⟨h1, h2, h3⟩; exact column_ext h1.symm h2.symm h3
    · refine ⟨l2, u2, g2, fun D c hD => ?_⟩
      rw [← e2 D c hD]
      have h2 : ∀ k, c2.find (⟨ls, us, D⟩ : Table N) = .ok k → k.unit = u2 := fun k hk => ((e2 D k hD).1 hk).2.1
      simp only [Pair.error0]
      generalize c2.find (⟨ls, us, D⟩ : Table N) = b at h2
      cases b with
      | error e => simp
      | ok k2 =>
        have h2 := h2 k2 rfl
        have h3 : ¬ k2.unit = some "PER-CENT".toList := fun h => hu (h2.symm.trans h)
        simp only [if_neg h3]
  | addErr c1 c2 c3 =>
    obtain ⟨l2, u2, g2, e2⟩ := rowWise_find (N := N) (ls := ls) (us := us) c2
    obtain ⟨l3, u3, g3, e3⟩ := rowWise_find (N := N) (ls := ls) (us := us) c3
    by_cases hu : u2 = some "PER-CENT".toList ∨ u3 = some "PER-CENT".toList
    · refine RowWise.three (rowWise_find c1) (rowWise_find c2) (rowWise_find c3) (fun _ _ _ => some "ERR".toList) (fun a _ _ => a.2)
        (fun a b c => quadSum (percentOf a b) (percentOf a c)) fun D c hD => ?_
      have h2 : ∀ k, c2.find (⟨ls, us, D⟩ : Table N) = .ok k → k.unit = u2 := fun k hk => ((e2 D k hD).1 hk).2.1
      have h3 : ∀ k, c3.find (⟨ls, us, D⟩ : Table N) = .ok k → k.unit = u3 := fun k hk => ((e3 D k hD).1 hk).2.1
      simp only [Pair.error0]
      generalize c1.find (⟨ls, us, D⟩ : Table N) = a
      generalize c2.find (⟨ls, us, D⟩ : Table N) = b at h2
      generalize c3.find (⟨ls, us, D⟩ : Table N) = d at h3
      cases b with
      | error e => simp
      | ok k2 => cases d with
        | error e => simp
        | ok k3 =>
          have h2 := h2 k2 rfl
          have h3 := h3 k3 rfl
          have hk : k2.unit = some "PER-CENT".toList ∨ k3.unit = some "PER-CENT".toList := by rw [h2, h3]; exact hu
          simp only [if_pos hk]
          cases a with
          | error e => simp
          | ok k1 =>
            simp only [addErrColumn, addErrCols, if_pos hk, zip_percent, mapE_map, Except.ok.injEq, exists_eq_left', exists_and_left]
            generalize mapE _ _ = m
            cases m with
            | error e => simp
            | ok vs =>
              simp only [Except.ok.injEq]
              constructor
              · rintro rfl; exact ⟨rfl, rfl, rfl⟩
              · rintro ⟨h1, h2, h3⟩; exact column_ext h1.symm h2.symm h3
    · refine RowWise.two (rowWise_find c2) (rowWise_find c3) (fun _ _ _ _ => some "ERR".toList) (fun _ u2 _ u3 => lastSome u2 u3)
        quadSum fun D c hD => ?_
      have h2 : ∀ k, c2.find (⟨ls, us, D⟩ : Table N) = .ok k → k.unit = u2 := fun k hk => ((e2 D k hD).1 hk).2.1
      have h3 : ∀ k, c3.find (⟨ls, us, D⟩ : Table N) = .ok k → k.unit = u3 := fun k hk => ((e3 D k hD).1 hk).2.1
      simp only [Pair.error0]
      generalize c2.find (⟨ls, us, D⟩ : Table N) = b at h2
      generalize c3.find (⟨ls, us, D⟩ : Table N) = d at h3
      cases b with
      | error e => simp
      | ok k2 => cases d with
        | error e => simp
        | ok k3 =>
          have h2 := h2 k2 rfl
          have h3 := h3 k3 rfl
          have hk : ¬ (k2.unit = some "PER-CENT".toList ∨ k3.unit = some "PER-CENT".toList) := by rw [h2, h3]; exact hu
          simp only [if_neg hk, addErrColumn, addErrCols, Except.ok.injEq, exists_eq_left', exists_and_left]
          generalize mapE _ _ = m
          cases m with
          | error e => simp
          | ok vs =>
            simp only [Except.ok.injEq]
            constructor
            · rintro rfl; exact ⟨rfl, rfl, rfl⟩
            · rintro ⟨h1, h2, h3⟩; exact column_ext h1.symm h2.symm h3

theorem rowWise_getError (p : Pair) : RowWise (N := N) ls us fun t => p.getError t := by
  unfold Pair.getError
  exact RowWise.ite (isMatch_heads p) ((rowWise_error0 p).map _) rowWise_dummy

/-! ### what follows for tables with common rows -/

/-- the same row of two tables gives the same entry -/
theorem RowWise.same {F : Table N → Except PyErr (Column N)} (hF : RowWise ls us F) {D D' : List (List (Option N))} {c c' : Column N}
    (h : F ⟨ls, us, D⟩ = .ok c) (h' : F ⟨ls, us, D'⟩ = .ok c') {i j : Nat} {row : List (Option N)} (hi : D[i]? = some row)
    (hj : D'[j]? = some row) : c.unit = c'.unit ∧ cell c.vals i = cell c'.vals j := by
  obtain ⟨l, u, g, e⟩ := hF
  have hD : D ≠ [] := by rintro rfl; simp at hi
  have hD' : D' ≠ [] := by rintro rfl; simp at hj
  obtain ⟨_, a2, a3⟩ := (e D c hD).1 h
  obtain ⟨_, b2, b3⟩ := (e D' c' hD').1 h'
  obtain ⟨y, hy, gy⟩ := mapE_get a3 i row hi
  obtain ⟨z, hz, gz⟩ := mapE_get b3 j row hj
  rw [gy] at gz
  refine ⟨a2.trans b2.symm, ?_⟩
  unfold cell
  rw [hy, hz, Except.ok.inj gz]

/-- a table with fewer rows can be read, too -/
theorem RowWise.fewer {F : Table N → Except PyErr (Column N)} (hF : RowWise ls us F) {D D' : List (List (Option N))} {c : Column N}
    (h : F ⟨ls, us, D⟩ = .ok c) (hs : ∀ row ∈ D', row ∈ D) (hD' : D' ≠ []) : ∃ c', F ⟨ls, us, D'⟩ = .ok c' := by
  obtain ⟨l, u, g, e⟩ := hF
  have hD : D ≠ [] := by
    rintro rfl
    obtain ⟨x, D', rfl⟩ := List.exists_cons_of_ne_nil hD'
    simpa using hs x (by simp)
  obtain ⟨_, _, a3⟩ := (e D c hD).1 h
  obtain ⟨v, hv⟩ := (mapE_ok_or g D').2 fun row hrow => (mapE_ok_or g D).1 ⟨_, a3⟩ row (hs row hrow)
  exact ⟨⟨l, u, v⟩, (e D' _ hD').2 ⟨rfl, rfl, hv⟩⟩

end X4
