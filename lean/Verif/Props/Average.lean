import Verif.Props.Column
/-! Property C105: the mean of two columns. -/
namespace X4

theorem averageText_one {x y : Option Str} (h : x = none ∨ y = none) : averageText x y = .ok (x.or y) := by
  rcases h with rfl | rfl
  · cases y <;> rfl
  · cases x <;> rfl

theorem averageVals_eq {N} [PyNum N] {x y : List (Option N)} (h : x.length = y.length) :
    averageVals x y = .ok (List.zipWith averageVal x y) := by
  induction x generalizing y with
  | nil => cases y with
    | nil => rfl
    | cons b y => simp at h
  | cons a x ih => cases y with
    | nil => simp at h
    | cons b y => simp only [averageVals, ih (by simpa using h), List.zipWith_cons_cons]

theorem averageVals_short {N} [PyNum N] {x y : List (Option N)} (h : x.length ≠ y.length) : averageVals x y = .error .indexError := by
  induction x generalizing y with
  | nil => cases y with
    | nil => simp at h
    | cons b y => rfl
  | cons a x ih => cases y with
    | nil => rfl
    | cons b y => simp only [averageVals, ih (by simpa using h)]

/-- C105 (partial): if at most one of the columns has a heading, and at most one a unit, the result has those, and in each row the mean
of the two numbers, or the only one. -/
theorem C105_average_partial (x y : Column ℝ) (hl : x.label = none ∨ y.label = none) (hu : x.unit = none ∨ y.unit = none)
    (h : x.vals.length = y.vals.length) :
    ∃ c, averageColumns x y = .ok c ∧ c.vals.length = x.vals.length ∧
      (∀ t, c.label = some t ↔ x.label = some t ∨ y.label = some t) ∧ (∀ t, c.unit = some t ↔ x.unit = some t ∨ y.unit = some t) ∧
      ∀ (i : Nat) (a b : Option ℝ), x.vals[i]? = some a → y.vals[i]? = some b →
        (a = none → c.vals[i]? = some b) ∧ (b = none → c.vals[i]? = some a) ∧
        ∀ p q, a = some p → b = some q → c.vals[i]? = some (some ((p + q) / 2)) := by
  refine ⟨⟨x.label.or y.label, x.unit.or y.unit, List.zipWith averageVal x.vals y.vals⟩, ?_, ?_, ?_, ?_, ?_⟩
  · unfold averageColumns
    rw [averageText_one hl, averageText_one hu, averageVals_eq h]
  · simp [h]
  · intro t
    rcases hl with hl | hl <;> cases hx : x.label <;> cases hy : y.label <;> simp_all
  · intro t
    rcases hu with hl | hl <;> cases hx : x.unit <;> cases hy : y.unit <;> simp_all
  · intro i a b ha hb
    have hz : (List.zipWith averageVal x.vals y.vals)[i]? = some (averageVal a b) := by
      rw [List.getElem?_zipWith, ha, hb]
    refine ⟨?_, ?_, ?_⟩
    · rintro rfl
      rw [hz]
      rfl
    · rintro rfl
      rw [hz]
      cases a <;> rfl
    · rintro p q rfl rfl
      rw [hz]
      simp only [averageVal, PyNum.half, RealNum.mul_eq, RealNum.add_eq, Option.some.injEq]
      show ((5 : ℤ) : ℝ) * 10 ^ (-1 : ℤ) * (p + q) = (p + q) / 2
      norm_num
      ring

/-- C105: columns of different lengths give an IndexError (if their headings and units do not fail before). -/
theorem C105_lengths {N} [PyNum N] (x y : Column N) (hl : x.label = none ∨ y.label = none) (hu : x.unit = none ∨ y.unit = none)
    (h : x.vals.length ≠ y.vals.length) : averageColumns x y = .error .indexError := by
  unfold averageColumns
  rw [averageText_one hl, averageText_one hu, averageVals_short h]

/-- C105 is false of the columns that parsers find: their headings cannot be multiplied by 0.5. -/
theorem C105_refuted {N} [PyNum N] (x y : Column N) (h : (x.label ≠ none ∧ y.label ≠ none) ∨ (x.unit ≠ none ∧ y.unit ≠ none)) :
    averageColumns x y = .error .typeError := by
  obtain ⟨lx, ux, vx⟩ := x
  obtain ⟨ly, uy, vy⟩ := y
  unfold averageColumns
  rcases h with ⟨h1, h2⟩ | ⟨h1, h2⟩
  · cases lx <;> cases ly <;> simp_all [averageText]
  · cases lx <;> cases ly <;> cases ux <;> cases uy <;> simp_all [averageText]

/-- C105_average_partial -/
example : ∃ c, averageColumns (⟨some "x".toList, none, [some 1, none, some 4]⟩ : Column ℝ) ⟨none, some "B".toList, [some 2, some 3, none]⟩ = .ok c ∧
    c.label = some "x".toList ∧ c.unit = some "B".toList ∧ c.vals[0]? = some (some (3 / 2)) := by
  obtain ⟨c, h1, -, h2, h3, h4⟩ := C105_average_partial (⟨some "x".toList, none, [some 1, none, some 4]⟩ : Column ℝ)
    ⟨none, some "B".toList, [some 2, some 3, none]⟩ (.inr rfl) (.inl rfl) rfl
  refine ⟨c, h1, (h2 _).2 (.inl rfl), (h3 _).2 (.inr rfl), ?_⟩
  rw [(h4 0 _ _ rfl rfl).2.2 _ _ rfl rfl]
  norm_num

/-- C105_lengths -/
example : averageColumns (⟨none, none, [some 1]⟩ : Column ℝ) ⟨none, none, []⟩ = .error .indexError :=
  C105_lengths _ _ (.inl rfl) (.inl rfl) (by simp)

/-- C105_refuted, of two columns found in a table -/
example : ∃ c : Column ℝ, ({ labels := ["EN".toList], units := ["EV".toList] } : ColParser).find sqrtETable = .ok c ∧
    averageColumns c c = .error .typeError := by
  refine ⟨_, rfl, C105_refuted _ _ (.inl ?_)⟩
  constructor <;> simp

end X4
