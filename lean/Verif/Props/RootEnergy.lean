import Verif.Props.Column
/-! The formula for cross sections times the square root of the energy. -/
namespace X4

/-- C33, the part that holds: where an energy `E` in MeV and a cross section in barn √eV are given, the code divides by the square root of the
energy in electronvolts, 10⁶ E; where one of them is missing there is none. (That no energies are ever found is `C33_refuted`.) -/
theorem C33_formula_partial (en x : Option ℝ) (h : ∀ E ∈ en, 0 < E) :
    overSqrtE en x = .ok (match en, x with
      | some E, some x => some (x / Real.sqrt (1000000 * E))
      | _, _ => none) := by
  cases en with
  | none => cases x <;> rfl
  | some E =>
    cases x with
    | none => rfl
    | some x =>
      have hE : 0 < E := h E rfl
      have h1 : (PyNum.mul E (PyNum.dec 1 6) : ℝ) = 1000000 * E := by
        rw [RealNum.mul_eq, RealNum.dec_eq]
        norm_num
        ring
      have h2 : (PyNum.sqrt (1000000 * E) : Except PyErr ℝ) = .ok (Real.sqrt (1000000 * E)) := by
        simp only [PyNum.sqrt]
        rw [if_neg (by linarith)]
      have h3 : (PyNum.div x (Real.sqrt (1000000 * E)) : Except PyErr ℝ) = .ok (x / Real.sqrt (1000000 * E)) := by
        simp only [PyNum.div]
        rw [if_neg (by have : 0 < Real.sqrt (1000000 * E) := Real.sqrt_pos.2 (by linarith)
                       exact ne_of_gt this)]
      simp only [overSqrtE, h1, h2, h3]

/-- C33_formula_partial applies: 2 barn √eV at 4 eV are 1 barn -/
example : overSqrtE (some (4 / 1000000 : ℝ)) (some 2) = .ok (some 1) := by
  rw [C33_formula_partial _ _ (by rintro E ⟨rfl⟩; norm_num)]
  have : Real.sqrt (1000000 * (4 / 1000000)) = 2 := by
    rw [show (1000000 * (4 / 1000000) : ℝ) = 2 ^ 2 by norm_num, Real.sqrt_sq (by norm_num)]
  simp only [this]
  norm_num

end X4
