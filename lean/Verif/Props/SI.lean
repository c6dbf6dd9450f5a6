import Verif.Spec.SI
import Verif.Props.Column
/-! Conversion of units keeps the physical quantity. -/
namespace X4

theorem siUnits_inj : ∀ x ∈ siUnits, ∀ y ∈ siUnits, x.1 = y.1 → x = y := by decide +kernel

/-- a unit stands for one size only -/
theorem IsUnit.unique {u : Str} {b b' : BaseUnit} {n n' : ℤ} (h : IsUnit u b n) (h' : IsUnit u b' n') : b = b' ∧ n = n' := by
  have := siUnits_inj _ h _ h' rfl
  simp only [Prod.mk.injEq, true_and] at this
  exact this

/-- the conversions that only shift the power of ten -/
theorem shift_table : ∀ x ∈ siUnits, x.1 ∉ ["K".toList, "SR".toList, "RAD".toList, "ARB-UNITS".toList] →
    ∃ k : ℤ, (getConversion x.1).1 = .dec 1 k ∧ ((getConversion x.1).2, x.2.1, x.2.2 - k) ∈ siUnits := by
  have h : ∀ x ∈ siUnits, x.1 ∉ ["K".toList, "SR".toList, "RAD".toList, "ARB-UNITS".toList] →
      ∃ k ∈ [3, 0, -3, -6, -9, 6, 9], (getConversion x.1).1 = .dec 1 k ∧ ((getConversion x.1).2, x.2.1, x.2.2 - k) ∈ siUnits := by decide +kernel
  intro x hx hn
  obtain ⟨k, -, hk⟩ := h x hx hn
  exact ⟨k, hk⟩

/-- C92: the converted value in the converted unit is the same physical quantity as the value in the unit of the
column, for all units but Kelvin, steradians and arbitrary units. -/
theorem C92_quantity_partial (u : Str) (b : BaseUnit) (n : ℤ) (hu : IsUnit u b n) (hn : u ∉ ["K".toList, "SR".toList, "ARB-UNITS".toList]) (x : ℝ) :
    ∃ b' n', IsUnit (getConversion u).2 b' n' ∧ b'.dimension = b.dimension ∧
      scaleVal (getConversion u).1 (.dec 1 0) x * 10 ^ n' * b'.size = x * 10 ^ n * b.size := by
  by_cases hr : u = "RAD".toList
  · subst hr
    have hbn := hu.unique (by decide : IsUnit "RAD".toList .radian 0)
    rw [hbn.1, hbn.2]
    refine ⟨.degree, 0, by decide, rfl, ?_⟩
    have hc : (getConversion "RAD".toList).1 = .degPerRad := by decide
    rw [hc]
    simp [scaleVal, Factor.val, RealNum.dec_eq, BaseUnit.size]
    have := Real.pi_ne_zero
    field_simp
  · obtain ⟨k, h1, h2⟩ := shift_table _ hu (by simp only [List.mem_cons, List.not_mem_nil, or_false, not_or] at hn ⊢; exact ⟨hn.1, hn.2.1, hr, hn.2.2⟩)
    refine ⟨b, n - k, h2, rfl, ?_⟩
    simp only at h1
    rw [h1]
    simp only [scaleVal, Factor.val, RealNum.dec_eq, RealNum.mul_eq, RealNum.add_eq, RealNum.zero_eq, add_zero, Int.cast_one, one_mul, zpow_zero, mul_one]
    rw [mul_assoc x, ← zpow_add₀ (by norm_num : (10 : ℝ) ≠ 0)]
    congr 3
    ring

example : IsUnit "KEV".toList .electronvolt 3 ∧ "KEV".toList ∉ ["K".toList, "SR".toList, "ARB-UNITS".toList] := by decide
example : ∃ b' n', IsUnit (getConversion "MB/SR".toList).2 b' n' ∧ b'.dimension = .areaPerSolidAngle ∧
    scaleVal (getConversion "MB/SR".toList).1 (.dec 1 0) (5 : ℝ) * 10 ^ n' * b'.size = 5 * 10 ^ (-3 : ℤ) * 1e-28 :=
  C92_quantity_partial "MB/SR".toList .barnPerSteradian (-3) (by decide) (by decide) 5

/-- C92 is false for Kelvin: the energy `k T` of every temperature but zero comes out too large (in absolute value), by 0.0511 %. -/
theorem C92_kelvin_refuted (T : ℝ) (hT : 0 < T) : (getConversion "K".toList).2 = "MeV".toList ∧
    scaleVal (getConversion "K".toList).1 (.dec 1 0) T * 10 ^ (6 : ℤ) * BaseUnit.electronvolt.size ≠ T * 10 ^ (0 : ℤ) * BaseUnit.kelvin.size ∧
    1.000511 * (T * BaseUnit.kelvin.size) < scaleVal (getConversion "K".toList).1 (.dec 1 0) T * 10 ^ (6 : ℤ) * BaseUnit.electronvolt.size ∧
    scaleVal (getConversion "K".toList).1 (.dec 1 0) T * 10 ^ (6 : ℤ) * BaseUnit.electronvolt.size < 1.000512 * (T * BaseUnit.kelvin.size) := by
  have hc : getConversion "K".toList = (.dec 8621738 (-17), "MeV".toList) := by decide
  have key : scaleVal (getConversion "K".toList).1 (.dec 1 0) T * 10 ^ (6 : ℤ) * BaseUnit.electronvolt.size = T * 1.3813547168069892e-23 := by
    rw [hc]
    simp only [scaleVal, Factor.val, RealNum.dec_eq, RealNum.mul_eq, RealNum.add_eq, RealNum.zero_eq, BaseUnit.size]
    norm_num
    ring
  rw [key]
  simp only [BaseUnit.size]
  refine ⟨by rw [hc], ?_, ?_, ?_⟩
  · intro h
    norm_num at h
    nlinarith
  · norm_num; nlinarith
  · norm_num; nlinarith

example : (0 : ℝ) < 293.6 := by norm_num

/-- what remains true: the energy is right to better than 0.06 %. -/
theorem C92_kelvin_partial (T : ℝ) : |scaleVal (getConversion "K".toList).1 (.dec 1 0) T * 10 ^ (6 : ℤ) * BaseUnit.electronvolt.size - T * BaseUnit.kelvin.size| ≤
    0.0006 * |T * BaseUnit.kelvin.size| := by
  rcases lt_trichotomy T 0 with h | h | h
  · have hh := C92_kelvin_refuted (-T) (by linarith)
    have e : scaleVal (getConversion "K".toList).1 (.dec 1 0) (-T) = -scaleVal (getConversion "K".toList).1 (.dec 1 0) T := by
      simp only [scaleVal, RealNum.mul_eq, RealNum.add_eq, RealNum.zero_eq]; ring
    rw [e] at hh
    have hs : 0 < BaseUnit.kelvin.size := by simp only [BaseUnit.size]; norm_num
    have hT : T * BaseUnit.kelvin.size < 0 := mul_neg_of_neg_of_pos h hs
    rw [abs_of_neg hT, abs_le]
    constructor <;> nlinarith [hh.2.2.1, hh.2.2.2]
  · subst h; simp [scaleVal]
  · have hh := C92_kelvin_refuted T h
    have hs : 0 < BaseUnit.kelvin.size := by simp only [BaseUnit.size]; norm_num
    have hT : 0 < T * BaseUnit.kelvin.size := mul_pos h hs
    rw [abs_of_pos hT, abs_le]
    constructor <;> nlinarith [hh.2.2.1, hh.2.2.2]

/-- C92 is false for steradians, which become degrees, and for arbitrary units, which become pure numbers. -/
theorem C92_dimension_refuted :
    (∃ b b' n n', IsUnit "SR".toList b n ∧ IsUnit (getConversion "SR".toList).2 b' n' ∧ b.dimension = .solidAngle ∧ b'.dimension = .angle) ∧
    (∃ b b' n n', IsUnit "ARB-UNITS".toList b n ∧ IsUnit (getConversion "ARB-UNITS".toList).2 b' n' ∧ b.dimension = .arbitrary ∧ b'.dimension = .pure) :=
  ⟨⟨.steradian, .degree, 0, 0, by decide, by decide, rfl, rfl⟩, .arbitrary, .one, 0, 0, by decide, by decide, rfl, rfl⟩

end X4
