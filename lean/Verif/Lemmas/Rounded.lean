import Verif.Py.Rounded
import Verif.Model.Dataset
import Verif.Lemmas.Column
/-! Rounding errors of the operations. -/
namespace X4
variable (R : Rounding)

/-- the relative error of a number computed by `k` roundings -/
noncomputable def Rounding.bound (k : Nat) : ℝ := (1 + R.u) ^ k - 1

theorem bound_nonneg (k : Nat) : 0 ≤ R.bound k := by
  have := one_le_pow₀ (a := 1 + R.u) (n := k) (by linarith [R.nonneg])
  unfold Rounding.bound; linarith

theorem bound_mono {k l : Nat} (h : k ≤ l) : R.bound k ≤ R.bound l := by
  have := pow_le_pow_right₀ (a := 1 + R.u) (by linarith [R.nonneg]) h
  unfold Rounding.bound; linarith

theorem bound_add (k l : Nat) : (1 + R.bound k) * (1 + R.bound l) - 1 = R.bound (k + l) := by
  unfold Rounding.bound; rw [pow_add]; ring

theorem bound_one : R.bound 1 = R.u := by unfold Rounding.bound; ring

/-- `a` is computed for `x` with at most `k` roundings, of numbers of magnitude `m` at most -/
structure Near (k : Nat) (m a x : ℝ) : Prop where
  err : |a - x| ≤ R.bound k * m
  mag : |x| ≤ m

variable {R}

theorem Near.nonneg {k : Nat} {m a x : ℝ} (h : Near R k m a x) : 0 ≤ m := (abs_nonneg x).trans h.mag

theorem Near.mono {k l : Nat} {m n a x : ℝ} (h : Near R k m a x) (hk : k ≤ l) (hm : m ≤ n) : Near R l n a x where
  err := h.err.trans (mul_le_mul (bound_mono R hk) hm h.nonneg (bound_nonneg R l))
  mag := h.mag.trans hm

theorem Near.abs_le {k : Nat} {m a x : ℝ} (h : Near R k m a x) : |a| ≤ (1 + R.bound k) * m := by
  have := abs_sub_abs_le_abs_sub a x
  linarith [h.err, h.mag]

theorem Near.rnd {k : Nat} {m a x : ℝ} (h : Near R k m a x) : Near R (k + 1) m (R.rnd a) x where
  err := by
    have h1 := R.err a
    have h2 := h.abs_le
    have h3 : |R.rnd a - x| ≤ |R.rnd a - a| + |a - x| := abs_sub_le _ _ _
    have h4 : R.u * |a| ≤ R.u * ((1 + R.bound k) * m) := mul_le_mul_of_nonneg_left h2 R.nonneg
    rw [← bound_add R k 1, bound_one]
    nlinarith [h.err]
  mag := h.mag

theorem near_refl (x : ℝ) : Near R 0 |x| x x := ⟨by simp [Rounding.bound], le_refl _⟩

theorem near_rnd (x : ℝ) : Near R 1 |x| (R.rnd x) x := (near_refl x).rnd

theorem Near.mul {k l : Nat} {m n a x b y : ℝ} (h : Near R k m a x) (h' : Near R l n b y) : Near R (k + l) (m * n) (a * b) (x * y) where
  err := by
    have e : a * b - x * y = (a - x) * b + x * (b - y) := by ring
    have h1 : |(a - x) * b| ≤ (R.bound k * m) * ((1 + R.bound l) * n) := by
      rw [abs_mul]; exact mul_le_mul h.err h'.abs_le (abs_nonneg _) (mul_nonneg (bound_nonneg R k) h.nonneg)
    have h2 : |x * (b - y)| ≤ m * (R.bound l * n) := by
      rw [abs_mul]; exact mul_le_mul h.mag h'.err (abs_nonneg _) h.nonneg
    rw [e, ← bound_add]
    refine (abs_add_le _ _).trans ?_
    nlinarith
  mag := by rw [abs_mul]; exact mul_le_mul h.mag h'.mag (abs_nonneg _) h.nonneg

theorem Near.add {k : Nat} {m n a x b y : ℝ} (h : Near R k m a x) (h' : Near R k n b y) : Near R k (m + n) (a + b) (x + y) where
  err := by
    have e : a + b - (x + y) = (a - x) + (b - y) := by ring
    rw [e]
    refine (abs_add_le _ _).trans ?_
    nlinarith [h.err, h'.err]
  mag := (abs_add_le _ _).trans (add_le_add h.mag h'.mag)

theorem Near.neg {k : Nat} {m a x : ℝ} (h : Near R k m a x) : Near R k m (-a) (-x) where
  err := by rw [← neg_sub', abs_neg]; exact h.err
  mag := by rw [abs_neg]; exact h.mag

theorem Near.sub {k : Nat} {m n a x b y : ℝ} (h : Near R k m a x) (h' : Near R k n b y) : Near R k (m + n) (a - b) (x - y) := by
  rw [sub_eq_add_neg, sub_eq_add_neg]; exact h.add h'.neg

theorem Near.abs {k : Nat} {m a x : ℝ} (h : Near R k m a x) : Near R k m |a| |x| where
  err := (abs_abs_sub_abs_le _ _).trans h.err
  mag := by rw [abs_abs]; exact h.mag

theorem rnd_abs_ge (c : ℝ) : (1 - R.u) * |c| ≤ |R.rnd c| := by
  have h1 := R.err c
  have h2 := abs_sub_abs_le_abs_sub c (R.rnd c)
  rw [abs_sub_comm] at h1
  linarith

theorem near_inv {c : ℝ} (hc : 0 < c) : Near R 2 c⁻¹ (R.rnd c)⁻¹ c⁻¹ where
  err := by
    have hu := R.small
    have hu0 := R.nonneg
    have h1 := rnd_abs_ge (R := R) c
    have h2 := R.err c
    rw [abs_of_pos hc] at h1 h2
    have h3 : 0 < |R.rnd c| := lt_of_lt_of_le (by nlinarith) h1
    have h4 : R.rnd c ≠ 0 := abs_pos.1 h3
    rw [inv_sub_inv h4 hc.ne', abs_div, abs_mul, abs_of_pos hc, abs_sub_comm]
    rw [div_le_iff₀ (by positivity)]
    have h5 : R.bound 2 = 2 * R.u + R.u ^ 2 := by unfold Rounding.bound; ring
    rw [h5]
    have h6 : (2 * R.u + R.u ^ 2) * c⁻¹ * (|R.rnd c| * c) = (2 * R.u + R.u ^ 2) * |R.rnd c| := by
      field_simp
    rw [h6]
    have h7 : R.u * c ≤ (2 * R.u + R.u ^ 2) * ((1 - R.u) * c) := by
      have : (2 * R.u + R.u ^ 2) * ((1 - R.u) * c) - R.u * c = R.u * c * (1 - R.u - R.u ^ 2) := by ring
      have h8 : 0 ≤ R.u * c * (1 - R.u - R.u ^ 2) := mul_nonneg (by positivity) (by nlinarith)
      linarith
    have h9 : (2 * R.u + R.u ^ 2) * ((1 - R.u) * c) ≤ (2 * R.u + R.u ^ 2) * |R.rnd c| := mul_le_mul_of_nonneg_left h1 (by positivity)
    linarith
  mag := by rw [abs_of_pos (inv_pos.2 hc)]

theorem Near.div {k : Nat} {m a x c : ℝ} (h : Near R k m a x) (hc : 0 < c) : Near R (k + 2) (m / c) (a / R.rnd c) (x / c) := by
  simp only [div_eq_mul_inv]; exact h.mul (near_inv hc)

theorem rnd_nonneg {x : ℝ} (hx : 0 ≤ x) : 0 ≤ R.rnd x := by
  have h := R.err x
  rw [abs_of_nonneg hx] at h
  have := (abs_le.1 h).1
  nlinarith [R.small]

theorem Near.sqrt {k : Nat} {a x : ℝ} (h : Near R k x a x) (ha : 0 ≤ a) : Near R k (Real.sqrt x) (Real.sqrt a) (Real.sqrt x) where
  err := by
    have hx := h.nonneg
    rcases hx.eq_or_lt with rfl | hx
    · have : |a - 0| ≤ 0 := by simpa using h.err
      have ha : a = 0 := by simpa using abs_nonpos_iff.1 this
      subst ha; simp
    have hs : 0 < Real.sqrt x := Real.sqrt_pos.2 hx
    have e : a - x = (Real.sqrt a - Real.sqrt x) * (Real.sqrt a + Real.sqrt x) := by
      have h1 := Real.mul_self_sqrt ha
      have h2 := Real.mul_self_sqrt hx.le
      linear_combination -h1 + h2
    have h1 := h.err
    rw [e, abs_mul, abs_of_pos (a := Real.sqrt a + Real.sqrt x) (by positivity)] at h1
    have h2 : |Real.sqrt a - Real.sqrt x| * Real.sqrt x ≤ |Real.sqrt a - Real.sqrt x| * (Real.sqrt a + Real.sqrt x) :=
      mul_le_mul_of_nonneg_left (by linarith [Real.sqrt_nonneg a]) (abs_nonneg _)
    have h3 : R.bound k * x = R.bound k * Real.sqrt x * Real.sqrt x := by rw [mul_assoc, Real.mul_self_sqrt hx.le]
    rw [h3] at h1
    exact le_of_mul_le_mul_right (h2.trans h1) hs
  mag := by rw [abs_of_nonneg (Real.sqrt_nonneg _)]

/-! ### the functions of the column parsers -/
open PyNum

theorem near_dec (m e : Int) : Near R 1 |(m : ℝ) * 10 ^ e| (dec m e : Fl R).val (dec m e : ℝ) := near_rnd _

theorem near_factor (f : Factor) : Near R 4 |(f.val : ℝ)| (f.val : Fl R).val (f.val : ℝ) := by
  cases f with
  | dec m e => exact (near_dec m e).mono (by omega) le_rfl
  | degPerRad =>
    have h : |(180 / Real.pi : ℝ)| = |180| / Real.pi := by rw [abs_div, abs_of_pos Real.pi_pos]
    exact ((near_rnd (R := R) 180).div Real.pi_pos).rnd.mono le_rfl h.ge

theorem near_zero : (PyNum.zero : Fl R).val = 0 := by
  have h := R.err ((0 : Int) * 10 ^ (0 : Int) : ℝ)
  simp at h
  simpa [PyNum.zero, dec] using h

theorem near_scale (f : Factor) {m e : Int} {k : Nat} {a : Fl R} {n x : ℝ} (h : Near R k n a.val x) :
    Near R (k + 8) (n * |(f.val : ℝ)| * |((Factor.dec m e).val : ℝ)|) (scaleVal f (.dec m e) a).val (scaleVal f (.dec m e) x) := by
  have h1 := ((h.mul (near_factor f)).rnd.mul (near_dec m e)).rnd
  have h2 : (scaleVal f (.dec m e) x : ℝ) = x * f.val * (dec m e : ℝ) := by simp [scaleVal, Factor.val]
  have h3 : (scaleVal f (.dec m e) a).val = R.rnd ((mul (mul a f.val) (dec m e)).val + (PyNum.zero : Fl R).val) := rfl
  rw [h2, h3, near_zero, add_zero]
  exact h1.rnd

end X4
