import Verif.Py.RealNum
import Mathlib.Data.Int.Log
import Mathlib.Algebra.Order.Round
import Mathlib.Analysis.Real.Pi.Bounds
/-! Floating-point numbers as numbers of the model: real numbers that are rounded after every operation. -/
namespace X4

/-- A way of rounding with the relative error `u`. IEEE doubles in the default mode, as far as there is no overflow and no
underflow, have `u = 2⁻⁵³`. -/
structure Rounding where
  rnd : ℝ → ℝ
  u : ℝ
  nonneg : 0 ≤ u
  small : u ≤ 1 / 2
  err : ∀ x, |rnd x - x| ≤ u * |x|

/-- the numbers of a floating-point arithmetic -/
@[ext] structure Fl (R : Rounding) where
  val : ℝ

/-- Every operation is exact and its result rounded; constants and numbers that are read are rounded, `180.0 / math.pi` is computed
with the rounded π. (`math.acos` is exact up to rounding here; no theorem is stated about it.) -/
noncomputable instance (R : Rounding) : PyNum (Fl R) where
  ofLit l := ⟨R.rnd (litReal l)⟩
  dec m e := ⟨R.rnd ((m : ℝ) * 10 ^ e)⟩
  degPerRad := ⟨R.rnd (R.rnd 180 / R.rnd Real.pi)⟩
  add x y := ⟨R.rnd (x.val + y.val)⟩
  sub x y := ⟨R.rnd (x.val - y.val)⟩
  mul x y := ⟨R.rnd (x.val * y.val)⟩
  div x y := if y.val = 0 then .error .zeroDivisionError else .ok ⟨R.rnd (x.val / y.val)⟩
  pct x := ⟨R.rnd (x.val / R.rnd 100)⟩
  abs x := ⟨|x.val|⟩
  sqrt x := if x.val < 0 then .error .valueError else .ok ⟨R.rnd (Real.sqrt x.val)⟩
  acos x := if x.val < -1 ∨ 1 < x.val then .error .valueError else .ok ⟨R.rnd (Real.arccos x.val)⟩

/-- rounding to 53 binary digits, to the nearest number; the exponent is not limited -/
noncomputable def double (x : ℝ) : ℝ := (round (x / 2 ^ (Int.log 2 |x| - 52)) : ℝ) * 2 ^ (Int.log 2 |x| - 52)

theorem double_err (x : ℝ) : |double x - x| ≤ 2 ^ (-53 : ℤ) * |x| := by
  rcases eq_or_ne x 0 with rfl | hx
  · simp [double]
  have hp : (0 : ℝ) < 2 ^ (Int.log 2 |x| - 52) := by positivity
  have h1 : |(round (x / 2 ^ (Int.log 2 |x| - 52)) : ℝ) - x / 2 ^ (Int.log 2 |x| - 52)| ≤ 1 / 2 := by
    rw [abs_sub_comm]; exact abs_sub_round _
  have h2 : double x - x = ((round (x / 2 ^ (Int.log 2 |x| - 52)) : ℝ) - x / 2 ^ (Int.log 2 |x| - 52)) * 2 ^ (Int.log 2 |x| - 52) := by
    rw [double, sub_mul, div_mul_cancel₀ _ hp.ne']
  have h3 : ((2 : ℕ) : ℝ) ^ Int.log 2 |x| ≤ |x| := Int.zpow_log_le_self (by norm_num) (abs_pos.2 hx)
  rw [h2, abs_mul, abs_of_pos hp]
  calc _ ≤ (1 / 2 : ℝ) * 2 ^ (Int.log 2 |x| - 52) := by gcongr
    _ = 2 ^ (-53 : ℤ) * ((2 : ℕ) : ℝ) ^ Int.log 2 |x| := by
      rw [zpow_sub₀ (by norm_num)]; norm_num; ring
    _ ≤ _ := by gcongr

noncomputable def doubleRounding : Rounding where
  rnd := double
  u := 2 ^ (-53 : ℤ)
  nonneg := by positivity
  small := by norm_num
  err := double_err

end X4
