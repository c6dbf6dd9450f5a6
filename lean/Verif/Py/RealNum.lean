import Verif.Py.Num
import Mathlib.Analysis.SpecialFunctions.Trigonometric.Inverse
import Mathlib.Analysis.SpecialFunctions.Pow.NNReal
/-! The real numbers as the numbers of the model: exact arithmetic, no rounding, and no
infinities or nan. (A literal for `inf` or `nan` is read as 0 here; no theorem about values
is stated for such literals.) -/
namespace X4

/-- the real number denoted by a literal -/
noncomputable def litReal : FloatLit → ℝ
  | .fin neg m e => (if neg then -1 else 1) * (m : ℝ) * 10 ^ e
  | _ => 0

noncomputable instance : PyNum ℝ where
  ofLit := litReal
  dec m e := (m : ℝ) * 10 ^ e
  degPerRad := 180 / Real.pi
  add := (· + ·)
  sub := (· - ·)
  mul := (· * ·)
  div x y := if y = 0 then .error .zeroDivisionError else .ok (x / y)
  pct x := x / 100
  abs x := |x|
  sqrt x := if x < 0 then .error .valueError else .ok (Real.sqrt x)
  acos x := if x < -1 ∨ 1 < x then .error .valueError else .ok (Real.arccos x)

namespace RealNum
@[simp] theorem add_eq (x y : ℝ) : PyNum.add x y = x + y := rfl
@[simp] theorem sub_eq (x y : ℝ) : PyNum.sub x y = x - y := rfl
@[simp] theorem mul_eq (x y : ℝ) : PyNum.mul x y = x * y := rfl
@[simp] theorem pct_eq (x : ℝ) : PyNum.pct x = x / 100 := rfl
@[simp] theorem abs_eq (x : ℝ) : PyNum.abs x = |x| := rfl
theorem dec_eq (m e : Int) : (PyNum.dec m e : ℝ) = (m : ℝ) * 10 ^ e := rfl
@[simp] theorem zero_eq : (PyNum.zero : ℝ) = 0 := by simp [PyNum.zero, dec_eq]
@[simp] theorem one_eq : (PyNum.one : ℝ) = 1 := by simp [PyNum.one, dec_eq]
@[simp] theorem half_eq : (PyNum.half : ℝ) = 1 / 2 := by simp [PyNum.half, dec_eq]; norm_num
@[simp] theorem degPerRad_eq : (PyNum.degPerRad : ℝ) = 180 / Real.pi := rfl
end RealNum

end X4
