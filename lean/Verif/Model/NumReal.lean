import Mathlib.Analysis.SpecialFunctions.Trigonometric.Inverse
import Mathlib.Analysis.SpecialFunctions.Complex.Arg
import Mathlib.Algebra.Order.Floor.Ring
import Verif.Model.Num
/-!
# Exact arithmetic: `F = ℝ`

Rounding, overflow, NaN and signed zero are not represented. Division by zero is `0` here; theorems
over `ℝ` that involve a division state that the divisor is non-zero or constant.
-/

namespace GpsGen

/-- `math.Mod(x, y)`: the remainder with the sign of `x`. -/
noncomputable def realMod (x y : ℝ) : ℝ :=
  if 0 ≤ x / y then x - y * ⌊x / y⌋ else x - y * ⌈x / y⌉

noncomputable instance instGoMathReal : GoMath ℝ where
  add := (· + ·)
  sub := (· - ·)
  mul := (· * ·)
  div := (· / ·)
  lit q := (q : ℝ)
  lt a b := decide (a < b)
  le a b := decide (a ≤ b)
  eq a b := decide (a = b)
  abs a := |a|
  zero_eq_zero := by simp
  sin := Real.sin
  cos := Real.cos
  asin := Real.arcsin
  sqrt := Real.sqrt
  atan2 y x := Complex.arg ⟨x, y⟩
  fmod := realMod
  fmin := min
  pi := Real.pi
  toInt x := if 0 ≤ x then ⌊x⌋ else ⌈x⌉

section
variable (a b : ℝ)
@[simp] theorem real_add : GoFloat.add a b = a + b := rfl
@[simp] theorem real_sub : GoFloat.sub a b = a - b := rfl
@[simp] theorem real_mul : GoFloat.mul a b = a * b := rfl
@[simp] theorem real_div : GoFloat.div a b = a / b := rfl
@[simp] theorem real_lit (q : ℚ) : (GoFloat.lit q : ℝ) = (q : ℝ) := rfl
@[simp] theorem real_lt : GoFloat.lt a b = decide (a < b) := rfl
@[simp] theorem real_le : GoFloat.le a b = decide (a ≤ b) := rfl
@[simp] theorem real_eq : GoFloat.eq a b = decide (a = b) := rfl
@[simp] theorem real_abs : GoFloat.abs a = |a| := rfl
@[simp] theorem real_sin : GoMath.sin a = Real.sin a := rfl
@[simp] theorem real_cos : GoMath.cos a = Real.cos a := rfl
@[simp] theorem real_asin : GoMath.asin a = Real.arcsin a := rfl
@[simp] theorem real_sqrt : GoMath.sqrt a = Real.sqrt a := rfl
@[simp] theorem real_atan2 : GoMath.atan2 a b = Complex.arg ⟨b, a⟩ := rfl
@[simp] theorem real_fmod : GoMath.fmod a b = realMod a b := rfl
@[simp] theorem real_fmin : GoMath.fmin a b = min a b := rfl
@[simp] theorem real_pi : (GoMath.pi : ℝ) = Real.pi := rfl
theorem real_toInt : GoMath.toInt a = if 0 ≤ a then ⌊a⌋ else ⌈a⌉ := rfl
end

end GpsGen
