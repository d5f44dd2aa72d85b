import Verif.Model.Basic
import Mathlib.Analysis.Real.Sqrt
import Mathlib.Analysis.SpecialFunctions.Trigonometric.Inverse
import Mathlib.Analysis.SpecialFunctions.Complex.Arg
import Mathlib.Analysis.SpecialFunctions.Pow.Real

/-! # The exact instance: `Real := ℝ`

The C library functions are interpreted by the mathematical functions they approximate. -/

namespace MathLib

/-- Truncation towards zero (C++ conversion of a floating point number to an integer). -/
noncomputable def truncR (x : ℝ) : ℤ := if 0 ≤ x then ⌊x⌋ else ⌈x⌉

/-- C `fmod`: `x - n*y` where `n` is `x/y` rounded towards zero. -/
noncomputable def fmodR (x y : ℝ) : ℝ := x - truncR (x / y) * y

noncomputable instance : MathFns ℝ where
  sqrt := Real.sqrt
  sin := Real.sin
  cos := Real.cos
  asin := Real.arcsin
  acos := Real.arccos
  atan2 y x := Complex.arg ⟨x, y⟩
  pow a b := a ^ b
  fmod := fmodR
  trunc := truncR
  pi := Real.pi

@[simp] theorem real_sqrt (x : ℝ) : MathFns.sqrt x = √x := rfl
@[simp] theorem real_sin (x : ℝ) : MathFns.sin x = Real.sin x := rfl
@[simp] theorem real_cos (x : ℝ) : MathFns.cos x = Real.cos x := rfl
@[simp] theorem real_asin (x : ℝ) : MathFns.asin x = Real.arcsin x := rfl
@[simp] theorem real_acos (x : ℝ) : MathFns.acos x = Real.arccos x := rfl
@[simp] theorem real_atan2 (y x : ℝ) : MathFns.atan2 y x = Complex.arg ⟨x, y⟩ := rfl
@[simp] theorem real_pow (x y : ℝ) : MathFns.pow x y = x ^ y := rfl
@[simp] theorem real_fmod (x y : ℝ) : MathFns.fmod x y = fmodR x y := rfl
@[simp] theorem real_trunc (x : ℝ) : MathFns.trunc x = truncR x := rfl
@[simp] theorem real_pi : (MathFns.pi : ℝ) = Real.pi := rfl

end MathLib
