import Verif.Props.Squad
import Mathlib.Analysis.SpecialFunctions.Trigonometric.Angle

/-! # Property C123: polar form of plane vectors -/

namespace MathLib

/-- the complex number with the same coordinates -/
def Vec2.toC (v : Vec2 ℝ) : ℂ := ⟨v.x, v.y⟩

theorem Vec2.toC_ofAngle (θ l : ℝ) : (Vec2.ofAngle θ l).toC = l * Complex.exp (θ * Complex.I) := by
  rw [Complex.exp_mul_I, ← Complex.ofReal_cos, ← Complex.ofReal_sin]
  apply Complex.ext <;> simp [Vec2.toC, Vec2.ofAngle, -Complex.ofReal_cos, -Complex.ofReal_sin]

theorem Vec2.angle_toC (v : Vec2 ℝ) : v.angle = Complex.arg v.toC := rfl

/-- C123: `fromAngle(θ, l)` is `l·e^{iθ}`: its length is `|l|`, its angle is `θ` (brought into `(-π,π]`) if
`l` is positive, and a negative length gives the opposite vector. -/
theorem C123_fromAngle (θ l : ℝ) :
    (Vec2.ofAngle θ l).toC = l * Complex.exp (θ * Complex.I) ∧
    (Vec2.ofAngle θ l).length = |l| ∧
    (0 < l → -Real.pi < θ → θ ≤ Real.pi → (Vec2.ofAngle θ l).angle = θ) ∧
    (0 < l → ((Vec2.ofAngle θ l).angle : Real.Angle) = θ) ∧
    (l < 0 → ((Vec2.ofAngle θ l).angle : Real.Angle) = θ + Real.pi) ∧
    Vec2.ofAngle θ (-l) = -Vec2.ofAngle θ l ∧
    Vec2.ofAngle (θ + 2 * Real.pi) l = Vec2.ofAngle θ l := by
  have key : ∀ (l θ : ℝ), 0 < l → ((Vec2.ofAngle θ l).angle : Real.Angle) = θ := fun l θ h => by
    rw [Vec2.angle_toC, Vec2.toC_ofAngle, Complex.arg_real_mul _ h, Complex.exp_mul_I]
    have := Complex.arg_cos_add_sin_mul_I_coe_angle (θ : Real.Angle)
    rwa [Real.Angle.cos_coe, Real.Angle.sin_coe, Complex.ofReal_cos, Complex.ofReal_sin] at this
  refine ⟨Vec2.toC_ofAngle θ l, Vec2.ofAngle_length θ l, fun h h1 h2 => ?_, key l θ, fun h => ?_, ?_, ?_⟩
  · rw [Vec2.angle_toC, Vec2.toC_ofAngle, Complex.exp_mul_I,
      Complex.arg_mul_cos_add_sin_mul_I h ⟨h1, h2⟩]
  · have e : Vec2.ofAngle θ l = Vec2.ofAngle (θ + Real.pi) (-l) := by
      ext <;> simp [Vec2.ofAngle, Real.cos_add_pi, Real.sin_add_pi]
    rw [e, key _ _ (by linarith), Real.Angle.coe_add]
  · ext <;> simp [Vec2.ofAngle]
  · ext <;> simp [Vec2.ofAngle]

example : (0 : ℝ) < 2 ∧ -Real.pi < 1 ∧ (1 : ℝ) ≤ Real.pi :=
  ⟨by norm_num, by linarith [Real.pi_pos], by linarith [Real.pi_gt_three]⟩

/-- C123: angle and length determine the vector, and every non-null vector has exactly one polar form with
positive length and angle in `(-π,π]`.  The angle of the null vector is 0. -/
theorem C123_roundtrip (v : Vec2 ℝ) :
    Vec2.ofAngle v.angle v.length = v ∧ -Real.pi < v.angle ∧ v.angle ≤ Real.pi ∧
    (∀ θ l : ℝ, 0 < l → -Real.pi < θ → θ ≤ Real.pi → Vec2.ofAngle θ l = v → θ = v.angle ∧ l = v.length) ∧
    (Vec2.zero : Vec2 ℝ).angle = 0 := by
  refine ⟨Vec2.ofAngle_angle v, Complex.neg_pi_lt_arg _, Complex.arg_le_pi _, ?_, ?_⟩
  · rintro θ l h h1 h2 rfl
    exact ⟨((C123_fromAngle θ l).2.2.1 h h1 h2).symm, by rw [Vec2.ofAngle_length, abs_of_pos h]⟩
  · have : (Vec2.zero : Vec2 ℝ).toC = 0 := by apply Complex.ext <;> simp [Vec2.toC, Vec2.zero]
    rw [Vec2.angle_toC, this, Complex.arg_zero]

/-- C123: rotating adds to the angle, scaling by a positive factor keeps it, and dot and cross product are
the products of the lengths with the cosine and the sine of the angle from the first to the second. -/
theorem C123_products (θ l ψ m φ : ℝ) (u v : Vec2 ℝ) :
    (Vec2.ofAngle θ l).rotated φ = Vec2.ofAngle (θ + φ) l ∧
    (v ≠ Vec2.zero → ((v.rotated φ).angle : Real.Angle) = v.angle + φ) ∧
    (0 < m → (v * m).angle = v.angle) ∧
    (Vec2.ofAngle θ l).dot (Vec2.ofAngle ψ m) = l * m * Real.cos (ψ - θ) ∧
    (Vec2.ofAngle θ l).cross (Vec2.ofAngle ψ m) = l * m * Real.sin (ψ - θ) ∧
    u.dot v = u.length * v.length * Real.cos (v.angle - u.angle) ∧
    u.cross v = u.length * v.length * Real.sin (v.angle - u.angle) := by
  have hd : ∀ θ l ψ m : ℝ, (Vec2.ofAngle θ l).dot (Vec2.ofAngle ψ m) = l * m * Real.cos (ψ - θ) := by
    intro θ l ψ m
    simp only [Vec2.ofAngle, Vec2.dot, real_cos, real_sin, Real.cos_sub]; ring
  have hc : ∀ θ l ψ m : ℝ, (Vec2.ofAngle θ l).cross (Vec2.ofAngle ψ m) = l * m * Real.sin (ψ - θ) := by
    intro θ l ψ m
    simp only [Vec2.ofAngle, Vec2.cross, real_cos, real_sin, Real.sin_sub]; ring
  have hr : ∀ θ l φ : ℝ, (Vec2.ofAngle θ l).rotated φ = Vec2.ofAngle (θ + φ) l := by
    intro θ l φ
    ext <;> simp [Vec2.ofAngle, Vec2.rotated, Real.cos_add, Real.sin_add] <;> ring
  refine ⟨hr θ l φ, fun hv => ?_, fun hm => ?_, hd θ l ψ m, hc θ l ψ m, ?_, ?_⟩
  · have hl : 0 < v.length := lt_of_le_of_ne (Real.sqrt_nonneg _) fun h => hv ((C22_length_norm.1 v).1 h.symm)
    conv_lhs => rw [← Vec2.ofAngle_angle v, hr]
    rw [(C123_fromAngle _ _).2.2.2.1 hl, Real.Angle.coe_add]
  · have : (v * m).toC = (m : ℂ) * v.toC := by
      apply Complex.ext <;> simp [Vec2.toC] <;> ring
    rw [Vec2.angle_toC, this, Complex.arg_real_mul _ hm, Vec2.angle_toC]
  · conv_lhs => rw [← Vec2.ofAngle_angle u, ← Vec2.ofAngle_angle v, hd]
  · conv_lhs => rw [← Vec2.ofAngle_angle u, ← Vec2.ofAngle_angle v, hc]

example : (⟨3, -4⟩ : Vec2 ℝ) ≠ Vec2.zero := fun h => by simpa [Vec2.zero] using congrArg Vec2.x h

end MathLib
