import Verif.Spec.Curve
import Verif.Proof.BallLemmas
import Verif.Proof.VecModule
import Mathlib.Analysis.Calculus.Deriv.Pow
import Mathlib.Analysis.Calculus.Deriv.Add
import Mathlib.Analysis.Calculus.Deriv.Mul

/-! # Bezier segments -/

namespace MathLib
namespace BezierSegment3

theorem curve_eq (s : BezierSegment3 ℝ) (t : ℝ) :
    s.curve t = (1 - t) ^ 3 • s.P1.toE + (3 * t * (1 - t) ^ 2) • s.P2.toE + (3 * t ^ 2 * (1 - t)) • s.P3.toE +
      t ^ 3 • s.P4.toE := by
  simp [curve, bernsteinCurve, Fin.sum_univ_four, ctrl, Nat.choose]

/-- value, first and second derivative as polynomial expressions in the control points -/
def val (s : BezierSegment3 ℝ) (t : ℝ) : Vec3 ℝ :=
  s.P1 * ((1 - t) ^ 3) + s.P2 * (3 * t * (1 - t) ^ 2) + s.P3 * (3 * t ^ 2 * (1 - t)) + s.P4 * (t ^ 3)
def der (s : BezierSegment3 ℝ) (t : ℝ) : Vec3 ℝ :=
  s.P1 * (-3 * (1 - t) ^ 2) + s.P2 * (3 * (1 - t) ^ 2 - 6 * t * (1 - t)) + s.P3 * (6 * t * (1 - t) - 3 * t ^ 2) +
    s.P4 * (3 * t ^ 2)
def der2 (s : BezierSegment3 ℝ) (t : ℝ) : Vec3 ℝ :=
  s.P1 * (6 * (1 - t)) + s.P2 * (18 * t - 12) + s.P3 * (6 - 18 * t) + s.P4 * (6 * t)

theorem toE_val (s : BezierSegment3 ℝ) (t : ℝ) : (s.val t).toE = s.curve t := by
  rw [curve_eq, val, Vec3.toE_add, Vec3.toE_add, Vec3.toE_add, Vec3.toE_mul, Vec3.toE_mul, Vec3.toE_mul, Vec3.toE_mul]

theorem hasDerivAt_lin4 {f₁ f₂ f₃ f₄ : ℝ → ℝ} {a₁ a₂ a₃ a₄ t : ℝ} (h1 : HasDerivAt f₁ a₁ t) (h2 : HasDerivAt f₂ a₂ t)
    (h3 : HasDerivAt f₃ a₃ t) (h4 : HasDerivAt f₄ a₄ t) (v₁ v₂ v₃ v₄ : Vec3 ℝ) :
    HasDerivAt (fun t => (v₁ * f₁ t + v₂ * f₂ t + v₃ * f₃ t + v₄ * f₄ t).toE)
      (v₁ * a₁ + v₂ * a₂ + v₃ * a₃ + v₄ * a₄).toE t := by
  simp only [Vec3.toE_add, Vec3.toE_mul]
  exact (((h1.smul_const _).add (h2.smul_const _)).add (h3.smul_const _)).add (h4.smul_const _)

/-- derivative of a cubic polynomial -/
theorem hasDerivAt_cubic (a b c d t : ℝ) :
    HasDerivAt (fun t => a * t ^ 3 + b * t ^ 2 + c * t + d) (3 * a * t ^ 2 + 2 * b * t + c) t := by
  have h3 := (hasDerivAt_pow 3 t).const_mul a
  have h2 := (hasDerivAt_pow 2 t).const_mul b
  have h1 := (hasDerivAt_id t).const_mul c
  have := ((h3.add h2).add h1).add_const d
  refine HasDerivAt.congr_deriv this ?_
  push_cast
  ring

theorem hasDerivAt_of_cubic {f : ℝ → ℝ} {f' t : ℝ} (a b c d : ℝ) (hf : ∀ t, f t = a * t ^ 3 + b * t ^ 2 + c * t + d)
    (hf' : f' = 3 * a * t ^ 2 + 2 * b * t + c) : HasDerivAt f f' t := by
  rw [hf', funext hf]
  exact hasDerivAt_cubic a b c d t

theorem hasDerivAt_curve (s : BezierSegment3 ℝ) (t : ℝ) : HasDerivAt s.curve (s.der t).toE t := by
  have : s.curve = fun t => (s.val t).toE := funext fun t => (s.toE_val t).symm
  rw [this]
  exact hasDerivAt_lin4 (hasDerivAt_of_cubic (-1) 3 (-3) 1 (fun t => by ring) (by ring))
    (hasDerivAt_of_cubic 3 (-6) 3 0 (fun t => by ring) (by ring))
    (hasDerivAt_of_cubic (-3) 3 0 0 (fun t => by ring) (by ring))
    (hasDerivAt_of_cubic 1 0 0 0 (fun t => by ring) (by ring)) _ _ _ _

theorem hasDerivAt_der (s : BezierSegment3 ℝ) (t : ℝ) : HasDerivAt (fun t => (s.der t).toE) (s.der2 t).toE t :=
  hasDerivAt_lin4 (hasDerivAt_of_cubic 0 (-3) 6 (-3) (fun t => by ring) (by ring))
    (hasDerivAt_of_cubic 0 9 (-12) 3 (fun t => by ring) (by ring))
    (hasDerivAt_of_cubic 0 (-9) 6 0 (fun t => by ring) (by ring))
    (hasDerivAt_of_cubic 0 3 0 0 (fun t => by ring) (by ring)) _ _ _ _

theorem deriv_curve (s : BezierSegment3 ℝ) : deriv s.curve = fun t => (s.der t).toE :=
  funext fun t => (s.hasDerivAt_curve t).deriv
theorem deriv2_curve (s : BezierSegment3 ℝ) : deriv (deriv s.curve) = fun t => (s.der2 t).toE := by
  rw [deriv_curve]; exact funext fun t => (s.hasDerivAt_der t).deriv

theorem pointAt_eq (s : BezierSegment3 ℝ) {t : ℝ} (ht : t ∈ Set.Icc (0 : ℝ) 1) : s.pointAt t = .ok (s.val t) := by
  rw [pointAt, if_pos ⟨ht.1, ht.2⟩]
  apply congrArg Except.ok
  ext <;> simp [val] <;> ring

theorem tangentAt_eq (s : BezierSegment3 ℝ) {t : ℝ} (ht : t ∈ Set.Icc (0 : ℝ) 1) : s.tangentAt t = .ok (s.der t) := by
  rw [tangentAt, if_pos ⟨ht.1, ht.2⟩]
  apply congrArg Except.ok
  ext <;> simp [der] <;> ring

end BezierSegment3

theorem Vec3.toE_inj {u v : Vec3 ℝ} (h : u.toE = v.toE) : u = v := by
  have hx := congrFun (congrArg WithLp.ofLp h) 0
  have hy := congrFun (congrArg WithLp.ofLp h) 1
  have hz := congrFun (congrArg WithLp.ofLp h) 2
  ext
  · exact hx
  · exact hy
  · exact hz

end MathLib
