import Verif.Model.Spline
import Verif.Spec.RealInst
import Verif.Spec.VecSpec
import Mathlib.Analysis.Calculus.Deriv.Basic

/-! # Cubic curves, independently of the library -/

namespace MathLib

/-- The cubic Bezier curve with control points `p 0 … p 3` in Bernstein form, for every real `t`. -/
noncomputable def bernsteinCurve (p : Fin 4 → EuclideanSpace ℝ (Fin 3)) (t : ℝ) : EuclideanSpace ℝ (Fin 3) :=
  ∑ k : Fin 4, ((Nat.choose 3 k : ℝ) * t ^ (k : ℕ) * (1 - t) ^ (3 - (k : ℕ))) • p k

/-- the control points of a segment -/
def BezierSegment3.ctrl (s : BezierSegment3 ℝ) : Fin 4 → EuclideanSpace ℝ (Fin 3) :=
  ![s.P1.toE, s.P2.toE, s.P3.toE, s.P4.toE]

/-- the curve of a segment -/
noncomputable def BezierSegment3.curve (s : BezierSegment3 ℝ) (t : ℝ) : EuclideanSpace ℝ (Fin 3) :=
  bernsteinCurve s.ctrl t

/-- `t` follows `s` smoothly: it starts where `s` ends, with the same first and second derivative. -/
def BezierSegment3.JoinC2 (s t : BezierSegment3 ℝ) : Prop :=
  s.curve 1 = t.curve 0 ∧ deriv s.curve 1 = deriv t.curve 0 ∧ deriv (deriv s.curve) 1 = deriv (deriv t.curve) 0

/-- the segments between the points `k` with inner control points `q2` and `q3` -/
def splineSeg (k q2 q3 : ℕ → Vec3 ℝ) (i : ℕ) : BezierSegment3 ℝ := ⟨k i, q2 i, q3 i, k (i + 1)⟩

/-- `m` segments form a natural spline: smooth at the joints, no second derivative at the two ends. -/
def IsNaturalSpline (m : ℕ) (seg : ℕ → BezierSegment3 ℝ) : Prop :=
  (∀ i, i + 1 < m → (seg i).JoinC2 (seg (i + 1))) ∧ deriv (deriv (seg 0).curve) 0 = 0 ∧
    deriv (deriv (seg (m - 1)).curve) 1 = 0

/-- `m` segments form a spline with given first and last inner control point. -/
def IsClampedSpline (m : ℕ) (first last : Vec3 ℝ) (seg : ℕ → BezierSegment3 ℝ) : Prop :=
  (∀ i, i + 1 < m → (seg i).JoinC2 (seg (i + 1))) ∧ (seg 0).P2 = first ∧ (seg (m - 1)).P3 = last

/-- the segments of a closed curve: the last one leads back to `k 0` -/
def closedSeg (n : ℕ) (k q2 q3 : ℕ → Vec3 ℝ) (i : ℕ) : BezierSegment3 ℝ := ⟨k i, q2 i, q3 i, k ((i + 1) % n)⟩

/-- `n` segments form a smooth closed curve. -/
def IsClosedSpline (n : ℕ) (seg : ℕ → BezierSegment3 ℝ) : Prop := ∀ i < n, (seg i).JoinC2 (seg ((i + 1) % n))

end MathLib
