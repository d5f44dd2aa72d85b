import Verif.Spec.MatSpec
import Verif.Model.Quat
import Verif.Spec.RealInst
import Mathlib.Algebra.Quaternion

/-! # Rotations and quaternions, independently of the library -/

namespace MathLib
open scoped Quaternion

/-- Orthogonal with determinant one. -/
def IsRotation {n : Type} [Fintype n] [DecidableEq n] {K : Type} [CommRing K] (M : Matrix n n K) : Prop :=
  M.transpose * M = 1 ∧ M.det = 1

/-- Rodrigues' formula: `v` turned by `θ` around the unit vector `u`, counterclockwise when `u` points
towards the viewer. -/
noncomputable def rodrigues (u : Vec3 ℝ) (θ : ℝ) (v : Vec3 ℝ) : Vec3 ℝ :=
  v * Real.cos θ + u.cross v * Real.sin θ + u * (u.dot v * (1 - Real.cos θ))

/-- The library's quaternion as Mathlib's `w + x i + y j + z k`. -/
def Quat.toQ {K : Type} [CommRing K] (q : Quat K) : ℍ[K] := ⟨q.w, q.x, q.y, q.z⟩

/-- A vector as a pure quaternion. -/
def Vec3.toQ {K : Type} [CommRing K] (v : Vec3 K) : ℍ[K] := ⟨0, v.x, v.y, v.z⟩

/-- Unit quaternions. -/
def Quat.IsUnit {K : Type} [CommRing K] (q : Quat K) : Prop :=
  q.x ^ 2 + q.y ^ 2 + q.z ^ 2 + q.w ^ 2 = 1

end MathLib
