import Verif.Model.Vec
import Mathlib.LinearAlgebra.CrossProduct
import Mathlib.Analysis.InnerProductSpace.PiL2

/-! # Vectors as Mathlib vectors -/

namespace MathLib
variable {R : Type}

/-- Components as a function on `Fin n`. -/
def Vec2.toFn (v : Vec2 R) : Fin 2 → R := ![v.x, v.y]
def Vec3.toFn (v : Vec3 R) : Fin 3 → R := ![v.x, v.y, v.z]
def Vec4.toFn (v : Vec4 R) : Fin 4 → R := ![v.x, v.y, v.z, v.w]

/-- As elements of Euclidean space. -/
def Vec2.toE (v : Vec2 ℝ) : EuclideanSpace ℝ (Fin 2) := WithLp.toLp 2 v.toFn
def Vec3.toE (v : Vec3 ℝ) : EuclideanSpace ℝ (Fin 3) := WithLp.toLp 2 v.toFn
def Vec4.toE (v : Vec4 ℝ) : EuclideanSpace ℝ (Fin 4) := WithLp.toLp 2 v.toFn

end MathLib
