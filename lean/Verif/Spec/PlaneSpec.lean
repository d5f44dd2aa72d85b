import Verif.Model.Geom
import Verif.Spec.VecSpec
import Mathlib.Data.Set.Defs

/-! # Point sets of planes -/

namespace MathLib
variable {K : Type}

/-- the points with `normal · q = d` -/
def Plane.toSet [Add K] [Mul K] (p : Plane K) : Set (Vec3 K) :=
  {q | p.normal.x * q.x + p.normal.y * q.y + p.normal.z * q.z = p.d}

/-- the normal has length one -/
def Plane.IsUnit [Add K] [Mul K] [One K] (p : Plane K) : Prop :=
  p.normal.x * p.normal.x + p.normal.y * p.normal.y + p.normal.z * p.normal.z = 1

end MathLib
