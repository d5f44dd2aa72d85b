import Verif.Model.Mat34
import Verif.Model.Mat4
import Verif.Spec.VecSpec
import Mathlib.LinearAlgebra.Matrix.NonsingularInverse

/-! # Matrices as Mathlib matrices

`toM` forgets the flags.  An affine map (`Mat34`) is its homogeneous 4×4 matrix. -/

namespace MathLib
variable {R : Type}

def Mat2.toM (m : Mat2 R) : Matrix (Fin 2) (Fin 2) R :=
  !![m.x.x, m.y.x;
     m.x.y, m.y.y]

def Mat3.toM (m : Mat3 R) : Matrix (Fin 3) (Fin 3) R :=
  !![m.x.x, m.y.x, m.z.x;
     m.x.y, m.y.y, m.z.y;
     m.x.z, m.y.z, m.z.z]

def Mat34.toM [Zero R] [One R] (m : Mat34 R) : Matrix (Fin 4) (Fin 4) R :=
  !![m.rs.x.x, m.rs.y.x, m.rs.z.x, m.t.x;
     m.rs.x.y, m.rs.y.y, m.rs.z.y, m.t.y;
     m.rs.x.z, m.rs.y.z, m.rs.z.z, m.t.z;
     0, 0, 0, 1]

def Mat4.toM (m : Mat4 R) : Matrix (Fin 4) (Fin 4) R :=
  !![m.x.x, m.y.x, m.z.x, m.t.x;
     m.x.y, m.y.y, m.z.y, m.t.y;
     m.x.z, m.y.z, m.z.z, m.t.z;
     m.x.w, m.y.w, m.z.w, m.t.w]

/-- Homogeneous coordinates of a point. -/
def Vec3.toH [One R] (v : Vec3 R) : Fin 4 → R := ![v.x, v.y, v.z, 1]

end MathLib
