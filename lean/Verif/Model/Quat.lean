import Verif.Model.Mat3

/-! # Model of `quat.h`, part 2, and of the functions of `mat3.h`/`vec3.h` that use quaternions -/

namespace MathLib
variable {R : Type} [Zero R] [One R] [NatCast R] [Add R] [Sub R] [Mul R] [Div R] [Neg R] [LT R]
  [LE R] [DecidableLT R] [DecidableLE R] [BEq R] [MathFns R]

/-- Common text of `Quat::set(const Mat3&)` and `Quat::set(const Mat4&)`, impl/quat.h:49-80 and
88-119, on the columns of the (upper left) 3×3 block and the trace. -/
def Quat.ofCols (x y z : Vec3 R) (tr : R) : Quat R :=
  if tr > 0 then
    let s := MathFns.sqrt (1 + tr) * 2
    ⟨(y.z - z.y) / s, (z.x - x.z) / s, (x.y - y.x) / s, s / 4⟩
  else if x.x > y.y ∧ x.x > z.z then
    let s := MathFns.sqrt (1 + x.x - y.y - z.z) * 2
    ⟨s / 4, (y.x + x.y) / s, (z.x + x.z) / s, (y.z - z.y) / s⟩
  else if y.y > z.z then
    let s := MathFns.sqrt (1 + y.y - x.x - z.z) * 2
    ⟨(y.x + x.y) / s, s / 4, (z.y + y.z) / s, (z.x - x.z) / s⟩
  else
    let s := MathFns.sqrt (1 + z.z - x.x - y.y) * 2
    ⟨(z.x + x.z) / s, (z.y + y.z) / s, s / 4, (x.y - y.x) / s⟩

/-- `Quat::set(const Mat3&)`, impl/quat.h:45-82. -/
def Quat.ofMat3 (m : Mat3 R) : Quat R := Quat.ofCols m.x m.y m.z m.trace

/-- `Quat::rotated(const Vec3&)`, impl/quat.h:555-561. -/
def Quat.rotated (q : Quat R) (v : Vec3 R) : Vec3 R := (Mat3.ofQuat q).mulVec v

/-- `Mat3::slerp`, impl/mat3.h:225-233, and `fromSlerp` (290-296). -/
def Mat3.slerp (a b : Mat3 R) (weight : R) : Res (Mat3 R) := do
  let qr ← Quat.slerp (Quat.ofMat3 a) (Quat.ofMat3 b) weight
  .ok (Mat3.ofQuat qr)

/-- `Mat3::slerpMaxAngle`, impl/mat3.h:235-243, and `fromSlerpMaxAngle` (298-304). -/
def Mat3.slerpMaxAngle (a b : Mat3 R) (maxAngle : R) : Res (Mat3 R) := do
  let qr ← Quat.slerpMaxAngle (Quat.ofMat3 a) (Quat.ofMat3 b) maxAngle
  .ok (Mat3.ofQuat qr)

/-- `Mat3::orthonormalise`, impl/mat3.h:620-627. -/
def Mat3.orthonormalise (m : Mat3 R) : Mat3 R := Mat3.ofQuat (Quat.ofMat3 m).normalize

end MathLib
