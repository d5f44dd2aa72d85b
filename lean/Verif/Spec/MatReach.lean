import Verif.Spec.MatSpec
import Verif.Spec.RealInst

/-! # Matrices reachable through the public interface

Every constructor, setter and operation of the classes is a rule; the entries are public members
too, but writing to them directly without calling `optimize` is not considered.  The number counts
the matrices multiplied together. -/

namespace MathLib
noncomputable section

/-- Operations of `Mat2` (mat2.h:5-109). -/
inductive Mat2.Reach : ℕ → Mat2 ℝ → Prop
  | ofScalar (k) : Reach 1 (.ofScalar k)
  | setIdentity : Reach 1 .setIdentity
  | ofCols (x y) : Reach 1 (.ofCols x y)
  | ofAngle (a) : Reach 1 (.ofAngle a)
  | slerp (a b w) : Reach 1 (Mat2.slerp a b w)
  | slerpMaxAngle (a b w) : Reach 1 (Mat2.slerpMaxAngle a b w)
  | optimize {n m} : Reach n m → Reach 1 m.optimize
  | orthonormalise {n m} : Reach n m → Reach 1 m.orthonormalise
  | smulAssign {n m} (k) : Reach n m → Reach n (m.smulAssign k)
  | sdivAssign {n m m'} (k) : Reach n m → m.sdivAssign k = .ok m' → Reach n m'
  | neg {n m} : Reach n m → Reach n m.neg
  | smul {n m} (k) : Reach n m → Reach n (m.smul k)
  | sdiv {n m m'} (k) : Reach n m → m.sdiv k = .ok m' → Reach n m'
  | scale {n m} (c) : Reach n m → Reach n (m.scale c)
  | scaled {n m} (c) : Reach n m → Reach n (m.scaled c)
  | rotate {n m} (a) : Reach n m → Reach n (m.rotate a)
  | rotated {n m} (a) : Reach n m → Reach n (m.rotated a)
  | rotatePre {n m} (a) : Reach n m → Reach n (m.rotatePre a)
  | mul {n k a b} : Reach n a → Reach k b → Reach (n + k) (a.mul b)
  | mulAssign {n k a b} : Reach n a → Reach k b → Reach (n + k) (a.mulAssign b)
  | transpose {n m} : Reach n m → Reach n m.transpose
  | transposed {n m} : Reach n m → Reach n m.transposed
  | cofactors {n m} : Reach n m → Reach n m.cofactors
  | adjoint {n m} : Reach n m → Reach n m.adjoint
  | inversed {n m m'} : Reach n m → m.inversed = .ok m' → Reach n m'

/-- Operations of `Mat3` (mat3.h:5-134).  The rotations by a coordinate axis are included if `coord`
holds. -/
inductive Mat3.Reach (coord : Prop) : ℕ → Mat3 ℝ → Prop
  | ofScalar (k) : Reach coord 1 (.ofScalar k)
  | setIdentity : Reach coord 1 .setIdentity
  | ofCols (x y z) : Reach coord 1 (.ofCols x y z)
  | ofQuat (q) : Reach coord 1 (.ofQuat q)
  | ofExactApprox {m} (e u a v) : Mat3.ofExactApprox e u a v = .ok m → Reach coord 1 m
  | ofAxisAngle (u a) : Reach coord 1 (.ofAxisAngle u a)
  | ofCoordAngle {m} (c a) : Mat3.ofCoordAngle c a = .ok m → Reach coord 1 m
  | slerp {m} (a b w) : Mat3.slerp a b w = .ok m → Reach coord 1 m
  | slerpMaxAngle {m} (a b w) : Mat3.slerpMaxAngle a b w = .ok m → Reach coord 1 m
  | optimize {n m} : Reach coord n m → Reach coord 1 m.optimize
  | orthonormalise {n m} : Reach coord n m → Reach coord 1 m.orthonormalise
  | smulAssign {n m} (k) : Reach coord n m → Reach coord n (m.smulAssign k)
  | sdivAssign {n m m'} (k) : Reach coord n m → m.sdivAssign k = .ok m' → Reach coord n m'
  | neg {n m} : Reach coord n m → Reach coord n m.neg
  | smul {n m} (k) : Reach coord n m → Reach coord n (m.smul k)
  | sdiv {n m m'} (k) : Reach coord n m → m.sdiv k = .ok m' → Reach coord n m'
  | scale {n m} (c) : Reach coord n m → Reach coord n (m.scale c)
  | scaled {n m} (c) : Reach coord n m → Reach coord n (m.scaled c)
  | mul {n k a b} : Reach coord n a → Reach coord k b → Reach coord (n + k) (a.mul b)
  | mulAssign {n k a b} : Reach coord n a → Reach coord k b → Reach coord (n + k) (a.mulAssign b)
  | rotate {n k a b} : Reach coord n a → Reach coord k b → Reach coord (n + k) (a.rotate b)
  | rotated {n k a b} : Reach coord n a → Reach coord k b → Reach coord (n + k) (a.rotated b)
  | rotatePre {n k a b} : Reach coord n a → Reach coord k b → Reach coord (n + k) (a.rotatePre b)
  | rotatedPre {n k a b} : Reach coord n a → Reach coord k b → Reach coord (n + k) (a.rotatedPre b)
  | rotateQuat {n m} (q) : Reach coord n m → Reach coord (n + 1) (m.rotateQuat q)
  | rotatedQuat {n m} (q) : Reach coord n m → Reach coord (n + 1) (m.rotatedQuat q)
  | rotatePreQuat {n m} (q) : Reach coord n m → Reach coord (n + 1) (m.rotatePreQuat q)
  | rotatedPreQuat {n m} (q) : Reach coord n m → Reach coord (n + 1) (m.rotatedPreQuat q)
  | rotateAxis {n m} (u a) : Reach coord n m → Reach coord (n + 1) (m.rotateAxis u a)
  | rotatedAxis {n m} (u a) : Reach coord n m → Reach coord (n + 1) (m.rotatedAxis u a)
  | rotatePreAxis {n m} (u a) : Reach coord n m → Reach coord (n + 1) (m.rotatePreAxis u a)
  | rotatedPreAxis {n m} (u a) : Reach coord n m → Reach coord (n + 1) (m.rotatedPreAxis u a)
  | transpose {n m} : Reach coord n m → Reach coord n m.transpose
  | transposed {n m} : Reach coord n m → Reach coord n m.transposed
  | cofactors {n m} : Reach coord n m → Reach coord n m.cofactors
  | adjoint {n m} : Reach coord n m → Reach coord n m.adjoint
  | inversed {n m m'} : Reach coord n m → m.inversed = .ok m' → Reach coord n m'
  | invert {n m m'} : Reach coord n m → m.invert = .ok m' → Reach coord n m'
  | rotateCoord {n m m'} (c a) : coord → Reach coord n m → m.rotateCoord c a = .ok m' →
      Reach coord (n + 1) m'
  | rotatePreCoord {n m m'} (c a) : coord → Reach coord n m → m.rotatePreCoord c a = .ok m' →
      Reach coord (n + 1) m'
  | rotatedCoord {n m m'} (c a) : coord → Reach coord n m → m.rotatedCoord c a = .ok m' →
      Reach coord (n + 1) m'
  | rotatedPreCoord {n m m'} (c a) : coord → Reach coord n m → m.rotatedPreCoord c a = .ok m' →
      Reach coord (n + 1) m'

/-- Operations of `Mat4` (mat4.h:5-160).  Transposition is included if `tr` holds, inversion if
`inv` holds. -/
inductive Mat4.Reach (tr inv : Prop) : Mat4 ℝ → Prop
  | ofScalar (k) : Reach tr inv (.ofScalar k)
  | setIdentity : Reach tr inv .setIdentity
  | ofCols (x y z t) : Reach tr inv (.ofCols x y z t)
  | ofCols3 (x y z t) : Reach tr inv (.ofCols3 x y z t)
  | ofQuat (q t) : Reach tr inv (.ofQuat q t)
  | ofExactApprox {m} (e u a v) : Mat4.ofExactApprox e u a v = .ok m → Reach tr inv m
  | ofAxisAngle (u a) : Reach tr inv (.ofAxisAngle u a)
  | ofCoordAngle {m} (c a) : Mat4.ofCoordAngle c a = .ok m → Reach tr inv m
  | optimize {m} : Reach tr inv m → Reach tr inv m.optimize
  | orthonormalise {m} : Reach tr inv m → Reach tr inv m.orthonormalise
  | smulAssign {m} (k) : Reach tr inv m → Reach tr inv (m.smulAssign k)
  | sdivAssign {m m'} (k) : Reach tr inv m → m.sdivAssign k = .ok m' → Reach tr inv m'
  | neg {m} : Reach tr inv m → Reach tr inv m.neg
  | smul {m} (k) : Reach tr inv m → Reach tr inv (m.smul k)
  | sdiv {m} (k) : Reach tr inv m → Reach tr inv (m.sdiv k)
  | mul {a b} : Reach tr inv a → Reach tr inv b → Reach tr inv (a.mul b)
  | transform {a b} : Reach tr inv a → Reach tr inv b → Reach tr inv (a.transform b)
  | transformPre {a b} : Reach tr inv a → Reach tr inv b → Reach tr inv (a.transformPre b)
  | transformed {a b} : Reach tr inv a → Reach tr inv b → Reach tr inv (a.transformed b)
  | transformedPre {a b} : Reach tr inv a → Reach tr inv b → Reach tr inv (a.transformedPre b)
  | rotateQuat {m} (q) : Reach tr inv m → Reach tr inv (m.rotateQuat q)
  | rotateAxis {m} (u a) : Reach tr inv m → Reach tr inv (m.rotateAxis u a)
  | rotateCoord {m m'} (c a) : Reach tr inv m → m.rotateCoord c a = .ok m' → Reach tr inv m'
  | rotatePreQuat {m} (q) : Reach tr inv m → Reach tr inv (m.rotatePreQuat q)
  | rotatePreAxis {m} (u a) : Reach tr inv m → Reach tr inv (m.rotatePreAxis u a)
  | rotatePreCoord {m m'} (c a) : Reach tr inv m → m.rotatePreCoord c a = .ok m' → Reach tr inv m'
  | rotatedQuat {m} (q) : Reach tr inv m → Reach tr inv (m.rotatedQuat q)
  | rotatedAxis {m} (u a) : Reach tr inv m → Reach tr inv (m.rotatedAxis u a)
  | rotatedCoord {m m'} (c a) : Reach tr inv m → m.rotatedCoord c a = .ok m' → Reach tr inv m'
  | rotatedPreQuat {m} (q) : Reach tr inv m → Reach tr inv (m.rotatedPreQuat q)
  | rotatedPreAxis {m} (u a) : Reach tr inv m → Reach tr inv (m.rotatedPreAxis u a)
  | rotatedPreCoord {m m'} (c a) : Reach tr inv m → m.rotatedPreCoord c a = .ok m' →
      Reach tr inv m'
  | translate {m} (v) : Reach tr inv m → Reach tr inv (m.translate v)
  | translatePre {m} (v) : Reach tr inv m → Reach tr inv (m.translatePre v)
  | translated {m} (v) : Reach tr inv m → Reach tr inv (m.translated v)
  | translatedPre {m} (v) : Reach tr inv m → Reach tr inv (m.translatedPre v)
  | scale {m} (v) : Reach tr inv m → Reach tr inv (m.scale v)
  | scalePre {m} (v) : Reach tr inv m → Reach tr inv (m.scalePre v)
  | scaled {m} (v) : Reach tr inv m → Reach tr inv (m.scaled v)
  | scaledPre {m} (v) : Reach tr inv m → Reach tr inv (m.scaledPre v)
  | transpose {m} : tr → Reach tr inv m → Reach tr inv m.transpose
  | transposed {m} : tr → Reach tr inv m → Reach tr inv m.transposed
  | invert {m} : inv → Reach tr inv m → Reach tr inv m.invert
  | inversed {m m'} : inv → Reach tr inv m → m.inversed = .ok m' → Reach tr inv m'

end
end MathLib
