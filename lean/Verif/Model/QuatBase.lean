import Verif.Model.Vec

/-! # Model of `quat.h`, part 1: everything that does not involve matrices -/

namespace MathLib

/-- `class Quat`, quat.h:5-81. -/
@[ext] structure Quat (R : Type) where
  x : R
  y : R
  z : R
  w : R
  deriving DecidableEq, Repr

variable {R : Type} [Zero R] [One R] [NatCast R] [Add R] [Sub R] [Mul R] [Div R] [Neg R] [LT R]
  [LE R] [DecidableLT R] [DecidableLE R] [BEq R] [MathFns R]

namespace Quat

/-- `Quat::setIdentity`, impl/quat.h:25-33, and `Quat::One`, impl/quat.h:7-8. -/
def identity : Quat R := ⟨0, 0, 0, 1⟩

/-- `Quat::normalize`, impl/quat.h:300-314. -/
def normalize (q : Quat R) : Quat R :=
  let n := MathFns.sqrt (q.x * q.x + q.y * q.y + q.z * q.z + q.w * q.w)
  if n == 0 then identity
  else
    let oneover := 1 / n
    ⟨q.x * oneover, q.y * oneover, q.z * oneover, q.w * oneover⟩

/-- `Quat(x, y, z, w, autoNormalize)`, impl/quat.h:15-23 (`autoNormalize` defaults to true). -/
def mk' (x y z w : R) (autoNormalize : Bool) : Quat R :=
  if autoNormalize then normalize ⟨x, y, z, w⟩ else ⟨x, y, z, w⟩

/-- `Quat::operator*(const Quat&)`, impl/quat.h:429-438. -/
def mul (p q : Quat R) : Quat R :=
  ⟨p.w * q.x + p.x * q.w + p.y * q.z - p.z * q.y,
   p.w * q.y + p.y * q.w + p.z * q.x - p.x * q.z,
   p.w * q.z + p.z * q.w + p.x * q.y - p.y * q.x,
   p.w * q.w - p.x * q.x - p.y * q.y - p.z * q.z⟩

/-- `Quat::operator*(const Vec3&)`, impl/quat.h:440-448. -/
def mulVec (q : Quat R) (v : Vec3 R) : Vec3 R :=
  ⟨q.w * v.x + q.y * v.z - q.z * v.y,
   q.w * v.y + q.z * v.x - q.x * v.z,
   q.w * v.z + q.x * v.y - q.y * v.x⟩

/-- unary `Quat::operator-`, impl/quat.h:450-459. -/
def neg (q : Quat R) : Quat R := ⟨-q.x, -q.y, -q.z, -q.w⟩

/-- `Quat::inverse`, impl/quat.h:563-572. -/
def inverse (q : Quat R) : Quat R := ⟨-q.x, -q.y, -q.z, q.w⟩

/-- `Quat::operator/`, impl/quat.h:461-473.  The local `r` is built with `autoNormalize`. -/
def div (p q : Quat R) : Quat R :=
  let r := mk' (-q.x) (-q.y) (-q.z) q.w true
  let s := 1 / (r.w * r.w - r.x * r.x - r.y * r.y - r.z * r.z)
  let t := mul p q
  ⟨t.x * s, t.y * s, t.z * s, t.w * s⟩

/-- `Quat::operator==`, impl/quat.h:480-484. -/
def eq (p q : Quat R) : Bool := p.x == q.x && p.y == q.y && p.z == q.z && p.w == q.w

/-- `Quat::operator!=`, impl/quat.h:486-490. -/
def ne (p q : Quat R) : Bool := p.x != q.x || p.y != q.y || p.z != q.z || p.w != q.w

/-- `Quat::set(const Vec3& axis, Real angle)`, impl/quat.h:123-138. -/
def ofAxisAngle (axis : Vec3 R) (angle : R) : Quat R :=
  let vn := axis.length
  if vn == 0 then identity
  else
    let angle := angle * (1 / 2)
    let s := MathFns.sin angle / vn
    ⟨axis.x * s, axis.y * s, axis.z * s, MathFns.cos angle⟩

/-- `Quat::set(const Vec3& from, const Vec3& to)`, impl/quat.h:140-172
(`normalized()` has the default argument 1). -/
def ofVecs (from2 to2 : Vec3 R) : Quat R :=
  let «from» := from2.normalized 1
  let to := to2.normalized 1
  let cost := «from».dot to
  if cost > 99999 / 100000 then ⟨0, 0, 0, 1⟩
  else if cost < -(99999 / 100000) then ⟨0, 0, 0, -1⟩
  else
    let t := («from».cross to).normalized 1
    let s := MathFns.sqrt (1 / 2 * (1 - cost))
    ⟨t.x * s, t.y * s, t.z * s, MathFns.sqrt (1 / 2 * (1 + cost))⟩

/-- `Quat::lerp`, impl/quat.h:174-183. -/
def lerp («from» to : Quat R) (weight : R) : Res (Quat R) :=
  if weight ≥ 0 ∧ weight ≤ 1 then
    .ok (normalize ⟨«from».x + (to.x - «from».x) * weight, «from».y + (to.y - «from».y) * weight,
      «from».z + (to.z - «from».z) * weight, «from».w + (to.w - «from».w) * weight⟩)
  else .error .assertion

/-- The dot product computed in `slerp` and `slerpNoInvert`, impl/quat.h:190 and 244. -/
def dot (p q : Quat R) : R := p.x * q.x + p.y * q.y + p.z * q.z + p.w * q.w

/-- The spherical branch shared by `slerp` (impl/quat.h:208-217) and `slerpNoInvert`
(impl/quat.h:248-259). -/
def slerpArc («from» to : Quat R) (dot weight : R) : Quat R :=
  let angle := acos' dot
  let sina := MathFns.sin angle
  let sinat := MathFns.sin (angle * weight)
  let sinaomt := MathFns.sin (angle * (1 - weight))
  let recipsina := 1 / sina
  ⟨(«from».x * sinaomt + to.x * sinat) * recipsina,
   («from».y * sinaomt + to.y * sinat) * recipsina,
   («from».z * sinaomt + to.z * sinat) * recipsina,
   («from».w * sinaomt + to.w * sinat) * recipsina⟩

/-- `Quat::slerp`, impl/quat.h:185-223. -/
def slerp («from» to : Quat R) (weight : R) : Res (Quat R) :=
  if weight ≥ 0 ∧ weight ≤ 1 then
    let d := dot «from» to
    let d' := if d < 0 then -d else d
    let q3 := if d < 0 then (⟨-to.x, -to.y, -to.z, -to.w⟩ : Quat R) else to
    if d' < 95 / 100 then .ok (slerpArc «from» q3 d' weight)
    else lerp «from» q3 weight
  else .error .assertion

/-- `Quat::slerpNoInvert`, impl/quat.h:239-265 (the literal `0.95f` is 15938355 / 2^24 exactly). -/
def slerpNoInvert («from» to : Quat R) (weight : R) : Res (Quat R) :=
  if weight ≥ 0 ∧ weight ≤ 1 then
    let d := dot «from» to
    if d < 15938355 / 16777216 then .ok (slerpArc «from» to d weight)
    else lerp «from» to weight
  else .error .assertion

/-- `Quat::set(from, to, a, b, weight)` (squad), impl/quat.h:267-275. -/
def squad («from» to a b : Quat R) (weight : R) : Res (Quat R) :=
  if weight ≥ 0 ∧ weight ≤ 1 then do
    let tmp1 ← slerpNoInvert «from» to weight
    let tmp2 ← slerpNoInvert a b weight
    slerpNoInvert tmp1 tmp2 (2 * weight * (1 - weight))
  else .error .assertion

/-- `Quat::toAxisAngle`, impl/quat.h:574-595; `DELTA`, impl/quat.h:5, is
the `float` literal `1e-6f`, exactly 8796093 / 2^43. -/
def toAxisAngle (q : Quat R) : Res (Vec3 R × R) :=
  if q.w ≥ -1 ∧ q.w ≤ 1 then
    let s2 := 1 - q.w * q.w
    let len := q.x * q.x + q.y * q.y + q.z * q.z
    if len > 8796093 / 8796093022208 ∧ s2 > 0 then
      let angle := 2 * acos' q.w
      let recip := 1 / MathFns.sqrt s2
      let axis : Vec3 R := ⟨q.x * recip, q.y * recip, q.z * recip⟩
      .ok ((axis.normalize 1).1, angle)
    else .ok (Vec3.oneX, 0)
  else .error .assertion

/-- `Quat::slerpMaxAngle`, impl/quat.h:225-237. -/
def slerpMaxAngle («from» to : Quat R) (maxAngle : R) : Res (Quat R) :=
  if maxAngle ≥ 0 then do
    let fromto := mul «from».inverse to
    let (axis, angle) ← fromto.toAxisAngle
    .ok (ofAxisAngle axis (min' angle maxAngle))
  else .error .assertion

/-- `Quat::rotated(Coord)`, impl/quat.h:497-553. -/
def rotatedCoord (q : Quat R) : Coord → Res (Vec3 R)
  | .X =>
    let qyy := 2 * q.y * q.y
    let qzz := 2 * q.z * q.z
    let qxy := 2 * q.x * q.y
    let qzw := 2 * q.z * q.w
    let qxz := 2 * q.x * q.z
    let qyw := 2 * q.y * q.w
    .ok ⟨1 - qyy - qzz, qxy + qzw, qxz - qyw⟩
  | .Y =>
    let qxx := 2 * q.x * q.x
    let qzz := 2 * q.z * q.z
    let qxy := 2 * q.x * q.y
    let qxw := 2 * q.x * q.w
    let qyz := 2 * q.y * q.z
    let qzw := 2 * q.z * q.w
    .ok ⟨qxy - qzw, 1 - qxx - qzz, qyz + qxw⟩
  | .Z =>
    let qxx := 2 * q.x * q.x
    let qyy := 2 * q.y * q.y
    let qxz := 2 * q.x * q.z
    let qxw := 2 * q.x * q.w
    let qyz := 2 * q.y * q.z
    let qyw := 2 * q.y * q.w
    .ok ⟨qxz + qyw, qyz - qxw, 1 - qxx - qyy⟩
  | _ => .error .assertion

/-- `Quat::log`, impl/quat.h:620-639. -/
def log (q : Quat R) : Quat R :=
  let a := acos' q.w
  let sina := MathFns.sin a
  if sina > 0 then ⟨a * q.x / sina, a * q.y / sina, a * q.z / sina, 0⟩ else ⟨0, 0, 0, 0⟩

/-- `Quat::exp`, impl/quat.h:641-661. -/
def exp (q : Quat R) : Quat R :=
  let a := MathFns.sqrt (q.x * q.x + q.y * q.y + q.z * q.z)
  let sina := MathFns.sin a
  let cosa := MathFns.cos a
  if a > 0 then ⟨sina * q.x / a, sina * q.y / a, sina * q.z / a, cosa⟩ else ⟨0, 0, 0, cosa⟩

end Quat
end MathLib
