import Verif.Model.Quat

/-! # Model of `mat34.h`

`localAxis` and `localPlane` return rays and planes and are modelled in `Model/Local.lean`. -/

namespace MathLib

/-- `class Mat34`, mat34.h:5-109: rotation/scale `rs` and translation `t`. -/
@[ext] structure Mat34 (R : Type) where
  rs : Mat3 R
  t : Vec3 R
  deriving DecidableEq, Repr

variable {R : Type} [Zero R] [One R] [NatCast R] [Add R] [Sub R] [Mul R] [Div R] [Neg R] [LT R]
  [LE R] [DecidableLT R] [DecidableLE R] [BEq R]

namespace Mat34

/-- `Mat34(Real k)`, impl/mat34.h:20-24. -/
def ofScalar (k : R) : Mat34 R := ⟨Mat3.ofScalar k, ⟨0, 0, 0⟩⟩
/-- `Mat34::Zero`, impl/mat34.h:5-6. -/
def zero : Mat34 R := ⟨Mat3.ofScalar 0, ⟨0, 0, 0⟩⟩
/-- `Mat34::One`, impl/mat34.h:8-9. -/
def one : Mat34 R := ⟨Mat3.ofScalar 1, ⟨0, 0, 0⟩⟩
/-- `Mat34(x, y, z, t)`, impl/mat34.h:33-42, `set` (72-79), `from` (142-148). -/
def ofCols (x y z t : Vec3 R) : Mat34 R := ⟨Mat3.ofCols x y z, t⟩
/-- `Mat34::setIdentity`, impl/mat34.h:48-54. -/
def setIdentity : Mat34 R := ⟨Mat3.setIdentity, Vec3.zero⟩
/-- `Mat34::set(ecoord, exact, acoord, approx)`, impl/mat34.h:81-87, and `from` (150-156). -/
def ofExactApprox [MathFns R] (ecoord : Coord) (exact : Vec3 R) (acoord : Coord) (approx : Vec3 R) :
    Res (Mat34 R) := do
  let rs ← Mat3.ofExactApprox ecoord exact acoord approx
  .ok ⟨rs, Vec3.zero⟩
/-- `Mat34::set(axis, angle, t)`, impl/mat34.h:89-95, and `from` (158-164). -/
def ofAxisAngle [MathFns R] (axis : Vec3 R) (angle : R) (t : Vec3 R) : Mat34 R :=
  ⟨Mat3.ofAxisAngle axis angle, t⟩
/-- `Mat34::set(Coord, angle, t)`, impl/mat34.h:97-103, and `from` (166-172). -/
def ofCoordAngle [MathFns R] (axis : Coord) (angle : R) (t : Vec3 R) : Res (Mat34 R) := do
  let rs ← Mat3.ofCoordAngle axis angle
  .ok ⟨rs, t⟩
/-- `Mat34::set(q, t)`, impl/mat34.h:105-111, and `from` (134-140). -/
def ofQuat (q : Quat R) (t : Vec3 R) : Mat34 R := ⟨Mat3.ofQuat q, t⟩
/-- `Mat34::slerp`, impl/mat34.h:113-119, and `fromSlerp` (174-180). -/
def slerp [MathFns R] (a b : Mat34 R) (weight : R) : Res (Mat34 R) := do
  let rs ← Mat3.slerp a.rs b.rs weight
  .ok ⟨rs, Vec3.zero⟩
/-- `Mat34::slerpMaxAngle`, impl/mat34.h:121-127, and `fromSlerpMaxAngle` (182-188). -/
def slerpMaxAngle [MathFns R] (a b : Mat34 R) (maxAngle : R) : Res (Mat34 R) := do
  let rs ← Mat3.slerpMaxAngle a.rs b.rs maxAngle
  .ok ⟨rs, Vec3.zero⟩

/-- `Mat34::operator[]`, impl/mat34.h:195-217. -/
def get (m : Mat34 R) : Coord → Res (Vec3 R)
  | .X => .ok m.rs.x
  | .Y => .ok m.rs.y
  | .Z => .ok m.rs.z
  | _ => .error .assertion

/-- unary `Mat34::operator-`, impl/mat34.h:241-245. -/
def neg (m : Mat34 R) : Mat34 R := ⟨m.rs.neg, -m.t⟩
/-- `Mat34::operator*(const Mat3&)`, impl/mat34.h:247-254. -/
def mulMat3 (a : Mat34 R) (m : Mat3 R) : Mat34 R := ⟨a.rs.mul m, a.t⟩
/-- `Mat34::operator*(const Mat34&)`, impl/mat34.h:256-265, and `multiply` (587-593) with `dest` a
third object. -/
def mul (a m : Mat34 R) : Mat34 R := ⟨a.rs.mul m.rs, a.t + a.rs.mulVec m.t⟩
/-- `Mat34::transform(dest, src)`, impl/mat34.h:556-562, `dest` and `src` different; also
`operator*(const Vec3&)` (267-273). -/
def mulVec (m : Mat34 R) (u : Vec3 R) : Vec3 R :=
  ⟨u.x * m.rs.x.x + u.y * m.rs.y.x + u.z * m.rs.z.x + m.t.x,
   u.x * m.rs.x.y + u.y * m.rs.y.y + u.z * m.rs.z.y + m.t.y,
   u.x * m.rs.x.z + u.y * m.rs.y.z + u.z * m.rs.z.z + m.t.z⟩
/-- `Mat34::operator==`, impl/mat34.h:280-284. -/
def eq (a b : Mat34 R) : Bool := a.rs.eq b.rs && a.t.eq b.t
/-- `Mat34::operator!=`, impl/mat34.h:286-290. -/
def ne (a b : Mat34 R) : Bool := a.rs.ne b.rs || a.t.ne b.t

/-- `Mat34::translate`, impl/mat34.h:321-326. -/
def translate (this : Mat34 R) (translation : Vec3 R) : Mat34 R :=
  { this with t := this.t.addAssign translation }
/-- `Mat34::scale`, impl/mat34.h:328-338. -/
def scale (this : Mat34 R) (c : Vec3 R) : Mat34 R :=
  let this := { this with rs := this.rs.scale c }
  let this := { this with t.x := this.t.x * c.x }
  let this := { this with t.y := this.t.y * c.y }
  let this := { this with t.z := this.t.z * c.z }
  this
/-- `Mat34::transform(const Mat3&)`, impl/mat34.h:340-348, the argument not being `rs` itself. -/
def transformMat3 (this : Mat34 R) (m : Mat3 R) : Mat34 R :=
  let this := { this with rs := this.rs.rotate m }
  let this := { this with t := m.mulVec this.t }
  this
/-- `a.transform(a.rs)`: the second statement sees the new `rs` (impl/mat34.h:340-348). -/
def transformRs (this : Mat34 R) : Mat34 R :=
  let this := { this with rs := this.rs.rotateSelf }
  let this := { this with t := this.rs.mulVec this.t }
  this
/-- `Mat34::transform(const Mat34&)`, impl/mat34.h:350-358, for two different objects. -/
def transform (this m : Mat34 R) : Mat34 R :=
  let this := { this with t := m.mulVec this.t }
  let this := { this with rs := this.rs.rotate m.rs }
  this
/-- `a.transform(a)` (impl/mat34.h:350-358). -/
def transformSelf (this : Mat34 R) : Mat34 R :=
  let this := { this with t := this.mulVec this.t }
  let this := { this with rs := this.rs.rotateSelf }
  this
/-- `Mat34::translatePre`, impl/mat34.h:384-391. -/
def translatePre (this : Mat34 R) (translation : Vec3 R) : Mat34 R :=
  { this with t := this.t.addAssign (this.rs.mulVec translation) }
/-- `Mat34::scalePre`, impl/mat34.h:393-400. -/
def scalePre (this : Mat34 R) (c : Vec3 R) : Mat34 R := { this with rs := this.rs.scale c }
/-- `Mat34::transformPre(const Mat3&)`, impl/mat34.h:402-407, and `operator*=(const Mat3&)`
(224-228), the argument not being `rs` itself. -/
def transformPreMat3 (this : Mat34 R) (m : Mat3 R) : Mat34 R :=
  { this with rs := this.rs.mulAssign m }
/-- `Mat34::transformPre(const Mat34&)`, impl/mat34.h:409-417, and `operator*=(const Mat34&)`
(230-234), for two different objects. -/
def transformPre (this m : Mat34 R) : Mat34 R :=
  let this := { this with t := this.t.addAssign (this.rs.mulVec m.t) }
  let this := { this with rs := this.rs.mulAssign m.rs }
  this
/-- `a.transformPre(a)` and `a *= a` (impl/mat34.h:409-417). -/
def transformPreSelf (this : Mat34 R) : Mat34 R :=
  let this := { this with t := this.t.addAssign (this.rs.mulVec this.t) }
  let this := { this with rs := this.rs.mulAssignSelf }
  this

/-- `Mat34::rotate(const Quat&)`, impl/mat34.h:297-303. -/
def rotateQuat (this : Mat34 R) (q : Quat R) : Mat34 R := this.transformMat3 (Mat3.ofQuat q)
/-- `Mat34::rotate(axis, angle)`, impl/mat34.h:305-311. -/
def rotateAxis [MathFns R] (this : Mat34 R) (axis : Vec3 R) (angle : R) : Mat34 R :=
  this.transformMat3 (Mat3.ofAxisAngle axis angle)
/-- `Mat34::rotate(Coord, angle)`, impl/mat34.h:313-319. -/
def rotateCoord [MathFns R] (this : Mat34 R) (axis : Coord) (angle : R) : Res (Mat34 R) := do
  let rot ← Mat3.ofCoordAngle axis angle
  .ok (this.transformMat3 rot)
/-- `Mat34::rotatePre(const Quat&)`, impl/mat34.h:360-366. -/
def rotatePreQuat (this : Mat34 R) (q : Quat R) : Mat34 R := this.transformPreMat3 (Mat3.ofQuat q)
/-- `Mat34::rotatePre(axis, angle)`, impl/mat34.h:368-374. -/
def rotatePreAxis [MathFns R] (this : Mat34 R) (axis : Vec3 R) (angle : R) : Mat34 R :=
  this.transformPreMat3 (Mat3.ofAxisAngle axis angle)
/-- `Mat34::rotatePre(Coord, angle)`, impl/mat34.h:376-382. -/
def rotatePreCoord [MathFns R] (this : Mat34 R) (axis : Coord) (angle : R) : Res (Mat34 R) := do
  let rot ← Mat3.ofCoordAngle axis angle
  .ok (this.transformPreMat3 rot)

/-- `Mat34::optimize`, impl/mat34.h:419-424. -/
def optimize (this : Mat34 R) : Mat34 R := { this with rs := this.rs.optimize }
/-- `Mat34::isNormal`, impl/mat34.h:504-508. -/
def isNormal (m : Mat34 R) : Bool := m.rs.isNormal
/-- `Mat34::isOrthogonal`, impl/mat34.h:510-514. -/
def isOrthogonal (m : Mat34 R) : Bool := m.rs.isOrthogonal
/-- `Mat34::isOrthonormal`, impl/mat34.h:516-520. -/
def isOrthonormal (m : Mat34 R) : Bool := m.rs.isOrthonormal
/-- `Mat34::isIdentity`, impl/mat34.h:522-526. -/
def isIdentity (m : Mat34 R) : Bool := m.rs.isIdentity && m.t.isNull
/-- `Mat34::isInitialized`, impl/mat34.h:528-532. -/
def isInitialized (m : Mat34 R) : Bool := m.rs.isInitialized

/-- `Mat34::invert`, impl/mat34.h:426-443. -/
def invert (this : Mat34 R) : Res (Mat34 R) :=
  if this.isIdentity then .ok this
  else if this.isOrthonormal then
    let this := { this with t := Mat3.vecMul (-this.t) this.rs }
    let this := { this with rs := this.rs.transpose }
    .ok this
  else do
    let rs ← this.rs.invert
    let this := { this with rs := rs }
    let this := { this with t := -(this.rs.mulVec this.t) }
    .ok this
/-- `Mat34::transpose`, impl/mat34.h:445-450. -/
def transpose (this : Mat34 R) : Mat34 R := { this with rs := this.rs.transpose }

end Mat34
end MathLib
