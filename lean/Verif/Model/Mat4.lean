import Verif.Model.Quat

/-! # Model of `mat4.h`

`Mat4(const Mat3&, const Vec3&)` and `set(const Mat3&, const Vec3&)` are declared (mat4.h:16, 23) but
not defined.  `localAxis` and `localPlane` return rays and planes and are modelled with those. -/

namespace MathLib

/-- `class Mat4`, mat4.h:5-160; `x`, `y`, `z`, `t` are the columns. -/
@[ext] structure Mat4 (R : Type) where
  x : Vec4 R
  y : Vec4 R
  z : Vec4 R
  t : Vec4 R
  flags : Flags
  deriving DecidableEq, Repr

variable {R : Type} [Zero R] [One R] [NatCast R] [Add R] [Sub R] [Mul R] [Div R] [Neg R] [LT R]
  [LE R] [DecidableLT R] [DecidableLE R] [BEq R]

namespace Mat4

/-- `Mat4::isNormal`, impl/mat4.h:1086-1090. -/
def isNormal (m : Mat4 R) : Bool := m.flags.normal
/-- `Mat4::isOrthogonal`, impl/mat4.h:1092-1096. -/
def isOrthogonal (m : Mat4 R) : Bool := m.flags.orthogonal
/-- `Mat4::isOrthonormal`, impl/mat4.h:1098-1102. -/
def isOrthonormal (m : Mat4 R) : Bool := m.flags.normal && m.flags.orthogonal
/-- `Mat4::isIdentity`, impl/mat4.h:1104-1108. -/
def isIdentity (m : Mat4 R) : Bool := m.flags.identity
/-- `Mat4::isTrs`, impl/mat4.h:1110-1114. -/
def isTrs (m : Mat4 R) : Bool := m.flags.trs
/-- `Mat4::isInitialized`, impl/mat4.h:1116-1120. -/
def isInitialized (m : Mat4 R) : Bool := !m.flags.uninit

/-- `Mat4::normalError`, impl/mat4.h:1035-1055. -/
def normalError (m : Mat4 R) : R :=
  if m.flags.trs then
    let cx := (m.x.x * m.x.x + m.x.y * m.x.y + m.x.z * m.x.z) - 1
    let cy := (m.y.x * m.y.x + m.y.y * m.y.y + m.y.z * m.y.z) - 1
    let cz := (m.z.x * m.z.x + m.z.y * m.z.y + m.z.z * m.z.z) - 1
    let ct : R := 0
    cx * cx + cy * cy + cz * cz + ct * ct
  else
    let cx := m.x.dot m.x - 1
    let cy := m.y.dot m.y - 1
    let cz := m.z.dot m.z - 1
    let ct := m.t.dot m.t - 1
    cx * cx + cy * cy + cz * cz + ct * ct
/-- `Mat4::orthogonalError`, impl/mat4.h:1057-1074. -/
def orthogonalError (m : Mat4 R) : R :=
  if m.flags.trs then
    let xy := m.x.x * m.y.x + m.x.y * m.y.y + m.x.z * m.y.z
    let xz := m.x.x * m.z.x + m.x.y * m.z.y + m.x.z * m.z.z
    let yz := m.y.x * m.z.x + m.y.y * m.z.y + m.y.z * m.z.z
    xy * xy + xz * xz + yz * yz
  else
    let xy := m.x.dot m.y
    let xz := m.x.dot m.z
    let yz := m.y.dot m.z
    xy * xy + xz * xz + yz * yz
/-- `Mat4::identityError`, impl/mat4.h:1076-1084. -/
def identityError (m : Mat4 R) : R :=
  let rx : Vec4 R := ⟨m.x.x - 1, m.x.y, m.x.z, m.x.w⟩
  let ry : Vec4 R := ⟨m.y.x, m.y.y - 1, m.y.z, m.y.w⟩
  let rz : Vec4 R := ⟨m.z.x, m.z.y, m.z.z - 1, m.z.w⟩
  let rt : Vec4 R := ⟨m.t.x, m.t.y, m.t.z, m.t.w - 1⟩
  rx.lengthSqr + ry.lengthSqr + rz.lengthSqr + rt.lengthSqr

/-- `Mat4::optimize(const Tolerance*)`, impl/mat4.h:601-636.  The `Trs` flag is set first and
`normalError` and `orthogonalError` depend on it. -/
def optimizeTol (m : Mat4 R) (tol : MatTol R) : Mat4 R :=
  let istrs := m.x.w == 0 && m.y.w == 0 && m.z.w == 0 && m.t.w == 1
  let m := { m with flags.trs := istrs }
  let isnormal := decide (m.normalError ≤ tol.normal)
  let isorthogonal := decide (m.orthogonalError ≤ tol.orthogonal)
  let isidentity := isnormal && isorthogonal && decide (m.identityError ≤ tol.identity)
  { m with flags := ⟨isnormal, isorthogonal, isidentity, m.flags.trs, false⟩ }
/-- `Mat4::optimize()` with the default tolerance (impl/mat4.h:601-636). -/
def optimize (m : Mat4 R) : Mat4 R := m.optimizeTol MatTol.default

/-- `Mat4(Real k)`, impl/mat4.h:29-41. -/
def ofScalar (k : R) : Mat4 R :=
  ⟨⟨k, 0, 0, 0⟩, ⟨0, k, 0, 0⟩, ⟨0, 0, k, 0⟩, ⟨0, 0, 0, 1⟩, ⟨k == 1, true, k == 1, k == 1, false⟩⟩
/-- `Mat4::One`, impl/mat4.h:13-14. -/
def one : Mat4 R := ofScalar 1
/-- `Mat4::setIdentity`, impl/mat4.h:62-71. -/
def setIdentity : Mat4 R :=
  ⟨⟨1, 0, 0, 0⟩, ⟨0, 1, 0, 0⟩, ⟨0, 0, 1, 0⟩, ⟨0, 0, 0, 1⟩, ⟨true, true, true, true, false⟩⟩
/-- `Mat4::set(Vec4, Vec4, Vec4, Vec4)`, impl/mat4.h:127-135; also the constructor (50-55) and `from`
(286-292).  Every entry is assigned and `optimize` computes every flag, so the old contents are
irrelevant; the same holds for the other setters below. -/
def ofCols (x y z t : Vec4 R) : Mat4 R := optimize ⟨x, y, z, t, Flags.start⟩
/-- `Mat4::Zero`, impl/mat4.h:5-11. -/
def zero : Mat4 R := ofCols ⟨0, 0, 0, 0⟩ ⟨0, 0, 0, 0⟩ ⟨0, 0, 0, 0⟩ ⟨0, 0, 0, 0⟩
/-- `Mat4::set(Vec3, Vec3, Vec3, Vec3)`, impl/mat4.h:117-125; also the constructor (43-48) and `from`
(278-284). -/
def ofCols3 (x y z t : Vec3 R) : Mat4 R :=
  ofCols (Vec4.ofVec3 x 0) (Vec4.ofVec3 y 0) (Vec4.ofVec3 z 0) (Vec4.ofVec3 t 1)
/-- `Mat4::set(const Quat&, const Vec3&)`, impl/mat4.h:84-115, and `from` (270-276). -/
def ofQuat (q : Quat R) (t : Vec3 R) : Mat4 R :=
  let xx := q.x * q.x
  let yy := q.y * q.y
  let zz := q.z * q.z
  let yz := q.y * q.z
  let zx := q.z * q.x
  let xy := q.x * q.y
  let wx := q.w * q.x
  let wy := q.w * q.y
  let wz := q.w * q.z
  optimize ⟨⟨1 - 2 * (yy + zz), 2 * (xy + wz), 2 * (zx - wy), 0⟩,
    ⟨2 * (xy - wz), 1 - 2 * (xx + zz), 2 * (yz + wx), 0⟩,
    ⟨2 * (zx + wy), 2 * (yz - wx), 1 - 2 * (xx + yy), 0⟩, Vec4.ofVec3 t 1, Flags.start⟩
/-- `Mat4::set(ecoord, exact, acoord, approx)`, impl/mat4.h:137-180, and `from` (294-300); the
translation argument of `set(Vec3, Vec3, Vec3, Vec3)` defaults to zero. -/
def ofExactApprox [MathFns R] (ecoord : Coord) (exact : Vec3 R) (acoord : Coord) (approx : Vec3 R) :
    Res (Mat4 R) :=
  if exact.x == 0 && exact.y == 0 && exact.z == 0 then .ok setIdentity
  else
    let u := exact.normalized 1
    let v := approx.cross u
    if v.x == 0 && v.y == 0 && v.z == 0 then .ok setIdentity
    else
      let v := (v.normalize 1).1
      let w := u.cross v
      match ecoord, acoord with
      | .X, .Y => .ok (ofCols3 u w (-v) Vec3.zero)
      | .X, .Z => .ok (ofCols3 u v w Vec3.zero)
      | .Y, .X => .ok (ofCols3 w u v Vec3.zero)
      | .Y, .Z => .ok (ofCols3 (-v) u w Vec3.zero)
      | .Z, .X => .ok (ofCols3 w (-v) u Vec3.zero)
      | .Z, .Y => .ok (ofCols3 v w u Vec3.zero)
      | _, _ => .error .assertion
/-- `Mat4::set(const Vec3& axis, Real angle)`, impl/mat4.h:182-207, and `from` (302-308). -/
def ofAxisAngle [MathFns R] (axis : Vec3 R) (angle : R) : Mat4 R :=
  let v := axis.normalized 1
  let s := MathFns.sin angle
  let c := MathFns.cos angle
  let f := 1 - c
  optimize ⟨⟨c + v.x * v.x * f, v.x * v.y * f + v.z * s, v.z * v.x * f - v.y * s, 0⟩,
    ⟨v.x * v.y * f - v.z * s, c + v.y * v.y * f, v.y * v.z * f + v.x * s, 0⟩,
    ⟨v.z * v.x * f + v.y * s, v.y * v.z * f - v.x * s, c + v.z * v.z * f, 0⟩,
    ⟨0, 0, 0, 1⟩, Flags.start⟩
/-- `Mat4::set(Coord axis, Real angle)`, impl/mat4.h:209-263, and `from` (310-316). -/
def ofCoordAngle [MathFns R] (axis : Coord) (angle : R) : Res (Mat4 R) :=
  let s := MathFns.sin angle
  let c := MathFns.cos angle
  match axis with
  | .X => .ok (ofCols ⟨1, 0, 0, 0⟩ ⟨0, c, s, 0⟩ ⟨0, -s, c, 0⟩ ⟨0, 0, 0, 1⟩)
  | .Y => .ok (ofCols ⟨c, 0, -s, 0⟩ ⟨0, 1, 0, 0⟩ ⟨s, 0, c, 0⟩ ⟨0, 0, 0, 1⟩)
  | .Z => .ok (ofCols ⟨c, s, 0, 0⟩ ⟨-s, c, 0, 0⟩ ⟨0, 0, 1, 0⟩ ⟨0, 0, 0, 1⟩)
  | _ => .error .assertion

/-- `Mat4::operator[]`, impl/mat4.h:323-345. -/
def get (m : Mat4 R) : Coord → Res (Vec4 R)
  | .X => .ok m.x
  | .Y => .ok m.y
  | .Z => .ok m.z
  | _ => .error .assertion

/-- `Mat4::operator*=(Real)`, impl/mat4.h:352-362. -/
def smulAssign (this : Mat4 R) (k : R) : Mat4 R :=
  if k == 1 then this
  else
    let this := { this with x := this.x.mulAssign k }
    let this := { this with y := this.y.mulAssign k }
    let this := { this with z := this.z.mulAssign k }
    let this := { this with t := this.t.mulAssign k }
    this.optimize
/-- `Mat4::operator/=(Real)`, impl/mat4.h:364-376. -/
def sdivAssign (this : Mat4 R) (k : R) : Res (Mat4 R) :=
  if k == 0 then .error .assertion
  else if k == 1 then .ok this
  else
    let invk := 1 / k
    let this := { this with x := this.x.mulAssign invk }
    let this := { this with y := this.y.mulAssign invk }
    let this := { this with z := this.z.mulAssign invk }
    let this := { this with t := this.t.mulAssign invk }
    .ok this.optimize
/-- unary `Mat4::operator-`, impl/mat4.h:383-387. -/
def neg (m : Mat4 R) : Mat4 R := ofCols (-m.x) (-m.y) (-m.z) (-m.t)
/-- `Mat4::operator*(Real)`, impl/mat4.h:389-397. -/
def smul (m : Mat4 R) (k : R) : Mat4 R :=
  if k == 0 then zero
  else if k == 1 then m
  else ofCols (m.x * k) (m.y * k) (m.z * k) (m.t * k)
/-- `Mat4::operator/(Real)`, impl/mat4.h:399-408. -/
def sdiv (m : Mat4 R) (k : R) : Mat4 R :=
  if k == 0 then zero
  else if k == 1 then m
  else
    let invk := 1 / k
    ofCols (m.x * invk) (m.y * invk) (m.z * invk) (m.t * invk)
/-- `Mat4::multiply`, impl/mat4.h:1272-1309, `dest` being a third object (else its assertion fails);
also `operator*(const Mat4&)` (410-416). -/
def mul (a b : Mat4 R) : Mat4 R :=
  if a.isIdentity then b
  else if b.isIdentity then a
  else
    ⟨⟨a.x.x * b.x.x + a.y.x * b.x.y + a.z.x * b.x.z + a.t.x * b.x.w,
      a.x.y * b.x.x + a.y.y * b.x.y + a.z.y * b.x.z + a.t.y * b.x.w,
      a.x.z * b.x.x + a.y.z * b.x.y + a.z.z * b.x.z + a.t.z * b.x.w,
      a.x.w * b.x.x + a.y.w * b.x.y + a.z.w * b.x.z + a.t.w * b.x.w⟩,
     ⟨a.x.x * b.y.x + a.y.x * b.y.y + a.z.x * b.y.z + a.t.x * b.y.w,
      a.x.y * b.y.x + a.y.y * b.y.y + a.z.y * b.y.z + a.t.y * b.y.w,
      a.x.z * b.y.x + a.y.z * b.y.y + a.z.z * b.y.z + a.t.z * b.y.w,
      a.x.w * b.y.x + a.y.w * b.y.y + a.z.w * b.y.z + a.t.w * b.y.w⟩,
     ⟨a.x.x * b.z.x + a.y.x * b.z.y + a.z.x * b.z.z + a.t.x * b.z.w,
      a.x.y * b.z.x + a.y.y * b.z.y + a.z.y * b.z.z + a.t.y * b.z.w,
      a.x.z * b.z.x + a.y.z * b.z.y + a.z.z * b.z.z + a.t.z * b.z.w,
      a.x.w * b.z.x + a.y.w * b.z.y + a.z.w * b.z.z + a.t.w * b.z.w⟩,
     ⟨a.x.x * b.t.x + a.y.x * b.t.y + a.z.x * b.t.z + a.t.x * b.t.w,
      a.x.y * b.t.x + a.y.y * b.t.y + a.z.y * b.t.z + a.t.y * b.t.w,
      a.x.z * b.t.x + a.y.z * b.t.y + a.z.z * b.t.z + a.t.z * b.t.w,
      a.x.w * b.t.x + a.y.w * b.t.y + a.z.w * b.t.z + a.t.w * b.t.w⟩,
     a.flags.and b.flags⟩
/-- `Mat4::transform(Vec3& dest, const Vec3& src)`, impl/mat4.h:1146-1152, `dest` and `src` different;
also `operator*(const Vec3&)` (418-424). -/
def mulVec3 (m : Mat4 R) (u : Vec3 R) : Vec3 R :=
  ⟨u.x * m.x.x + u.y * m.y.x + u.z * m.z.x + m.t.x,
   u.x * m.x.y + u.y * m.y.y + u.z * m.z.y + m.t.y,
   u.x * m.x.z + u.y * m.y.z + u.z * m.z.z + m.t.z⟩
/-- `Mat4::transform(Vec4& dest, const Vec4& src)`, impl/mat4.h:1177-1184, `dest` and `src`
different; also `operator*(const Vec4&)` (426-432). -/
def mulVec4 (m : Mat4 R) (u : Vec4 R) : Vec4 R :=
  ⟨u.x * m.x.x + u.y * m.y.x + u.z * m.z.x + u.w * m.t.x,
   u.x * m.x.y + u.y * m.y.y + u.z * m.z.y + u.w * m.t.y,
   u.x * m.x.z + u.y * m.y.z + u.z * m.z.z + u.w * m.t.z,
   u.x * m.x.w + u.y * m.y.w + u.z * m.z.w + u.w * m.t.w⟩
/-- `Mat4::transformVector(Vec3& dest, const Vec3& src)`, impl/mat4.h:1209-1215, `dest` and `src`
different. -/
def transformVector3 (m : Mat4 R) (u : Vec3 R) : Vec3 R :=
  ⟨u.x * m.x.x + u.y * m.y.x + u.z * m.z.x,
   u.x * m.x.y + u.y * m.y.y + u.z * m.z.y,
   u.x * m.x.z + u.y * m.y.z + u.z * m.z.z⟩
/-- `Mat4::transformVector(Vec4& dest, const Vec4& src)`, impl/mat4.h:1240-1247, `dest` and `src`
different. -/
def transformVector4 (m : Mat4 R) (u : Vec4 R) : Vec4 R :=
  ⟨u.x * m.x.x + u.y * m.y.x + u.z * m.z.x,
   u.x * m.x.y + u.y * m.y.y + u.z * m.z.y,
   u.x * m.x.z + u.y * m.y.z + u.z * m.z.z,
   u.x * m.x.w + u.y * m.y.w + u.z * m.z.w⟩
/-- `Mat4::operator==`, impl/mat4.h:439-443. -/
def eq (a b : Mat4 R) : Bool := a.x.eq b.x && a.y.eq b.y && a.z.eq b.z && a.t.eq b.t
/-- `Mat4::operator!=`, impl/mat4.h:445-449. -/
def ne (a b : Mat4 R) : Bool := a.x.ne b.x || a.y.ne b.y || a.z.ne b.z || a.t.ne b.t

/-- `Mat4::translate`, impl/mat4.h:477-486. -/
def translate (this : Mat4 R) (translation : Vec3 R) : Mat4 R :=
  let this := { this with t := this.t.addVec3 translation }
  if !translation.isNull then { this with flags.identity := false } else this
/-- `Mat4::scale`, impl/mat4.h:488-505. -/
def scale (this : Mat4 R) (c : Vec3 R) : Mat4 R :=
  let this := { this with x := this.x.mulAssign c.x }
  let this := { this with y := this.y.mulAssign c.y }
  let this := { this with z := this.z.mulAssign c.z }
  let this := { this with t.x := this.t.x * c.x }
  let this := { this with t.y := this.t.y * c.y }
  let this := { this with t.z := this.t.z * c.z }
  if c.x != 1 || c.y != 1 || c.z != 1 then
    let this := { this with flags.identity := false }
    { this with flags.normal := false }
  else this
/-- `Mat4::transform(const Mat4&)`, impl/mat4.h:507-520.  The product is formed in a local, so the
argument may be the object itself. -/
def transform (this m : Mat4 R) : Mat4 R :=
  if m.isIdentity then this
  else if this.isIdentity then m
  else mul m this
/-- `Mat4::translatePre`, impl/mat4.h:546-559. -/
def translatePre (this : Mat4 R) (translation : Vec3 R) : Mat4 R :=
  let delta := this.transformVector3 translation
  let this := { this with t := this.t.addVec3 delta }
  if !translation.isNull then { this with flags.identity := false } else this
/-- `Mat4::scalePre`, impl/mat4.h:561-575. -/
def scalePre (this : Mat4 R) (c : Vec3 R) : Mat4 R :=
  let this := { this with x := this.x.mulAssign c.x }
  let this := { this with y := this.y.mulAssign c.y }
  let this := { this with z := this.z.mulAssign c.z }
  if c.x != 1 || c.y != 1 || c.z != 1 then
    let this := { this with flags.identity := false }
    { this with flags.normal := false }
  else this
/-- `Mat4::transformPre(const Mat4&)`, impl/mat4.h:577-590. -/
def transformPre (this m : Mat4 R) : Mat4 R :=
  if m.isIdentity then this
  else if this.isIdentity then m
  else mul this m
/-- `Mat4::rotate(const Quat&)`, impl/mat4.h:453-459. -/
def rotateQuat (this : Mat4 R) (q : Quat R) : Mat4 R := this.transform (ofQuat q Vec3.zero)
/-- `Mat4::rotate(axis, angle)`, impl/mat4.h:461-467. -/
def rotateAxis [MathFns R] (this : Mat4 R) (axis : Vec3 R) (angle : R) : Mat4 R :=
  this.transform (ofAxisAngle axis angle)
/-- `Mat4::rotate(Coord, angle)`, impl/mat4.h:469-475. -/
def rotateCoord [MathFns R] (this : Mat4 R) (axis : Coord) (angle : R) : Res (Mat4 R) := do
  let rot ← ofCoordAngle axis angle
  .ok (this.transform rot)
/-- `Mat4::rotatePre(const Quat&)`, impl/mat4.h:522-528. -/
def rotatePreQuat (this : Mat4 R) (q : Quat R) : Mat4 R := this.transformPre (ofQuat q Vec3.zero)
/-- `Mat4::rotatePre(axis, angle)`, impl/mat4.h:530-536. -/
def rotatePreAxis [MathFns R] (this : Mat4 R) (axis : Vec3 R) (angle : R) : Mat4 R :=
  this.transformPre (ofAxisAngle axis angle)
/-- `Mat4::rotatePre(Coord, angle)`, impl/mat4.h:538-544. -/
def rotatePreCoord [MathFns R] (this : Mat4 R) (axis : Coord) (angle : R) : Res (Mat4 R) := do
  let rot ← ofCoordAngle axis angle
  .ok (this.transformPre rot)

/-- `Mat4::transformed`, impl/mat4.h:769-782. -/
def transformed (this m : Mat4 R) : Mat4 R :=
  if m.isIdentity then this
  else if this.isIdentity then m
  else mul m this
/-- `Mat4::transformedPre`, impl/mat4.h:829-842. -/
def transformedPre (this m : Mat4 R) : Mat4 R :=
  if m.isIdentity then this
  else if this.isIdentity then m
  else mul this m
/-- `Mat4::rotated(const Quat&)`, impl/mat4.h:725-731. -/
def rotatedQuat (this : Mat4 R) (q : Quat R) : Mat4 R := this.transformed (ofQuat q Vec3.zero)
/-- `Mat4::rotated(axis, angle)`, impl/mat4.h:733-739. -/
def rotatedAxis [MathFns R] (this : Mat4 R) (axis : Vec3 R) (angle : R) : Mat4 R :=
  this.transformed (ofAxisAngle axis angle)
/-- `Mat4::rotated(Coord, angle)`, impl/mat4.h:741-747. -/
def rotatedCoord [MathFns R] (this : Mat4 R) (axis : Coord) (angle : R) : Res (Mat4 R) := do
  let rot ← ofCoordAngle axis angle
  .ok (this.transformed rot)
/-- `Mat4::rotatedPre(const Quat&)`, impl/mat4.h:784-790. -/
def rotatedPreQuat (this : Mat4 R) (q : Quat R) : Mat4 R :=
  this.transformedPre (ofQuat q Vec3.zero)
/-- `Mat4::rotatedPre(axis, angle)`, impl/mat4.h:792-798. -/
def rotatedPreAxis [MathFns R] (this : Mat4 R) (axis : Vec3 R) (angle : R) : Mat4 R :=
  this.transformedPre (ofAxisAngle axis angle)
/-- `Mat4::rotatedPre(Coord, angle)`, impl/mat4.h:800-806. -/
def rotatedPreCoord [MathFns R] (this : Mat4 R) (axis : Coord) (angle : R) : Res (Mat4 R) := do
  let rot ← ofCoordAngle axis angle
  .ok (this.transformedPre rot)
/-- `Mat4::translated`, impl/mat4.h:749-753. -/
def translated (m : Mat4 R) (translation : Vec3 R) : Mat4 R :=
  ofCols m.x m.y m.z (m.t + Vec4.ofVec3 translation 0)
/-- `Mat4::scaled`, impl/mat4.h:755-767. -/
def scaled (m : Mat4 R) (c : Vec3 R) : Mat4 R :=
  ofCols (m.x * c.x) (m.y * c.y) (m.z * c.z) ⟨m.t.x * c.x, m.t.y * c.y, m.t.z * c.z, m.t.w⟩
/-- `Mat4::translatedPre`, impl/mat4.h:808-816. -/
def translatedPre (m : Mat4 R) (translation : Vec3 R) : Mat4 R :=
  let delta := m.transformVector3 translation
  ofCols m.x m.y m.z (m.t + Vec4.ofVec3 delta 0)
/-- `Mat4::scaledPre`, impl/mat4.h:818-827. -/
def scaledPre (m : Mat4 R) (c : Vec3 R) : Mat4 R :=
  ofCols (m.x * c.x) (m.y * c.y) (m.z * c.z) m.t

/-- `Quat::set(const Mat4&)`, impl/quat.h:84-121. -/
def toQuat [MathFns R] (m : Mat4 R) : Quat R :=
  Quat.ofCols m.x.toVec3 m.y.toVec3 m.z.toVec3 (m.x.x + m.y.y + m.z.z)
/-- `Mat4::orthonormalise`, impl/mat4.h:592-599. -/
def orthonormalise [MathFns R] (m : Mat4 R) : Mat4 R := ofQuat m.toQuat.normalize Vec3.zero

/-- `Mat4::transpose`, impl/mat4.h:638-650. -/
def transpose (this : Mat4 R) : Mat4 R :=
  let r := this.x.y
  let this := { this with x.y := this.y.x }
  let this := { this with y.x := r }
  let r := this.x.z
  let this := { this with x.z := this.z.x }
  let this := { this with z.x := r }
  let r := this.x.w
  let this := { this with x.w := this.t.x }
  let this := { this with t.x := r }
  let r := this.y.z
  let this := { this with y.z := this.z.y }
  let this := { this with z.y := r }
  let r := this.y.w
  let this := { this with y.w := this.t.y }
  let this := { this with t.y := r }
  let r := this.z.w
  let this := { this with z.w := this.t.z }
  let this := { this with t.z := r }
  this
/-- `Mat4::transposed`, impl/mat4.h:892-920. -/
def transposed (m : Mat4 R) : Mat4 R :=
  ⟨⟨m.x.x, m.y.x, m.z.x, m.t.x⟩, ⟨m.x.y, m.y.y, m.z.y, m.t.y⟩, ⟨m.x.z, m.y.z, m.z.z, m.t.z⟩,
   ⟨m.x.w, m.y.w, m.z.w, m.t.w⟩, m.flags⟩
/-- `Mat4::trace`, impl/mat4.h:922-926. -/
def trace (m : Mat4 R) : R := m.x.x + m.y.y + m.z.z + m.t.w
/-- `Mat4::determinant`, impl/mat4.h:928-949. -/
def determinant (m : Mat4 R) : R :=
  let CF00 := (m.z.z * m.t.w - m.z.w * m.t.z)
  let CF01 := (m.y.z * m.t.w - m.y.w * m.t.z)
  let CF02 := (m.y.z * m.z.w - m.y.w * m.z.z)
  let CF03 := (m.z.y * m.t.w - m.z.w * m.t.y)
  let CF04 := (m.y.y * m.t.w - m.y.w * m.t.y)
  let CF05 := (m.y.y * m.z.w - m.y.w * m.z.y)
  let CF06 := (m.z.y * m.t.z - m.z.z * m.t.y)
  let CF07 := (m.y.y * m.t.z - m.y.z * m.t.y)
  let CF08 := (m.y.y * m.z.z - m.y.z * m.z.y)
  let inv_x_x := m.y.y * CF00 - m.z.y * CF01 + m.t.y * CF02
  let inv_y_x := -m.y.x * CF00 + m.z.x * CF01 - m.t.x * CF02
  let inv_z_x := m.y.x * CF03 - m.z.x * CF04 + m.t.x * CF05
  let inv_t_x := -m.y.x * CF06 + m.z.x * CF07 - m.t.x * CF08
  m.x.x * inv_x_x + m.x.y * inv_y_x + m.x.z * inv_z_x + m.x.w * inv_t_x
/-- The matrix `inv` before the division, impl/mat4.h:675-713 (`invert`) and 983-1021 (`inversed`),
with the flags of a default constructed matrix. -/
def adj (m : Mat4 R) : Mat4 R :=
  let CF00 := (m.z.z * m.t.w - m.z.w * m.t.z)
  let CF01 := (m.y.z * m.t.w - m.y.w * m.t.z)
  let CF02 := (m.y.z * m.z.w - m.y.w * m.z.z)
  let CF03 := (m.z.y * m.t.w - m.z.w * m.t.y)
  let CF04 := (m.y.y * m.t.w - m.y.w * m.t.y)
  let CF05 := (m.y.y * m.z.w - m.y.w * m.z.y)
  let CF06 := (m.z.y * m.t.z - m.z.z * m.t.y)
  let CF07 := (m.y.y * m.t.z - m.y.z * m.t.y)
  let CF08 := (m.y.y * m.z.z - m.y.z * m.z.y)
  let CF09 := (m.x.z * m.t.w - m.x.w * m.t.z)
  let CF10 := (m.x.z * m.z.w - m.x.w * m.z.z)
  let CF11 := (m.x.y * m.t.w - m.x.w * m.t.y)
  let CF12 := (m.x.y * m.z.w - m.x.w * m.z.y)
  let CF13 := (m.x.y * m.t.z - m.x.z * m.t.y)
  let CF14 := (m.x.y * m.z.z - m.x.z * m.z.y)
  let CF15 := (m.y.z * m.t.w - m.y.w * m.t.z)
  let CF16 := (m.x.z * m.y.w - m.x.w * m.y.z)
  let CF17 := (m.x.y * m.y.w - m.x.w * m.y.y)
  let CF18 := (m.x.y * m.y.z - m.x.z * m.y.y)
  let CF19 := (m.y.z * m.z.w - m.y.w * m.z.z)
  ⟨⟨m.y.y * CF00 - m.z.y * CF01 + m.t.y * CF02,
    -m.x.y * CF00 + m.z.y * CF09 - m.t.y * CF10,
    m.x.y * CF15 - m.y.y * CF09 + m.t.y * CF16,
    -m.x.y * CF19 + m.y.y * CF10 - m.z.y * CF16⟩,
   ⟨-m.y.x * CF00 + m.z.x * CF01 - m.t.x * CF02,
    m.x.x * CF00 - m.z.x * CF09 + m.t.x * CF10,
    -m.x.x * CF15 + m.y.x * CF09 - m.t.x * CF16,
    m.x.x * CF19 - m.y.x * CF10 + m.z.x * CF16⟩,
   ⟨m.y.x * CF03 - m.z.x * CF04 + m.t.x * CF05,
    -m.x.x * CF03 + m.z.x * CF11 - m.t.x * CF12,
    m.x.x * CF04 - m.y.x * CF11 + m.t.x * CF17,
    -m.x.x * CF05 + m.y.x * CF12 - m.z.x * CF17⟩,
   ⟨-m.y.x * CF06 + m.z.x * CF07 - m.t.x * CF08,
    m.x.x * CF06 - m.z.x * CF13 + m.t.x * CF14,
    -m.x.x * CF07 + m.y.x * CF13 - m.t.x * CF18,
    m.x.x * CF08 - m.y.x * CF14 + m.z.x * CF18⟩,
   Flags.start⟩
/-- `det` as computed in `invert` and `inversed`, impl/mat4.h:715 and 1023. -/
def adjDet (m inv : Mat4 R) : R :=
  m.x.x * inv.x.x + m.x.y * inv.y.x + m.x.z * inv.z.x + m.x.w * inv.t.x
/-- `Mat4::invert`, impl/mat4.h:652-718. -/
def invert (this : Mat4 R) : Mat4 R :=
  if this.isOrthonormal then
    let r := this.x.y
    let this := { this with x.y := this.y.x }
    let this := { this with y.x := r }
    let r := this.x.z
    let this := { this with x.z := this.z.x }
    let this := { this with z.x := r }
    let r := this.y.z
    let this := { this with y.z := this.z.y }
    let this := { this with z.y := r }
    let tx := this.x.x * this.t.x + this.y.x * this.t.y + this.z.x * this.t.z
    let ty := this.x.y * this.t.x + this.y.y * this.t.y + this.z.y * this.t.z
    let tz := this.x.z * this.t.x + this.y.z * this.t.y + this.z.z * this.t.z
    let this := { this with t.x := -tx }
    let this := { this with t.y := -ty }
    let this := { this with t.z := -tz }
    this
  else
    let inv := this.adj
    let det := this.adjDet inv
    if det == 0 then zero else inv.sdiv det
/-- `Mat4::inversed`, impl/mat4.h:951-1033. -/
def inversed (m : Mat4 R) : Res (Mat4 R) :=
  if m.isOrthonormal then
    let x : Vec4 R := ⟨m.x.x, m.y.x, m.z.x, 0⟩
    let y : Vec4 R := ⟨m.x.y, m.y.y, m.z.y, 0⟩
    let z : Vec4 R := ⟨m.x.z, m.y.z, m.z.z, 0⟩
    .ok ⟨x, y, z,
      ⟨-(x.x * m.t.x + y.x * m.t.y + z.x * m.t.z),
       -(x.y * m.t.x + y.y * m.t.y + z.y * m.t.z),
       -(x.z * m.t.x + y.z * m.t.y + z.z * m.t.z), 1⟩, m.flags⟩
  else
    let inv := m.adj
    let det := m.adjDet inv
    if det == 0 then .ok zero
    else do
      let inv ← inv.sdivAssign det
      .ok inv.optimize

end Mat4
end MathLib
