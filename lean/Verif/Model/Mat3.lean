import Verif.Model.Mat2
import Verif.Model.QuatBase

/-! # Model of `mat3.h`

The conversions between matrices and quaternions and everything built on them (`slerp`,
`orthonormalise`, ...) are in `Verif.Model.Quat`. -/

namespace MathLib

/-- `class Mat3`, mat3.h:5-134; `x`, `y`, `z` are the columns. -/
@[ext] structure Mat3 (R : Type) where
  x : Vec3 R
  y : Vec3 R
  z : Vec3 R
  flags : Flags
  deriving DecidableEq, Repr

variable {R : Type} [Zero R] [One R] [NatCast R] [Add R] [Sub R] [Mul R] [Div R] [Neg R] [LT R]
  [LE R] [DecidableLT R] [DecidableLE R] [BEq R]

namespace Mat3

/-- `Mat3::isNormal`, impl/mat3.h:979-983. -/
def isNormal (m : Mat3 R) : Bool := m.flags.normal
/-- `Mat3::isOrthogonal`, impl/mat3.h:985-989. -/
def isOrthogonal (m : Mat3 R) : Bool := m.flags.orthogonal
/-- `Mat3::isOrthonormal`, impl/mat3.h:991-995. -/
def isOrthonormal (m : Mat3 R) : Bool := m.flags.normal && m.flags.orthogonal
/-- `Mat3::isIdentity`, impl/mat3.h:997-1001. -/
def isIdentity (m : Mat3 R) : Bool := m.flags.identity
/-- `Mat3::isInitialized`, impl/mat3.h:1003-1007. -/
def isInitialized (m : Mat3 R) : Bool := !m.flags.uninit

/-- `Mat3::normalError`, impl/mat3.h:952-959. -/
def normalError (m : Mat3 R) : R :=
  let cx := m.x.dot m.x - 1
  let cy := m.y.dot m.y - 1
  let cz := m.z.dot m.z - 1
  cx * cx + cy * cy + cz * cz
/-- `Mat3::orthogonalError`, impl/mat3.h:961-968. -/
def orthogonalError (m : Mat3 R) : R :=
  let xy := m.x.dot m.y
  let xz := m.x.dot m.z
  let yz := m.y.dot m.z
  xy * xy + xz * xz + yz * yz
/-- `Mat3::identityError`, impl/mat3.h:970-977. -/
def identityError (m : Mat3 R) : R :=
  let rx : Vec3 R := ⟨m.x.x - 1, m.x.y, m.x.z⟩
  let ry : Vec3 R := ⟨m.y.x, m.y.y - 1, m.y.z⟩
  let rz : Vec3 R := ⟨m.z.x, m.z.y, m.z.z - 1⟩
  rx.lengthSqr + ry.lengthSqr + rz.lengthSqr

/-- `Mat3::optimize(const Tolerance*)`, impl/mat3.h:629-657. -/
def optimizeTol (m : Mat3 R) (tol : MatTol R) : Mat3 R :=
  let isnormal := decide (m.normalError ≤ tol.normal)
  let isorthogonal := decide (m.orthogonalError ≤ tol.orthogonal)
  let isidentity := isnormal && isorthogonal && decide (m.identityError ≤ tol.identity)
  { m with flags := ⟨isnormal, isorthogonal, isidentity, m.flags.trs, false⟩ }
/-- `Mat3::optimize()` with the default tolerance (impl/mat3.h:629-657). -/
def optimize (m : Mat3 R) : Mat3 R := m.optimizeTol MatTol.default

/-- `Mat3(Real k)`, impl/mat3.h:24-35. -/
def ofScalar (k : R) : Mat3 R :=
  ⟨⟨k, 0, 0⟩, ⟨0, k, 0⟩, ⟨0, 0, k⟩, ⟨k == 1, true, k == 1, false, false⟩⟩
/-- `Mat3::Zero`, impl/mat3.h:5-6. -/
def zero : Mat3 R := ofScalar 0
/-- `Mat3::One`, impl/mat3.h:8-9. -/
def one : Mat3 R := ofScalar 1
/-- `Mat3::setIdentity`, impl/mat3.h:49-57. -/
def setIdentity : Mat3 R := ⟨Vec3.oneX, Vec3.oneY, Vec3.oneZ, ⟨true, true, true, false, false⟩⟩
/-- `Mat3::set(x, y, z)`, impl/mat3.h:95-102; also `Mat3(x, y, z)` (37-42) and `from` (258-264).
Every entry is assigned and `optimize` computes every flag, so the old contents are irrelevant;
the same holds for the other setters below. -/
def ofCols (x y z : Vec3 R) : Mat3 R := optimize ⟨x, y, z, Flags.start⟩
/-- `Mat3::set(const Quat&)`, impl/mat3.h:69-93, and `from(q)` (250-256). -/
def ofQuat (q : Quat R) : Mat3 R :=
  let xx := q.x * q.x
  let yy := q.y * q.y
  let zz := q.z * q.z
  let yz := q.y * q.z
  let zx := q.z * q.x
  let xy := q.x * q.y
  let wx := q.w * q.x
  let wy := q.w * q.y
  let wz := q.w * q.z
  optimize ⟨⟨1 - 2 * (yy + zz), 2 * (xy + wz), 2 * (zx - wy)⟩,
    ⟨2 * (xy - wz), 1 - 2 * (xx + zz), 2 * (yz + wx)⟩,
    ⟨2 * (zx + wy), 2 * (yz - wx), 1 - 2 * (xx + yy)⟩, Flags.start⟩
/-- `Mat3::set(ecoord, exact, acoord, approx)`, impl/mat3.h:104-147, and `from` (266-272). -/
def ofExactApprox [MathFns R] (ecoord : Coord) (exact : Vec3 R) (acoord : Coord) (approx : Vec3 R) :
    Res (Mat3 R) :=
  if exact.x == 0 && exact.y == 0 && exact.z == 0 then .ok setIdentity
  else
    let u := exact.normalized 1
    let v := approx.cross u
    if v.x == 0 && v.y == 0 && v.z == 0 then .ok setIdentity
    else
      let v := (v.normalize 1).1
      let w := u.cross v
      match ecoord, acoord with
      | .X, .Y => .ok (ofCols u w (-v))
      | .X, .Z => .ok (ofCols u v w)
      | .Y, .X => .ok (ofCols w u v)
      | .Y, .Z => .ok (ofCols (-v) u w)
      | .Z, .X => .ok (ofCols w (-v) u)
      | .Z, .Y => .ok (ofCols v w u)
      | _, _ => .error .assertion
/-- `Mat3::set(const Vec3& axis, Real angle)`, impl/mat3.h:149-171, and `from` (274-280). -/
def ofAxisAngle [MathFns R] (axis : Vec3 R) (angle : R) : Mat3 R :=
  let v := axis.normalized 1
  let s := MathFns.sin angle
  let c := MathFns.cos angle
  let t := 1 - c
  optimize ⟨⟨c + v.x * v.x * t, v.x * v.y * t + v.z * s, v.z * v.x * t - v.y * s⟩,
    ⟨v.x * v.y * t - v.z * s, c + v.y * v.y * t, v.y * v.z * t + v.x * s⟩,
    ⟨v.z * v.x * t + v.y * s, v.y * v.z * t - v.x * s, c + v.z * v.z * t⟩, Flags.start⟩
/-- `Mat3::set(Coord axis, Real angle)`, impl/mat3.h:173-223, and `from` (282-288). -/
def ofCoordAngle [MathFns R] (axis : Coord) (angle : R) : Res (Mat3 R) :=
  let s := MathFns.sin angle
  let c := MathFns.cos angle
  match axis with
  | .X => .ok (ofCols ⟨1, 0, 0⟩ ⟨0, c, s⟩ ⟨0, -s, c⟩)
  | .Y => .ok (ofCols ⟨c, 0, -s⟩ ⟨0, 1, 0⟩ ⟨s, 0, c⟩)
  | .Z => .ok (ofCols ⟨c, s, 0⟩ ⟨-s, c, 0⟩ ⟨0, 0, 1⟩)
  | _ => .error .assertion

/-- `Mat3::operator*=(Real)`, impl/mat3.h:311-320. -/
def smulAssign (this : Mat3 R) (k : R) : Mat3 R :=
  if k == 1 then this
  else
    let this := { this with x := this.x.mulAssign k }
    let this := { this with y := this.y.mulAssign k }
    let this := { this with z := this.z.mulAssign k }
    this.optimize
/-- `Mat3::operator*=(const Mat3&)`, impl/mat3.h:322-341, statement by statement.  `arg` gives the
contents of the argument in terms of the current contents of the object: constant if they are
different objects, the identity function if the argument is the object itself. -/
def mulAssignG (arg : Mat3 R → Mat3 R) (this : Mat3 R) : Mat3 R :=
  if (arg this).isIdentity then this
  else if this.isIdentity then arg this
  else
    let ta := this.x.x; let tb := this.y.x; let td := this.x.y; let te := this.y.y
    let tg := this.x.z; let th := this.y.z
    let this := { this with x.x := ta * (arg this).x.x + tb * (arg this).x.y + this.z.x * (arg this).x.z }
    let this := { this with y.x := ta * (arg this).y.x + tb * (arg this).y.y + this.z.x * (arg this).y.z }
    let this := { this with z.x := ta * (arg this).z.x + tb * (arg this).z.y + this.z.x * (arg this).z.z }
    let this := { this with x.y := td * (arg this).x.x + te * (arg this).x.y + this.z.y * (arg this).x.z }
    let this := { this with y.y := td * (arg this).y.x + te * (arg this).y.y + this.z.y * (arg this).y.z }
    let this := { this with z.y := td * (arg this).z.x + te * (arg this).z.y + this.z.y * (arg this).z.z }
    let this := { this with x.z := tg * (arg this).x.x + th * (arg this).x.y + this.z.z * (arg this).x.z }
    let this := { this with y.z := tg * (arg this).y.x + th * (arg this).y.y + this.z.z * (arg this).y.z }
    let this := { this with z.z := tg * (arg this).z.x + th * (arg this).z.y + this.z.z * (arg this).z.z }
    { this with flags := this.flags.and (arg this).flags }
/-- `a *= b` for two different objects (impl/mat3.h:322-341). -/
def mulAssign (this m : Mat3 R) : Mat3 R := mulAssignG (fun _ => m) this
/-- `a *= a` (impl/mat3.h:322-341). -/
def mulAssignSelf (this : Mat3 R) : Mat3 R := mulAssignG id this
/-- `Mat3::operator/=(Real)`, impl/mat3.h:343-353. -/
def sdivAssign (this : Mat3 R) (k : R) : Res (Mat3 R) :=
  if k == 0 then .error .assertion
  else if k == 1 then .ok this
  else do
    let x ← this.x.divAssign k
    let this := { this with x := x }
    let y ← this.y.divAssign k
    let this := { this with y := y }
    let z ← this.z.divAssign k
    let this := { this with z := z }
    .ok this.optimize
/-- unary `Mat3::operator-`, impl/mat3.h:360-364. -/
def neg (m : Mat3 R) : Mat3 R := ofCols (-m.x) (-m.y) (-m.z)
/-- `Mat3::multiply`, impl/mat3.h:1063-1089, `dest` being a third object (else its assertion fails);
also `operator*(const Mat3&)` (366-372). -/
def mul (a b : Mat3 R) : Mat3 R :=
  if a.isIdentity then b
  else if b.isIdentity then a
  else
    ⟨⟨a.x.x * b.x.x + a.y.x * b.x.y + a.z.x * b.x.z,
      a.x.y * b.x.x + a.y.y * b.x.y + a.z.y * b.x.z,
      a.x.z * b.x.x + a.y.z * b.x.y + a.z.z * b.x.z⟩,
     ⟨a.x.x * b.y.x + a.y.x * b.y.y + a.z.x * b.y.z,
      a.x.y * b.y.x + a.y.y * b.y.y + a.z.y * b.y.z,
      a.x.z * b.y.x + a.y.z * b.y.y + a.z.z * b.y.z⟩,
     ⟨a.x.x * b.z.x + a.y.x * b.z.y + a.z.x * b.z.z,
      a.x.y * b.z.x + a.y.y * b.z.y + a.z.y * b.z.z,
      a.x.z * b.z.x + a.y.z * b.z.y + a.z.z * b.z.z⟩,
     a.flags.and b.flags⟩
/-- `Mat3::operator*(Real)`, impl/mat3.h:374-382. -/
def smul (m : Mat3 R) (k : R) : Mat3 R :=
  if k == 0 then zero else if k == 1 then m else ofCols (m.x * k) (m.y * k) (m.z * k)
/-- `Mat3::transform(dest, src)`, impl/mat3.h:1032-1038, `dest` and `src` different; also
`operator*(const Vec3&)` (384-390). -/
def mulVec (m : Mat3 R) (u : Vec3 R) : Vec3 R :=
  ⟨u.x * m.x.x + u.y * m.y.x + u.z * m.z.x,
   u.x * m.x.y + u.y * m.y.y + u.z * m.z.y,
   u.x * m.x.z + u.y * m.y.z + u.z * m.z.z⟩
/-- `Mat3::operator/(Real)`, impl/mat3.h:392-400. -/
def sdiv (m : Mat3 R) (k : R) : Res (Mat3 R) :=
  if k == 0 then .ok zero
  else if k == 1 then .ok m
  else do
    let x ← m.x.div k
    let y ← m.y.div k
    let z ← m.z.div k
    .ok (ofCols x y z)
/-- `Mat3::operator==`, impl/mat3.h:407-411. -/
def eq (a b : Mat3 R) : Bool := a.x.eq b.x && a.y.eq b.y && a.z.eq b.z
/-- `Mat3::operator!=`, impl/mat3.h:413-417. -/
def ne (a b : Mat3 R) : Bool := a.x.ne b.x || a.y.ne b.y || a.z.ne b.z
/-- `Vec3::operator*(const Mat3&)`, impl/vec3.h:563-571. -/
def vecMul (u : Vec3 R) (m : Mat3 R) : Vec3 R :=
  ⟨u.x * m.x.x + u.y * m.x.y + u.z * m.x.z,
   u.x * m.y.x + u.y * m.y.y + u.z * m.y.z,
   u.x * m.z.x + u.y * m.z.y + u.z * m.z.z⟩
/-- `Vec3::operator*=(const Mat3&)`, impl/vec3.h:332-342. -/
def vecMulAssign (this : Vec3 R) (m : Mat3 R) : Vec3 R :=
  let tx := this.x * m.x.x + this.y * m.x.y + this.z * m.x.z
  let ty := this.x * m.y.x + this.y * m.y.y + this.z * m.y.z
  let tz := this.x * m.z.x + this.y * m.z.y + this.z * m.z.z
  let this := { this with x := tx }
  let this := { this with y := ty }
  let this := { this with z := tz }
  this
/-- `Mat3::scale`, impl/mat3.h:421-428. -/
def scale (this : Mat3 R) (c : Vec3 R) : Mat3 R :=
  let this := { this with x := this.x.mulAssign c.x }
  let this := { this with y := this.y.mulAssign c.y }
  let this := { this with z := this.z.mulAssign c.z }
  this.optimize
/-- `Mat3::scaled`, impl/mat3.h:685-694. -/
def scaled (m : Mat3 R) (c : Vec3 R) : Mat3 R := ofCols (m.x * c.x) (m.y * c.y) (m.z * c.z)
/-- `Mat3::rotate(const Mat3&)`, impl/mat3.h:430-454; `arg` as in `mulAssignG`. -/
def rotateG (arg : Mat3 R → Mat3 R) (this : Mat3 R) : Mat3 R :=
  if (arg this).isIdentity then this
  else if this.isIdentity then arg this
  else
    let x_x := this.x.x; let y_x := this.y.x; let z_x := this.z.x
    let x_y := this.x.y; let y_y := this.y.y; let z_y := this.z.y
    let this := { this with x.x := (arg this).x.x * x_x + (arg this).y.x * x_y + (arg this).z.x * this.x.z }
    let this := { this with y.x := (arg this).x.x * y_x + (arg this).y.x * y_y + (arg this).z.x * this.y.z }
    let this := { this with z.x := (arg this).x.x * z_x + (arg this).y.x * z_y + (arg this).z.x * this.z.z }
    let this := { this with x.y := (arg this).x.y * x_x + (arg this).y.y * x_y + (arg this).z.y * this.x.z }
    let this := { this with y.y := (arg this).x.y * y_x + (arg this).y.y * y_y + (arg this).z.y * this.y.z }
    let this := { this with z.y := (arg this).x.y * z_x + (arg this).y.y * z_y + (arg this).z.y * this.z.z }
    let this := { this with x.z := (arg this).x.z * x_x + (arg this).y.z * x_y + (arg this).z.z * this.x.z }
    let this := { this with y.z := (arg this).x.z * y_x + (arg this).y.z * y_y + (arg this).z.z * this.y.z }
    let this := { this with z.z := (arg this).x.z * z_x + (arg this).y.z * z_y + (arg this).z.z * this.z.z }
    { this with flags := this.flags.and (arg this).flags }
/-- `a.rotate(b)` for two different objects (impl/mat3.h:430-454). -/
def rotate (this m : Mat3 R) : Mat3 R := rotateG (fun _ => m) this
/-- `a.rotate(a)` (impl/mat3.h:430-454). -/
def rotateSelf (this : Mat3 R) : Mat3 R := rotateG id this
/-- `Mat3::rotatePre(const Mat3&)`, impl/mat3.h:525-549; `arg` as in `mulAssignG`. -/
def rotatePreG (arg : Mat3 R → Mat3 R) (this : Mat3 R) : Mat3 R :=
  if (arg this).isIdentity then this
  else if this.isIdentity then arg this
  else
    let x_x := this.x.x; let x_y := this.x.y; let x_z := this.x.z
    let y_x := this.y.x; let y_y := this.y.y; let y_z := this.y.z
    let this := { this with x.x := x_x * (arg this).x.x + y_x * (arg this).x.y + this.z.x * (arg this).x.z }
    let this := { this with y.x := x_x * (arg this).y.x + y_x * (arg this).y.y + this.z.x * (arg this).y.z }
    let this := { this with z.x := x_x * (arg this).z.x + y_x * (arg this).z.y + this.z.x * (arg this).z.z }
    let this := { this with x.y := x_y * (arg this).x.x + y_y * (arg this).x.y + this.z.y * (arg this).x.z }
    let this := { this with y.y := x_y * (arg this).y.x + y_y * (arg this).y.y + this.z.y * (arg this).y.z }
    let this := { this with z.y := x_y * (arg this).z.x + y_y * (arg this).z.y + this.z.y * (arg this).z.z }
    let this := { this with x.z := x_z * (arg this).x.x + y_z * (arg this).x.y + this.z.z * (arg this).x.z }
    let this := { this with y.z := x_z * (arg this).y.x + y_z * (arg this).y.y + this.z.z * (arg this).y.z }
    let this := { this with z.z := x_z * (arg this).z.x + y_z * (arg this).z.y + this.z.z * (arg this).z.z }
    { this with flags := this.flags.and (arg this).flags }
/-- `a.rotatePre(b)` for two different objects (impl/mat3.h:525-549). -/
def rotatePre (this m : Mat3 R) : Mat3 R := rotatePreG (fun _ => m) this
/-- `a.rotatePre(a)` (impl/mat3.h:525-549). -/
def rotatePreSelf (this : Mat3 R) : Mat3 R := rotatePreG id this
/-- `Mat3::rotate(const Quat&)`, impl/mat3.h:456-462. -/
def rotateQuat (this : Mat3 R) (q : Quat R) : Mat3 R := this.rotate (ofQuat q)
/-- `Mat3::rotatePre(const Quat&)`, impl/mat3.h:551-557. -/
def rotatePreQuat (this : Mat3 R) (q : Quat R) : Mat3 R := this.rotatePre (ofQuat q)
/-- `Mat3::rotate(const Vec3& axis, Real angle)`, impl/mat3.h:464-470. -/
def rotateAxis [MathFns R] (this : Mat3 R) (axis : Vec3 R) (angle : R) : Mat3 R :=
  this.rotate (ofAxisAngle axis angle)
/-- `Mat3::rotatePre(const Vec3& axis, Real angle)`, impl/mat3.h:559-565. -/
def rotatePreAxis [MathFns R] (this : Mat3 R) (axis : Vec3 R) (angle : R) : Mat3 R :=
  this.rotatePre (ofAxisAngle axis angle)
/-- `Mat3::rotate(Coord axis, Real angle)`, impl/mat3.h:472-523.  The flags are not touched. -/
def rotateCoord [MathFns R] (this : Mat3 R) (axis : Coord) (angle : R) : Res (Mat3 R) :=
  let s := MathFns.sin angle
  let c := MathFns.cos angle
  match axis with
  | .X =>
    let t := this.x.y
    let this := { this with x.y := t * c - this.x.z * s }
    let this := { this with x.z := t * s + this.x.z * c }
    let t := this.y.y
    let this := { this with y.y := t * c - this.y.z * s }
    let this := { this with y.z := t * s + this.y.z * c }
    let t := this.z.y
    let this := { this with z.y := t * c - this.z.z * s }
    let this := { this with z.z := t * s + this.z.z * c }
    .ok this
  | .Y =>
    let t := this.x.x
    let this := { this with x.x := t * c + this.x.z * s }
    let this := { this with x.z := -t * s + this.x.z * c }
    let t := this.y.x
    let this := { this with y.x := t * c + this.y.z * s }
    let this := { this with y.z := -t * s + this.y.z * c }
    let t := this.z.x
    let this := { this with z.x := t * c + this.z.z * s }
    let this := { this with z.z := -t * s + this.z.z * c }
    .ok this
  | .Z =>
    let t := this.x.x
    let this := { this with x.x := t * c - this.x.y * s }
    let this := { this with x.y := t * s + this.x.y * c }
    let t := this.y.x
    let this := { this with y.x := t * c - this.y.y * s }
    let this := { this with y.y := t * s + this.y.y * c }
    let t := this.z.x
    let this := { this with z.x := t * c - this.z.y * s }
    let this := { this with z.y := t * s + this.z.y * c }
    .ok this
  | _ => .error .assertion
/-- `Mat3::rotatePre(Coord axis, Real angle)`, impl/mat3.h:567-618.  The flags are not touched. -/
def rotatePreCoord [MathFns R] (this : Mat3 R) (axis : Coord) (angle : R) : Res (Mat3 R) :=
  let s := MathFns.sin angle
  let c := MathFns.cos angle
  match axis with
  | .X =>
    let t := this.y.x
    let this := { this with y.x := t * c + this.z.x * s }
    let this := { this with z.x := -t * s + this.z.x * c }
    let t := this.y.y
    let this := { this with y.y := t * c + this.z.y * s }
    let this := { this with z.y := -t * s + this.z.y * c }
    let t := this.y.z
    let this := { this with y.z := t * c + this.z.z * s }
    let this := { this with z.z := -t * s + this.z.z * c }
    .ok this
  | .Y =>
    let t := this.x.x
    let this := { this with x.x := t * c - this.z.x * s }
    let this := { this with z.x := t * s + this.z.x * c }
    let t := this.x.y
    let this := { this with x.y := t * c - this.z.y * s }
    let this := { this with z.y := t * s + this.z.y * c }
    let t := this.x.z
    let this := { this with x.z := t * c - this.z.z * s }
    let this := { this with z.z := t * s + this.z.z * c }
    .ok this
  | .Z =>
    let t := this.x.x
    let this := { this with x.x := t * c + this.y.x * s }
    let this := { this with y.x := -t * s + this.y.x * c }
    let t := this.x.y
    let this := { this with x.y := t * c + this.y.y * s }
    let this := { this with y.y := -t * s + this.y.y * c }
    let t := this.x.z
    let this := { this with x.z := t * c + this.y.z * s }
    let this := { this with y.z := -t * s + this.y.z * c }
    .ok this
  | _ => .error .assertion
/-- `Mat3::rotated(const Mat3&)`, impl/mat3.h:696-722. -/
def rotated (this m : Mat3 R) : Mat3 R :=
  if m.isIdentity then this
  else if this.isIdentity then m
  else
    ⟨⟨m.x.x * this.x.x + m.y.x * this.x.y + m.z.x * this.x.z,
      m.x.y * this.x.x + m.y.y * this.x.y + m.z.y * this.x.z,
      m.x.z * this.x.x + m.y.z * this.x.y + m.z.z * this.x.z⟩,
     ⟨m.x.x * this.y.x + m.y.x * this.y.y + m.z.x * this.y.z,
      m.x.y * this.y.x + m.y.y * this.y.y + m.z.y * this.y.z,
      m.x.z * this.y.x + m.y.z * this.y.y + m.z.z * this.y.z⟩,
     ⟨m.x.x * this.z.x + m.y.x * this.z.y + m.z.x * this.z.z,
      m.x.y * this.z.x + m.y.y * this.z.y + m.z.y * this.z.z,
      m.x.z * this.z.x + m.y.z * this.z.y + m.z.z * this.z.z⟩,
     this.flags.and m.flags⟩
/-- `Mat3::rotatedPre(const Mat3&)`, impl/mat3.h:788-814. -/
def rotatedPre (this m : Mat3 R) : Mat3 R :=
  if m.isIdentity then this
  else if this.isIdentity then m
  else
    ⟨⟨this.x.x * m.x.x + this.y.x * m.x.y + this.z.x * m.x.z,
      this.x.y * m.x.x + this.y.y * m.x.y + this.z.y * m.x.z,
      this.x.z * m.x.x + this.y.z * m.x.y + this.z.z * m.x.z⟩,
     ⟨this.x.x * m.y.x + this.y.x * m.y.y + this.z.x * m.y.z,
      this.x.y * m.y.x + this.y.y * m.y.y + this.z.y * m.y.z,
      this.x.z * m.y.x + this.y.z * m.y.y + this.z.z * m.y.z⟩,
     ⟨this.x.x * m.z.x + this.y.x * m.z.y + this.z.x * m.z.z,
      this.x.y * m.z.x + this.y.y * m.z.y + this.z.y * m.z.z,
      this.x.z * m.z.x + this.y.z * m.z.y + this.z.z * m.z.z⟩,
     this.flags.and m.flags⟩
/-- `Mat3::rotated(const Quat&)`, impl/mat3.h:724-730. -/
def rotatedQuat (this : Mat3 R) (q : Quat R) : Mat3 R := this.rotated (ofQuat q)
/-- `Mat3::rotatedPre(const Quat&)`, impl/mat3.h:816-822. -/
def rotatedPreQuat (this : Mat3 R) (q : Quat R) : Mat3 R := this.rotatedPre (ofQuat q)
/-- `Mat3::rotated(const Vec3& axis, Real angle)`, impl/mat3.h:732-738. -/
def rotatedAxis [MathFns R] (this : Mat3 R) (axis : Vec3 R) (angle : R) : Mat3 R :=
  this.rotated (ofAxisAngle axis angle)
/-- `Mat3::rotatedPre(const Vec3& axis, Real angle)`, impl/mat3.h:824-830. -/
def rotatedPreAxis [MathFns R] (this : Mat3 R) (axis : Vec3 R) (angle : R) : Mat3 R :=
  this.rotatedPre (ofAxisAngle axis angle)
/-- `Mat3::rotated(Coord axis, Real angle)`, impl/mat3.h:740-786.  The flags are copied. -/
def rotatedCoord [MathFns R] (this : Mat3 R) (axis : Coord) (angle : R) : Res (Mat3 R) :=
  let s := MathFns.sin angle
  let c := MathFns.cos angle
  match axis with
  | .X => .ok
    ⟨⟨this.x.x, this.x.y * c - this.x.z * s, this.x.y * s + this.x.z * c⟩,
     ⟨this.y.x, this.y.y * c - this.y.z * s, this.y.y * s + this.y.z * c⟩,
     ⟨this.z.x, this.z.y * c - this.z.z * s, this.z.y * s + this.z.z * c⟩,
     this.flags⟩
  | .Y => .ok
    ⟨⟨this.x.x * c + this.x.z * s, this.x.y, -this.x.x * s + this.x.z * c⟩,
     ⟨this.y.x * c + this.y.z * s, this.y.y, -this.y.x * s + this.y.z * c⟩,
     ⟨this.z.x * c + this.z.z * s, this.z.y, -this.z.x * s + this.z.z * c⟩,
     this.flags⟩
  | .Z => .ok
    ⟨⟨this.x.x * c - this.x.y * s, this.x.x * s + this.x.y * c, this.x.z⟩,
     ⟨this.y.x * c - this.y.y * s, this.y.x * s + this.y.y * c, this.y.z⟩,
     ⟨this.z.x * c - this.z.y * s, this.z.x * s + this.z.y * c, this.z.z⟩,
     this.flags⟩
  | _ => .error .assertion
/-- `Mat3::rotatedPre(Coord axis, Real angle)`, impl/mat3.h:832-878.  The flags are copied. -/
def rotatedPreCoord [MathFns R] (this : Mat3 R) (axis : Coord) (angle : R) : Res (Mat3 R) :=
  let s := MathFns.sin angle
  let c := MathFns.cos angle
  match axis with
  | .X => .ok
    ⟨⟨this.x.x, this.x.y, this.x.z⟩,
     ⟨this.y.x * c + this.z.x * s, this.y.y * c + this.z.y * s, this.y.z * c + this.z.z * s⟩,
     ⟨-this.y.x * s + this.z.x * c, -this.y.y * s + this.z.y * c, -this.y.z * s + this.z.z * c⟩,
     this.flags⟩
  | .Y => .ok
    ⟨⟨this.x.x * c - this.z.x * s, this.x.y * c - this.z.y * s, this.x.z * c - this.z.z * s⟩,
     ⟨this.y.x, this.y.y, this.y.z⟩,
     ⟨this.x.x * s + this.z.x * c, this.x.y * s + this.z.y * c, this.x.z * s + this.z.z * c⟩,
     this.flags⟩
  | .Z => .ok
    ⟨⟨this.x.x * c + this.y.x * s, this.x.y * c + this.y.y * s, this.x.z * c + this.y.z * s⟩,
     ⟨-this.x.x * s + this.y.x * c, -this.x.y * s + this.y.y * c, -this.x.z * s + this.y.z * c⟩,
     ⟨this.z.x, this.z.y, this.z.z⟩,
     this.flags⟩
  | _ => .error .assertion
/-- `Mat3::transpose`, impl/mat3.h:659-668. -/
def transpose (this : Mat3 R) : Mat3 R :=
  let t := this.x.y
  let this := { this with x.y := this.y.x }
  let this := { this with y.x := t }
  let t := this.x.z
  let this := { this with x.z := this.z.x }
  let this := { this with z.x := t }
  let t := this.y.z
  let this := { this with y.z := this.z.y }
  let this := { this with z.y := t }
  this
/-- `Mat3::transposed`, impl/mat3.h:880-895. -/
def transposed (m : Mat3 R) : Mat3 R :=
  ⟨⟨m.x.x, m.y.x, m.z.x⟩, ⟨m.x.y, m.y.y, m.z.y⟩, ⟨m.x.z, m.y.z, m.z.z⟩, m.flags⟩
/-- `Mat3::cofactors`, impl/mat3.h:897-912. -/
def cofactors (m : Mat3 R) : Mat3 R :=
  ofCols
    ⟨m.y.y * m.z.z - m.z.y * m.y.z, m.z.x * m.y.z - m.y.x * m.z.z, m.y.x * m.z.y - m.z.x * m.y.y⟩
    ⟨m.z.y * m.x.z - m.x.y * m.z.z, m.x.x * m.z.z - m.z.x * m.x.z, m.z.x * m.x.y - m.x.x * m.z.y⟩
    ⟨m.x.y * m.y.z - m.y.y * m.x.z, m.y.x * m.x.z - m.x.x * m.y.z, m.x.x * m.y.y - m.y.x * m.x.y⟩
/-- `Mat3::adjoint`, impl/mat3.h:914-929. -/
def adjoint (m : Mat3 R) : Mat3 R :=
  ofCols
    ⟨m.y.y * m.z.z - m.z.y * m.y.z, m.z.y * m.x.z - m.x.y * m.z.z, m.x.y * m.y.z - m.y.y * m.x.z⟩
    ⟨m.z.x * m.y.z - m.y.x * m.z.z, m.x.x * m.z.z - m.z.x * m.x.z, m.y.x * m.x.z - m.x.x * m.y.z⟩
    ⟨m.y.x * m.z.y - m.z.x * m.y.y, m.z.x * m.x.y - m.x.x * m.z.y, m.x.x * m.y.y - m.y.x * m.x.y⟩
/-- `Mat3::trace`, impl/mat3.h:931-935. -/
def trace (m : Mat3 R) : R := m.x.x + m.y.y + m.z.z
/-- `Mat3::determinant`, impl/mat3.h:937-943. -/
def determinant (m : Mat3 R) : R :=
  m.x.x * (m.y.y * m.z.z - m.z.y * m.y.z) - m.y.x * (m.x.y * m.z.z - m.z.y * m.x.z) +
    m.z.x * (m.x.y * m.y.z - m.y.y * m.x.z)
/-- `Mat3::inversed`, impl/mat3.h:945-950. -/
def inversed (m : Mat3 R) : Res (Mat3 R) :=
  let det := m.determinant
  if det == 0 then .ok zero else m.adjoint.sdiv det
/-- `Mat3::invert`, impl/mat3.h:670-678. -/
def invert (m : Mat3 R) : Res (Mat3 R) :=
  if m.isOrthonormal then .ok m.transpose
  else
    let det := m.determinant
    if det == 0 then .ok zero else m.adjoint.sdiv det

end Mat3
end MathLib
