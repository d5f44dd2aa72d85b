import Verif.Model.Interpolation

/-! # Model of `mat2.h`, and the flag words of all matrix classes -/

namespace MathLib

/-- The private `unsigned int flags` of the matrix classes as one Boolean per bit (mat2.h:98-108,
mat3.h:114-123, mat4.h:138-148).  `trs` exists only in `Mat4` and is false elsewhere;
`Orthonormal` is the conjunction of `Normal` and `Orthogonal`; `Mask` of `Mat2` equals
`Orthonormal`. -/
structure Flags where
  normal : Bool
  orthogonal : Bool
  identity : Bool
  trs : Bool
  uninit : Bool
  deriving DecidableEq, Repr

/-- `flags & other.flags`, impl/mat2.h:106 -/
def Flags.and (f g : Flags) : Flags :=
  ⟨f.normal && g.normal, f.orthogonal && g.orthogonal, f.identity && g.identity, f.trs && g.trs,
    f.uninit && g.uninit⟩

/-- value of `flags` in a default constructed matrix (impl/mat2.h:18-22, impl/mat3.h:18-22,
impl/mat4.h:23-27) -/
def Flags.start : Flags := ⟨false, false, false, false, true⟩

/-- `struct MatrixTolerance`, common.h:47-53. -/
structure MatTol (R : Type) where
  normal : R
  orthogonal : R
  identity : R

variable {R : Type} [Zero R] [One R] [NatCast R] [Add R] [Sub R] [Mul R] [Div R] [Neg R] [LT R]
  [LE R] [DecidableLT R] [DecidableLE R] [BEq R]

/-- `DefaultTolerance` of all three classes, impl/mat2.h:11-12, impl/mat3.h:11-12,
impl/mat4.h:16-17. -/
def MatTol.default : MatTol R := ⟨1 / 1000, 1 / 1000, 1 / 1000⟩

/-- `class Mat2`, mat2.h:5-109; `x`, `y` are the columns. -/
@[ext] structure Mat2 (R : Type) where
  x : Vec2 R
  y : Vec2 R
  flags : Flags
  deriving DecidableEq, Repr

namespace Mat2

/-- `Mat2::isNormal`, impl/mat2.h:438-442. -/
def isNormal (m : Mat2 R) : Bool := m.flags.normal
/-- `Mat2::isOrthogonal`, impl/mat2.h:444-448. -/
def isOrthogonal (m : Mat2 R) : Bool := m.flags.orthogonal
/-- `Mat2::isOrthonormal`, impl/mat2.h:450-454. -/
def isOrthonormal (m : Mat2 R) : Bool := m.flags.normal && m.flags.orthogonal
/-- `Mat2::isIdentity`, impl/mat2.h:456-460. -/
def isIdentity (m : Mat2 R) : Bool := m.flags.identity
/-- `Mat2::isInitialized`, impl/mat2.h:462-466. -/
def isInitialized (m : Mat2 R) : Bool := !m.flags.uninit

/-- `Mat2::normalError`, impl/mat2.h:415-421. -/
def normalError (m : Mat2 R) : R :=
  let cx := m.x.dot m.x - 1
  let cy := m.y.dot m.y - 1
  cx * cx + cy * cy
/-- `Mat2::orthogonalError`, impl/mat2.h:423-428. -/
def orthogonalError (m : Mat2 R) : R :=
  let xy := m.x.dot m.y
  xy * xy
/-- `Mat2::identityError`, impl/mat2.h:430-436. -/
def identityError (m : Mat2 R) : R :=
  let rx : Vec2 R := ⟨m.x.x - 1, m.x.y⟩
  let ry : Vec2 R := ⟨m.y.x, m.y.y - 1⟩
  rx.lengthSqr + ry.lengthSqr

/-- `Mat2::optimize(const Tolerance*)`, impl/mat2.h:295-323. -/
def optimizeTol (m : Mat2 R) (tol : MatTol R) : Mat2 R :=
  let isnormal := decide (m.normalError ≤ tol.normal)
  let isorthogonal := decide (m.orthogonalError ≤ tol.orthogonal)
  let isidentity := isnormal && isorthogonal && decide (m.identityError ≤ tol.identity)
  { m with flags := ⟨isnormal, isorthogonal, isidentity, m.flags.trs, false⟩ }
/-- `Mat2::optimize()` with the default tolerance (impl/mat2.h:295-323). -/
def optimize (m : Mat2 R) : Mat2 R := m.optimizeTol MatTol.default

/-- `Mat2(Real k)`, impl/mat2.h:24-34. -/
def ofScalar (k : R) : Mat2 R :=
  ⟨⟨k, 0⟩, ⟨0, k⟩, ⟨k == 1, true, k == 1, false, false⟩⟩
/-- `Mat2::Zero`, impl/mat2.h:5-6. -/
def zero : Mat2 R := ofScalar 0
/-- `Mat2::One`, impl/mat2.h:8-9. -/
def one : Mat2 R := ofScalar 1
/-- `Mat2::set(x, y)`, impl/mat2.h:204-210; also `Mat2(x, y)` (36-41) and `from(x, y)` (47-53).
Every entry is assigned and `optimize` computes every flag, so the old contents are irrelevant. -/
def ofCols (x y : Vec2 R) : Mat2 R := optimize ⟨x, y, Flags.start⟩
/-- `Mat2::setIdentity`, impl/mat2.h:186-193. -/
def setIdentity : Mat2 R := ⟨Vec2.oneX, Vec2.oneY, ⟨true, true, true, false, false⟩⟩
/-- `Mat2::set(Real angle)`, impl/mat2.h:212-224, and `from(angle)` (55-61). -/
def ofAngle [MathFns R] (angle : R) : Mat2 R :=
  let s := MathFns.sin angle
  let c := MathFns.cos angle
  optimize ⟨⟨c, s⟩, ⟨-s, c⟩, Flags.start⟩
/-- `Mat2::angle`, impl/mat2.h:409-413. -/
def angle [MathFns R] (m : Mat2 R) : R := MathFns.atan2 m.x.y m.x.x

/-- `Mat2::operator*=(Real)`, impl/mat2.h:84-92. -/
def smulAssign (this : Mat2 R) (k : R) : Mat2 R :=
  if k == 1 then this
  else
    let this := { this with x := this.x.mulAssign k }
    let this := { this with y := this.y.mulAssign k }
    this.optimize
/-- `Mat2::operator*=(const Mat2&)`, impl/mat2.h:94-108, statement by statement.  `arg` gives the
contents of the argument in terms of the current contents of the object: constant if they are
different objects, the identity function if the argument is the object itself. -/
def mulAssignG (arg : Mat2 R → Mat2 R) (this : Mat2 R) : Mat2 R :=
  if (arg this).isIdentity then this
  else if this.isIdentity then arg this
  else
    let ta := this.x.x; let tb := this.y.x; let td := this.x.y; let te := this.y.y
    let this := { this with x.x := ta * (arg this).x.x + tb * (arg this).x.y }
    let this := { this with y.x := ta * (arg this).y.x + tb * (arg this).y.y }
    let this := { this with x.y := td * (arg this).x.x + te * (arg this).x.y }
    let this := { this with y.y := td * (arg this).y.x + te * (arg this).y.y }
    { this with flags := this.flags.and (arg this).flags }
/-- `a *= b` for two different objects (impl/mat2.h:94-108). -/
def mulAssign (this m : Mat2 R) : Mat2 R := mulAssignG (fun _ => m) this
/-- `a *= a` (impl/mat2.h:94-108). -/
def mulAssignSelf (this : Mat2 R) : Mat2 R := mulAssignG id this
/-- `Mat2::operator/=(Real)`, impl/mat2.h:110-119. -/
def sdivAssign (this : Mat2 R) (k : R) : Res (Mat2 R) :=
  if k == 0 then .error .assertion
  else if k == 1 then .ok this
  else do
    let x ← this.x.divAssign k
    let this := { this with x := x }
    let y ← this.y.divAssign k
    let this := { this with y := y }
    .ok this.optimize
/-- unary `Mat2::operator-`, impl/mat2.h:126-130. -/
def neg (m : Mat2 R) : Mat2 R := ofCols (-m.x) (-m.y)
/-- `Mat2::multiply`, impl/mat2.h:520-541, `dest` being a third object (else its assertion fails);
also `operator*(const Mat2&)` (132-138). -/
def mul (a b : Mat2 R) : Mat2 R :=
  if a.isIdentity then b
  else if b.isIdentity then a
  else
    ⟨⟨a.x.x * b.x.x + a.y.x * b.x.y, a.x.y * b.x.x + a.y.y * b.x.y⟩,
     ⟨a.x.x * b.y.x + a.y.x * b.y.y, a.x.y * b.y.x + a.y.y * b.y.y⟩,
     a.flags.and b.flags⟩
/-- `Mat2::operator*(Real)`, impl/mat2.h:140-148. -/
def smul (m : Mat2 R) (k : R) : Mat2 R :=
  if k == 0 then zero else if k == 1 then m else ofCols (m.x * k) (m.y * k)
/-- `Mat2::transform(dest, src)`, impl/mat2.h:490-495, `dest` and `src` different; also
`operator*(const Vec2&)` (150-156). -/
def mulVec (m : Mat2 R) (u : Vec2 R) : Vec2 R :=
  ⟨u.x * m.x.x + u.y * m.y.x, u.x * m.x.y + u.y * m.y.y⟩
/-- `Mat2::operator/(Real)`, impl/mat2.h:158-166 (`Vec2::operator/` asserts, but not for k ≠ 0). -/
def sdiv (m : Mat2 R) (k : R) : Res (Mat2 R) :=
  if k == 0 then .ok zero
  else if k == 1 then .ok m
  else do
    let x ← m.x.div k
    let y ← m.y.div k
    .ok (ofCols x y)
/-- `Mat2::operator==`, impl/mat2.h:172-176. -/
def eq (a b : Mat2 R) : Bool := a.x.eq b.x && a.y.eq b.y
/-- `Mat2::operator!=`, impl/mat2.h:178-182. -/
def ne (a b : Mat2 R) : Bool := a.x.ne b.x || a.y.ne b.y
/-- `Vec2::operator*(const Mat2&)`, impl/vec2.h:344-348. -/
def vecMul (u : Vec2 R) (m : Mat2 R) : Vec2 R :=
  ⟨u.x * m.x.x + u.y * m.x.y, u.x * m.y.x + u.y * m.y.y⟩
/-- `Vec2::operator*=(const Mat2&)`, impl/vec2.h:279-287. -/
def vecMulAssign (this : Vec2 R) (m : Mat2 R) : Vec2 R :=
  let tx := this.x * m.x.x + this.y * m.x.y
  let ty := this.x * m.y.x + this.y * m.y.y
  let this := { this with x := tx }
  let this := { this with y := ty }
  this

/-- `Mat2::slerp`, impl/mat2.h:226-231. -/
def slerp [MathFns R] (a b : Mat2 R) (weight : R) : Mat2 R :=
  ofAngle (clerp a.angle b.angle weight)
/-- `Mat2::slerpMaxAngle`, impl/mat2.h:233-238. -/
def slerpMaxAngle [MathFns R] (a b : Mat2 R) (maxAngle : R) : Mat2 R :=
  ofAngle (clerpMaxAngle a.angle b.angle maxAngle)

/-- `Mat2::scale`, impl/mat2.h:240-246. -/
def scale (this : Mat2 R) (c : Vec2 R) : Mat2 R :=
  let this := { this with x := this.x.mulAssign c.x }
  let this := { this with y := this.y.mulAssign c.y }
  this.optimize
/-- `Mat2::scaled`, impl/mat2.h:344-352. -/
def scaled (m : Mat2 R) (c : Vec2 R) : Mat2 R := ofCols (m.x * c.x) (m.y * c.y)
/-- `Mat2::transpose`, impl/mat2.h:248-254. -/
def transpose (this : Mat2 R) : Mat2 R :=
  let t := this.x.y
  let this := { this with x.y := this.y.x }
  let this := { this with y.x := t }
  this
/-- `Mat2::transposed`, impl/mat2.h:354-364. -/
def transposed (m : Mat2 R) : Mat2 R := ⟨⟨m.x.x, m.y.x⟩, ⟨m.x.y, m.y.y⟩, m.flags⟩
/-- `Mat2::rotate`, impl/mat2.h:256-270. -/
def rotate [MathFns R] (this : Mat2 R) (angle : R) : Mat2 R :=
  let s := MathFns.sin angle
  let c := MathFns.cos angle
  let t := this.x.x
  let this := { this with x.x := t * c - this.x.y * s }
  let this := { this with x.y := t * s + this.x.y * c }
  let t := this.y.x
  let this := { this with y.x := t * c - this.y.y * s }
  let this := { this with y.y := t * s + this.y.y * c }
  this.optimize
/-- `Mat2::rotated`, impl/mat2.h:330-342. -/
def rotated [MathFns R] (m : Mat2 R) (angle : R) : Mat2 R :=
  let s := MathFns.sin angle
  let c := MathFns.cos angle
  optimize ⟨⟨m.x.x * c - m.x.y * s, m.x.x * s + m.x.y * c⟩,
    ⟨m.y.x * c - m.y.y * s, m.y.x * s + m.y.y * c⟩, Flags.start⟩
/-- `Mat2::rotatePre`, impl/mat2.h:272-286. -/
def rotatePre [MathFns R] (this : Mat2 R) (angle : R) : Mat2 R :=
  let s := MathFns.sin angle
  let c := MathFns.cos angle
  let t := this.x.x
  let this := { this with x.x := t * c + this.y.x * s }
  let this := { this with y.x := -t * s + this.y.x * c }
  let t := this.x.y
  let this := { this with x.y := t * c + this.y.y * s }
  let this := { this with y.y := -t * s + this.y.y * c }
  this.optimize
/-- `Mat2::orthonormalise`, impl/mat2.h:288-293. -/
def orthonormalise [MathFns R] (m : Mat2 R) : Mat2 R := ofAngle m.angle
/-- `Mat2::cofactors`, impl/mat2.h:366-376. -/
def cofactors (m : Mat2 R) : Mat2 R := ofCols ⟨m.y.y, -m.y.x⟩ ⟨-m.x.y, m.x.x⟩
/-- `Mat2::adjoint`, impl/mat2.h:378-388. -/
def adjoint (m : Mat2 R) : Mat2 R := ofCols ⟨m.y.y, -m.x.y⟩ ⟨-m.y.x, m.x.x⟩
/-- `Mat2::trace`, impl/mat2.h:390-394. -/
def trace (m : Mat2 R) : R := m.x.x + m.y.y
/-- `Mat2::determinant`, impl/mat2.h:396-400. -/
def determinant (m : Mat2 R) : R := m.x.x * m.y.y - m.x.y * m.y.x
/-- `Mat2::inversed`, impl/mat2.h:402-407 (there is no `Mat2::invert`). -/
def inversed (m : Mat2 R) : Res (Mat2 R) :=
  let det := m.determinant
  if det == 0 then .ok zero else m.adjoint.sdiv det

end Mat2
end MathLib
