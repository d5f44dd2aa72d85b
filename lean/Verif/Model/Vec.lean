import Verif.Model.Functions

/-! # Model of `vec2.h`, `vec3.h`, `vec4.h`

`u * v` (dot product) is written `u.dot v`, `u % v` is `u.cross v`.
Slerps are in `Verif.Model.Slerp` because they need quaternions. -/

namespace MathLib

/-- `class Vec2`, vec2.h:5-101. -/
@[ext] structure Vec2 (R : Type) where
  x : R
  y : R
  deriving DecidableEq, Repr

/-- `class Vec3`, vec3.h:5-97. -/
@[ext] structure Vec3 (R : Type) where
  x : R
  y : R
  z : R
  deriving DecidableEq, Repr

/-- `class Vec4`, vec4.h:5-74. -/
@[ext] structure Vec4 (R : Type) where
  x : R
  y : R
  z : R
  w : R
  deriving DecidableEq, Repr

variable {R : Type}

/-! ## Arithmetic operators -/

/-- `Vec2::operator+`, impl/vec2.h:303-307. -/
instance [Add R] : Add (Vec2 R) := ⟨fun a u => ⟨a.x + u.x, a.y + u.y⟩⟩
/-- unary `Vec2::operator-`, impl/vec2.h:309-313. -/
instance [Neg R] : Neg (Vec2 R) := ⟨fun a => ⟨-a.x, -a.y⟩⟩
/-- `Vec2::operator-`, impl/vec2.h:315-319. -/
instance [Sub R] : Sub (Vec2 R) := ⟨fun a u => ⟨a.x - u.x, a.y - u.y⟩⟩
/-- `Vec2::operator*(Real)`, impl/vec2.h:333-337. -/
instance [Mul R] : HMul (Vec2 R) R (Vec2 R) := ⟨fun a k => ⟨a.x * k, a.y * k⟩⟩

/-- `Vec3::operator+`, impl/vec3.h:453-457. -/
instance [Add R] : Add (Vec3 R) := ⟨fun a u => ⟨a.x + u.x, a.y + u.y, a.z + u.z⟩⟩
/-- unary `Vec3::operator-`, impl/vec3.h:459-463. -/
instance [Neg R] : Neg (Vec3 R) := ⟨fun a => ⟨-a.x, -a.y, -a.z⟩⟩
/-- `Vec3::operator-`, impl/vec3.h:465-469. -/
instance [Sub R] : Sub (Vec3 R) := ⟨fun a u => ⟨a.x - u.x, a.y - u.y, a.z - u.z⟩⟩
/-- `Vec3::operator*(Real)`, impl/vec3.h:552-556. -/
instance [Mul R] : HMul (Vec3 R) R (Vec3 R) := ⟨fun a k => ⟨a.x * k, a.y * k, a.z * k⟩⟩

/-- `Vec4::operator+`, impl/vec4.h:173-177. -/
instance [Add R] : Add (Vec4 R) := ⟨fun a u => ⟨a.x + u.x, a.y + u.y, a.z + u.z, a.w + u.w⟩⟩
/-- unary `Vec4::operator-`, impl/vec4.h:179-183. -/
instance [Neg R] : Neg (Vec4 R) := ⟨fun a => ⟨-a.x, -a.y, -a.z, -a.w⟩⟩
/-- `Vec4::operator-`, impl/vec4.h:185-189. -/
instance [Sub R] : Sub (Vec4 R) := ⟨fun a u => ⟨a.x - u.x, a.y - u.y, a.z - u.z, a.w - u.w⟩⟩
/-- `Vec4::operator*(Real)`, impl/vec4.h:197-201. -/
instance [Mul R] : HMul (Vec4 R) R (Vec4 R) := ⟨fun a k => ⟨a.x * k, a.y * k, a.z * k, a.w * k⟩⟩

/-! ## Compound assignments

Statement by statement.  `…Self` is the call with the argument aliasing the object (`u += u`), where
every read of the argument sees the assignments made so far. -/

/-- `Vec2::operator+=(const Vec2&)`, impl/vec2.h:249-255. -/
def Vec2.addAssign [Add R] (this u : Vec2 R) : Vec2 R :=
  let this := { this with x := this.x + u.x }
  let this := { this with y := this.y + u.y }
  this
/-- the same with `u` aliasing `*this` (impl/vec2.h:249-255) -/
def Vec2.addAssignSelf [Add R] (this : Vec2 R) : Vec2 R :=
  let this := { this with x := this.x + this.x }
  let this := { this with y := this.y + this.y }
  this
/-- `Vec2::operator-=(const Vec2&)`, impl/vec2.h:257-263. -/
def Vec2.subAssign [Sub R] (this u : Vec2 R) : Vec2 R :=
  let this := { this with x := this.x - u.x }
  let this := { this with y := this.y - u.y }
  this
/-- the same with `u` aliasing `*this` (impl/vec2.h:257-263) -/
def Vec2.subAssignSelf [Sub R] (this : Vec2 R) : Vec2 R :=
  let this := { this with x := this.x - this.x }
  let this := { this with y := this.y - this.y }
  this
/-- `Vec2::operator*=(Real)`, impl/vec2.h:265-271. -/
def Vec2.mulAssign [Mul R] (this : Vec2 R) (k : R) : Vec2 R :=
  let this := { this with x := this.x * k }
  let this := { this with y := this.y * k }
  this
/-- `Vec2::operator/=`, impl/vec2.h:289-296. -/
def Vec2.divAssign [Zero R] [BEq R] [Div R] (this : Vec2 R) (k : R) : Res (Vec2 R) :=
  if k == 0 then .error .assertion
  else
    let this := { this with x := this.x / k }
    let this := { this with y := this.y / k }
    .ok this
/-- `Vec3::operator+=(const Vec3&)`, impl/vec3.h:300-307. -/
def Vec3.addAssign [Add R] (this u : Vec3 R) : Vec3 R :=
  let this := { this with x := this.x + u.x }
  let this := { this with y := this.y + u.y }
  let this := { this with z := this.z + u.z }
  this
/-- the same with `u` aliasing `*this` (impl/vec3.h:300-307) -/
def Vec3.addAssignSelf [Add R] (this : Vec3 R) : Vec3 R :=
  let this := { this with x := this.x + this.x }
  let this := { this with y := this.y + this.y }
  let this := { this with z := this.z + this.z }
  this
/-- `Vec3::operator-=(const Vec3&)`, impl/vec3.h:309-316. -/
def Vec3.subAssign [Sub R] (this u : Vec3 R) : Vec3 R :=
  let this := { this with x := this.x - u.x }
  let this := { this with y := this.y - u.y }
  let this := { this with z := this.z - u.z }
  this
/-- the same with `u` aliasing `*this` (impl/vec3.h:309-316) -/
def Vec3.subAssignSelf [Sub R] (this : Vec3 R) : Vec3 R :=
  let this := { this with x := this.x - this.x }
  let this := { this with y := this.y - this.y }
  let this := { this with z := this.z - this.z }
  this
/-- `Vec3::operator*=(Real)`, impl/vec3.h:318-325. -/
def Vec3.mulAssign [Mul R] (this : Vec3 R) (k : R) : Vec3 R :=
  let this := { this with x := this.x * k }
  let this := { this with y := this.y * k }
  let this := { this with z := this.z * k }
  this
/-- `Vec3::operator/=`, impl/vec3.h:344-352. -/
def Vec3.divAssign [Zero R] [BEq R] [Div R] (this : Vec3 R) (k : R) : Res (Vec3 R) :=
  if k == 0 then .error .assertion
  else
    let this := { this with x := this.x / k }
    let this := { this with y := this.y / k }
    let this := { this with z := this.z / k }
    .ok this
/-- `Vec4::operator+=(const Vec4&)`, impl/vec4.h:127-135. -/
def Vec4.addAssign [Add R] (this u : Vec4 R) : Vec4 R :=
  let this := { this with x := this.x + u.x }
  let this := { this with y := this.y + u.y }
  let this := { this with z := this.z + u.z }
  let this := { this with w := this.w + u.w }
  this
/-- the same with `u` aliasing `*this` (impl/vec4.h:127-135) -/
def Vec4.addAssignSelf [Add R] (this : Vec4 R) : Vec4 R :=
  let this := { this with x := this.x + this.x }
  let this := { this with y := this.y + this.y }
  let this := { this with z := this.z + this.z }
  let this := { this with w := this.w + this.w }
  this
/-- `Vec4::operator-=(const Vec4&)`, impl/vec4.h:137-145. -/
def Vec4.subAssign [Sub R] (this u : Vec4 R) : Vec4 R :=
  let this := { this with x := this.x - u.x }
  let this := { this with y := this.y - u.y }
  let this := { this with z := this.z - u.z }
  let this := { this with w := this.w - u.w }
  this
/-- the same with `u` aliasing `*this` (impl/vec4.h:137-145) -/
def Vec4.subAssignSelf [Sub R] (this : Vec4 R) : Vec4 R :=
  let this := { this with x := this.x - this.x }
  let this := { this with y := this.y - this.y }
  let this := { this with z := this.z - this.z }
  let this := { this with w := this.w - this.w }
  this
/-- `Vec4::operator*=(Real)`, impl/vec4.h:147-155. -/
def Vec4.mulAssign [Mul R] (this : Vec4 R) (k : R) : Vec4 R :=
  let this := { this with x := this.x * k }
  let this := { this with y := this.y * k }
  let this := { this with z := this.z * k }
  let this := { this with w := this.w * k }
  this
/-- `Vec4::operator/=`, impl/vec4.h:157-166. -/
def Vec4.divAssign [Zero R] [BEq R] [Div R] (this : Vec4 R) (k : R) : Res (Vec4 R) :=
  if k == 0 then .error .assertion
  else
    let this := { this with x := this.x / k }
    let this := { this with y := this.y / k }
    let this := { this with z := this.z / k }
    let this := { this with w := this.w / k }
    .ok this

namespace Vec2

/-- `Vec2::operator*(const Vec2&)`, impl/vec2.h:321-325. -/
def dot [Add R] [Mul R] (a u : Vec2 R) : R := a.x * u.x + a.y * u.y
/-- `Vec2::operator%`, impl/vec2.h:327-331. -/
def cross [Sub R] [Mul R] (a u : Vec2 R) : R := a.x * u.y - a.y * u.x
/-- `Vec2::operator/`, impl/vec2.h:350-355. -/
def div [Zero R] [BEq R] [Div R] (a : Vec2 R) (k : R) : Res (Vec2 R) :=
  if k == 0 then .error .assertion else .ok ⟨a.x / k, a.y / k⟩
/-- `Vec2::Zero/OneX/OneY`, impl/vec2.h:5-12. -/
def zero [Zero R] : Vec2 R := ⟨0, 0⟩
/-- `Vec2::OneX`, impl/vec2.h:8-9. -/
def oneX [Zero R] [One R] : Vec2 R := ⟨1, 0⟩
/-- `Vec2::OneY`, impl/vec2.h:11-12. -/
def oneY [Zero R] [One R] : Vec2 R := ⟨0, 1⟩
/-- `Vec2(Real k)`, impl/vec2.h:23-27. -/
def ofScalar (k : R) : Vec2 R := ⟨k, k⟩
/-- `Vec2(const Vec3&, Coord drop)`, impl/vec2.h:35-45. -/
def ofVec3 (u : Vec3 R) : Coord → Res (Vec2 R)
  | .X => .ok ⟨u.y, u.z⟩
  | .Y => .ok ⟨u.x, u.z⟩
  | .Z => .ok ⟨u.x, u.y⟩
  | _ => .error .assertion
/-- `Vec2::set(Coord, Real)`, impl/vec2.h:95-105. -/
def setCoord (a : Vec2 R) (c : Coord) (value : R) : Res (Vec2 R) :=
  match c with
  | .X => .ok { a with x := value }
  | .Y => .ok { a with y := value }
  | _ => .error .assertion
/-- `Vec2::operator[](Coord)`, impl/vec2.h:230-242. -/
def get (a : Vec2 R) (c : Coord) : Res R :=
  if c = .X ∨ c = .Y then .ok (if c = .X then a.x else a.y) else .error .assertion
/-- `Vec2::lengthSqr`, impl/vec2.h:390-394. -/
def lengthSqr [Add R] [Mul R] (a : Vec2 R) : R := a.x * a.x + a.y * a.y
/-- `Vec2::length`, impl/vec2.h:384-388. -/
def length [Add R] [Mul R] [MathFns R] (a : Vec2 R) : R := MathFns.sqrt (a.x * a.x + a.y * a.y)
/-- `Vec2::normalize`, impl/vec2.h:158-173.  Returns the new vector and the old length. -/
def normalize [Add R] [Mul R] [Div R] [Zero R] [BEq R] [MathFns R] (a : Vec2 R) (k : R) :
    Vec2 R × R :=
  let l := a.length
  if l == 0 then (⟨0, 0⟩, l) else (⟨a.x * (k / l), a.y * (k / l)⟩, l)
/-- `Vec2::normalized`, impl/vec2.h:396-401. -/
def normalized [Add R] [Mul R] [Div R] [Zero R] [BEq R] [MathFns R] (a : Vec2 R) (k : R) :
    Vec2 R :=
  let l := a.length
  if l == 0 then ⟨0, 0⟩ else ⟨a.x * k / l, a.y * k / l⟩
/-- `Vec2::setAngle`/`fromAngle`, impl/vec2.h:107-113, 51-57. -/
def ofAngle [Mul R] [MathFns R] (angle length : R) : Vec2 R :=
  ⟨length * MathFns.cos angle, length * MathFns.sin angle⟩
/-- `Vec2::angle`, impl/vec2.h:433-437. -/
def angle [MathFns R] (a : Vec2 R) : R := MathFns.atan2 a.y a.x
/-- `Vec2::rotate`, impl/vec2.h:175-185. -/
def rotate [Add R] [Sub R] [Mul R] [MathFns R] (v : Vec2 R) (a : R) : Vec2 R :=
  let s := MathFns.sin a
  let c := MathFns.cos a
  let x' := v.x * c - v.y * s
  let y' := v.x * s + v.y * c
  ⟨x', y'⟩
/-- `Vec2::rotated`, impl/vec2.h:414-420. -/
def rotated [Add R] [Sub R] [Mul R] [MathFns R] (v : Vec2 R) (a : R) : Vec2 R :=
  let s := MathFns.sin a
  let c := MathFns.cos a
  ⟨v.x * c - v.y * s, v.x * s + v.y * c⟩
/-- `Vec2::rotate90`, impl/vec2.h:187-194: sequential assignments. -/
def rotate90 [Neg R] (v : Vec2 R) : Vec2 R :=
  let tx := v.x
  let v := { v with x := -v.y }
  { v with y := tx }
/-- `Vec2::rotate180`, impl/vec2.h:196-202. -/
def rotate180 [Neg R] (v : Vec2 R) : Vec2 R :=
  let v := { v with x := -v.x }
  { v with y := -v.y }
/-- `Vec2::rotate270`, impl/vec2.h:204-211. -/
def rotate270 [Neg R] (v : Vec2 R) : Vec2 R :=
  let tx := v.x
  let v := { v with x := v.y }
  { v with y := -tx }
/-- `Vec2::rotated90`, impl/vec2.h:439-443. -/
def rotated90 [Neg R] (v : Vec2 R) : Vec2 R := ⟨-v.y, v.x⟩
/-- `Vec2::rotated180`, impl/vec2.h:445-449. -/
def rotated180 [Neg R] (v : Vec2 R) : Vec2 R := ⟨-v.x, -v.y⟩
/-- `Vec2::rotated270`, impl/vec2.h:451-455. -/
def rotated270 [Neg R] (v : Vec2 R) : Vec2 R := ⟨v.y, -v.x⟩
/-- `Vec2::mirror`, impl/vec2.h:213-223. -/
def mirror [Neg R] (v : Vec2 R) : Coord → Vec2 R
  | .X => { v with x := -v.x }
  | .Y => { v with y := -v.y }
  | _ => v
/-- `Vec2::mirrored`, impl/vec2.h:422-431. -/
def mirrored [Neg R] [Zero R] (v : Vec2 R) : Coord → Vec2 R
  | .X => ⟨-v.x, v.y⟩
  | .Y => ⟨v.x, -v.y⟩
  | _ => ⟨0, 0⟩
/-- `Vec2::moved`, impl/vec2.h:403-412. -/
def moved [Add R] (v : Vec2 R) (c : Coord) (value : R) : Vec2 R :=
  match c with
  | .X => ⟨v.x + value, v.y⟩
  | .Y => ⟨v.x, v.y + value⟩
  | _ => v
/-- `Vec2::operator==`, impl/vec2.h:361-365. -/
def eq [BEq R] (a u : Vec2 R) : Bool := a.x == u.x && a.y == u.y
/-- `Vec2::operator!=`, impl/vec2.h:367-371. -/
def ne [BEq R] (a u : Vec2 R) : Bool := a.x != u.x || a.y != u.y
/-- `Vec2::isNull`, impl/vec2.h:473-477. -/
def isNull [BEq R] [Zero R] (a : Vec2 R) : Bool := a.x == 0 && a.y == 0
/-- `Vec2::majorCoord`, impl/vec2.h:457-463. -/
def majorCoord [Zero R] [Neg R] [LE R] [DecidableLE R] (v : Vec2 R) : Coord :=
  let fx := if v.x ≥ 0 then v.x else -v.x
  let fy := if v.y ≥ 0 then v.y else -v.y
  if fx ≥ fy then .X else .Y
/-- `Vec2::minorCoord`, impl/vec2.h:465-471. -/
def minorCoord [Zero R] [Neg R] [LE R] [DecidableLE R] [LT R] [DecidableLT R] (v : Vec2 R) :
    Coord :=
  let fx := if v.x ≥ 0 then v.x else -v.x
  let fy := if v.y ≥ 0 then v.y else -v.y
  if fx < fy then .X else .Y
/-- `Vec2::product`, impl/vec2.h:501-505. -/
def product [Mul R] (a b : Vec2 R) : Vec2 R := ⟨a.x * b.x, a.y * b.y⟩
/-- `Vec2::min`, impl/vec2.h:507-512. -/
def min [LT R] [DecidableLT R] (a b : Vec2 R) : Vec2 R := ⟨min' a.x b.x, min' a.y b.y⟩
/-- `Vec2::max`, impl/vec2.h:514-519. -/
def max [LT R] [DecidableLT R] (a b : Vec2 R) : Vec2 R := ⟨max' a.x b.x, max' a.y b.y⟩
/-- `Vec2::crossProduct`, impl/vec2.h:521-525. -/
def crossProduct [Sub R] [Mul R] (a b c : Vec2 R) : R :=
  (b.x - a.x) * (c.y - a.y) - (c.x - a.x) * (b.y - a.y)

/-- `intersection`, impl/vec2.h:548-570.  Returns (return value, ftp, abp). -/
def intersection [Zero R] [Sub R] [Mul R] [Div R] [BEq R] («from» to a b : Vec2 R) :
    Int × R × R :=
  let ft := to - «from»
  let ab := b - a
  let det := ft.x * ab.y - ft.y * ab.x
  if det == 0 then (0, 0, 0)
  else
    let fa := a - «from»
    let num_lambda := fa.x * ab.y - fa.y * ab.x
    let num_gamma := fa.x * ft.y - fa.y * ft.x
    (1, num_lambda / det, num_gamma / det)

/-- `Vec2::randomUnitVector`, impl/vec2.h:527-541.  `draws` lists the successive values of
`rand(Real(1))`; `none` means the list was exhausted before the loop ended. -/
def randomUnitVector [Add R] [Mul R] [Div R] [Zero R] [One R] [BEq R] [MathFns R] :
    List R → Option (Vec2 R)
  | a :: b :: rest =>
    let (n, l) := normalize (⟨a, b⟩ : Vec2 R) 1
    if l == 0 then randomUnitVector rest else some n
  | _ => none

end Vec2

namespace Vec3

/-- `Vec3::operator*(const Vec3&)`, impl/vec3.h:471-475. -/
def dot [Add R] [Mul R] (a u : Vec3 R) : R := a.x * u.x + a.y * u.y + a.z * u.z
/-- `Vec3::operator%(const Vec3&)`, impl/vec3.h:477-483. -/
def cross [Sub R] [Mul R] (a u : Vec3 R) : Vec3 R :=
  ⟨a.y * u.z - a.z * u.y, a.z * u.x - a.x * u.z, a.x * u.y - a.y * u.x⟩
/-- `Vec3::operator%=(const Vec3&)`, impl/vec3.h:354-365: through temporaries. -/
def crossAssign [Sub R] [Mul R] (this u : Vec3 R) : Vec3 R :=
  let x' := this.y * u.z - this.z * u.y
  let y' := this.z * u.x - this.x * u.z
  let z' := this.x * u.y - this.y * u.x
  let this := { this with x := x' }
  let this := { this with y := y' }
  let this := { this with z := z' }
  this
/-- `Vec3::operator%(Coord)`, impl/vec3.h:485-509. -/
def crossCoord [Zero R] [Neg R] (a : Vec3 R) : Coord → Res (Vec3 R)
  | .X => .ok ⟨0, a.z, -a.y⟩
  | .Y => .ok ⟨-a.z, 0, a.x⟩
  | .Z => .ok ⟨a.y, -a.x, 0⟩
  | _ => .error .assertion
/-- `Vec3::operator%(Axis)`, impl/vec3.h:511-550. -/
def crossAxis [Zero R] [Neg R] (a : Vec3 R) : Axis → Res (Vec3 R)
  | .X => .ok ⟨0, a.z, -a.y⟩
  | .Y => .ok ⟨-a.z, 0, a.x⟩
  | .Z => .ok ⟨a.y, -a.x, 0⟩
  | .NX => .ok ⟨0, -a.z, a.y⟩
  | .NY => .ok ⟨a.z, 0, -a.x⟩
  | .NZ => .ok ⟨-a.y, a.x, 0⟩
  | _ => .error .assertion
/-- `Vec3::operator%=(Coord)`, impl/vec3.h:367-398. -/
def crossAssignCoord [Zero R] [Neg R] (a : Vec3 R) : Coord → Res (Vec3 R)
  | .X => .ok ⟨0, a.z, -a.y⟩
  | .Y => .ok ⟨-a.z, 0, a.x⟩
  | .Z => .ok ⟨a.y, -a.x, 0⟩
  | _ => .error .assertion
/-- `Vec3::operator%=(Axis)`, impl/vec3.h:400-446. -/
def crossAssignAxis [Zero R] [Neg R] (a : Vec3 R) : Axis → Res (Vec3 R)
  | .X => .ok ⟨0, a.z, -a.y⟩
  | .Y => .ok ⟨-a.z, 0, a.x⟩
  | .Z => .ok ⟨a.y, -a.x, 0⟩
  | .NX => .ok ⟨0, -a.z, a.y⟩
  | .NY => .ok ⟨a.z, 0, -a.x⟩
  | .NZ => .ok ⟨-a.y, a.x, 0⟩
  | _ => .error .assertion
/-- `Vec3::operator/`, impl/vec3.h:573-578. -/
def div [Zero R] [BEq R] [Div R] (a : Vec3 R) (k : R) : Res (Vec3 R) :=
  if k == 0 then .error .assertion else .ok ⟨a.x / k, a.y / k, a.z / k⟩
/-- `Vec3::Zero/OneX/OneY/OneZ`, impl/vec3.h:5-15. -/
def zero [Zero R] : Vec3 R := ⟨0, 0, 0⟩
/-- `Vec3::OneX`, impl/vec3.h:8-9. -/
def oneX [Zero R] [One R] : Vec3 R := ⟨1, 0, 0⟩
/-- `Vec3::OneY`, impl/vec3.h:11-12. -/
def oneY [Zero R] [One R] : Vec3 R := ⟨0, 1, 0⟩
/-- `Vec3::OneZ`, impl/vec3.h:14-15. -/
def oneZ [Zero R] [One R] : Vec3 R := ⟨0, 0, 1⟩
/-- `Vec3(Real k)`, impl/vec3.h:26-30. -/
def ofScalar (k : R) : Vec3 R := ⟨k, k, k⟩
/-- `Vec3(const Vec2&, Coord)`, impl/vec3.h:38-48. -/
def ofVec2 [Zero R] (u : Vec2 R) : Coord → Vec3 R
  | .X => ⟨0, u.x, u.y⟩
  | .Y => ⟨u.y, 0, u.x⟩
  | _ => ⟨u.x, u.y, 0⟩
/-- `Vec3::toVec2`, impl/vec3.h:701-711. -/
def toVec2 (v : Vec3 R) : Coord → Vec2 R
  | .X => ⟨v.y, v.z⟩
  | .Y => ⟨v.z, v.x⟩
  | _ => ⟨v.x, v.y⟩
/-- `Vec3::set(Coord, Real)`, impl/vec3.h:92-103. -/
def setCoord (a : Vec3 R) (c : Coord) (value : R) : Res (Vec3 R) :=
  match c with
  | .X => .ok { a with x := value }
  | .Y => .ok { a with y := value }
  | .Z => .ok { a with z := value }
  | _ => .error .assertion
/-- `Vec3::operator[](Coord)`, impl/vec3.h:271-293. -/
def get (a : Vec3 R) : Coord → Res R
  | .X => .ok a.x
  | .Y => .ok a.y
  | .Z => .ok a.z
  | _ => .error .assertion
/-- `Vec3::lengthSqr`, impl/vec3.h:614-618. -/
def lengthSqr [Add R] [Mul R] (a : Vec3 R) : R := a.x * a.x + a.y * a.y + a.z * a.z
/-- `Vec3::length`, impl/vec3.h:608-612. -/
def length [Add R] [Mul R] [MathFns R] (a : Vec3 R) : R :=
  MathFns.sqrt (a.x * a.x + a.y * a.y + a.z * a.z)
/-- `Vec3::normalize`, impl/vec3.h:203-219.  Returns the new vector and the old length. -/
def normalize [Add R] [Mul R] [Div R] [Zero R] [BEq R] [MathFns R] (a : Vec3 R) (k : R) :
    Vec3 R × R :=
  let l := a.length
  if l == 0 then (⟨0, 0, 0⟩, l)
  else
    let coeff := k / l
    (⟨a.x * coeff, a.y * coeff, a.z * coeff⟩, l)
/-- `Vec3::normalized`, impl/vec3.h:620-633. -/
def normalized [Add R] [Mul R] [Div R] [Zero R] [BEq R] [MathFns R] (a : Vec3 R) (k : R) :
    Vec3 R :=
  let l := a.length
  if l == 0 then zero
  else
    let coeff := k / l
    ⟨a.x * coeff, a.y * coeff, a.z * coeff⟩
/-- `Vec3::rotate(Coord, Real)`, impl/vec3.h:221-252. -/
def rotate [Zero R] [Add R] [Sub R] [Mul R] [Neg R] [MathFns R] (v : Vec3 R) (axis : Coord)
    (angle : R) : Vec3 R :=
  let s := MathFns.sin angle
  let c := MathFns.cos angle
  match axis with
  | .X => ⟨v.x, v.y * c - v.z * s, v.y * s + v.z * c⟩
  | .Y => ⟨v.x * c + v.z * s, v.y, -v.x * s + v.z * c⟩
  | .Z => ⟨v.x * c - v.y * s, v.x * s + v.y * c, v.z⟩
  | _ => ⟨0, 0, 0⟩
/-- `Vec3::rotated(Coord, Real)`, impl/vec3.h:647-659. -/
def rotated [Zero R] [Add R] [Sub R] [Mul R] [Neg R] [MathFns R] (v : Vec3 R) (axis : Coord)
    (angle : R) : Vec3 R :=
  let s := MathFns.sin angle
  let c := MathFns.cos angle
  match axis with
  | .X => ⟨v.x, v.y * c - v.z * s, v.y * s + v.z * c⟩
  | .Y => ⟨v.x * c + v.z * s, v.y, -v.x * s + v.z * c⟩
  | .Z => ⟨v.x * c - v.y * s, v.x * s + v.y * c, v.z⟩
  | _ => zero
/-- `Vec3::mirror`, impl/vec3.h:254-265. -/
def mirror [Neg R] (v : Vec3 R) : Coord → Vec3 R
  | .X => { v with x := -v.x }
  | .Y => { v with y := -v.y }
  | .Z => { v with z := -v.z }
  | _ => v
/-- `Vec3::mirrored`, impl/vec3.h:661-671. -/
def mirrored [Neg R] [Zero R] (v : Vec3 R) : Coord → Vec3 R
  | .X => ⟨-v.x, v.y, v.z⟩
  | .Y => ⟨v.x, -v.y, v.z⟩
  | .Z => ⟨v.x, v.y, -v.z⟩
  | _ => ⟨0, 0, 0⟩
/-- `Vec3::moved`, impl/vec3.h:635-645. -/
def moved [Add R] (v : Vec3 R) (c : Coord) (value : R) : Vec3 R :=
  match c with
  | .X => ⟨v.x + value, v.y, v.z⟩
  | .Y => ⟨v.x, v.y + value, v.z⟩
  | .Z => ⟨v.x, v.y, v.z + value⟩
  | _ => v
/-- `Vec3::operator==`, impl/vec3.h:585-589. -/
def eq [BEq R] (a u : Vec3 R) : Bool := a.x == u.x && a.y == u.y && a.z == u.z
/-- `Vec3::operator!=`, impl/vec3.h:591-595. -/
def ne [BEq R] (a u : Vec3 R) : Bool := a.x != u.x || a.y != u.y || a.z != u.z
/-- `Vec3::isNull`, impl/vec3.h:695-699. -/
def isNull [BEq R] [Zero R] (a : Vec3 R) : Bool := a.x == 0 && a.y == 0 && a.z == 0
/-- `Vec3::majorCoord`, impl/vec3.h:673-682. -/
def majorCoord [Zero R] [Neg R] [LE R] [DecidableLE R] (v : Vec3 R) : Coord :=
  let fx := if v.x ≥ 0 then v.x else -v.x
  let fy := if v.y ≥ 0 then v.y else -v.y
  let fz := if v.z ≥ 0 then v.z else -v.z
  if fx ≥ fy then (if fx ≥ fz then .X else .Z) else (if fy ≥ fz then .Y else .Z)
/-- `Vec3::minorCoord`, impl/vec3.h:684-693. -/
def minorCoord [Zero R] [Neg R] [LE R] [DecidableLE R] [LT R] [DecidableLT R] (v : Vec3 R) :
    Coord :=
  let fx := if v.x ≥ 0 then v.x else -v.x
  let fy := if v.y ≥ 0 then v.y else -v.y
  let fz := if v.z ≥ 0 then v.z else -v.z
  if fx < fy then (if fx < fz then .X else .Z) else (if fy < fz then .Y else .Z)
/-- `Vec3::product`, impl/vec3.h:736-740. -/
def product [Mul R] (a b : Vec3 R) : Vec3 R := ⟨a.x * b.x, a.y * b.y, a.z * b.z⟩
/-- `Vec3::min`, impl/vec3.h:742-748. -/
def min [LT R] [DecidableLT R] (a b : Vec3 R) : Vec3 R :=
  ⟨min' a.x b.x, min' a.y b.y, min' a.z b.z⟩
/-- `Vec3::max`, impl/vec3.h:750-756. -/
def max [LT R] [DecidableLT R] (a b : Vec3 R) : Vec3 R :=
  ⟨max' a.x b.x, max' a.y b.y, max' a.z b.z⟩

/-- `Vec3::randomUnitVector`, impl/vec3.h:758-773; see `Vec2.randomUnitVector`. -/
def randomUnitVector [Add R] [Mul R] [Div R] [Zero R] [One R] [BEq R] [MathFns R] :
    List R → Option (Vec3 R)
  | a :: b :: c :: rest =>
    let (n, l) := normalize (⟨a, b, c⟩ : Vec3 R) 1
    if l == 0 then randomUnitVector rest else some n
  | _ => none

end Vec3

namespace Vec4

/-- `Vec4::operator*(const Vec4&)`, impl/vec4.h:191-195. -/
def dot [Add R] [Mul R] (a u : Vec4 R) : R := a.x * u.x + a.y * u.y + a.z * u.z + a.w * u.w
/-- `Vec4::operator/`, impl/vec4.h:203-208. -/
def div [Zero R] [BEq R] [Div R] (a : Vec4 R) (k : R) : Res (Vec4 R) :=
  if k == 0 then .error .assertion else .ok ⟨a.x / k, a.y / k, a.z / k, a.w / k⟩
/-- `Vec4(Real k)`, impl/vec4.h:38-42. -/
def ofScalar (k : R) : Vec4 R := ⟨k, k, k, k⟩
/-- `Vec4::Zero` and the unit vectors, impl/vec4.h:5-27.
`OneX/OneY/OneZ/OneW` carry `w = 1` (points), the `nw` variants `w = 0`. -/
def zero [Zero R] : Vec4 R := ⟨0, 0, 0, 0⟩
/-- `Vec4::OneX`, impl/vec4.h:8-9. -/
def oneX [Zero R] [One R] : Vec4 R := ⟨1, 0, 0, 1⟩
/-- `Vec4::OneY`, impl/vec4.h:11-12. -/
def oneY [Zero R] [One R] : Vec4 R := ⟨0, 1, 0, 1⟩
/-- `Vec4::OneZ`, impl/vec4.h:14-15. -/
def oneZ [Zero R] [One R] : Vec4 R := ⟨0, 0, 1, 1⟩
/-- `Vec4::OneW`, impl/vec4.h:17-18. -/
def oneW [Zero R] [One R] : Vec4 R := ⟨0, 0, 0, 1⟩
/-- `Vec4::OneXnw`, impl/vec4.h:20-21. -/
def oneXnw [Zero R] [One R] : Vec4 R := ⟨1, 0, 0, 0⟩
/-- `Vec4::OneYnw`, impl/vec4.h:23-24. -/
def oneYnw [Zero R] [One R] : Vec4 R := ⟨0, 1, 0, 0⟩
/-- `Vec4::OneZnw`, impl/vec4.h:26-27. -/
def oneZnw [Zero R] [One R] : Vec4 R := ⟨0, 0, 1, 0⟩
/-- `Vec4(const Vec3&, Real w)`, impl/vec4.h:50-54 (default `w = 1`, vec4.h:16);
`set(const Vec3&, Real w)`, 70-78, does the same with default `w = 0` (vec4.h:20). -/
def ofVec3 (u : Vec3 R) (w : R) : Vec4 R := ⟨u.x, u.y, u.z, w⟩
/-- `Vec4::toVec3`, impl/vec4.h:263-267. -/
def toVec3 (v : Vec4 R) : Vec3 R := ⟨v.x, v.y, v.z⟩
/-- `Vec4::set(Coord, Real)`, impl/vec4.h:90-102. -/
def setCoord (a : Vec4 R) (c : Coord) (value : R) : Res (Vec4 R) :=
  match c with
  | .X => .ok { a with x := value }
  | .Y => .ok { a with y := value }
  | .Z => .ok { a with z := value }
  | .W => .ok { a with w := value }
  | _ => .error .assertion
/-- `Vec4::operator+=(const Vec3&)`, impl/vec4.h:109-116. -/
def addVec3 [Add R] (a : Vec4 R) (u : Vec3 R) : Vec4 R := ⟨a.x + u.x, a.y + u.y, a.z + u.z, a.w⟩
/-- `Vec4::operator-=(const Vec3&)`, impl/vec4.h:118-125. -/
def subVec3 [Sub R] (a : Vec4 R) (u : Vec3 R) : Vec4 R := ⟨a.x - u.x, a.y - u.y, a.z - u.z, a.w⟩
/-- `Vec4::lengthSqr`, impl/vec4.h:244-248. -/
def lengthSqr [Add R] [Mul R] (a : Vec4 R) : R :=
  a.x * a.x + a.y * a.y + a.z * a.z + a.w * a.w
/-- `Vec4::length`, impl/vec4.h:238-242. -/
def length [Add R] [Mul R] [MathFns R] (a : Vec4 R) : R :=
  MathFns.sqrt (a.x * a.x + a.y * a.y + a.z * a.z + a.w * a.w)
/-- `Vec4::moved`, impl/vec4.h:250-261. -/
def moved [Add R] (v : Vec4 R) (c : Coord) (value : R) : Vec4 R :=
  match c with
  | .X => ⟨v.x + value, v.y, v.z, v.w⟩
  | .Y => ⟨v.x, v.y + value, v.z, v.w⟩
  | .Z => ⟨v.x, v.y, v.z + value, v.w⟩
  | .W => ⟨v.x, v.y, v.z, v.w + value⟩
  | _ => v
/-- `Vec4::operator==`, impl/vec4.h:215-219. -/
def eq [BEq R] (a u : Vec4 R) : Bool := a.x == u.x && a.y == u.y && a.z == u.z && a.w == u.w
/-- `Vec4::operator!=`, impl/vec4.h:221-225. -/
def ne [BEq R] (a u : Vec4 R) : Bool := a.x != u.x || a.y != u.y || a.z != u.z || a.w != u.w
/-- `Vec4::isNull`, impl/vec4.h:269-273. -/
def isNull [BEq R] [Zero R] (a : Vec4 R) : Bool := a.x == 0 && a.y == 0 && a.z == 0 && a.w == 0
/-- `Vec4::product`, impl/vec4.h:299-303. -/
def product [Mul R] (a b : Vec4 R) : Vec4 R := ⟨a.x * b.x, a.y * b.y, a.z * b.z, a.w * b.w⟩
/-- `Vec4::min`, impl/vec4.h:305-312. -/
def min [LT R] [DecidableLT R] (a b : Vec4 R) : Vec4 R :=
  ⟨min' a.x b.x, min' a.y b.y, min' a.z b.z, min' a.w b.w⟩
/-- `Vec4::max`, impl/vec4.h:314-321. -/
def max [LT R] [DecidableLT R] (a b : Vec4 R) : Vec4 R :=
  ⟨max' a.x b.x, max' a.y b.y, max' a.z b.z, max' a.w b.w⟩

end Vec4

/-- `distance(Vec2,Vec2)`, functions.h:138-144. -/
def distance2 [Add R] [Sub R] [Mul R] [MathFns R] (a b : Vec2 R) : R :=
  let x := b.x - a.x
  let y := b.y - a.y
  MathFns.sqrt (x * x + y * y)
/-- `distanceSqr(Vec2,Vec2)`, functions.h:146-152. -/
def distanceSqr2 [Add R] [Sub R] [Mul R] (a b : Vec2 R) : R :=
  let x := b.x - a.x
  let y := b.y - a.y
  x * x + y * y
/-- `distance(Vec3,Vec3)`, functions.h:154-161. -/
def distance3 [Add R] [Sub R] [Mul R] [MathFns R] (a b : Vec3 R) : R :=
  let x := b.x - a.x
  let y := b.y - a.y
  let z := b.z - a.z
  MathFns.sqrt (x * x + y * y + z * z)
/-- `distanceSqr(Vec3,Vec3)`, functions.h:163-170. -/
def distanceSqr3 [Add R] [Sub R] [Mul R] (a b : Vec3 R) : R :=
  let x := b.x - a.x
  let y := b.y - a.y
  let z := b.z - a.z
  x * x + y * y + z * z

end MathLib
