import Verif.Model.Box
import Verif.Model.Slerp
import Verif.Model.Spline
import Verif.Model.Mat34
import Verif.Model.Mat4
import Verif.Model.Color

/-! # Model of calls whose reference arguments may denote the object itself or a part of it

The rest of the model passes arguments by value.  Here an argument of type `const T&` is a `Ref`, which
is read each time the program reads it, so that it sees the assignments made so far.  Only functions that
write the object before they have finished reading their arguments, and the interpolations, are modelled
in this way; literals and helpers are those of the value model. -/

namespace MathLib

/-- What a `const A&` argument of a member function of the class `S` denotes (e.g. impl/aabb3.h:224): an
object apart from `*this`, or `*this` or a part of it. -/
inductive Ref (S A : Type) where
  | other (a : A)
  | part (get : S → A)

/-- reading the argument while the object is `this` (e.g. impl/aabb3.h:226) -/
def Ref.read {S A : Type} (r : Ref S A) (this : S) : A :=
  match r with
  | .other a => a
  | .part get => get this

variable {R : Type}

/-! ## Boxes -/

/-- `AABB2::operator+=`, impl/aabb2.h:205-210. -/
def AABB2.addAssignR [Add R] (t : Ref (AABB2 R) (Vec2 R)) (this : AABB2 R) : AABB2 R :=
  let this := { this with inf.x := this.inf.x + (t.read this).x }
  let this := { this with inf.y := this.inf.y + (t.read this).y }
  let this := { this with sup.x := this.sup.x + (t.read this).x }
  let this := { this with sup.y := this.sup.y + (t.read this).y }
  this
/-- `AABB2::operator-=`, impl/aabb2.h:213-218. -/
def AABB2.subAssignR [Sub R] (t : Ref (AABB2 R) (Vec2 R)) (this : AABB2 R) : AABB2 R :=
  let this := { this with inf.x := this.inf.x - (t.read this).x }
  let this := { this with inf.y := this.inf.y - (t.read this).y }
  let this := { this with sup.x := this.sup.x - (t.read this).x }
  let this := { this with sup.y := this.sup.y - (t.read this).y }
  this
/-- `AABB2::set(inf, sup)`, impl/aabb2.h:39-44. -/
def AABB2.setR (inf sup : Ref (AABB2 R) (Vec2 R)) (this : AABB2 R) : AABB2 R :=
  let this := { this with inf := inf.read this }
  let this := { this with sup := sup.read this }
  this
/-- `AABB2::set(point)`, impl/aabb2.h:32-36. -/
def AABB2.setPointR (point : Ref (AABB2 R) (Vec2 R)) (this : AABB2 R) : AABB2 R :=
  let this := { this with sup := point.read this }
  let this := { this with inf := this.sup }
  this
/-- `AABB2::add(point)`, impl/aabb2.h:114-135. -/
def AABB2.addR [LT R] [DecidableLT R] (point : Ref (AABB2 R) (Vec2 R)) (this : AABB2 R) : AABB2 R :=
  let this := if (point.read this).x < this.inf.x then { this with inf.x := (point.read this).x } else this
  let this := if (point.read this).y < this.inf.y then { this with inf.y := (point.read this).y } else this
  let this := if (point.read this).x > this.sup.x then { this with sup.x := (point.read this).x } else this
  let this := if (point.read this).y > this.sup.y then { this with sup.y := (point.read this).y } else this
  this
/-- `AABB3::operator+=`, impl/aabb3.h:217-222. -/
def AABB3.addAssignR [Add R] (t : Ref (AABB3 R) (Vec3 R)) (this : AABB3 R) : AABB3 R :=
  let this := { this with inf.x := this.inf.x + (t.read this).x }
  let this := { this with inf.y := this.inf.y + (t.read this).y }
  let this := { this with inf.z := this.inf.z + (t.read this).z }
  let this := { this with sup.x := this.sup.x + (t.read this).x }
  let this := { this with sup.y := this.sup.y + (t.read this).y }
  let this := { this with sup.z := this.sup.z + (t.read this).z }
  this
/-- `AABB3::operator-=`, impl/aabb3.h:225-230. -/
def AABB3.subAssignR [Sub R] (t : Ref (AABB3 R) (Vec3 R)) (this : AABB3 R) : AABB3 R :=
  let this := { this with inf.x := this.inf.x - (t.read this).x }
  let this := { this with inf.y := this.inf.y - (t.read this).y }
  let this := { this with inf.z := this.inf.z - (t.read this).z }
  let this := { this with sup.x := this.sup.x - (t.read this).x }
  let this := { this with sup.y := this.sup.y - (t.read this).y }
  let this := { this with sup.z := this.sup.z - (t.read this).z }
  this
/-- `AABB3::set(inf, sup)`, impl/aabb3.h:39-44. -/
def AABB3.setR (inf sup : Ref (AABB3 R) (Vec3 R)) (this : AABB3 R) : AABB3 R :=
  let this := { this with inf := inf.read this }
  let this := { this with sup := sup.read this }
  this
/-- `AABB3::set(point)`, impl/aabb3.h:32-36. -/
def AABB3.setPointR (point : Ref (AABB3 R) (Vec3 R)) (this : AABB3 R) : AABB3 R :=
  let this := { this with sup := point.read this }
  let this := { this with inf := this.sup }
  this
/-- `AABB3::add(point)`, impl/aabb3.h:118-149. -/
def AABB3.addR [LT R] [DecidableLT R] (point : Ref (AABB3 R) (Vec3 R)) (this : AABB3 R) : AABB3 R :=
  let this := if (point.read this).x < this.inf.x then { this with inf.x := (point.read this).x } else this
  let this := if (point.read this).y < this.inf.y then { this with inf.y := (point.read this).y } else this
  let this := if (point.read this).z < this.inf.z then { this with inf.z := (point.read this).z } else this
  let this := if (point.read this).x > this.sup.x then { this with sup.x := (point.read this).x } else this
  let this := if (point.read this).y > this.sup.y then { this with sup.y := (point.read this).y } else this
  let this := if (point.read this).z > this.sup.z then { this with sup.z := (point.read this).z } else this
  this
/-- One round of the loop of `AABB2::set(count, points)`, impl/aabb2.h:68-77 (98-108 with a stride). -/
def AABB2.setPointsStepR [LT R] [DecidableLT R] (this : AABB2 R) (p : Ref (AABB2 R) (Vec2 R)) : AABB2 R :=
  let this := if (p.read this).x < this.inf.x then { this with inf.x := (p.read this).x } else this
  let this := if (p.read this).y < this.inf.y then { this with inf.y := (p.read this).y } else this
  let this := if (p.read this).x > this.sup.x then { this with sup.x := (p.read this).x } else this
  let this := if (p.read this).y > this.sup.y then { this with sup.y := (p.read this).y } else this
  this
/-- `AABB2::set(count, points)` and `set(count, points, stride)`, impl/aabb2.h:54-111.  The list has the
points in the order in which the program visits them; no points is `count <= 0`. -/
def AABB2.setPointsR [LT R] [DecidableLT R] (points : List (Ref (AABB2 R) (Vec2 R))) (this : AABB2 R) :
    Res (AABB2 R) :=
  match points with
  | [] => .error .assertion
  | p :: ps =>
    let this := { this with inf := p.read this }
    let this := { this with sup := p.read this }
    .ok (ps.foldl AABB2.setPointsStepR this)
/-- One round of the loop of `AABB3::set(count, points)`, impl/aabb3.h:68-79 (100-112 with a stride). -/
def AABB3.setPointsStepR [LT R] [DecidableLT R] (this : AABB3 R) (p : Ref (AABB3 R) (Vec3 R)) : AABB3 R :=
  let this := if (p.read this).x < this.inf.x then { this with inf.x := (p.read this).x } else this
  let this := if (p.read this).y < this.inf.y then { this with inf.y := (p.read this).y } else this
  let this := if (p.read this).z < this.inf.z then { this with inf.z := (p.read this).z } else this
  let this := if (p.read this).x > this.sup.x then { this with sup.x := (p.read this).x } else this
  let this := if (p.read this).y > this.sup.y then { this with sup.y := (p.read this).y } else this
  let this := if (p.read this).z > this.sup.z then { this with sup.z := (p.read this).z } else this
  this
/-- `AABB3::set(count, points)` and `set(count, points, stride)`, impl/aabb3.h:54-115.  The list has the
points in the order in which the program visits them; no points is `count <= 0`. -/
def AABB3.setPointsR [LT R] [DecidableLT R] (points : List (Ref (AABB3 R) (Vec3 R))) (this : AABB3 R) :
    Res (AABB3 R) :=
  match points with
  | [] => .error .assertion
  | p :: ps =>
    let this := { this with inf := p.read this }
    let this := { this with sup := p.read this }
    .ok (ps.foldl AABB3.setPointsStepR this)
/-- `CAABB2::set(center, size)`, impl/caabb2.h:35-40. -/
def CAABB2.setR [One R] [NatCast R] [Mul R] [Div R] (center size : Ref (CAABB2 R) (Vec2 R)) (this : CAABB2 R) : CAABB2 R :=
  let this := { this with center := center.read this }
  let this := { this with extents := size.read this * (1 / 2 : R) }
  this
/-- `CAABB3::set(center, size)`, impl/caabb3.h:35-40. -/
def CAABB3.setR [One R] [NatCast R] [Mul R] [Div R] (center size : Ref (CAABB3 R) (Vec3 R)) (this : CAABB3 R) : CAABB3 R :=
  let this := { this with center := center.read this }
  let this := { this with extents := size.read this * (1 / 2 : R) }
  this

/-! ## Columns of matrices and control points of segments -/

section
variable [Zero R] [One R] [NatCast R] [Add R] [Sub R] [Mul R] [Div R] [Neg R] [LT R] [LE R]
  [DecidableLT R] [DecidableLE R] [BEq R]

/-- `Mat2::set(x, y)`, impl/mat2.h:205-210. -/
def Mat2.setR (x y : Ref (Mat2 R) (Vec2 R)) (this : Mat2 R) : Mat2 R :=
  let this := { this with x := x.read this }
  let this := { this with y := y.read this }
  this.optimize
/-- `Mat3::set(x, y, z)`, impl/mat3.h:96-102. -/
def Mat3.setR (x y z : Ref (Mat3 R) (Vec3 R)) (this : Mat3 R) : Mat3 R :=
  let this := { this with x := x.read this }
  let this := { this with y := y.read this }
  let this := { this with z := z.read this }
  this.optimize
/-- `Mat34::set(x, y, z, t)`, impl/mat34.h:73-79. -/
def Mat34.setR (x y z t : Ref (Mat34 R) (Vec3 R)) (this : Mat34 R) : Mat34 R :=
  let this := { this with rs.x := x.read this }
  let this := { this with rs.y := y.read this }
  let this := { this with rs.z := z.read this }
  let this := { this with rs := this.rs.optimize }
  let this := { this with t := t.read this }
  this
/-- `Mat34::set(q, t)`, impl/mat34.h:106-111; the quaternion is not part of the matrix. -/
def Mat34.setQuatR (q : Quat R) (t : Ref (Mat34 R) (Vec3 R)) (this : Mat34 R) : Mat34 R :=
  let this := { this with rs := Mat3.ofQuat q }
  let this := { this with t := t.read this }
  this
/-- `Mat4::set(x, y, z, t)`, impl/mat4.h:128-135; a column is copied component by component
(impl/vec4.h:81-88). -/
def Mat4.setR (x y z t : Ref (Mat4 R) (Vec4 R)) (this : Mat4 R) : Mat4 R :=
  let this := { this with x := x.read this }
  let this := { this with y := y.read this }
  let this := { this with z := z.read this }
  let this := { this with t := t.read this }
  this.optimize
/-- `Mat2::scale`, impl/mat2.h:241-246. -/
def Mat2.scaleR (c : Ref (Mat2 R) (Vec2 R)) (this : Mat2 R) : Mat2 R :=
  let this := { this with x := this.x.mulAssign (c.read this).x }
  let this := { this with y := this.y.mulAssign (c.read this).y }
  this.optimize
/-- `Mat3::scale`, impl/mat3.h:422-428. -/
def Mat3.scaleR (c : Ref (Mat3 R) (Vec3 R)) (this : Mat3 R) : Mat3 R :=
  let this := { this with x := this.x.mulAssign (c.read this).x }
  let this := { this with y := this.y.mulAssign (c.read this).y }
  let this := { this with z := this.z.mulAssign (c.read this).z }
  this.optimize
/-- `Mat34::scale`, impl/mat34.h:329-338. -/
def Mat34.scaleR (c : Ref (Mat34 R) (Vec3 R)) (this : Mat34 R) : Mat34 R :=
  let this := { this with rs.x := this.rs.x.mulAssign (c.read this).x }
  let this := { this with rs.y := this.rs.y.mulAssign (c.read this).y }
  let this := { this with rs.z := this.rs.z.mulAssign (c.read this).z }
  let this := { this with rs := this.rs.optimize }
  let this := { this with t.x := this.t.x * (c.read this).x }
  let this := { this with t.y := this.t.y * (c.read this).y }
  let this := { this with t.z := this.t.z * (c.read this).z }
  this
end

/-- `BezierSegment3::set`, impl/spline3.h:161-167.  `p1()` to `p4()` (169-191) return references to the
members. -/
def BezierSegment3.setR (p1 p2 p3 p4 : Ref (BezierSegment3 R) (Vec3 R)) (this : BezierSegment3 R) :
    BezierSegment3 R :=
  let this := { this with P1 := p1.read this }
  let this := { this with P2 := p2.read this }
  let this := { this with P3 := p3.read this }
  let this := { this with P4 := p4.read this }
  this
/-- `HermiteSplineSegment3::set`, impl/spline3.h:24-30.  `p1()`, `p4()`, `r1()`, `r4()` (32-54) return
references to the members. -/
def HermiteSplineSegment3.setR (p1 p4 r1 r4 : Ref (HermiteSplineSegment3 R) (Vec3 R))
    (this : HermiteSplineSegment3 R) : HermiteSplineSegment3 R :=
  let this := { this with P1 := p1.read this }
  let this := { this with P4 := p4.read this }
  let this := { this with R1 := r1.read this }
  let this := { this with R4 := r4.read this }
  this

/-! ## Interpolations -/

variable [Zero R] [One R] [NatCast R] [Add R] [Sub R] [Mul R] [Div R] [Neg R] [LT R] [LE R]
  [DecidableLT R] [DecidableLE R] [BEq R] [MathFns R]

/-- `Quat::lerp`, impl/quat.h:175-183. -/
def Quat.lerpR («from» to : Ref (Quat R) (Quat R)) (weight : R) (this : Quat R) : Res (Quat R) :=
  if weight ≥ 0 ∧ weight ≤ 1 then
    let this := { this with x := («from».read this).x + ((to.read this).x - («from».read this).x) * weight }
    let this := { this with y := («from».read this).y + ((to.read this).y - («from».read this).y) * weight }
    let this := { this with z := («from».read this).z + ((to.read this).z - («from».read this).z) * weight }
    let this := { this with w := («from».read this).w + ((to.read this).w - («from».read this).w) * weight }
    .ok this.normalize
  else .error .assertion
/-- The assignments of the spherical branch of `Quat::slerp` (impl/quat.h:208-217) and
`Quat::slerpNoInvert` (248-259). -/
def Quat.slerpArcR («from» to : Ref (Quat R) (Quat R)) (dot weight : R) (this : Quat R) : Quat R :=
  let angle := acos' dot
  let sina := MathFns.sin angle
  let sinat := MathFns.sin (angle * weight)
  let sinaomt := MathFns.sin (angle * (1 - weight))
  let recipsina := 1 / sina
  let this := { this with x := ((«from».read this).x * sinaomt + (to.read this).x * sinat) * recipsina }
  let this := { this with y := ((«from».read this).y * sinaomt + (to.read this).y * sinat) * recipsina }
  let this := { this with z := ((«from».read this).z * sinaomt + (to.read this).z * sinat) * recipsina }
  let this := { this with w := ((«from».read this).w * sinaomt + (to.read this).w * sinat) * recipsina }
  this
/-- `Quat::slerp`, impl/quat.h:186-223; `q3` is a local copy. -/
def Quat.slerpR («from» to : Ref (Quat R) (Quat R)) (weight : R) (this : Quat R) : Res (Quat R) :=
  if weight ≥ 0 ∧ weight ≤ 1 then
    let d := Quat.dot («from».read this) (to.read this)
    let d' := if d < 0 then -d else d
    let q3 := if d < 0 then
        (⟨-(to.read this).x, -(to.read this).y, -(to.read this).z, -(to.read this).w⟩ : Quat R)
      else to.read this
    if d' < 95 / 100 then .ok (Quat.slerpArcR «from» (.other q3) d' weight this)
    else Quat.lerpR «from» (.other q3) weight this
  else .error .assertion
/-- `Quat::slerpNoInvert`, impl/quat.h:240-265. -/
def Quat.slerpNoInvertR («from» to : Ref (Quat R) (Quat R)) (weight : R) (this : Quat R) : Res (Quat R) :=
  if weight ≥ 0 ∧ weight ≤ 1 then
    let d := Quat.dot («from».read this) (to.read this)
    if d < 15938355 / 16777216 then .ok (Quat.slerpArcR «from» to d weight this)
    else Quat.lerpR «from» to weight this
  else .error .assertion
/-- `Quat::set(from, to, a, b, weight)`, impl/quat.h:268-275; `tmp1` and `tmp2` are local, starting out
uninitialised (any value `junk`). -/
def Quat.squadR («from» to a b : Ref (Quat R) (Quat R)) (weight : R) (junk this : Quat R) : Res (Quat R) :=
  if weight ≥ 0 ∧ weight ≤ 1 then do
    let tmp1 ← Quat.slerpNoInvertR (.other («from».read this)) (.other (to.read this)) weight junk
    let tmp2 ← Quat.slerpNoInvertR (.other (a.read this)) (.other (b.read this)) weight junk
    Quat.slerpNoInvertR (.other tmp1) (.other tmp2) (2 * weight * (1 - weight)) this
  else .error .assertion
/-- `Quat::slerpMaxAngle`, impl/quat.h:226-237: everything is read before `set` writes. -/
def Quat.slerpMaxAngleR («from» to : Ref (Quat R) (Quat R)) (maxAngle : R) (this : Quat R) :
    Res (Quat R) :=
  if maxAngle ≥ 0 then do
    let fromto := Quat.mul («from».read this).inverse (to.read this)
    let (axis, angle) ← fromto.toAxisAngle
    .ok (Quat.ofAxisAngle axis (min' angle maxAngle))
  else .error .assertion

/-- `Vec2::set(const Vec2&)`, impl/vec2.h:88-93. -/
def Vec2.setR (v : Ref (Vec2 R) (Vec2 R)) (this : Vec2 R) : Vec2 R :=
  let this := { this with x := (v.read this).x }
  let this := { this with y := (v.read this).y }
  this
/-- `Vec2::clerp`, impl/vec2.h:116-133. -/
def Vec2.clerpR (u v : Ref (Vec2 R) (Vec2 R)) (ratio : R) (this : Vec2 R) : Res (Vec2 R) :=
  if ¬ (ratio ≥ 0 ∧ ratio ≤ 1) then .error .assertion
  else if ratio == 0 then .ok (Vec2.setR u this)
  else if ratio == 1 then .ok (Vec2.setR v this)
  else
    let angle := MathLib.clerp (u.read this).angle (v.read this).angle ratio
    let l := lerp (u.read this).length (v.read this).length ratio
    .ok (Vec2.setR (.other (Vec2.ofAngle angle l)) this)
/-- `Vec2::clerpMaxAngle`, impl/vec2.h:136-151. -/
def Vec2.clerpMaxAngleR (u v : Ref (Vec2 R) (Vec2 R)) (maxAngle : R) (this : Vec2 R) : Res (Vec2 R) :=
  if ¬ (maxAngle ≥ 0) then .error .assertion
  else if maxAngle == 0 then .ok (Vec2.setR u this)
  else
    let (angle, ratio) := clerpMaxAngleRatio (u.read this).angle (v.read this).angle maxAngle
    let l := lerp (u.read this).length (v.read this).length ratio
    .ok (Vec2.setR (.other (Vec2.ofAngle angle l)) this)

/-- `Vec3::set(const Vec3&)`, impl/vec3.h:84-90. -/
def Vec3.setR (v : Ref (Vec3 R) (Vec3 R)) (this : Vec3 R) : Vec3 R :=
  let this := { this with x := (v.read this).x }
  let this := { this with y := (v.read this).y }
  let this := { this with z := (v.read this).z }
  this
/-- The linear branches of `Vec3::slerp`, impl/vec3.h:119-122 and 131-134. -/
def Vec3.slerpLineR (u v : Ref (Vec3 R) (Vec3 R)) (ratio : R) (this : Vec3 R) : Vec3 R :=
  let this := { this with x := (u.read this).x + ((v.read this).x - (u.read this).x) * ratio }
  let this := { this with y := (u.read this).y + ((v.read this).y - (u.read this).y) * ratio }
  let this := { this with z := (u.read this).z + ((v.read this).z - (u.read this).z) * ratio }
  this
/-- `Vec3::slerp`, impl/vec3.h:106-149. -/
def Vec3.slerpR (u v : Ref (Vec3 R) (Vec3 R)) (ratio : R) (this : Vec3 R) : Res (Vec3 R) :=
  if ratio == 0 then .ok (Vec3.setR u this)
  else if ratio == 1 then .ok (Vec3.setR v this)
  else
    let lengthU := (u.read this).length
    let lengthV := (v.read this).length
    if lengthU == 0 || lengthV == 0 then .ok (Vec3.slerpLineR u v ratio this)
    else do
      let n ← ((u.read this).cross (v.read this)).div (lengthU * lengthV)
      let sinAngle := n.dot (n.normalized 1)
      if abs' sinAngle < 13421773 / 268435456 then .ok (Vec3.slerpLineR u v ratio this)
      else
        let angle := asin' sinAngle
        let q := Quat.ofAxisAngle n (angle * ratio)
        let w := q.rotated (u.read this)
        let w := (w.normalize (lengthU + (lengthV - lengthU) * ratio)).1
        .ok (Vec3.setR (.other w) this)
/-- `Vec3::slerpMaxAngle`, impl/vec3.h:152-195. -/
def Vec3.slerpMaxAngleR (u v : Ref (Vec3 R) (Vec3 R)) (maxAngle : R) (this : Vec3 R) : Res (Vec3 R) :=
  if maxAngle ≥ 0 then
    if maxAngle == 0 then .ok (Vec3.setR u this)
    else
      let lengthU := (u.read this).length
      let lengthV := (v.read this).length
      if lengthU == 0 then .ok (Vec3.setR v this)
      else if lengthV == 0 then .ok (Vec3.setR u this)
      else do
        let n ← ((u.read this).cross (v.read this)).div (lengthU * lengthV)
        let sinAngle := n.dot (n.normalized 1)
        let angle := asin' sinAngle
        if angle == 0 then .ok (Vec3.setR v this)
        else
          let actualAngle :=
            if angle ≥ 0 then (if angle > maxAngle then maxAngle else angle)
            else (if angle < -maxAngle then -maxAngle else angle)
          let ratio := actualAngle / angle
          let q := Quat.ofAxisAngle n actualAngle
          let w := q.rotated (u.read this)
          let w := (w.normalize (lengthU + (lengthV - lengthU) * ratio)).1
          .ok (Vec3.setR (.other w) this)
  else .error .assertion

/-- `ColorRGB::interp`, impl/colorrgb.h:82-95, and `set` (73-79). -/
def ColorRGB.interpR (a b : Ref (ColorRGB R) (ColorRGB R)) (ratio : R) (this : ColorRGB R) : ColorRGB R :=
  let set (c : Ref (ColorRGB R) (ColorRGB R)) : ColorRGB R :=
    let this := { this with r := (c.read this).r }
    let this := { this with g := (c.read this).g }
    let this := { this with b := (c.read this).b }
    this
  if ratio == 0 then set a
  else if ratio == 1 then set b
  else
    let this := { this with r := (a.read this).r + ((b.read this).r - (a.read this).r) * ratio }
    let this := { this with g := (a.read this).g + ((b.read this).g - (a.read this).g) * ratio }
    let this := { this with b := (a.read this).b + ((b.read this).b - (a.read this).b) * ratio }
    this
/-- `ColorRGBA::interp`, impl/colorrgba.h:84-98, and `set` (74-81). -/
def ColorRGBA.interpR (a b : Ref (ColorRGBA R) (ColorRGBA R)) (ratio : R) (this : ColorRGBA R) :
    ColorRGBA R :=
  let set (c : Ref (ColorRGBA R) (ColorRGBA R)) : ColorRGBA R :=
    let this := { this with r := (c.read this).r }
    let this := { this with g := (c.read this).g }
    let this := { this with b := (c.read this).b }
    let this := { this with a := (c.read this).a }
    this
  if ratio == 0 then set a
  else if ratio == 1 then set b
  else
    let this := { this with r := (a.read this).r + ((b.read this).r - (a.read this).r) * ratio }
    let this := { this with g := (a.read this).g + ((b.read this).g - (a.read this).g) * ratio }
    let this := { this with b := (a.read this).b + ((b.read this).b - (a.read this).b) * ratio }
    let this := { this with a := (a.read this).a + ((b.read this).a - (a.read this).a) * ratio }
    this
/-- `ColorHSV::interp`, impl/colorhsv.h:70-86, and `set` (61-67). -/
def ColorHSV.interpR (a b : Ref (ColorHSV R) (ColorHSV R)) (ratio : R) (this : ColorHSV R) :
    Res (ColorHSV R) :=
  let set (c : Ref (ColorHSV R) (ColorHSV R)) : ColorHSV R :=
    let this := { this with h := (c.read this).h }
    let this := { this with s := (c.read this).s }
    let this := { this with v := (c.read this).v }
    this
  if ratio == 0 then .ok (set a)
  else if ratio == 1 then .ok (set b)
  else do
    let d := (b.read this).h - (a.read this).h
    let delta := d + (if abs' d > 180 then (if d < 0 then 360 else -360) else 0)
    let h ← fmodPositive ((a.read this).h + delta * ratio) 360
    let this := { this with h := h }
    let this := { this with s := lerp (a.read this).s (b.read this).s ratio }
    let this := { this with v := lerp (a.read this).v (b.read this).v ratio }
    .ok this

end MathLib
