import Verif.Model.Geom

/-! # Model of `frustum.h`

The eight corners and six planes are arrays, modelled as functions from their indices.  The source array
of `set` is taken not to overlap the object (the loops of `Mat34::transform` on arrays are modelled in
`Transform.lean`; C47 shows that on separate arrays each corner is transformed on its own, C48 what
happens on the same array). -/

namespace MathLib

variable {R : Type} [Zero R] [One R] [NatCast R] [Add R] [Sub R] [Mul R] [Div R] [Neg R]
  [LT R] [LE R] [DecidableLT R] [DecidableLE R] [BEq R] [MathFns R]

/-- `class Frustum`, frustum.h -/
structure Frustum (R : Type) where
  corners : Fin 8 → Vec3 R
  planes : Fin 6 → Plane R

namespace Frustum
/-- `Frustum::computePlanes`, impl/frustum.h:153-173. -/
def computePlanes (corners : Fin 8 → Vec3 R) : Frustum R :=
  let far := Plane.fromPoints (corners 4) (corners 5) (corners 6)
  let near := Plane.fromPoint (corners 0) (-far.normal)
  let left := Plane.fromPoints (corners 3) (corners 7) (corners 6)
  let top := Plane.fromPoints (corners 3) (corners 4) (corners 7)
  let right := Plane.fromPoints (corners 1) (corners 5) (corners 4)
  let bottom := Plane.fromPoints (corners 1) (corners 6) (corners 5)
  { corners, planes := fun i => match i with
    | 0 => far | 1 => near | 2 => left | 3 => top | 4 => right | 5 => bottom }
/-- `Frustum::Frustum(corners)`, impl/frustum.h:45-49; `set(corners)`, 55-63. -/
def set (corners : Fin 8 → Vec3 R) : Frustum R := computePlanes fun i => corners i
/-- the three statements of `transform(Vec3&, const Vec3&)` for separate arguments (impl/frustum.h:68, 75) -/
def transformed (row : Nat → (Nat → R) → R) (v : Vec3 R) : Vec3 R :=
  let f : Nat → R := fun i => match i with | 0 => v.x | 1 => v.y | _ => v.z
  ⟨row 0 f, row 1 f, row 2 f⟩
/-- `Frustum::set(const Mat34& ltw, corners)`, impl/frustum.h:65-70. -/
def setMat34 (ltw : Mat34 R) (corners : Fin 8 → Vec3 R) : Frustum R :=
  computePlanes fun i => transformed ltw.row (corners i)
/-- `Frustum::set(const Mat4& ltw, corners)`, impl/frustum.h:72-77. -/
def setMat4 (ltw : Mat4 R) (corners : Fin 8 → Vec3 R) : Frustum R :=
  computePlanes fun i => transformed ltw.row3 (corners i)
/-- `Frustum::contains(point)`, impl/frustum.h:83-97.  `float distance = …` converts the distance to
`float`: `narrow` (the identity when `Real` is `float`). -/
def contains (narrow : R → R) (f : Frustum R) (point : Vec3 R) : Bool :=
  (List.finRange 6).all fun i =>
    let distance := narrow ((f.planes i).distance point)
    if distance > 0 then false else true
/-- `Frustum::contains(const Vec4&)`, impl/frustum.h:99-103. -/
def contains4 (narrow : R → R) (f : Frustum R) (point : Vec4 R) : Bool := f.contains narrow point.toVec3
/-- `Frustum::contains(sphere)`, impl/frustum.h:105-119. -/
def containsSphere (narrow : R → R) (f : Frustum R) (sphere : Sphere R) : Bool :=
  (List.finRange 6).all fun i =>
    let distance := narrow ((f.planes i).distance sphere.center)
    if distance > -sphere.radius then false else true
/-- `Frustum::intersects(sphere)`, impl/frustum.h:121-135. -/
def intersectsSphere (narrow : R → R) (f : Frustum R) (sphere : Sphere R) : Bool :=
  (List.finRange 6).all fun i =>
    let distance := narrow ((f.planes i).distance sphere.center)
    if distance > sphere.radius then false else true
end Frustum

end MathLib
