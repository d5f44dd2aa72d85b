import Verif.Model.Transform
import Verif.Model.Interpolation

/-! # Model of `line2.h`, `line3.h`, `ray2.h`, `ray3.h`, `circle.h`, `sphere.h`, `plane.h`, `tri2.h`

Functions with output parameters and a `bool` result return an `Option`: `none` for `false` (whatever
the output parameters then hold is not modelled), `some outputs` for `true`. -/

namespace MathLib

variable {R : Type} [Zero R] [One R] [NatCast R] [Add R] [Sub R] [Mul R] [Div R] [Neg R]
  [LT R] [LE R] [DecidableLT R] [DecidableLE R] [BEq R] [MathFns R]

/-- `std::max(a, b)` (impl/aabb3.h:428) -/
def stdMax (a b : R) : R := if a < b then b else a
/-- `std::min(a, b)` (impl/aabb3.h:428-522) -/
def stdMin (a b : R) : R := if b < a then b else a

/-! ## Points in memory -/

/-- load the `Vec2` a `const Vec2*` points to; the address may have become negative through a negative
stride (impl/aabb2.h:83-108) -/
def Mem.vec2At (mem : Mem R) (a : Int) : Res (Vec2 R) :=
  if a < 0 then .error .outOfRange else do
    let x ← mem.read a.toNat
    let y ← mem.read (a.toNat + mem.sz)
    .ok ⟨x, y⟩
/-- load the `Vec3` a `const Vec3*` points to (impl/aabb3.h:85-112) -/
def Mem.vec3At (mem : Mem R) (a : Int) : Res (Vec3 R) :=
  if a < 0 then .error .outOfRange else do
    let x ← mem.read a.toNat
    let y ← mem.read (a.toNat + mem.sz)
    let z ← mem.read (a.toNat + 2 * mem.sz)
    .ok ⟨x, y, z⟩

/-! ## Segments and rays -/

/-- `class Line2`, line2.h -/
structure Line2 (R : Type) where
  start : Vec2 R
  «end» : Vec2 R
  deriving DecidableEq
/-- `class Line3`, line3.h -/
structure Line3 (R : Type) where
  start : Vec3 R
  «end» : Vec3 R
  deriving DecidableEq
/-- `class Ray2`, ray2.h -/
structure Ray2 (R : Type) where
  start : Vec2 R
  direction : Vec2 R
  deriving DecidableEq
/-- `class Ray3`, ray3.h -/
structure Ray3 (R : Type) where
  start : Vec3 R
  direction : Vec3 R
  deriving DecidableEq

namespace Line2
/-- `Line2::operator==`, impl/line2.h:23-27. -/
def eq (l r : Line2 R) : Bool := l.start.eq r.start && l.end.eq r.end
/-- `Line2::operator!=`, impl/line2.h:29-33. -/
def ne (l r : Line2 R) : Bool := l.start.ne r.start || l.end.ne r.end
/-- `Line2::length`, impl/line2.h:39-43. -/
def length (l : Line2 R) : R := (l.end - l.start).length
/-- `Line2::lengthSqr`, impl/line2.h:45-49. -/
def lengthSqr (l : Line2 R) : R := (l.end - l.start).lengthSqr
/-- `Line2::isNull`, impl/line2.h:51-55. -/
def isNull (l : Line2 R) : Bool := l.end.eq l.start
/-- `Line2::pointAt`, impl/line2.h:57-61. -/
def pointAt (l : Line2 R) (t : R) : Vec2 R := lerpVec2 l.start l.end t
/-- `Line2::distance`, impl/line2.h:63-71. -/
def distance (l : Line2 R) (point : Vec2 R) : R :=
  let (d, len) := (l.end - l.start).normalize 1
  if len == 0 then distance2 l.start point
  else abs' (-d.y * (point.x - l.start.x) + d.x * (point.y - l.start.y))
end Line2

namespace Line3
/-- `Line3::operator==`, impl/line3.h:23-27. -/
def eq (l r : Line3 R) : Bool := l.start.eq r.start && l.end.eq r.end
/-- `Line3::operator!=`, impl/line3.h:29-33. -/
def ne (l r : Line3 R) : Bool := l.start.ne r.start || l.end.ne r.end
/-- `Line3::length`, impl/line3.h:39-43. -/
def length (l : Line3 R) : R := (l.end - l.start).length
/-- `Line3::lengthSqr`, impl/line3.h:45-49. -/
def lengthSqr (l : Line3 R) : R := (l.end - l.start).lengthSqr
/-- `Line3::isNull`, impl/line3.h:51-55. -/
def isNull (l : Line3 R) : Bool := l.end.eq l.start
/-- `Line3::pointAt`, impl/line3.h:57-61. -/
def pointAt (l : Line3 R) (t : R) : Vec3 R := lerpVec3 l.start l.end t
/-- `Line3::distance`, impl/line3.h:63-73. -/
def distance (l : Line3 R) (point : Vec3 R) : R :=
  let d := l.end - l.start
  let northo := (point - l.start).cross d
  let (n, len) := (d.cross northo).normalize 1
  if len == 0 then distance3 l.start point else abs' (n.dot (point - l.start))
end Line3

namespace Ray2
/-- `Ray2::from`, impl/ray2.h:10-17. -/
def «from» (start direction : Vec2 R) : Ray2 R := ⟨start, direction.normalized 1⟩
/-- `Ray2::operator==`, impl/ray2.h:23-27. -/
def eq (l r : Ray2 R) : Bool := l.start.eq r.start && l.direction.eq r.direction
/-- `Ray2::operator!=`, impl/ray2.h:29-33. -/
def ne (l r : Ray2 R) : Bool := l.start.ne r.start || l.direction.ne r.direction
/-- `Ray2::pointAt`, impl/ray2.h:39-43. -/
def pointAt (r : Ray2 R) (dist : R) : Vec2 R := r.start + r.direction * dist
/-- `Ray2::distance`, impl/ray2.h:45-49. -/
def distance (r : Ray2 R) (point : Vec2 R) : R :=
  abs' (-r.direction.y * (point.x - r.start.x) + r.direction.x * (point.y - r.start.y))
end Ray2

namespace Ray3
/-- `Ray3::from`, impl/ray3.h:10-17. -/
def «from» (start direction : Vec3 R) : Ray3 R := ⟨start, direction.normalized 1⟩
/-- `Ray3::operator==`, impl/ray3.h:23-27. -/
def eq (l r : Ray3 R) : Bool := l.start.eq r.start && l.direction.eq r.direction
/-- `Ray3::operator!=`, impl/ray3.h:29-33. -/
def ne (l r : Ray3 R) : Bool := l.start.ne r.start || l.direction.ne r.direction
/-- `Ray3::pointAt`, impl/ray3.h:39-43. -/
def pointAt (r : Ray3 R) (dist : R) : Vec3 R := r.start + r.direction * dist
/-- `Ray3::distance`, impl/ray3.h:45-54. -/
def distance (r : Ray3 R) (point : Vec3 R) : R :=
  let northo := (point - r.start).cross r.direction
  let (n, len) := (r.direction.cross northo).normalize 1
  if len == 0 then distance3 r.start point else abs' (n.dot (point - r.start))
end Ray3

/-! ## Triangle -/

/-- `class Tri2`, tri2.h -/
structure Tri2 (R : Type) where
  a : Vec2 R
  b : Vec2 R
  c : Vec2 R
  deriving DecidableEq

namespace Tri2
/-- `Tri2::operator==`, impl/tri2.h:24-28. -/
def eq (l r : Tri2 R) : Bool := l.a.eq r.a && l.b.eq r.b && l.c.eq r.c
/-- `Tri2::operator!=`, impl/tri2.h:30-34. -/
def ne (l r : Tri2 R) : Bool := l.a.ne r.a || l.b.ne r.b || l.c.ne r.c
/-- `Tri2::contains`, impl/tri2.h:40-49. -/
def contains (t : Tri2 R) (p : Vec2 R) : Bool :=
  let cross1 := Vec2.crossProduct t.a t.b p
  let cross2 := Vec2.crossProduct t.b t.c p
  let cross3 := Vec2.crossProduct t.c t.a p
  (decide (cross1 ≥ 0) && decide (cross2 ≥ 0) && decide (cross3 ≥ 0)) ||
    (decide (cross1 ≤ 0) && decide (cross2 ≤ 0) && decide (cross3 ≤ 0))
end Tri2

/-! ## Circle -/

/-- One iteration of the bounding loops over `Vec2` arrays: impl/circle.h:52-56, 95-99,
impl/aabb2.h:70-74, 101-105, impl/caabb2.h:66-70, 97-101. -/
def boundStep2 (b : Vec2 R × Vec2 R) (p : Vec2 R) : Vec2 R × Vec2 R :=
  let (inf, sup) := b
  let inf := if p.x < inf.x then { inf with x := p.x } else inf
  let inf := if p.y < inf.y then { inf with y := p.y } else inf
  let sup := if p.x > sup.x then { sup with x := p.x } else sup
  let sup := if p.y > sup.y then { sup with y := p.y } else sup
  (inf, sup)

/-- One iteration of the bounding loops over `Vec3` arrays: impl/sphere.h:52-58, 97-103,
impl/aabb3.h:70-76, 103-109, impl/caabb3.h:66-72, 99-105. -/
def boundStep3 (b : Vec3 R × Vec3 R) (p : Vec3 R) : Vec3 R × Vec3 R :=
  let (inf, sup) := b
  let inf := if p.x < inf.x then { inf with x := p.x } else inf
  let inf := if p.y < inf.y then { inf with y := p.y } else inf
  let inf := if p.z < inf.z then { inf with z := p.z } else inf
  let sup := if p.x > sup.x then { sup with x := p.x } else sup
  let sup := if p.y > sup.y then { sup with y := p.y } else sup
  let sup := if p.z > sup.z then { sup with z := p.z } else sup
  (inf, sup)

/-- The bounding loops of the `set(count, points, stride)` family (`set(count, points)` is the case
where the pointer advances by the size of a point): `inf = sup = *p; p += stride; count--;
while (count-- > 0) { …; p += stride; }`, impl/aabb2.h:54-111, impl/caabb2.h:50-107,
impl/circle.h:39-59, 76-102.  The assertion `points != nullptr` is not modelled. -/
def bounds2 (mem : Mem R) (points : Nat) (count stride : Int) : Res (Vec2 R × Vec2 R) :=
  if ¬ count > 0 then .error .assertion else do
    let v ← mem.vec2At points
    let (b, _) ← loop 1 count.toNat (fun _ (b, p) => do
      let v ← mem.vec2At p
      .ok (boundStep2 b v, p + stride)) ((v, v), (points : Int) + stride)
    .ok b

/-- The same for `Vec3`: impl/aabb3.h:54-115, impl/caabb3.h:50-111, impl/sphere.h:39-59, 78-104. -/
def bounds3 (mem : Mem R) (points : Nat) (count stride : Int) : Res (Vec3 R × Vec3 R) :=
  if ¬ count > 0 then .error .assertion else do
    let v ← mem.vec3At points
    let (b, _) ← loop 1 count.toNat (fun _ (b, p) => do
      let v ← mem.vec3At p
      .ok (boundStep3 b v, p + stride)) ((v, v), (points : Int) + stride)
    .ok b

/-- `class Circle`, circle.h -/
structure Circle (R : Type) where
  center : Vec2 R
  radius : R
  deriving DecidableEq

namespace Circle
/-- `Circle::Circle(p, r)`, impl/circle.h:17-23; `set(p, r)`, 30-37; `from(p, r)`, 126-134. -/
def mk' (p : Vec2 R) (r : R) : Res (Circle R) :=
  if r ≥ 0 then .ok ⟨p, r⟩ else .error .assertion
/-- `Circle::set(count, points, stride)`, impl/circle.h:76-119. -/
def setStrided (mem : Mem R) (points : Nat) (count stride : Int) : Res (Circle R) :=
  if ¬ count > 0 ∨ ¬ stride > 0 then .error .assertion else do
    let (inf, sup) ← bounds2 mem points count stride
    let c := (inf + sup) * (1 / 2 : R)
    let (radius2, _) ← loop 0 count.toNat (fun _ (radius2, p) => do
      let v ← mem.vec2At p
      let r2 := (v - c).lengthSqr
      .ok (if r2 > radius2 then r2 else radius2, p + stride)) ((0 : R), (points : Int))
    mk' c (MathFns.sqrt radius2)
/-- `Circle::set(count, points)`, impl/circle.h:39-74; `p++` advances by two scalars. -/
def set (mem : Mem R) (points : Nat) (count : Int) : Res (Circle R) := do
  let stride : Int := 2 * mem.sz
  let (inf, sup) ← bounds2 mem points count stride
  let c := (inf + sup) * (1 / 2 : R)
  let (radius2, _) ← loop 0 count.toNat (fun _ (radius2, p) => do
    let v ← mem.vec2At p
    let r2 := (v - c).lengthSqr
    .ok (if r2 > radius2 then r2 else radius2, p + stride)) ((0 : R), (points : Int))
  mk' c (MathFns.sqrt radius2)
/-- `Circle::operator+=`, impl/circle.h:157-162. -/
def addAssign (s : Circle R) (t : Vec2 R) : Circle R := { s with center := s.center.addAssign t }
/-- `Circle::operator-=`, impl/circle.h:164-169. -/
def subAssign (s : Circle R) (t : Vec2 R) : Circle R := { s with center := s.center.subAssign t }
/-- `Circle::operator*=`, impl/circle.h:171-176. -/
def mulAssign (s : Circle R) (k : R) : Circle R := { s with radius := s.radius * k }
/-- `Circle::operator/=`, impl/circle.h:178-184. -/
def divAssign (s : Circle R) (k : R) : Res (Circle R) :=
  if k == 0 then .error .assertion else .ok { s with radius := s.radius / k }
/-- `Circle::operator+`, impl/circle.h:191-195. -/
def add (s : Circle R) (t : Vec2 R) : Res (Circle R) := mk' (s.center + t) s.radius
/-- `Circle::operator-`, impl/circle.h:197-201. -/
def sub (s : Circle R) (t : Vec2 R) : Res (Circle R) := mk' (s.center - t) s.radius
/-- `Circle::operator*`, impl/circle.h:203-207. -/
def mul (s : Circle R) (k : R) : Res (Circle R) := mk' s.center (s.radius * k)
/-- `Circle::operator/`, impl/circle.h:209-214. -/
def div (s : Circle R) (k : R) : Res (Circle R) :=
  if k == 0 then .error .assertion else mk' s.center (s.radius / k)
/-- `Circle::operator==`, impl/circle.h:221-225. -/
def eq (s r : Circle R) : Bool := s.center.eq r.center && s.radius == r.radius
/-- `Circle::operator!=`, impl/circle.h:227-231. -/
def ne (s r : Circle R) : Bool := s.center.ne r.center || s.radius != r.radius
/-- `Circle::contains(point)`, impl/circle.h:237-241. -/
def contains (s : Circle R) (point : Vec2 R) : Bool := decide (distance2 point s.center ≤ s.radius)
/-- `Circle::contains(circle)`, impl/circle.h:243-247. -/
def containsCircle (s o : Circle R) : Bool :=
  decide (distance2 o.center s.center ≤ s.radius - o.radius)
/-- `Circle::intersects(circle)`, impl/circle.h:255-265. -/
def intersects (s o : Circle R) : Bool :=
  let delta := s.center - o.center
  let d2 := delta.lengthSqr
  let dmin := s.radius + o.radius
  if d2 > dmin * dmin then false else true
/-- `Circle::intersects(hit, t, circle)`, impl/circle.h:294-307. -/
def intersectsHit (s o : Circle R) : Option (Vec2 R × R) :=
  let delta := s.center - o.center
  let d2 := delta.lengthSqr
  let dmin := s.radius + o.radius
  if d2 > dmin * dmin then none
  else some (o.center + delta.normalized o.radius, dmin - MathFns.sqrt d2)
/-- `Vec2(const Vec3&, Coord::Z)`, impl/vec2.h:35-45, used as an implicit conversion: drops `z`. -/
def drop (v : Vec3 R) : Vec2 R := ⟨v.x, v.y⟩
/-- `Circle::intersects(hit, t, line)`, impl/circle.h:309-337 (`hits`, 249-253, is the same, and
`intersects(line)`, 267-292, has the same tests).  `line.end - line.start` and `line.start - center`
are `Vec3` differences (`center` is promoted to `Vec3` with z = 0) converted to `Vec2` by dropping z. -/
def intersectsLine (s : Circle R) (line : Line3 R) : Option (Vec2 R × R) :=
  let ft := drop (line.end - line.start)
  let ft2 := ft.lengthSqr
  if ft2 == 0 then none else
  let cf := drop line.start - s.center
  let cf2 := cf.lengthSqr
  let ftcf := ft.dot cf
  let r2 := s.radius * s.radius
  let delta := ftcf * ftcf - ft2 * (cf2 - r2)
  if delta < 0 then none else
  let x := (-ftcf - MathFns.sqrt delta) / ft2
  if x < 0 ∨ x > 1 then none else
  some (drop (line.pointAt x), x)
end Circle

/-! ## Sphere -/

/-- `class Sphere`, sphere.h -/
structure Sphere (R : Type) where
  center : Vec3 R
  radius : R
  deriving DecidableEq

namespace Sphere
/-- `Sphere::Sphere(p, r)`, impl/sphere.h:17-23; `set(p, r)`, 30-37; `from(p, r)`, 130-138. -/
def mk' (p : Vec3 R) (r : R) : Res (Sphere R) :=
  if r ≥ 0 then .ok ⟨p, r⟩ else .error .assertion
/-- `Sphere::set(count, points, stride)`, impl/sphere.h:78-123. -/
def setStrided (mem : Mem R) (points : Nat) (count stride : Int) : Res (Sphere R) :=
  if ¬ count > 0 ∨ ¬ stride > 0 then .error .assertion else do
    let (inf, sup) ← bounds3 mem points count stride
    let c := (inf + sup) * (1 / 2 : R)
    let (radius2, _) ← loop 0 count.toNat (fun _ (radius2, p) => do
      let v ← mem.vec3At p
      let r2 := (v - c).lengthSqr
      .ok (if r2 > radius2 then r2 else radius2, p + stride)) ((0 : R), (points : Int))
    mk' c (MathFns.sqrt radius2)
/-- `Sphere::set(count, points)`, impl/sphere.h:39-76; `p++` advances by three scalars. -/
def set (mem : Mem R) (points : Nat) (count : Int) : Res (Sphere R) := do
  let stride : Int := 3 * mem.sz
  let (inf, sup) ← bounds3 mem points count stride
  let c := (inf + sup) * (1 / 2 : R)
  let (radius2, _) ← loop 0 count.toNat (fun _ (radius2, p) => do
    let v ← mem.vec3At p
    let r2 := (v - c).lengthSqr
    .ok (if r2 > radius2 then r2 else radius2, p + stride)) ((0 : R), (points : Int))
  mk' c (MathFns.sqrt radius2)
/-- `Sphere::operator+=`, impl/sphere.h:161-166. -/
def addAssign (s : Sphere R) (t : Vec3 R) : Sphere R := { s with center := s.center.addAssign t }
/-- `Sphere::operator-=`, impl/sphere.h:168-173. -/
def subAssign (s : Sphere R) (t : Vec3 R) : Sphere R := { s with center := s.center.subAssign t }
/-- `Sphere::operator*=`, impl/sphere.h:175-180. -/
def mulAssign (s : Sphere R) (k : R) : Sphere R := { s with radius := s.radius * k }
/-- `Sphere::operator/=`, impl/sphere.h:182-188. -/
def divAssign (s : Sphere R) (k : R) : Res (Sphere R) :=
  if k == 0 then .error .assertion else .ok { s with radius := s.radius / k }
/-- `Sphere::operator+`, impl/sphere.h:195-199. -/
def add (s : Sphere R) (t : Vec3 R) : Res (Sphere R) := mk' (s.center + t) s.radius
/-- `Sphere::operator-`, impl/sphere.h:201-205. -/
def sub (s : Sphere R) (t : Vec3 R) : Res (Sphere R) := mk' (s.center - t) s.radius
/-- `Sphere::operator*`, impl/sphere.h:207-211. -/
def mul (s : Sphere R) (k : R) : Res (Sphere R) := mk' s.center (s.radius * k)
/-- `Sphere::operator/`, impl/sphere.h:213-218. -/
def div (s : Sphere R) (k : R) : Res (Sphere R) :=
  if k == 0 then .error .assertion else mk' s.center (s.radius / k)
/-- `Sphere::operator==`, impl/sphere.h:225-229. -/
def eq (s r : Sphere R) : Bool := s.center.eq r.center && s.radius == r.radius
/-- `Sphere::operator!=`, impl/sphere.h:231-235. -/
def ne (s r : Sphere R) : Bool := s.center.ne r.center || s.radius != r.radius
/-- `Sphere::contains(point)`, impl/sphere.h:241-245. -/
def contains (s : Sphere R) (point : Vec3 R) : Bool := decide (distance3 point s.center ≤ s.radius)
/-- `Sphere::contains(sphere)`, impl/sphere.h:247-251. -/
def containsSphere (s o : Sphere R) : Bool :=
  decide (distance3 o.center s.center ≤ s.radius - o.radius)
/-- `Sphere::intersects(sphere)`, impl/sphere.h:259-269. -/
def intersects (s o : Sphere R) : Bool :=
  let delta := s.center - o.center
  let d2 := delta.lengthSqr
  let dmin := s.radius + o.radius
  if d2 > dmin * dmin then false else true
/-- `Sphere::intersects(hit, t, sphere)`, impl/sphere.h:298-311. -/
def intersectsHit (s o : Sphere R) : Option (Vec3 R × R) :=
  let delta := s.center - o.center
  let d2 := delta.lengthSqr
  let dmin := s.radius + o.radius
  if d2 > dmin * dmin then none
  else some (o.center + delta.normalized o.radius, dmin - MathFns.sqrt d2)
/-- `Sphere::intersects(line)`, impl/sphere.h:271-296. -/
def intersectsLine (s : Sphere R) (line : Line3 R) : Bool :=
  let ft := line.end - line.start
  let ft2 := ft.lengthSqr
  if ft2 == 0 then false else
  let cf := line.start - s.center
  let cf2 := cf.lengthSqr
  let ftcf := ft.dot cf
  let r2 := s.radius * s.radius
  let delta := ftcf * ftcf - ft2 * (cf2 - r2)
  if delta < 0 then false else
  let x := (-ftcf - MathFns.sqrt delta) / ft2
  if x < 0 ∨ x > 1 then false else true
/-- `Sphere::intersects(hit, t, line)`, impl/sphere.h:313-341; `hits`, 253-257, calls it. -/
def intersectsLineHit (s : Sphere R) (line : Line3 R) : Option (Vec3 R × R) :=
  let ft := line.end - line.start
  let ft2 := ft.lengthSqr
  if ft2 == 0 then none else
  let cf := line.start - s.center
  let cf2 := cf.lengthSqr
  let ftcf := ft.dot cf
  let r2 := s.radius * s.radius
  let delta := ftcf * ftcf - ft2 * (cf2 - r2)
  if delta < 0 then none else
  let x := (-ftcf - MathFns.sqrt delta) / ft2
  if x < 0 ∨ x > 1 then none else
  some (line.pointAt x, x)
end Sphere

/-! ## Plane -/

/-- `class Plane`, plane.h -/
structure Plane (R : Type) where
  normal : Vec3 R
  d : R
  deriving DecidableEq

namespace Plane
/-- `Plane::XY/YZ/ZX`, impl/plane.h:6-13. -/
def XY : Plane R := ⟨⟨0, 0, 1⟩, 0⟩
/-- `Plane::YZ`, impl/plane.h:9-10. -/
def YZ : Plane R := ⟨⟨1, 0, 0⟩, 0⟩
/-- `Plane::ZX`, impl/plane.h:12-13. -/
def ZX : Plane R := ⟨⟨0, 1, 0⟩, 0⟩
/-- `Plane::set(normal, distance)`, impl/plane.h:29-36.  In the `set` functions a reference parameter
is a function of the current object: a caller may pass `this->normal` itself, and the parameter is then
read after the members before it have been overwritten. -/
def setNormal (self : Plane R) (normal : Plane R → Vec3 R) (distance : R) : Plane R :=
  let self := { self with normal := (normal self).normalized 1 }
  { self with d := distance }
/-- `Plane::set(point, normal)`, impl/plane.h:38-45. -/
def setPoint (self : Plane R) (point normal : Plane R → Vec3 R) : Plane R :=
  let self := { self with normal := (normal self).normalized 1 }
  { self with d := self.normal.dot (point self) }
/-- `Plane::setFromPointAndTangents`, impl/plane.h:47-53. -/
def setTangents (self : Plane R) (point u v : Plane R → Vec3 R) : Plane R :=
  let n := (u self).cross (v self)
  self.setPoint point (fun _ => n)
/-- `Plane::set(a, b, c)`, impl/plane.h:55-65. -/
def setPoints (self : Plane R) (a b c : Plane R → Vec3 R) : Plane R :=
  let ab := b self - a self
  let ac := c self - a self
  let n := ab.cross ac
  self.setPoint a (fun _ => n)
/-- `Plane::set(plane, distance)`, impl/plane.h:67-74. -/
def setPlane (self : Plane R) (plane : Plane R → Plane R) (distance : R) : Plane R :=
  let self := { self with normal := (plane self).normal }
  { self with d := (plane self).d + distance }
/-- `Plane::from(normal, distance)`, impl/plane.h:77-85. -/
def fromNormal (normal : Vec3 R) (distance : R) : Plane R := ⟨normal.normalized 1, distance⟩
/-- `Plane::from(point, normal)`, impl/plane.h:87-95. -/
def fromPoint (point normal : Vec3 R) : Plane R :=
  let n := normal.normalized 1
  ⟨n, n.dot point⟩
/-- `Plane::fromPointAndTangents`, impl/plane.h:97-103. -/
def fromTangents (point u v : Vec3 R) : Plane R := fromPoint point (u.cross v)
/-- `Plane::from(a, b, c)`, impl/plane.h:105-115. -/
def fromPoints (a b c : Vec3 R) : Plane R :=
  let ab := b - a
  let ac := c - a
  fromPoint a (ab.cross ac)
/-- `Plane::from(plane, distance)`, impl/plane.h:117-125. -/
def fromPlane (plane : Plane R) (distance : R) : Plane R := ⟨plane.normal, plane.d + distance⟩
/-- `Plane::operator==`, impl/plane.h:131-135. -/
def eq (p r : Plane R) : Bool := p.normal.eq r.normal && p.d == r.d
/-- `Plane::operator!=`, impl/plane.h:137-141. -/
def ne (p r : Plane R) : Bool := p.normal.ne r.normal || p.d != r.d
/-- `Plane::move`, impl/plane.h:147-152. -/
def move (p : Plane R) (distance : R) : Plane R := { p with d := p.d + distance }
/-- `Plane::flip`, impl/plane.h:154-160. -/
def flip (p : Plane R) : Plane R :=
  let p := { p with normal := -p.normal }
  { p with d := -p.d }
/-- `Plane::moved`, impl/plane.h:166-173. -/
def moved (p : Plane R) (distance : R) : Plane R := ⟨p.normal, p.d + distance⟩
/-- `Plane::flipped`, impl/plane.h:175-182. -/
def flipped (p : Plane R) : Plane R := ⟨-p.normal, -p.d⟩
/-- `Plane::distance`, impl/plane.h:191-195. -/
def distance (p : Plane R) (point : Vec3 R) : R := point.dot p.normal - p.d
/-- `Plane::contains`, impl/plane.h:184-189. -/
def contains (p : Plane R) (point : Vec3 R) (tolerance : R) : Bool :=
  decide (abs' (p.distance point) ≤ tolerance)
/-- `Plane::project(projection, point)`, impl/plane.h:197-207; returns the projection and the value. -/
def project (p : Plane R) (point : Vec3 R) : Vec3 R × R :=
  let t := point.dot p.normal - p.d
  (⟨point.x - p.normal.x * t, point.y - p.normal.y * t, point.z - p.normal.z * t⟩, t)
/-- `Plane::project(projection, point, direction)`, impl/plane.h:209-220. -/
def projectDir (p : Plane R) (point direction : Vec3 R) : Option (Vec3 R) :=
  let f := direction.dot p.normal
  if f == 0 then none
  else some (point - direction * (point.dot p.normal / f))
/-- `Plane::hits(hit, t, ray)`, impl/plane.h:222-239. -/
def hitsRay (p : Plane R) (ray : Ray3 R) : Option (Vec3 R × R) :=
  let startDist := ray.start.dot p.normal - p.d
  let normalDotDir := p.normal.dot ray.direction
  if normalDotDir ≥ 0 then none else
  let dist := -startDist / normalDotDir
  if dist < 0 then none else
  some (ray.pointAt dist, dist)
/-- `Plane::hits(hit, t, line)`, impl/plane.h:241-258. -/
def hitsLine (p : Plane R) (line : Line3 R) : Option (Vec3 R × R) :=
  let startDist := line.start.dot p.normal - p.d
  let endDist := line.end.dot p.normal - p.d
  if startDist < 0 then none else
  if endDist ≥ 0 then none else
  let t := startDist / (startDist - endDist)
  some (line.pointAt t, t)
/-- `Plane::hits(hit, t, line, radius)`, impl/plane.h:260-277. -/
def hitsLineRadius (p : Plane R) (line : Line3 R) (radius : R) : Option (Vec3 R × R) :=
  let startDist := line.start.dot p.normal - p.d - radius
  let endDist := line.end.dot p.normal - p.d - radius
  if startDist < 0 then none else
  if endDist ≥ 0 then none else
  let t := startDist / (startDist - endDist)
  some (line.pointAt t, t)
/-- `Plane::hits(depth, sphere)`, impl/plane.h:279-293. -/
def hitsSphere (p : Plane R) (sphere : Sphere R) : Option R :=
  let dist := sphere.center.dot p.normal - p.d
  if dist > sphere.radius then none else
  if dist < 0 then none else
  some (sphere.radius - dist)
/-- `Plane::intersects(hit, t, ray)`, impl/plane.h:295-312. -/
def intersectsRay (p : Plane R) (ray : Ray3 R) : Option (Vec3 R × R) :=
  let startDist := ray.start.dot p.normal - p.d
  let normalDotDir := p.normal.dot ray.direction
  if normalDotDir == 0 then none else
  let dist := -startDist / normalDotDir
  if dist < 0 then none else
  some (ray.pointAt dist, dist)
/-- `Plane::intersects(hit, t, line)`, impl/plane.h:314-334. -/
def intersectsLine (p : Plane R) (line : Line3 R) : Option (Vec3 R × R) :=
  let startDist := line.start.dot p.normal - p.d
  let endDist := line.end.dot p.normal - p.d
  if startDist == endDist then none else
  if startDist < 0 ∧ endDist < 0 then none else
  if startDist > 0 ∧ endDist > 0 then none else
  let t := startDist / (startDist - endDist)
  some (line.pointAt t, t)
/-- `Plane::intersects(depth, sphere)`, impl/plane.h:336-350. -/
def intersectsSphere (p : Plane R) (sphere : Sphere R) : Option R :=
  let dist := sphere.center.dot p.normal - p.d
  if dist > sphere.radius then none else
  if dist < -sphere.radius then none else
  some (sphere.radius - dist)
/-- `Plane::intersectAtSinglePoint`, impl/plane.h:374-393; returns the result flag and the point. -/
def intersectAtSinglePoint (p0 p1 p2 : Plane R) : Res (Bool × Vec3 R) :=
  let epsilon : R := 1 / 10000
  let det := (p0.normal.cross p1.normal).dot p2.normal
  if abs' det < epsilon then .ok (false, Vec3.zero) else do
    let point ← ((p1.normal.cross p2.normal) * p0.d + (p2.normal.cross p0.normal) * p1.d +
      (p0.normal.cross p1.normal) * p2.d).div det
    .ok (true, point)
end Plane

end MathLib
