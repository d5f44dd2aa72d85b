import Verif.Model.Frustum
import Verif.Model.Box
import Verif.Model.Mat4

/-! # Model of `cast<CastReturnType>()`

`conv` is the `static_cast` between the two scalar types; it converts every component on its own.  The
casts of colours are in `Verif.Model.Color`. -/

namespace MathLib

section
variable {R S : Type}

/-- `Vec2::cast`, impl/vec2.h:491-499. -/
def Vec2.cast (conv : R → S) (v : Vec2 R) : Vec2 S := ⟨conv v.x, conv v.y⟩
/-- `Vec3::cast`, impl/vec3.h:725-734. -/
def Vec3.cast (conv : R → S) (v : Vec3 R) : Vec3 S := ⟨conv v.x, conv v.y, conv v.z⟩
/-- `Vec4::cast`, impl/vec4.h:287-297. -/
def Vec4.cast (conv : R → S) (v : Vec4 R) : Vec4 S := ⟨conv v.x, conv v.y, conv v.z, conv v.w⟩
/-- `Line2::cast`, impl/line2.h:73-81. -/
def Line2.cast (conv : R → S) (l : Line2 R) : Line2 S := ⟨l.start.cast conv, l.end.cast conv⟩
/-- `Line3::cast`, impl/line3.h:75-83. -/
def Line3.cast (conv : R → S) (l : Line3 R) : Line3 S := ⟨l.start.cast conv, l.end.cast conv⟩
/-- `Tri2::cast`, impl/tri2.h:51-60. -/
def Tri2.cast (conv : R → S) (t : Tri2 R) : Tri2 S := ⟨t.a.cast conv, t.b.cast conv, t.c.cast conv⟩
/-- `AABB2::cast`, impl/aabb2.h:619-627. -/
def AABB2.cast (conv : R → S) (b : AABB2 R) : AABB2 S := ⟨b.inf.cast conv, b.sup.cast conv⟩
/-- `AABB3::cast`, impl/aabb3.h:729-737. -/
def AABB3.cast (conv : R → S) (b : AABB3 R) : AABB3 S := ⟨b.inf.cast conv, b.sup.cast conv⟩
/-- `CAABB2::cast`, impl/caabb2.h:372-380. -/
def CAABB2.cast (conv : R → S) (b : CAABB2 R) : CAABB2 S := ⟨b.center.cast conv, b.extents.cast conv⟩
/-- `CAABB3::cast`, impl/caabb3.h:468-476. -/
def CAABB3.cast (conv : R → S) (b : CAABB3 R) : CAABB3 S := ⟨b.center.cast conv, b.extents.cast conv⟩
/-- `Plane::cast`, impl/plane.h:364-372: the constructor does not normalise. -/
def Plane.cast (conv : R → S) (p : Plane R) : Plane S := ⟨p.normal.cast conv, conv p.d⟩
/-- `Quat::cast`, impl/quat.h:609-618: `autoNormalize` is `false`. -/
def Quat.cast (conv : R → S) (q : Quat R) : Quat S := ⟨conv q.x, conv q.y, conv q.z, conv q.w⟩
/-- `Frustum::cast`, impl/frustum.h:137-151: corners and planes, each on its own. -/
def Frustum.cast (conv : R → S) (f : Frustum R) : Frustum S :=
  ⟨fun i => (f.corners i).cast conv, fun i => (f.planes i).cast conv⟩
end

section
variable {R S : Type} [Zero S] [One S] [NatCast S] [Add S] [Sub S] [Mul S] [Div S] [Neg S] [LT S]
  [LE S] [DecidableLT S] [DecidableLE S] [BEq S]

/-- `Circle::cast`, impl/circle.h:351-359: the constructor asserts on a negative radius. -/
def Circle.cast (conv : R → S) (s : Circle R) : Res (Circle S) :=
  Circle.mk' (s.center.cast conv) (conv s.radius)
/-- `Sphere::cast`, impl/sphere.h:355-363: the constructor asserts on a negative radius. -/
def Sphere.cast (conv : R → S) (s : Sphere R) : Res (Sphere S) :=
  Sphere.mk' (s.center.cast conv) (conv s.radius)
/-- `Ray2::cast`, impl/ray2.h:51-59: `from` normalises the converted direction. -/
def Ray2.cast [MathFns S] (conv : R → S) (r : Ray2 R) : Ray2 S :=
  Ray2.from (r.start.cast conv) (r.direction.cast conv)
/-- `Ray3::cast`, impl/ray3.h:56-64: `from` normalises the converted direction. -/
def Ray3.cast [MathFns S] (conv : R → S) (r : Ray3 R) : Ray3 S :=
  Ray3.from (r.start.cast conv) (r.direction.cast conv)
/-- `Mat2::cast`, impl/mat2.h:480-488: `from` recomputes the flags. -/
def Mat2.cast (conv : R → S) (m : Mat2 R) : Mat2 S := Mat2.ofCols (m.x.cast conv) (m.y.cast conv)
/-- `Mat3::cast`, impl/mat3.h:1021-1030: `from` recomputes the flags. -/
def Mat3.cast (conv : R → S) (m : Mat3 R) : Mat3 S :=
  Mat3.ofCols (m.x.cast conv) (m.y.cast conv) (m.z.cast conv)
/-- `Mat34::cast`, impl/mat34.h:546-554. -/
def Mat34.cast (conv : R → S) (m : Mat34 R) : Mat34 S := ⟨m.rs.cast conv, m.t.cast conv⟩
/-- `Mat4::cast`, impl/mat4.h:1134-1144: `from` recomputes the flags. -/
def Mat4.cast (conv : R → S) (m : Mat4 R) : Mat4 S :=
  Mat4.ofCols (m.x.cast conv) (m.y.cast conv) (m.z.cast conv) (m.t.cast conv)
end

end MathLib
