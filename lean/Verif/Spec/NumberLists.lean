import Verif.Model.Box
import Verif.Model.Color
import Verif.Model.Frustum
import Verif.Model.Mat34
import Verif.Model.Mat4

/-! # The numbers an object consists of

Without the flags of the matrices and the planes of the frustums, which are computed from the rest. -/

namespace MathLib
variable {R : Type}

/-- its numbers -/
def Vec2.comps (o : Vec2 R) : List R :=
  [o.x, o.y]
/-- its numbers -/
def Vec3.comps (o : Vec3 R) : List R :=
  [o.x, o.y, o.z]
/-- its numbers -/
def Vec4.comps (o : Vec4 R) : List R :=
  [o.x, o.y, o.z, o.w]
/-- its numbers -/
def Mat2.comps (o : Mat2 R) : List R :=
  [o.x.x, o.x.y, o.y.x, o.y.y]
/-- its numbers -/
def Mat3.comps (o : Mat3 R) : List R :=
  [o.x.x, o.x.y, o.x.z, o.y.x, o.y.y, o.y.z, o.z.x, o.z.y, o.z.z]
/-- its numbers -/
def Mat4.comps (o : Mat4 R) : List R :=
  [o.x.x, o.x.y, o.x.z, o.x.w, o.y.x, o.y.y, o.y.z, o.y.w, o.z.x, o.z.y, o.z.z, o.z.w,
    o.t.x, o.t.y, o.t.z, o.t.w]
/-- its numbers -/
def Mat34.comps (o : Mat34 R) : List R :=
  [o.rs.x.x, o.rs.x.y, o.rs.x.z, o.rs.y.x, o.rs.y.y, o.rs.y.z, o.rs.z.x, o.rs.z.y, o.rs.z.z,
    o.t.x, o.t.y, o.t.z]
/-- its numbers -/
def Quat.comps (o : Quat R) : List R :=
  [o.x, o.y, o.z, o.w]
/-- its numbers -/
def AABB2.comps (o : AABB2 R) : List R :=
  [o.inf.x, o.inf.y, o.sup.x, o.sup.y]
/-- its numbers -/
def CAABB2.comps (o : CAABB2 R) : List R :=
  [o.center.x, o.center.y, o.extents.x, o.extents.y]
/-- its numbers -/
def AABB3.comps (o : AABB3 R) : List R :=
  [o.inf.x, o.inf.y, o.inf.z, o.sup.x, o.sup.y, o.sup.z]
/-- its numbers -/
def CAABB3.comps (o : CAABB3 R) : List R :=
  [o.center.x, o.center.y, o.center.z, o.extents.x, o.extents.y, o.extents.z]
/-- its numbers -/
def ColorRGB.comps (o : ColorRGB R) : List R :=
  [o.r, o.g, o.b]
/-- its numbers -/
def ColorRGBA.comps (o : ColorRGBA R) : List R :=
  [o.r, o.g, o.b, o.a]
/-- its numbers -/
def ColorHSV.comps (o : ColorHSV R) : List R :=
  [o.h, o.s, o.v]
/-- its numbers -/
def Line2.comps (o : Line2 R) : List R :=
  [o.start.x, o.start.y, o.«end».x, o.«end».y]
/-- its numbers -/
def Line3.comps (o : Line3 R) : List R :=
  [o.start.x, o.start.y, o.start.z, o.«end».x, o.«end».y, o.«end».z]
/-- its numbers -/
def Ray2.comps (o : Ray2 R) : List R :=
  [o.start.x, o.start.y, o.direction.x, o.direction.y]
/-- its numbers -/
def Ray3.comps (o : Ray3 R) : List R :=
  [o.start.x, o.start.y, o.start.z, o.direction.x, o.direction.y, o.direction.z]
/-- its numbers -/
def Plane.comps (o : Plane R) : List R :=
  [o.normal.x, o.normal.y, o.normal.z, o.d]
/-- its numbers -/
def Circle.comps (o : Circle R) : List R :=
  [o.center.x, o.center.y, o.radius]
/-- its numbers -/
def Sphere.comps (o : Sphere R) : List R :=
  [o.center.x, o.center.y, o.center.z, o.radius]
/-- its numbers -/
def Frustum.comps (o : Frustum R) : List R :=
  [(o.corners 0).x, (o.corners 0).y, (o.corners 0).z, (o.corners 1).x, (o.corners 1).y,
    (o.corners 1).z, (o.corners 2).x, (o.corners 2).y, (o.corners 2).z, (o.corners 3).x,
    (o.corners 3).y, (o.corners 3).z, (o.corners 4).x, (o.corners 4).y, (o.corners 4).z,
    (o.corners 5).x, (o.corners 5).y, (o.corners 5).z, (o.corners 6).x, (o.corners 6).y,
    (o.corners 6).z, (o.corners 7).x, (o.corners 7).y, (o.corners 7).z]

end MathLib
