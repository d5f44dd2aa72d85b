import Verif.Model.Geom
import Verif.Model.Mat4

/-! # Model of the local axes and planes of `mat34.h` and `mat4.h` -/

namespace MathLib

variable {R : Type} [Zero R] [One R] [NatCast R] [Add R] [Sub R] [Mul R] [Div R] [Neg R] [LT R]
  [LE R] [DecidableLT R] [DecidableLE R] [BEq R] [MathFns R]

namespace Mat34
/-- `Mat34::localAxis`, impl/mat34.h:456-469. -/
def localAxis (m : Mat34 R) : Coord → Res (Ray3 R)
  | .X => .ok (Ray3.from m.t m.rs.x)
  | .Y => .ok (Ray3.from m.t m.rs.y)
  | .Z => .ok (Ray3.from m.t m.rs.z)
  | _ => .error .assertion
/-- `Mat34::localPlane(Coord)`, impl/mat34.h:471-484. -/
def localPlane (m : Mat34 R) : Coord → Res (Plane R)
  | .X => .ok (Plane.fromPoint m.t m.rs.x)
  | .Y => .ok (Plane.fromPoint m.t m.rs.y)
  | .Z => .ok (Plane.fromPoint m.t m.rs.z)
  | _ => .error .assertion
/-- `Mat34::localPlane(Axis)`, impl/mat34.h:486-502. -/
def localPlaneAxis (m : Mat34 R) : Axis → Res (Plane R)
  | .X => .ok (Plane.fromPoint m.t m.rs.x)
  | .Y => .ok (Plane.fromPoint m.t m.rs.y)
  | .Z => .ok (Plane.fromPoint m.t m.rs.z)
  | .NX => .ok (Plane.fromPoint m.t (-m.rs.x))
  | .NY => .ok (Plane.fromPoint m.t (-m.rs.y))
  | .NZ => .ok (Plane.fromPoint m.t (-m.rs.z))
  | .Undefined => .error .assertion
end Mat34

namespace Mat4
/-- `Mat4::localAxis`, impl/mat4.h:844-857. -/
def localAxis (m : Mat4 R) : Coord → Res (Ray3 R)
  | .X => .ok (Ray3.from m.t.toVec3 m.x.toVec3)
  | .Y => .ok (Ray3.from m.t.toVec3 m.y.toVec3)
  | .Z => .ok (Ray3.from m.t.toVec3 m.z.toVec3)
  | _ => .error .assertion
/-- `Mat4::localPlane(Coord)`, impl/mat4.h:859-872. -/
def localPlane (m : Mat4 R) : Coord → Res (Plane R)
  | .X => .ok (Plane.fromPoint m.t.toVec3 m.x.toVec3)
  | .Y => .ok (Plane.fromPoint m.t.toVec3 m.y.toVec3)
  | .Z => .ok (Plane.fromPoint m.t.toVec3 m.z.toVec3)
  | _ => .error .assertion
/-- `Mat4::localPlane(Axis)`, impl/mat4.h:874-890. -/
def localPlaneAxis (m : Mat4 R) : Axis → Res (Plane R)
  | .X => .ok (Plane.fromPoint m.t.toVec3 m.x.toVec3)
  | .Y => .ok (Plane.fromPoint m.t.toVec3 m.y.toVec3)
  | .Z => .ok (Plane.fromPoint m.t.toVec3 m.z.toVec3)
  | .NX => .ok (Plane.fromPoint m.t.toVec3 (-m.x.toVec3))
  | .NY => .ok (Plane.fromPoint m.t.toVec3 (-m.y.toVec3))
  | .NZ => .ok (Plane.fromPoint m.t.toVec3 (-m.z.toVec3))
  | .Undefined => .error .assertion
end Mat4

end MathLib
