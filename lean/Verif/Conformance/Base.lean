import Verif.Model.Functions
import Verif.Model.Interpolation
import Verif.Model.LinearEquations
import Verif.Model.Mat34
import Verif.Model.Mat4
import Verif.Model.Quat
import Verif.Model.Slerp
import Verif.Model.Transform
import Verif.Model.Box
import Verif.Model.Frustum
import Verif.Model.Color
import Verif.Model.Spline

/-!
# Running the model on machine floating point numbers

`Float32` stands for C++ `float` and `Float` for `double`.  Nothing is proved here: the files of
this directory execute the model on the inputs of the repository's own unit tests and compare with
the values those tests expect (`#guard` uses the interpreter and adds nothing to any proof).
-/

namespace MathLib

instance : Zero Float := ⟨0.0⟩
instance : One Float := ⟨1.0⟩
instance : NatCast Float := ⟨Float.ofNat⟩
instance : Zero Float32 := ⟨0.0⟩
instance : One Float32 := ⟨1.0⟩
instance : NatCast Float32 := ⟨Float32.ofNat⟩

/-- rounding towards zero -/
def truncFloat (x : Float) : Float := if x < 0 then x.ceil else x.floor

/-- `fmod`, good enough for the quotients in the tests -/
def fmodFloat (x y : Float) : Float := x - y * truncFloat (x / y)

instance : MathFns Float where
  sqrt := Float.sqrt
  sin := Float.sin
  cos := Float.cos
  asin := Float.asin
  acos := Float.acos
  atan2 := Float.atan2
  pow := Float.pow
  fmod := fmodFloat
  trunc x := x.toInt64.toInt
  pi := 3.14159265358979323846

instance : MathFns Float32 where
  sqrt := Float32.sqrt
  sin := Float32.sin
  cos := Float32.cos
  asin := Float32.asin
  acos := Float32.acos
  atan2 := Float32.atan2
  pow := Float32.pow
  fmod x y := (fmodFloat x.toFloat y.toFloat).toFloat32
  trunc x := x.toFloat.toInt64.toInt
  pi := 3.14159265358979323846

namespace Conformance

class ToFloat (R : Type) where
  toFloat : R → Float
  /-- `std::numeric_limits<Real>::max()` -/
  fltMax : R
  ofInt : Int → R
instance : ToFloat Float := ⟨id, 1.7976931348623157e308, Float.ofInt⟩
instance : ToFloat Float32 := ⟨Float32.toFloat, 3.4028234663852886e38, Float32.ofInt⟩

def fltMax {R : Type} [ToFloat R] : R := ToFloat.fltMax
def toR {R : Type} [ToFloat R] : Int → R := ToFloat.ofInt

variable {R : Type} [ToFloat R]

/-- the matchers `WithinAbs` of libs/testlib: every component is within the margin -/
class Near (R : Type) (α : Type) where
  near : R → α → α → Bool

instance : Near R R :=
  ⟨fun e a b => decide ((ToFloat.toFloat a - ToFloat.toFloat b).abs ≤ ToFloat.toFloat e)⟩
instance : Near R (Vec2 R) := ⟨fun e a b => Near.near e a.x b.x && Near.near e a.y b.y⟩
instance : Near R (Vec3 R) :=
  ⟨fun e a b => Near.near e a.x b.x && Near.near e a.y b.y && Near.near e a.z b.z⟩
instance : Near R (Vec4 R) :=
  ⟨fun e a b => Near.near e a.x b.x && Near.near e a.y b.y && Near.near e a.z b.z
    && Near.near e a.w b.w⟩
instance : Near R (Quat R) :=
  ⟨fun e a b => Near.near e a.x b.x && Near.near e a.y b.y && Near.near e a.z b.z
    && Near.near e a.w b.w⟩
instance : Near R (Mat2 R) := ⟨fun e a b => Near.near e a.x b.x && Near.near e a.y b.y⟩
instance : Near R (Mat3 R) :=
  ⟨fun e a b => Near.near e a.x b.x && Near.near e a.y b.y && Near.near e a.z b.z⟩
instance : Near R (Mat34 R) := ⟨fun e a b => Near.near e a.rs b.rs && Near.near e a.t b.t⟩
instance : Near R (Mat4 R) :=
  ⟨fun e a b => Near.near e a.x b.x && Near.near e a.y b.y && Near.near e a.z b.z
    && Near.near e a.t b.t⟩
instance : Near R (AABB2 R) := ⟨fun e a b => Near.near e a.inf b.inf && Near.near e a.sup b.sup⟩
instance : Near R (AABB3 R) := ⟨fun e a b => Near.near e a.inf b.inf && Near.near e a.sup b.sup⟩
instance : Near R (CAABB2 R) :=
  ⟨fun e a b => Near.near e a.center b.center && Near.near e a.extents b.extents⟩
instance : Near R (CAABB3 R) :=
  ⟨fun e a b => Near.near e a.center b.center && Near.near e a.extents b.extents⟩
instance : Near R (Circle R) :=
  ⟨fun e a b => Near.near e a.center b.center && Near.near e a.radius b.radius⟩
instance : Near R (Sphere R) :=
  ⟨fun e a b => Near.near e a.center b.center && Near.near e a.radius b.radius⟩
instance : Near R (Plane R) :=
  ⟨fun e a b => Near.near e a.normal b.normal && Near.near e a.d b.d⟩
instance : Near R (Line2 R) := ⟨fun e a b => Near.near e a.start b.start && Near.near e a.end b.end⟩
instance : Near R (Line3 R) := ⟨fun e a b => Near.near e a.start b.start && Near.near e a.end b.end⟩
instance : Near R (Ray2 R) :=
  ⟨fun e a b => Near.near e a.start b.start && Near.near e a.direction b.direction⟩
instance : Near R (Ray3 R) :=
  ⟨fun e a b => Near.near e a.start b.start && Near.near e a.direction b.direction⟩
instance : Near R (ColorRGB R) :=
  ⟨fun e a b => Near.near e a.r b.r && Near.near e a.g b.g && Near.near e a.b b.b⟩
instance : Near R (ColorRGBA R) :=
  ⟨fun e a b => Near.near e a.r b.r && Near.near e a.g b.g && Near.near e a.b b.b
    && Near.near e a.a b.a⟩
instance : Near R (ColorHSV R) :=
  ⟨fun e a b => Near.near e a.h b.h && Near.near e a.s b.s && Near.near e a.v b.v⟩
instance : Near R (Frustum R) :=
  ⟨fun e a b => (List.finRange 8).all fun i => Near.near e (a.corners i) (b.corners i)⟩

/-- `Catch::Matchers::WithinRel` -/
def nearRel (e a b : R) : Bool :=
  let x := ToFloat.toFloat a
  let y := ToFloat.toFloat b
  decide ((x - y).abs ≤ ToFloat.toFloat e * (if x.abs < y.abs then y.abs else x.abs))

section Consts
omit [ToFloat R]
variable [Zero R] [One R] [NatCast R] [Div R] [Neg R]
/-- impl/aabb2.h:5-13 -/
def constAABB2Zero : AABB2 R := ⟨⟨0, 0⟩, ⟨0, 0⟩⟩
def constAABB2One : AABB2 R := ⟨⟨-(1 / 2), -(1 / 2)⟩, ⟨1 / 2, 1 / 2⟩⟩
/-- impl/aabb3.h:5-13 -/
def constAABB3Zero : AABB3 R := ⟨⟨0, 0, 0⟩, ⟨0, 0, 0⟩⟩
def constAABB3One : AABB3 R := ⟨⟨-(1 / 2), -(1 / 2), -(1 / 2)⟩, ⟨1 / 2, 1 / 2, 1 / 2⟩⟩
/-- impl/caabb2.h:5-8, impl/caabb3.h:5-8: centre and size -/
def constCAABB2One [Mul R] : CAABB2 R := CAABB2.ofCenterSize ⟨0, 0⟩ ⟨1, 1⟩
def constCAABB3One [Mul R] : CAABB3 R := CAABB3.ofCenterSize ⟨0, 0, 0⟩ ⟨1, 1, 1⟩
/-- impl/circle.h:5-6, impl/sphere.h:5-6 -/
def constCircleOne : Circle R := ⟨⟨0, 0⟩, 1⟩
def constSphereOne : Sphere R := ⟨⟨0, 0, 0⟩, 1⟩
end Consts

/-- an array with the given elements -/
def bufOf {α : Type} (l : List α) : Buf α := ⟨l.length, fun i => l[i]?⟩
/-- an array of vectors in memory at address 0, components of four bytes -/
def memOf2 (l : List (Vec2 R)) : Mem R :=
  let c := l.flatMap fun v => [v.x, v.y]
  ⟨4, fun a => a % 4 == 0 && a / 4 < c.length, fun a => c[a / 4]?⟩
def memOf3 (l : List (Vec3 R)) : Mem R :=
  let c := l.flatMap fun v => [v.x, v.y, v.z]
  ⟨4, fun a => a % 4 == 0 && a / 4 < c.length, fun a => c[a / 4]?⟩
def fnOf {n : Nat} {α : Type} [Inhabited α] (l : List α) (i : Fin n) : α := l[i.val]!
instance [Zero R] : Inhabited (Vec3 R) := ⟨⟨0, 0, 0⟩⟩

/-- collects the lines of failed checks -/
def ck (bad : List Nat) (line : Nat) (b : Bool) : List Nat := if b then bad else bad ++ [line]
def passes : Res (List Nat) → Bool
  | .ok [] => true
  | _ => false

end Conformance
end MathLib
