import Verif.Model.Box
import Verif.Model.Color
import Verif.Model.Frustum
import Verif.Model.Mat34
import Verif.Model.Mat4

/-! # Model of the matchers of the test library (libs/testlib/include/impl/catch_matchers*.h)

`R` is the scalar type of the objects, `D` is `double`, the type of the margin; `conv` is the implicit
conversion of a scalar to `double` (the identity if `R` is `double`), which C++ applies to the scalar
before it adds the margin and before it compares. -/

namespace MathLib
namespace Matches

variable {R D : Type} [Add D] [LE D] [DecidableLE D]

/-- `marginCheck` of two scalars, catch_matchers.h:5-9. -/
def scalar (conv : R → D) (matchee target : R) (margin : D) : Bool :=
  decide (conv matchee + margin ≥ conv target) && decide (conv target + margin ≥ conv matchee)

/-- `marginCheck` of two objects of type `Vec2`, catch_matchers.h:11-16. -/
def vec2 (conv : R → D) (matchee target : Vec2 R) (margin : D) : Bool :=
  scalar conv matchee.x target.x margin &&
    scalar conv matchee.y target.y margin

/-- `marginCheck` of two objects of type `Vec3`, catch_matchers.h:18-24. -/
def vec3 (conv : R → D) (matchee target : Vec3 R) (margin : D) : Bool :=
  scalar conv matchee.x target.x margin &&
    scalar conv matchee.y target.y margin &&
    scalar conv matchee.z target.z margin

/-- `marginCheck` of two objects of type `Vec4`, catch_matchers.h:26-33. -/
def vec4 (conv : R → D) (matchee target : Vec4 R) (margin : D) : Bool :=
  scalar conv matchee.x target.x margin &&
    scalar conv matchee.y target.y margin &&
    scalar conv matchee.z target.z margin &&
    scalar conv matchee.w target.w margin

/-- `marginCheck` of two objects of type `Mat2`, catch_matchers.h:35-40. -/
def mat2 (conv : R → D) (matchee target : Mat2 R) (margin : D) : Bool :=
  vec2 conv matchee.x target.x margin &&
    vec2 conv matchee.y target.y margin

/-- `marginCheck` of two objects of type `Mat3`, catch_matchers.h:42-48. -/
def mat3 (conv : R → D) (matchee target : Mat3 R) (margin : D) : Bool :=
  vec3 conv matchee.x target.x margin &&
    vec3 conv matchee.y target.y margin &&
    vec3 conv matchee.z target.z margin

/-- `marginCheck` of two objects of type `Mat4`, catch_matchers.h:50-57. -/
def mat4 (conv : R → D) (matchee target : Mat4 R) (margin : D) : Bool :=
  vec4 conv matchee.x target.x margin &&
    vec4 conv matchee.y target.y margin &&
    vec4 conv matchee.z target.z margin &&
    vec4 conv matchee.t target.t margin

/-- `marginCheck` of two objects of type `Mat34`, catch_matchers.h:59-64. -/
def mat34 (conv : R → D) (matchee target : Mat34 R) (margin : D) : Bool :=
  mat3 conv matchee.rs target.rs margin &&
    vec3 conv matchee.t target.t margin

/-- `marginCheck` of two objects of type `Quat`, catch_matchers.h:66-73. -/
def quat (conv : R → D) (matchee target : Quat R) (margin : D) : Bool :=
  scalar conv matchee.x target.x margin &&
    scalar conv matchee.y target.y margin &&
    scalar conv matchee.z target.z margin &&
    scalar conv matchee.w target.w margin

/-- `marginCheck` of two objects of type `AABB2`, catch_matchers.h:75-80. -/
def aabb2 (conv : R → D) (matchee target : AABB2 R) (margin : D) : Bool :=
  vec2 conv matchee.inf target.inf margin &&
    vec2 conv matchee.sup target.sup margin

/-- `marginCheck` of two objects of type `CAABB2`, catch_matchers.h:82-87. -/
def caabb2 (conv : R → D) (matchee target : CAABB2 R) (margin : D) : Bool :=
  vec2 conv matchee.center target.center margin &&
    vec2 conv matchee.extents target.extents margin

/-- `marginCheck` of two objects of type `AABB3`, catch_matchers.h:89-94. -/
def aabb3 (conv : R → D) (matchee target : AABB3 R) (margin : D) : Bool :=
  vec3 conv matchee.inf target.inf margin &&
    vec3 conv matchee.sup target.sup margin

/-- `marginCheck` of two objects of type `CAABB3`, catch_matchers.h:96-101. -/
def caabb3 (conv : R → D) (matchee target : CAABB3 R) (margin : D) : Bool :=
  vec3 conv matchee.center target.center margin &&
    vec3 conv matchee.extents target.extents margin

/-- `marginCheck` of two objects of type `ColorRGB`, catch_matchers.h:103-109. -/
def colorRGB (conv : R → D) (matchee target : ColorRGB R) (margin : D) : Bool :=
  scalar conv matchee.r target.r margin &&
    scalar conv matchee.g target.g margin &&
    scalar conv matchee.b target.b margin

/-- `marginCheck` of two objects of type `ColorRGBA`, catch_matchers.h:111-118. -/
def colorRGBA (conv : R → D) (matchee target : ColorRGBA R) (margin : D) : Bool :=
  scalar conv matchee.r target.r margin &&
    scalar conv matchee.g target.g margin &&
    scalar conv matchee.b target.b margin &&
    scalar conv matchee.a target.a margin

/-- `marginCheck` of two objects of type `ColorHSV`, catch_matchers.h:120-126. -/
def colorHSV (conv : R → D) (matchee target : ColorHSV R) (margin : D) : Bool :=
  scalar conv matchee.h target.h margin &&
    scalar conv matchee.s target.s margin &&
    scalar conv matchee.v target.v margin

/-- `marginCheck` of two objects of type `Line2`, catch_matchers.h:128-133. -/
def line2 (conv : R → D) (matchee target : Line2 R) (margin : D) : Bool :=
  vec2 conv matchee.start target.start margin &&
    vec2 conv matchee.«end» target.«end» margin

/-- `marginCheck` of two objects of type `Line3`, catch_matchers.h:135-140. -/
def line3 (conv : R → D) (matchee target : Line3 R) (margin : D) : Bool :=
  vec3 conv matchee.start target.start margin &&
    vec3 conv matchee.«end» target.«end» margin

/-- `marginCheck` of two objects of type `Ray2`, catch_matchers.h:142-147. -/
def ray2 (conv : R → D) (matchee target : Ray2 R) (margin : D) : Bool :=
  vec2 conv matchee.start target.start margin &&
    vec2 conv matchee.direction target.direction margin

/-- `marginCheck` of two objects of type `Ray3`, catch_matchers.h:149-154. -/
def ray3 (conv : R → D) (matchee target : Ray3 R) (margin : D) : Bool :=
  vec3 conv matchee.start target.start margin &&
    vec3 conv matchee.direction target.direction margin

/-- `marginCheck` of two objects of type `Plane`, catch_matchers.h:156-161. -/
def plane (conv : R → D) (matchee target : Plane R) (margin : D) : Bool :=
  vec3 conv matchee.normal target.normal margin &&
    scalar conv matchee.d target.d margin

/-- `marginCheck` of two objects of type `Circle`, catch_matchers.h:163-168. -/
def circle (conv : R → D) (matchee target : Circle R) (margin : D) : Bool :=
  vec2 conv matchee.center target.center margin &&
    scalar conv matchee.radius target.radius margin

/-- `marginCheck` of two objects of type `Sphere`, catch_matchers.h:170-175. -/
def sphere (conv : R → D) (matchee target : Sphere R) (margin : D) : Bool :=
  vec3 conv matchee.center target.center margin &&
    scalar conv matchee.radius target.radius margin

/-- `marginCheck` of two objects of type `Frustum`, catch_matchers.h:177-188. -/
def frustum (conv : R → D) (matchee target : Frustum R) (margin : D) : Bool :=
  vec3 conv (matchee.corners 0) (target.corners 0) margin &&
    vec3 conv (matchee.corners 1) (target.corners 1) margin &&
    vec3 conv (matchee.corners 2) (target.corners 2) margin &&
    vec3 conv (matchee.corners 3) (target.corners 3) margin &&
    vec3 conv (matchee.corners 4) (target.corners 4) margin &&
    vec3 conv (matchee.corners 5) (target.corners 5) margin &&
    vec3 conv (matchee.corners 6) (target.corners 6) margin &&
    vec3 conv (matchee.corners 7) (target.corners 7) margin

/-- The matcher `WithinAbs(target, margin)` applied to `matchee`, for all the classes (e.g.
catch_matchers_vec3.h:24-35 and 46-50): the constructor throws (`none`) unless the margin is at least
zero, then `match` is `marginCheck`. -/
def withinAbs [Zero D] {T : Type} (check : T → T → D → Bool) (target : T) (margin : D) (matchee : T) :
    Option Bool :=
  if margin ≥ 0 then some (check matchee target margin) else none

end Matches
end MathLib
