import Verif.Model.Mat34
import Verif.Model.Mat4
import Verif.Model.Geom
import Verif.Model.Color
import Verif.Model.Quat

/-! # Model of object layout and of `data()`

`data()` hands out a pointer to the first scalar of an object; callers index it as an array.  What they
find there depends on the layout.  Members are laid out as the C++ ABIs in use do it: in the order of
declaration, each at the next multiple of its alignment, the whole padded to a multiple of the largest
alignment.  An object is an image: a list of cells with their offsets.  Access specifiers do not reorder
members (true of every compiler, required since C++23); that `data()[i]` may step from one member into
the next is taken as compilers take it, as address arithmetic. -/

namespace MathLib

/-- size and alignment of `Real` (vec3.h:9) and of `unsigned int`, the type of the flags (mat3.h:123) -/
structure Abi where
  size : Nat
  align : Nat
  wsize : Nat
  walign : Nat

/-- what lies at one offset: a scalar (vec3.h:96) or the flags of a matrix (mat3.h:123) -/
inductive Cell (R : Type) where
  | real (r : R)
  | word (f : Flags)
  deriving DecidableEq

/-- an object in memory: its size, its alignment and its cells with their offsets (e.g. vec3.h:7-96) -/
structure Img (R : Type) where
  size : Nat
  align : Nat
  cells : List (Nat × Cell R)

/-- the next multiple of `a` (member placement, e.g. mat34.h:103-104) -/
def alignUp (n a : Nat) : Nat := (n + (a - 1)) / a * a

namespace Img
variable {R : Type}

/-- a member of type `Real`, e.g. vec3.h:96 -/
def real (abi : Abi) (r : R) : Img R := ⟨abi.size, abi.align, [(0, .real r)]⟩
/-- the member `flags`, e.g. mat3.h:123 -/
def word (abi : Abi) (f : Flags) : Img R := ⟨abi.wsize, abi.walign, [(0, .word f)]⟩
/-- one more member after those placed so far, e.g. mat34.h:104 -/
def place (b m : Img R) : Img R :=
  ⟨alignUp b.size m.align + m.size, max b.align m.align,
    b.cells ++ m.cells.map fun c => (alignUp b.size m.align + c.1, c.2)⟩
/-- the members placed one after another, before the padding at the end, e.g. mat34.h:103-104 -/
def members (ms : List (Img R)) : Img R := ms.foldl place ⟨0, 1, []⟩
/-- a class with these members, e.g. mat34.h:103-104 -/
def ofMembers (ms : List (Img R)) : Img R :=
  { members ms with size := alignUp (members ms).size (members ms).align }
/-- the offset of the member `m` declared after the members `before`, e.g. mat34.h:104 -/
def offset (before : List (Img R)) (m : Img R) : Nat := alignUp (members before).size m.align
/-- `p[0]` read through a `const Real*` that points to the offset `p` (e.g. test_mat34.cpp:921);
an address with no scalar is a fault. -/
def read (im : Img R) (p : Nat) : Res R :=
  match im.cells.lookup p with
  | some (.real r) => .ok r
  | _ => .error .outOfRange
/-- `p[0] = v` through a `Real*` that points to the offset `p` (e.g. impl/mat34.h:541-544) -/
def write (im : Img R) (p : Nat) (v : R) : Res (Img R) :=
  match im.cells.lookup p with
  | some (.real _) => .ok { im with cells := im.cells.map fun c => if c.1 = p then (c.1, .real v) else c }
  | _ => .error .outOfRange
end Img

variable {R : Type}

/-! ## Layout of the classes -/

/-- vec2.h:100 -/
def Vec2.img (abi : Abi) (v : Vec2 R) : Img R := .ofMembers [.real abi v.x, .real abi v.y]
/-- vec3.h:96 -/
def Vec3.img (abi : Abi) (v : Vec3 R) : Img R :=
  .ofMembers [.real abi v.x, .real abi v.y, .real abi v.z]
/-- vec4.h:73 -/
def Vec4.img (abi : Abi) (v : Vec4 R) : Img R :=
  .ofMembers [.real abi v.x, .real abi v.y, .real abi v.z, .real abi v.w]
/-- quat.h:75-78 -/
def Quat.img (abi : Abi) (q : Quat R) : Img R :=
  .ofMembers [.real abi q.x, .real abi q.y, .real abi q.z, .real abi q.w]
/-- colorrgb.h:62 -/
def ColorRGB.img (abi : Abi) (c : ColorRGB R) : Img R :=
  .ofMembers [.real abi c.r, .real abi c.g, .real abi c.b]
/-- colorrgba.h:62 -/
def ColorRGBA.img (abi : Abi) (c : ColorRGBA R) : Img R :=
  .ofMembers [.real abi c.r, .real abi c.g, .real abi c.b, .real abi c.a]
/-- colorhsv.h:47 -/
def ColorHSV.img (abi : Abi) (c : ColorHSV R) : Img R :=
  .ofMembers [.real abi c.h, .real abi c.s, .real abi c.v]
/-- circle.h:63-64 -/
def Circle.img (abi : Abi) (c : Circle R) : Img R := .ofMembers [c.center.img abi, .real abi c.radius]
/-- sphere.h:63-64 -/
def Sphere.img (abi : Abi) (s : Sphere R) : Img R := .ofMembers [s.center.img abi, .real abi s.radius]
/-- plane.h:72-73 -/
def Plane.img (abi : Abi) (p : Plane R) : Img R := .ofMembers [p.normal.img abi, .real abi p.d]
/-- mat2.h:89-90 and 108: the columns, then the flags -/
def Mat2.img (abi : Abi) (m : Mat2 R) : Img R :=
  .ofMembers [m.x.img abi, m.y.img abi, .word abi m.flags]
/-- mat3.h:123-128: the flags, then the columns -/
def Mat3.img (abi : Abi) (m : Mat3 R) : Img R :=
  .ofMembers [.word abi m.flags, m.x.img abi, m.y.img abi, m.z.img abi]
/-- mat4.h:148-154: the flags, then the columns -/
def Mat4.img (abi : Abi) (m : Mat4 R) : Img R :=
  .ofMembers [.word abi m.flags, m.x.img abi, m.y.img abi, m.z.img abi, m.t.img abi]
/-- mat34.h:103-104 -/
def Mat34.img (abi : Abi) (m : Mat34 R) : Img R := .ofMembers [m.rs.img abi, m.t.img abi]

/-! ## `data()`: the offset the pointer has in the object -/

/-- `Vec2::data`, impl/vec2.h:480-489. -/
def Vec2.data (abi : Abi) (v : Vec2 R) : Nat := Img.offset [] (.real abi v.x)
/-- `Vec3::data`, impl/vec3.h:714-723. -/
def Vec3.data (abi : Abi) (v : Vec3 R) : Nat := Img.offset [] (.real abi v.x)
/-- `Vec4::data`, impl/vec4.h:276-285. -/
def Vec4.data (abi : Abi) (v : Vec4 R) : Nat := Img.offset [] (.real abi v.x)
/-- `Quat::data`, impl/quat.h:598-607. -/
def Quat.data (abi : Abi) (q : Quat R) : Nat := Img.offset [] (.real abi q.x)
/-- `ColorRGB::data`, impl/colorrgb.h:260-269. -/
def ColorRGB.data (abi : Abi) (c : ColorRGB R) : Nat := Img.offset [] (.real abi c.r)
/-- `ColorRGBA::data`, impl/colorrgba.h:211-220. -/
def ColorRGBA.data (abi : Abi) (c : ColorRGBA R) : Nat := Img.offset [] (.real abi c.r)
/-- `ColorHSV::data`, impl/colorhsv.h:171-180. -/
def ColorHSV.data (abi : Abi) (c : ColorHSV R) : Nat := Img.offset [] (.real abi c.h)
/-- `Circle::data`, impl/circle.h:340-349: `&center.x`. -/
def Circle.data (abi : Abi) (c : Circle R) : Nat :=
  Img.offset [] (c.center.img abi) + Img.offset [] (.real abi c.center.x)
/-- `Sphere::data`, impl/sphere.h:344-353: `&center.x`. -/
def Sphere.data (abi : Abi) (s : Sphere R) : Nat :=
  Img.offset [] (s.center.img abi) + Img.offset [] (.real abi s.center.x)
/-- `Plane::data`, impl/plane.h:353-362: `&normal.x`. -/
def Plane.data (abi : Abi) (p : Plane R) : Nat :=
  Img.offset [] (p.normal.img abi) + Img.offset [] (.real abi p.normal.x)
/-- `Mat2::data`, impl/mat2.h:469-478: `x.data()`. -/
def Mat2.data (abi : Abi) (m : Mat2 R) : Nat := Img.offset [] (m.x.img abi) + m.x.data abi
/-- `Mat3::data`, impl/mat3.h:1010-1019: `x.data()`. -/
def Mat3.data (abi : Abi) (m : Mat3 R) : Nat :=
  Img.offset [.word abi m.flags] (m.x.img abi) + m.x.data abi
/-- `Mat4::data`, impl/mat4.h:1123-1132: `x.data()`. -/
def Mat4.data (abi : Abi) (m : Mat4 R) : Nat :=
  Img.offset [.word abi m.flags] (m.x.img abi) + m.x.data abi
/-- `Mat34::data`, impl/mat34.h:535-544: `rs.data()`. -/
def Mat34.data (abi : Abi) (m : Mat34 R) : Nat := Img.offset [] (m.rs.img abi) + m.rs.data abi

end MathLib
