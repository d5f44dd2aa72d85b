import Verif.Model.Layout
import Mathlib.Data.Rat.Defs

/-! # The `data()` sections of the unit tests, replayed on the layout model

Written by hand; `float` is four bytes, aligned to four. -/

namespace MathLib.Conformance

private def float : Abi := ⟨4, 4, 4, 4⟩
private def entries (im : Img ℚ) (p n : Nat) : List (Option ℚ) :=
  (List.range n).map fun i => (im.read (p + i * float.size)).toOption
private def shows {C : Type} (img : Abi → C → Img ℚ) (data : Abi → C → Nat) (c : C) (l : List ℚ) : Bool :=
  entries (img float c) (data float c) l.length == l.map some

-- test_vec2.cpp:572-581, test_vec3.cpp:617-627, test_vec4.cpp:200-211, test_quat.cpp:126-137
#guard shows Vec2.img Vec2.data Vec2.oneX [1, 0]
#guard shows Vec3.img Vec3.data Vec3.oneX [1, 0, 0]
#guard shows Vec4.img Vec4.data Vec4.oneX [1, 0, 0, 1]
#guard shows Quat.img Quat.data Quat.identity [0, 0, 0, 1]
-- test_mat2.cpp:536-547, test_mat3.cpp:1048-1064, test_mat4.cpp:1363-1386, test_mat34.cpp:914-934
#guard shows Mat2.img Mat2.data Mat2.one [1, 0, 0, 1]
#guard shows Mat3.img Mat3.data Mat3.one [1, 0, 0, 0, 1, 0, 0, 0, 1]
#guard shows Mat4.img Mat4.data Mat4.one [1, 0, 0, 0, 0, 1, 0, 0, 0, 0, 1, 0, 0, 0, 0, 1]
#guard shows Mat34.img Mat34.data ⟨Mat3.one, ⟨1, 2, 3⟩⟩ [1, 0, 0, 0, 1, 0, 0, 0, 1, 1, 2, 3]
-- test_plane.cpp:415-426, test_circle.cpp:467-477, test_sphere.cpp:499-510
#guard shows Plane.img Plane.data Plane.XY [0, 0, 1, 0]
#guard shows Circle.img Circle.data ⟨⟨0, 0⟩, 1⟩ [0, 0, 1]
#guard shows Sphere.img Sphere.data ⟨⟨0, 0, 0⟩, 1⟩ [0, 0, 0, 1]
-- test_colorrgb.cpp:235-245, test_colorrgba.cpp:235-245, test_colorhsv.cpp:172-182
#guard shows ColorRGB.img ColorRGB.data ColorRGB.Red [1, 0, 0]
#guard shows ColorRGBA.img ColorRGBA.data ColorRGBA.Red [1, 0, 0]
#guard shows ColorHSV.img ColorHSV.data ColorHSV.Red [0, 1, 1]

end MathLib.Conformance
