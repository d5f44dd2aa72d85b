import Verif.Conformance.Base

/-!
# Unit tests of `tests/tests/src/test_aabb3.cpp`, replayed on the model

Generated by `tools/conform.py`; the numbers are the source lines of the checks.  252 checks;
12 checks of that file are not translated (casts, random draws, `sizeof`, `data()`, and
functions outside the model).
-/

namespace MathLib.Conformance
set_option linter.all false

namespace Aabb3_0
abbrev R := Float32
def run : Res (List Nat) := do
  let mut bad : List Nat := []
  bad := ck bad 19 ((constAABB3One : AABB3 R).inf.x == (-(0.5 : R)))
  bad := ck bad 20 ((constAABB3One : AABB3 R).inf.y == (-(0.5 : R)))
  bad := ck bad 21 ((constAABB3One : AABB3 R).inf.z == (-(0.5 : R)))
  bad := ck bad 22 ((constAABB3One : AABB3 R).sup.x == (0.5 : R))
  bad := ck bad 23 ((constAABB3One : AABB3 R).sup.y == (0.5 : R))
  bad := ck bad 24 ((constAABB3One : AABB3 R).sup.z == (0.5 : R))
  return bad
end Aabb3_0
#guard passes Aabb3_0.run

namespace Aabb3_1
abbrev R := Float32
def run : Res (List Nat) := do
  let mut bad : List Nat := []
  let v1 : AABB3 R := (⟨(Vec3.zero : Vec3 R), (⟨(1 : R), (2 : R), (3 : R)⟩ : Vec3 R)⟩ : AABB3 R)
  bad := ck bad 38 (Vec3.eq v1.inf (Vec3.zero : Vec3 R))
  bad := ck bad 39 (Vec3.eq v1.sup (⟨(1 : R), (2 : R), (3 : R)⟩ : Vec3 R))
  return bad
end Aabb3_1
#guard passes Aabb3_1.run

namespace Aabb3_2
abbrev R := Float32
def run : Res (List Nat) := do
  let mut bad : List Nat := []
  let v1 : AABB3 R := (AABB3.ofPoint (⟨(1 : R), (2 : R), (3 : R)⟩ : Vec3 R))
  bad := ck bad 48 (Vec3.eq v1.inf (⟨(1 : R), (2 : R), (3 : R)⟩ : Vec3 R))
  bad := ck bad 49 (Vec3.eq v1.sup (⟨(1 : R), (2 : R), (3 : R)⟩ : Vec3 R))
  return bad
end Aabb3_2
#guard passes Aabb3_2.run

namespace Aabb3_3
abbrev R := Float32
def run : Res (List Nat) := do
  let mut bad : List Nat := []
  let v1 : AABB3 R := (⟨(Vec3.zero : Vec3 R), (⟨(1 : R), (2 : R), (3 : R)⟩ : Vec3 R)⟩ : AABB3 R)
  bad := ck bad 56 (Vec3.eq v1.inf (Vec3.zero : Vec3 R))
  bad := ck bad 57 (Vec3.eq v1.sup (⟨(1 : R), (2 : R), (3 : R)⟩ : Vec3 R))
  return bad
end Aabb3_3
#guard passes Aabb3_3.run

namespace Aabb3_4
abbrev R := Float32
def run : Res (List Nat) := do
  let mut bad : List Nat := []
  let v1 : AABB3 R := (AABB3.ofCBox (CAABB3.ofCenterSize (Vec3.zero : Vec3 R) (⟨(1 : R), (2 : R), (3 : R)⟩ : Vec3 R)))
  bad := ck bad 64 (Vec3.eq v1.inf (⟨(-(0.5 : R)), (-(1.0 : R)), (-(1.5 : R))⟩ : Vec3 R))
  bad := ck bad 65 (Vec3.eq v1.sup (⟨(0.5 : R), (1.0 : R), (1.5 : R)⟩ : Vec3 R))
  return bad
end Aabb3_4
#guard passes Aabb3_4.run

namespace Aabb3_5
abbrev R := Float32
def run : Res (List Nat) := do
  let mut bad : List Nat := []
  let v1 : AABB3 R := (AABB3.ofPoint (Vec3.zero : Vec3 R))
  let v2 : AABB3 R := (AABB3.add v1 (⟨(1 : R), (1 : R), (1 : R)⟩ : Vec3 R))
  let v3 : AABB3 R := (AABB3.add v2 (⟨(-1 : R), (-1 : R), (-1 : R)⟩ : Vec3 R))
  let v4 : AABB3 R := (AABB3.add v3 (Vec3.zero : Vec3 R))
  bad := ck bad 110 (Vec3.eq v4.inf (⟨(-1 : R), (-1 : R), (-1 : R)⟩ : Vec3 R))
  bad := ck bad 111 (Vec3.eq v4.sup (⟨(1 : R), (1 : R), (1 : R)⟩ : Vec3 R))
  return bad
end Aabb3_5
#guard passes Aabb3_5.run

namespace Aabb3_6
abbrev R := Float32
def run : Res (List Nat) := do
  let mut bad : List Nat := []
  let v1 : AABB3 R := (AABB3.ofPoint (⟨(1 : R), (2 : R), (3 : R)⟩ : Vec3 R))
  bad := ck bad 119 (Vec3.eq v1.inf (⟨(1 : R), (2 : R), (3 : R)⟩ : Vec3 R))
  bad := ck bad 120 (Vec3.eq v1.sup (⟨(1 : R), (2 : R), (3 : R)⟩ : Vec3 R))
  return bad
end Aabb3_6
#guard passes Aabb3_6.run

namespace Aabb3_7
abbrev R := Float32
def run : Res (List Nat) := do
  let mut bad : List Nat := []
  let v1 : AABB3 R := (⟨(Vec3.zero : Vec3 R), (⟨(1 : R), (2 : R), (3 : R)⟩ : Vec3 R)⟩ : AABB3 R)
  bad := ck bad 126 (Vec3.eq v1.inf (Vec3.zero : Vec3 R))
  bad := ck bad 127 (Vec3.eq v1.sup (⟨(1 : R), (2 : R), (3 : R)⟩ : Vec3 R))
  return bad
end Aabb3_7
#guard passes Aabb3_7.run

namespace Aabb3_8
abbrev R := Float32
def run : Res (List Nat) := do
  let mut bad : List Nat := []
  let v1 : AABB3 R := (AABB3.ofCBox (CAABB3.ofCenterSize (Vec3.zero : Vec3 R) (⟨(1 : R), (2 : R), (3 : R)⟩ : Vec3 R)))
  bad := ck bad 133 (Vec3.eq v1.inf (⟨(-(0.5 : R)), (-(1.0 : R)), (-(1.5 : R))⟩ : Vec3 R))
  bad := ck bad 134 (Vec3.eq v1.sup (⟨(0.5 : R), (1.0 : R), (1.5 : R)⟩ : Vec3 R))
  return bad
end Aabb3_8
#guard passes Aabb3_8.run

namespace Aabb3_9
abbrev R := Float32
def run : Res (List Nat) := do
  let mut bad : List Nat := []
  bad := ck bad 172 (AABB3.eq (AABB3.fromIntersection (constAABB3Zero : AABB3 R) (constAABB3Zero : AABB3 R)) (constAABB3Zero : AABB3 R))
  bad := ck bad 173 (AABB3.eq (AABB3.fromIntersection (constAABB3One : AABB3 R) (constAABB3One : AABB3 R)) (constAABB3One : AABB3 R))
  bad := ck bad 174 (AABB3.eq (AABB3.fromIntersection (AABB3.scaleCentered (constAABB3One : AABB3 R) (2.0 : R)) (constAABB3One : AABB3 R)) (constAABB3One : AABB3 R))
  bad := ck bad 175 (AABB3.eq (AABB3.fromIntersection (constAABB3One : AABB3 R) (AABB3.scaleCentered (constAABB3One : AABB3 R) (2.0 : R))) (constAABB3One : AABB3 R))
  bad := ck bad 177 (AABB3.eq (AABB3.fromIntersection (constAABB3One : AABB3 R) (AABB3.translate (constAABB3One : AABB3 R) (⟨(0.5 : R), (0.5 : R), (0.0 : R)⟩ : Vec3 R))) (⟨(⟨(0.0 : R), (0.0 : R), (-(0.5 : R))⟩ : Vec3 R), (⟨(0.5 : R), (0.5 : R), (0.5 : R)⟩ : Vec3 R)⟩ : AABB3 R))
  bad := ck bad 180 (AABB3.eq (AABB3.fromIntersection (constAABB3One : AABB3 R) (AABB3.translate (constAABB3One : AABB3 R) (⟨(1.0 : R), (1.0 : R), (0.0 : R)⟩ : Vec3 R))) (⟨(⟨(0.5 : R), (0.5 : R), (-(0.5 : R))⟩ : Vec3 R), (⟨(0.5 : R), (0.5 : R), (0.5 : R)⟩ : Vec3 R)⟩ : AABB3 R))
  bad := ck bad 183 (AABB3.eq (AABB3.fromIntersection (constAABB3One : AABB3 R) (AABB3.translate (constAABB3One : AABB3 R) (⟨(1.0 : R), (1.0 : R), (1.0 : R)⟩ : Vec3 R))) (⟨(⟨(0.5 : R), (0.5 : R), (0.5 : R)⟩ : Vec3 R), (⟨(0.5 : R), (0.5 : R), (0.5 : R)⟩ : Vec3 R)⟩ : AABB3 R))
  let v1 : AABB3 R := (constAABB3One : AABB3 R)
  let v2 : AABB3 R := (AABB3.scaleCentered (constAABB3One : AABB3 R) (0.1 : R))
  bad := ck bad 189 (AABB3.eq (AABB3.fromIntersection v1 (AABB3.translate v2 (⟨(0.56 : R), (0.56 : R), (0.56 : R)⟩ : Vec3 R))) (constAABB3Zero : AABB3 R))
  bad := ck bad 190 (AABB3.eq (AABB3.fromIntersection v1 (AABB3.translate v2 (⟨(0.56 : R), (-(0.56 : R)), (0.56 : R)⟩ : Vec3 R))) (constAABB3Zero : AABB3 R))
  bad := ck bad 191 (AABB3.eq (AABB3.fromIntersection v1 (AABB3.translate v2 (⟨(-(0.56 : R)), (-(0.56 : R)), (0.56 : R)⟩ : Vec3 R))) (constAABB3Zero : AABB3 R))
  bad := ck bad 192 (AABB3.eq (AABB3.fromIntersection v1 (AABB3.translate v2 (⟨(-(0.56 : R)), (0.56 : R), (0.56 : R)⟩ : Vec3 R))) (constAABB3Zero : AABB3 R))
  bad := ck bad 193 (AABB3.eq (AABB3.fromIntersection v1 (AABB3.translate v2 (⟨(0.56 : R), (0.56 : R), (-(0.56 : R))⟩ : Vec3 R))) (constAABB3Zero : AABB3 R))
  bad := ck bad 194 (AABB3.eq (AABB3.fromIntersection v1 (AABB3.translate v2 (⟨(0.56 : R), (-(0.56 : R)), (-(0.56 : R))⟩ : Vec3 R))) (constAABB3Zero : AABB3 R))
  bad := ck bad 195 (AABB3.eq (AABB3.fromIntersection v1 (AABB3.translate v2 (⟨(-(0.56 : R)), (-(0.56 : R)), (-(0.56 : R))⟩ : Vec3 R))) (constAABB3Zero : AABB3 R))
  bad := ck bad 196 (AABB3.eq (AABB3.fromIntersection v1 (AABB3.translate v2 (⟨(-(0.56 : R)), (0.56 : R), (-(0.56 : R))⟩ : Vec3 R))) (constAABB3Zero : AABB3 R))
  return bad
end Aabb3_9
#guard passes Aabb3_9.run

namespace Aabb3_10
abbrev R := Float32
def run : Res (List Nat) := do
  let mut bad : List Nat := []
  bad := ck bad 201 (AABB3.eq (AABB3.fromUnion (constAABB3Zero : AABB3 R) (constAABB3Zero : AABB3 R)) (constAABB3Zero : AABB3 R))
  bad := ck bad 202 (AABB3.eq (AABB3.fromUnion (constAABB3One : AABB3 R) (constAABB3One : AABB3 R)) (constAABB3One : AABB3 R))
  bad := ck bad 203 (AABB3.eq (AABB3.fromUnion (AABB3.scaleCentered (constAABB3One : AABB3 R) (2.0 : R)) (constAABB3One : AABB3 R)) (AABB3.scaleCentered (constAABB3One : AABB3 R) (2.0 : R)))
  bad := ck bad 204 (AABB3.eq (AABB3.fromUnion (constAABB3One : AABB3 R) (AABB3.scaleCentered (constAABB3One : AABB3 R) (2.0 : R))) (AABB3.scaleCentered (constAABB3One : AABB3 R) (2.0 : R)))
  return bad
end Aabb3_10
#guard passes Aabb3_10.run

namespace Aabb3_11
abbrev R := Float32
def run : Res (List Nat) := do
  let mut bad : List Nat := []
  let v1 : AABB3 R := (constAABB3One : AABB3 R)
  let v2 : AABB3 R := (AABB3.translate v1 (⟨(1 : R), (2 : R), (3 : R)⟩ : Vec3 R))
  bad := ck bad 213 (Vec3.eq v2.inf (⟨(0.5 : R), (1.5 : R), (2.5 : R)⟩ : Vec3 R))
  bad := ck bad 214 (Vec3.eq v2.sup (⟨(1.5 : R), (2.5 : R), (3.5 : R)⟩ : Vec3 R))
  return bad
end Aabb3_11
#guard passes Aabb3_11.run

namespace Aabb3_12
abbrev R := Float32
def run : Res (List Nat) := do
  let mut bad : List Nat := []
  let v1 : AABB3 R := (constAABB3One : AABB3 R)
  let v2 : AABB3 R := (AABB3.translateNeg v1 (⟨(1 : R), (2 : R), (3 : R)⟩ : Vec3 R))
  bad := ck bad 221 (Vec3.eq v2.inf (⟨(-(1.5 : R)), (-(2.5 : R)), (-(3.5 : R))⟩ : Vec3 R))
  bad := ck bad 222 (Vec3.eq v2.sup (⟨(-(0.5 : R)), (-(1.5 : R)), (-(2.5 : R))⟩ : Vec3 R))
  return bad
end Aabb3_12
#guard passes Aabb3_12.run

namespace Aabb3_13
abbrev R := Float32
def run : Res (List Nat) := do
  let mut bad : List Nat := []
  let v1 : AABB3 R := (constAABB3One : AABB3 R)
  let v2 : AABB3 R := (AABB3.scaleCentered v1 (2.0 : R))
  bad := ck bad 229 (Vec3.eq v2.inf (⟨(-1 : R), (-1 : R), (-1 : R)⟩ : Vec3 R))
  bad := ck bad 230 (Vec3.eq v2.sup (⟨(1 : R), (1 : R), (1 : R)⟩ : Vec3 R))
  return bad
end Aabb3_13
#guard passes Aabb3_13.run

namespace Aabb3_14
abbrev R := Float32
def run : Res (List Nat) := do
  let mut bad : List Nat := []
  let v1 : AABB3 R := (constAABB3One : AABB3 R)
  let v2 : AABB3 R := (← AABB3.unscale v1 (2.0 : R))
  bad := ck bad 237 (Vec3.eq v2.inf (⟨(-(0.25 : R)), (-(0.25 : R)), (-(0.25 : R))⟩ : Vec3 R))
  bad := ck bad 238 (Vec3.eq v2.sup (⟨(0.25 : R), (0.25 : R), (0.25 : R)⟩ : Vec3 R))
  return bad
end Aabb3_14
#guard passes Aabb3_14.run

namespace Aabb3_15
abbrev R := Float32
def run : Res (List Nat) := do
  let mut bad : List Nat := []
  let v1 : AABB3 R := (⟨(Vec3.zero : Vec3 R), (⟨(1 : R), (2 : R), (3 : R)⟩ : Vec3 R)⟩ : AABB3 R)
  bad := ck bad 246 (AABB3.eq v1 v1)
  bad := ck bad 247 (AABB3.eq v1 (⟨(Vec3.zero : Vec3 R), (⟨(1 : R), (2 : R), (3 : R)⟩ : Vec3 R)⟩ : AABB3 R))
  bad := ck bad 248 (!(AABB3.eq v1 (constAABB3One : AABB3 R)))
  return bad
end Aabb3_15
#guard passes Aabb3_15.run

namespace Aabb3_16
abbrev R := Float32
def run : Res (List Nat) := do
  let mut bad : List Nat := []
  let v1 : AABB3 R := (⟨(Vec3.zero : Vec3 R), (⟨(1 : R), (2 : R), (3 : R)⟩ : Vec3 R)⟩ : AABB3 R)
  bad := ck bad 254 (!(AABB3.ne v1 v1))
  bad := ck bad 255 (AABB3.ne v1 (⟨(Vec3.oneX : Vec3 R), (⟨(1 : R), (2 : R), (3 : R)⟩ : Vec3 R)⟩ : AABB3 R))
  bad := ck bad 256 (AABB3.ne v1 (⟨(Vec3.zero : Vec3 R), (⟨(3 : R), (2 : R), (1 : R)⟩ : Vec3 R)⟩ : AABB3 R))
  return bad
end Aabb3_16
#guard passes Aabb3_16.run

namespace Aabb3_17
abbrev R := Float32
def run : Res (List Nat) := do
  let mut bad : List Nat := []
  let v1 : AABB3 R := (constAABB3One : AABB3 R)
  bad := ck bad 266 (Near.near (1e-10 : R) (AABB3.center v1) (Vec3.zero : Vec3 R))
  return bad
end Aabb3_17
#guard passes Aabb3_17.run

namespace Aabb3_18
abbrev R := Float32
def run : Res (List Nat) := do
  let mut bad : List Nat := []
  let v1 : AABB3 R := (constAABB3One : AABB3 R)
  bad := ck bad 274 (Near.near (1e-10 : R) (AABB3.extents v1) (⟨(0.5 : R), (0.5 : R), (0.5 : R)⟩ : Vec3 R))
  return bad
end Aabb3_18
#guard passes Aabb3_18.run

namespace Aabb3_19
abbrev R := Float32
def run : Res (List Nat) := do
  let mut bad : List Nat := []
  let v1 : AABB3 R := (constAABB3One : AABB3 R)
  bad := ck bad 282 (Near.near (1e-10 : R) (AABB3.size v1) (⟨(1.0 : R), (1.0 : R), (1.0 : R)⟩ : Vec3 R))
  return bad
end Aabb3_19
#guard passes Aabb3_19.run

namespace Aabb3_20
abbrev R := Float32
def run : Res (List Nat) := do
  let mut bad : List Nat := []
  let v1 : AABB3 R := (constAABB3One : AABB3 R)
  bad := ck bad 290 (Near.near (1e-10 : R) (← AABB3.innerSphere v1) (⟨(Vec3.zero : Vec3 R), (0.5 : R)⟩ : Sphere R))
  return bad
end Aabb3_20
#guard passes Aabb3_20.run

namespace Aabb3_21
abbrev R := Float32
def run : Res (List Nat) := do
  let mut bad : List Nat := []
  let v1 : AABB3 R := (constAABB3One : AABB3 R)
  bad := ck bad 298 (Near.near (1e-6 : R) (AABB3.outerSphere v1) (⟨(Vec3.zero : Vec3 R), (0.866025 : R)⟩ : Sphere R))
  return bad
end Aabb3_21
#guard passes Aabb3_21.run

namespace Aabb3_22
abbrev R := Float32
def run : Res (List Nat) := do
  let mut bad : List Nat := []
  let v1 : AABB3 R := (constAABB3One : AABB3 R)
  bad := ck bad 306 (Near.near (1e-10 : R) (AABB3.volume v1) (1.0 : R))
  let v2 : AABB3 R := (⟨(Vec3.zero : Vec3 R), (⟨(2 : R), (2 : R), (2 : R)⟩ : Vec3 R)⟩ : AABB3 R)
  bad := ck bad 308 (Near.near (1e-10 : R) (AABB3.volume v2) (8.0 : R))
  let v3 : AABB3 R := (⟨(Vec3.zero : Vec3 R), (⟨(1 : R), (2 : R), (3 : R)⟩ : Vec3 R)⟩ : AABB3 R)
  bad := ck bad 310 (Near.near (1e-10 : R) (AABB3.volume v3) (6.0 : R))
  return bad
end Aabb3_22
#guard passes Aabb3_22.run

namespace Aabb3_23
abbrev R := Float32
def run : Res (List Nat) := do
  let mut bad : List Nat := []
  let v1 : AABB3 R := (constAABB3One : AABB3 R)
  bad := ck bad 318 (!(AABB3.isNull v1))
  let v2 : AABB3 R := (⟨(Vec3.zero : Vec3 R), (Vec3.zero : Vec3 R)⟩ : AABB3 R)
  bad := ck bad 320 (AABB3.isNull v2)
  return bad
end Aabb3_23
#guard passes Aabb3_23.run

namespace Aabb3_24
abbrev R := Float32
def run : Res (List Nat) := do
  let mut bad : List Nat := []
  let v1 : AABB3 R := (constAABB3One : AABB3 R)
  bad := ck bad 329 (Near.near (1e-10 : R) (AABB3.pointAt v1 (⟨(0.5 : R), (0.5 : R), (0.5 : R)⟩ : Vec3 R)) (Vec3.zero : Vec3 R))
  bad := ck bad 331 (Near.near (1e-10 : R) (AABB3.pointAt v1 (⟨(1 : R), (1 : R), (1 : R)⟩ : Vec3 R)) (⟨(0.5 : R), (0.5 : R), (0.5 : R)⟩ : Vec3 R))
  bad := ck bad 332 (Near.near (1e-10 : R) (AABB3.pointAt v1 (⟨(1 : R), (0 : R), (1 : R)⟩ : Vec3 R)) (⟨(0.5 : R), (-(0.5 : R)), (0.5 : R)⟩ : Vec3 R))
  bad := ck bad 333 (Near.near (1e-10 : R) (AABB3.pointAt v1 (⟨(0 : R), (0 : R), (1 : R)⟩ : Vec3 R)) (⟨(-(0.5 : R)), (-(0.5 : R)), (0.5 : R)⟩ : Vec3 R))
  bad := ck bad 334 (Near.near (1e-10 : R) (AABB3.pointAt v1 (⟨(0 : R), (1 : R), (1 : R)⟩ : Vec3 R)) (⟨(-(0.5 : R)), (0.5 : R), (0.5 : R)⟩ : Vec3 R))
  bad := ck bad 335 (Near.near (1e-10 : R) (AABB3.pointAt v1 (⟨(1 : R), (1 : R), (0 : R)⟩ : Vec3 R)) (⟨(0.5 : R), (0.5 : R), (-(0.5 : R))⟩ : Vec3 R))
  bad := ck bad 336 (Near.near (1e-10 : R) (AABB3.pointAt v1 (⟨(1 : R), (0 : R), (0 : R)⟩ : Vec3 R)) (⟨(0.5 : R), (-(0.5 : R)), (-(0.5 : R))⟩ : Vec3 R))
  bad := ck bad 337 (Near.near (1e-10 : R) (AABB3.pointAt v1 (⟨(0 : R), (0 : R), (0 : R)⟩ : Vec3 R)) (⟨(-(0.5 : R)), (-(0.5 : R)), (-(0.5 : R))⟩ : Vec3 R))
  bad := ck bad 338 (Near.near (1e-10 : R) (AABB3.pointAt v1 (⟨(0 : R), (1 : R), (0 : R)⟩ : Vec3 R)) (⟨(-(0.5 : R)), (0.5 : R), (-(0.5 : R))⟩ : Vec3 R))
  return bad
end Aabb3_24
#guard passes Aabb3_24.run

namespace Aabb3_25
abbrev R := Float32
def run : Res (List Nat) := do
  let mut bad : List Nat := []
  let v1 : AABB3 R := (constAABB3One : AABB3 R)
  bad := ck bad 345 (AABB3.contains v1 (Vec3.zero : Vec3 R))
  bad := ck bad 347 (AABB3.contains v1 (⟨(0.5 : R), (0.5 : R), (0.5 : R)⟩ : Vec3 R))
  bad := ck bad 348 (AABB3.contains v1 (⟨(0.5 : R), (-(0.5 : R)), (0.5 : R)⟩ : Vec3 R))
  bad := ck bad 349 (AABB3.contains v1 (⟨(-(0.5 : R)), (-(0.5 : R)), (0.5 : R)⟩ : Vec3 R))
  bad := ck bad 350 (AABB3.contains v1 (⟨(-(0.5 : R)), (0.5 : R), (0.5 : R)⟩ : Vec3 R))
  bad := ck bad 351 (AABB3.contains v1 (⟨(0.5 : R), (0.5 : R), (-(0.5 : R))⟩ : Vec3 R))
  bad := ck bad 352 (AABB3.contains v1 (⟨(0.5 : R), (-(0.5 : R)), (-(0.5 : R))⟩ : Vec3 R))
  bad := ck bad 353 (AABB3.contains v1 (⟨(-(0.5 : R)), (-(0.5 : R)), (-(0.5 : R))⟩ : Vec3 R))
  bad := ck bad 354 (AABB3.contains v1 (⟨(-(0.5 : R)), (0.5 : R), (-(0.5 : R))⟩ : Vec3 R))
  bad := ck bad 356 (!(AABB3.contains v1 (⟨(0.51 : R), (0.51 : R), (0.51 : R)⟩ : Vec3 R)))
  bad := ck bad 357 (!(AABB3.contains v1 (⟨(0.51 : R), (-(0.51 : R)), (0.51 : R)⟩ : Vec3 R)))
  bad := ck bad 358 (!(AABB3.contains v1 (⟨(-(0.51 : R)), (-(0.51 : R)), (0.51 : R)⟩ : Vec3 R)))
  bad := ck bad 359 (!(AABB3.contains v1 (⟨(-(0.51 : R)), (0.51 : R), (0.51 : R)⟩ : Vec3 R)))
  bad := ck bad 360 (!(AABB3.contains v1 (⟨(0.51 : R), (0.51 : R), (-(0.51 : R))⟩ : Vec3 R)))
  bad := ck bad 361 (!(AABB3.contains v1 (⟨(0.51 : R), (-(0.51 : R)), (-(0.51 : R))⟩ : Vec3 R)))
  bad := ck bad 362 (!(AABB3.contains v1 (⟨(-(0.51 : R)), (-(0.51 : R)), (-(0.51 : R))⟩ : Vec3 R)))
  bad := ck bad 363 (!(AABB3.contains v1 (⟨(-(0.51 : R)), (0.51 : R), (-(0.51 : R))⟩ : Vec3 R)))
  return bad
end Aabb3_25
#guard passes Aabb3_25.run

namespace Aabb3_26
abbrev R := Float32
def run : Res (List Nat) := do
  let mut bad : List Nat := []
  let v1 : AABB3 R := (constAABB3One : AABB3 R)
  let v2 : Sphere R := (← Sphere.mul (constSphereOne : Sphere R) (0.1 : R))
  bad := ck bad 371 (AABB3.containsSphere v1 v2)
  bad := ck bad 373 (AABB3.containsSphere v1 (← Sphere.add v2 (⟨(0.4 : R), (0.4 : R), (0.4 : R)⟩ : Vec3 R)))
  bad := ck bad 374 (AABB3.containsSphere v1 (← Sphere.add v2 (⟨(0.4 : R), (-(0.4 : R)), (0.4 : R)⟩ : Vec3 R)))
  bad := ck bad 375 (AABB3.containsSphere v1 (← Sphere.add v2 (⟨(-(0.4 : R)), (-(0.4 : R)), (0.4 : R)⟩ : Vec3 R)))
  bad := ck bad 376 (AABB3.containsSphere v1 (← Sphere.add v2 (⟨(-(0.4 : R)), (0.4 : R), (0.4 : R)⟩ : Vec3 R)))
  bad := ck bad 377 (AABB3.containsSphere v1 (← Sphere.add v2 (⟨(0.4 : R), (0.4 : R), (-(0.4 : R))⟩ : Vec3 R)))
  bad := ck bad 378 (AABB3.containsSphere v1 (← Sphere.add v2 (⟨(0.4 : R), (-(0.4 : R)), (-(0.4 : R))⟩ : Vec3 R)))
  bad := ck bad 379 (AABB3.containsSphere v1 (← Sphere.add v2 (⟨(-(0.4 : R)), (-(0.4 : R)), (-(0.4 : R))⟩ : Vec3 R)))
  bad := ck bad 380 (AABB3.containsSphere v1 (← Sphere.add v2 (⟨(-(0.4 : R)), (0.4 : R), (-(0.4 : R))⟩ : Vec3 R)))
  bad := ck bad 382 (!(AABB3.containsSphere v1 (← Sphere.add v2 (⟨(0.41 : R), (0.41 : R), (0.41 : R)⟩ : Vec3 R))))
  bad := ck bad 383 (!(AABB3.containsSphere v1 (← Sphere.add v2 (⟨(0.41 : R), (-(0.41 : R)), (0.41 : R)⟩ : Vec3 R))))
  bad := ck bad 384 (!(AABB3.containsSphere v1 (← Sphere.add v2 (⟨(-(0.41 : R)), (-(0.41 : R)), (0.41 : R)⟩ : Vec3 R))))
  bad := ck bad 385 (!(AABB3.containsSphere v1 (← Sphere.add v2 (⟨(-(0.41 : R)), (0.41 : R), (0.41 : R)⟩ : Vec3 R))))
  bad := ck bad 386 (!(AABB3.containsSphere v1 (← Sphere.add v2 (⟨(0.41 : R), (0.41 : R), (-(0.41 : R))⟩ : Vec3 R))))
  bad := ck bad 387 (!(AABB3.containsSphere v1 (← Sphere.add v2 (⟨(0.41 : R), (-(0.41 : R)), (-(0.41 : R))⟩ : Vec3 R))))
  bad := ck bad 388 (!(AABB3.containsSphere v1 (← Sphere.add v2 (⟨(-(0.41 : R)), (-(0.41 : R)), (-(0.41 : R))⟩ : Vec3 R))))
  bad := ck bad 389 (!(AABB3.containsSphere v1 (← Sphere.add v2 (⟨(-(0.41 : R)), (0.41 : R), (-(0.41 : R))⟩ : Vec3 R))))
  return bad
end Aabb3_26
#guard passes Aabb3_26.run

namespace Aabb3_27
abbrev R := Float32
def run : Res (List Nat) := do
  let mut bad : List Nat := []
  let v1 : AABB3 R := (constAABB3One : AABB3 R)
  let v2 : AABB3 R := (AABB3.scaleCentered (constAABB3One : AABB3 R) (0.1 : R))
  bad := ck bad 397 (AABB3.containsBox v1 v2)
  bad := ck bad 399 (AABB3.containsBox v1 (AABB3.translate v2 (⟨(0.45 : R), (0.45 : R), (0.45 : R)⟩ : Vec3 R)))
  bad := ck bad 400 (AABB3.containsBox v1 (AABB3.translate v2 (⟨(0.45 : R), (-(0.45 : R)), (0.45 : R)⟩ : Vec3 R)))
  bad := ck bad 401 (AABB3.containsBox v1 (AABB3.translate v2 (⟨(-(0.45 : R)), (-(0.45 : R)), (0.45 : R)⟩ : Vec3 R)))
  bad := ck bad 402 (AABB3.containsBox v1 (AABB3.translate v2 (⟨(-(0.45 : R)), (0.45 : R), (0.45 : R)⟩ : Vec3 R)))
  bad := ck bad 403 (AABB3.containsBox v1 (AABB3.translate v2 (⟨(0.45 : R), (0.45 : R), (-(0.45 : R))⟩ : Vec3 R)))
  bad := ck bad 404 (AABB3.containsBox v1 (AABB3.translate v2 (⟨(0.45 : R), (-(0.45 : R)), (-(0.45 : R))⟩ : Vec3 R)))
  bad := ck bad 405 (AABB3.containsBox v1 (AABB3.translate v2 (⟨(-(0.45 : R)), (-(0.45 : R)), (-(0.45 : R))⟩ : Vec3 R)))
  bad := ck bad 406 (AABB3.containsBox v1 (AABB3.translate v2 (⟨(-(0.45 : R)), (0.45 : R), (-(0.45 : R))⟩ : Vec3 R)))
  bad := ck bad 408 (!(AABB3.containsBox v1 (AABB3.translate v2 (⟨(0.46 : R), (0.46 : R), (0.46 : R)⟩ : Vec3 R))))
  bad := ck bad 409 (!(AABB3.containsBox v1 (AABB3.translate v2 (⟨(0.46 : R), (-(0.46 : R)), (0.46 : R)⟩ : Vec3 R))))
  bad := ck bad 410 (!(AABB3.containsBox v1 (AABB3.translate v2 (⟨(-(0.46 : R)), (-(0.46 : R)), (0.46 : R)⟩ : Vec3 R))))
  bad := ck bad 411 (!(AABB3.containsBox v1 (AABB3.translate v2 (⟨(-(0.46 : R)), (0.46 : R), (0.46 : R)⟩ : Vec3 R))))
  bad := ck bad 412 (!(AABB3.containsBox v1 (AABB3.translate v2 (⟨(0.46 : R), (0.46 : R), (-(0.46 : R))⟩ : Vec3 R))))
  bad := ck bad 413 (!(AABB3.containsBox v1 (AABB3.translate v2 (⟨(0.46 : R), (-(0.46 : R)), (-(0.46 : R))⟩ : Vec3 R))))
  bad := ck bad 414 (!(AABB3.containsBox v1 (AABB3.translate v2 (⟨(-(0.46 : R)), (-(0.46 : R)), (-(0.46 : R))⟩ : Vec3 R))))
  bad := ck bad 415 (!(AABB3.containsBox v1 (AABB3.translate v2 (⟨(-(0.46 : R)), (0.46 : R), (-(0.46 : R))⟩ : Vec3 R))))
  return bad
end Aabb3_27
#guard passes Aabb3_27.run

namespace Aabb3_28
abbrev R := Float32
def run : Res (List Nat) := do
  let mut bad : List Nat := []
  let v1 : R := (1.0 : R)
  let v2 : R := (1.0 : R)
  let v3 : R := (v1 * (5.0 : R))
  let v4 : Coord := (next3D Coord.X)
  let v5 : Coord := (next3D v4)
  let v6 : AABB3 R := (⟨(⟨(-v1), (-v1), (-v1)⟩ : Vec3 R), (⟨v1, v1, v1⟩ : Vec3 R)⟩ : AABB3 R)
  let v7 : R := (v3 - v1)
  let v8 : Vec3 R := (Vec3.moved (Vec3.zero : Vec3 R) Coord.X (if (decide (v2 > (0.0 : R))) then (-v3) else v3))
  let v9 : Vec3 R := (Vec3.moved (Vec3.zero : Vec3 R) Coord.X v2)
  let o10 := (AABB3.hitsRay v6 (Ray3.from v8 v9))
  bad := ck bad 440 (decide (o10.isSome = true))
  bad := ck bad 441 ((o10.getD (0)) == v7)
  return bad
end Aabb3_28
#guard passes Aabb3_28.run

namespace Aabb3_29
abbrev R := Float32
def run : Res (List Nat) := do
  let mut bad : List Nat := []
  let v1 : R := (1.0 : R)
  let v2 : R := (-(1.0 : R))
  let v3 : R := (v1 * (5.0 : R))
  let v4 : Coord := (next3D Coord.Y)
  let v5 : Coord := (next3D v4)
  let v6 : AABB3 R := (⟨(⟨(-v1), (-v1), (-v1)⟩ : Vec3 R), (⟨v1, v1, v1⟩ : Vec3 R)⟩ : AABB3 R)
  let v7 : R := (v3 - v1)
  let v8 : Vec3 R := (Vec3.moved (Vec3.zero : Vec3 R) Coord.Y (if (decide (v2 > (0.0 : R))) then (-v3) else v3))
  let v9 : Vec3 R := (Vec3.moved (Vec3.zero : Vec3 R) Coord.Y v2)
  let o10 := (AABB3.hitsRay v6 (Ray3.from v8 v9))
  bad := ck bad 440 (decide (o10.isSome = true))
  bad := ck bad 441 ((o10.getD (0)) == v7)
  return bad
end Aabb3_29
#guard passes Aabb3_29.run

namespace Aabb3_30
abbrev R := Float32
def run : Res (List Nat) := do
  let mut bad : List Nat := []
  let v1 : R := (0.001 : R)
  let v2 : R := (1.0 : R)
  let v3 : R := (v1 * (5.0 : R))
  let v4 : Coord := (next3D Coord.X)
  let v5 : Coord := (next3D v4)
  let v6 : AABB3 R := (⟨(⟨(-v1), (-v1), (-v1)⟩ : Vec3 R), (⟨v1, v1, v1⟩ : Vec3 R)⟩ : AABB3 R)
  let v7 : R := (v3 - v1)
  let v8 : Vec3 R := (Vec3.moved (Vec3.zero : Vec3 R) Coord.X (if (decide (v2 > (0.0 : R))) then (-v3) else v3))
  let v9 : Vec3 R := (Vec3.moved (Vec3.zero : Vec3 R) Coord.X v2)
  let o10 := (AABB3.hitsRay v6 (Ray3.from v8 v9))
  bad := ck bad 440 (decide (o10.isSome = true))
  bad := ck bad 441 ((o10.getD (0)) == v7)
  return bad
end Aabb3_30
#guard passes Aabb3_30.run

namespace Aabb3_31
abbrev R := Float32
def run : Res (List Nat) := do
  let mut bad : List Nat := []
  let v1 : R := (0.001 : R)
  let v2 : R := (-(1.0 : R))
  let v3 : R := (v1 * (5.0 : R))
  let v4 : Coord := (next3D Coord.Y)
  let v5 : Coord := (next3D v4)
  let v6 : AABB3 R := (⟨(⟨(-v1), (-v1), (-v1)⟩ : Vec3 R), (⟨v1, v1, v1⟩ : Vec3 R)⟩ : AABB3 R)
  let v7 : R := (v3 - v1)
  let v8 : Vec3 R := (Vec3.moved (Vec3.zero : Vec3 R) Coord.Y (if (decide (v2 > (0.0 : R))) then (-v3) else v3))
  let v9 : Vec3 R := (Vec3.moved (Vec3.zero : Vec3 R) Coord.Y v2)
  let o10 := (AABB3.hitsRay v6 (Ray3.from v8 v9))
  bad := ck bad 440 (decide (o10.isSome = true))
  bad := ck bad 441 ((o10.getD (0)) == v7)
  return bad
end Aabb3_31
#guard passes Aabb3_31.run

namespace Aabb3_32
abbrev R := Float32
def run : Res (List Nat) := do
  let mut bad : List Nat := []
  let v1 : R := (1000.0 : R)
  let v2 : R := (1.0 : R)
  let v3 : R := (v1 * (5.0 : R))
  let v4 : Coord := (next3D Coord.X)
  let v5 : Coord := (next3D v4)
  let v6 : AABB3 R := (⟨(⟨(-v1), (-v1), (-v1)⟩ : Vec3 R), (⟨v1, v1, v1⟩ : Vec3 R)⟩ : AABB3 R)
  let v7 : R := (v3 - v1)
  let v8 : Vec3 R := (Vec3.moved (Vec3.zero : Vec3 R) Coord.X (if (decide (v2 > (0.0 : R))) then (-v3) else v3))
  let v9 : Vec3 R := (Vec3.moved (Vec3.zero : Vec3 R) Coord.X v2)
  let o10 := (AABB3.hitsRay v6 (Ray3.from v8 v9))
  bad := ck bad 440 (decide (o10.isSome = true))
  bad := ck bad 441 ((o10.getD (0)) == v7)
  return bad
end Aabb3_32
#guard passes Aabb3_32.run

namespace Aabb3_33
abbrev R := Float32
def run : Res (List Nat) := do
  let mut bad : List Nat := []
  let v1 : R := (1000.0 : R)
  let v2 : R := (-(1.0 : R))
  let v3 : R := (v1 * (5.0 : R))
  let v4 : Coord := (next3D Coord.Y)
  let v5 : Coord := (next3D v4)
  let v6 : AABB3 R := (⟨(⟨(-v1), (-v1), (-v1)⟩ : Vec3 R), (⟨v1, v1, v1⟩ : Vec3 R)⟩ : AABB3 R)
  let v7 : R := (v3 - v1)
  let v8 : Vec3 R := (Vec3.moved (Vec3.zero : Vec3 R) Coord.Y (if (decide (v2 > (0.0 : R))) then (-v3) else v3))
  let v9 : Vec3 R := (Vec3.moved (Vec3.zero : Vec3 R) Coord.Y v2)
  let o10 := (AABB3.hitsRay v6 (Ray3.from v8 v9))
  bad := ck bad 440 (decide (o10.isSome = true))
  bad := ck bad 441 ((o10.getD (0)) == v7)
  return bad
end Aabb3_33
#guard passes Aabb3_33.run

namespace Aabb3_34
abbrev R := Float32
def run : Res (List Nat) := do
  let mut bad : List Nat := []
  let v1 : R := (1.0 : R)
  let v2 : R := (1.0 : R)
  let v3 : R := (v1 * (5.0 : R))
  let v4 : Coord := (next3D Coord.X)
  let v5 : Coord := (next3D v4)
  let v6 : AABB3 R := (⟨(⟨(-v1), (-v1), (-v1)⟩ : Vec3 R), (⟨v1, v1, v1⟩ : Vec3 R)⟩ : AABB3 R)
  let v7 : R := (v3 - v1)
  let v8 : Vec3 R := (Vec3.moved (Vec3.zero : Vec3 R) Coord.X (if (decide (v2 > (0.0 : R))) then (-v3) else v3))
  let v9 : Vec3 R := (Vec3.moved (Vec3.zero : Vec3 R) Coord.X v2)
  let o10 := (AABB3.hitsRay v6 (Ray3.from (Vec3.moved v8 v4 v3) v9))
  bad := ck bad 445 (decide (o10.isSome = false))
  let o11 := (AABB3.hitsRay v6 (Ray3.from (Vec3.moved v8 v4 (-v3)) v9))
  bad := ck bad 446 (decide (o11.isSome = false))
  return bad
end Aabb3_34
#guard passes Aabb3_34.run

namespace Aabb3_35
abbrev R := Float32
def run : Res (List Nat) := do
  let mut bad : List Nat := []
  let v1 : R := (1.0 : R)
  let v2 : R := (-(1.0 : R))
  let v3 : R := (v1 * (5.0 : R))
  let v4 : Coord := (next3D Coord.Y)
  let v5 : Coord := (next3D v4)
  let v6 : AABB3 R := (⟨(⟨(-v1), (-v1), (-v1)⟩ : Vec3 R), (⟨v1, v1, v1⟩ : Vec3 R)⟩ : AABB3 R)
  let v7 : R := (v3 - v1)
  let v8 : Vec3 R := (Vec3.moved (Vec3.zero : Vec3 R) Coord.Y (if (decide (v2 > (0.0 : R))) then (-v3) else v3))
  let v9 : Vec3 R := (Vec3.moved (Vec3.zero : Vec3 R) Coord.Y v2)
  let o10 := (AABB3.hitsRay v6 (Ray3.from (Vec3.moved v8 v4 v3) v9))
  bad := ck bad 445 (decide (o10.isSome = false))
  let o11 := (AABB3.hitsRay v6 (Ray3.from (Vec3.moved v8 v4 (-v3)) v9))
  bad := ck bad 446 (decide (o11.isSome = false))
  return bad
end Aabb3_35
#guard passes Aabb3_35.run

namespace Aabb3_36
abbrev R := Float32
def run : Res (List Nat) := do
  let mut bad : List Nat := []
  let v1 : R := (0.001 : R)
  let v2 : R := (1.0 : R)
  let v3 : R := (v1 * (5.0 : R))
  let v4 : Coord := (next3D Coord.X)
  let v5 : Coord := (next3D v4)
  let v6 : AABB3 R := (⟨(⟨(-v1), (-v1), (-v1)⟩ : Vec3 R), (⟨v1, v1, v1⟩ : Vec3 R)⟩ : AABB3 R)
  let v7 : R := (v3 - v1)
  let v8 : Vec3 R := (Vec3.moved (Vec3.zero : Vec3 R) Coord.X (if (decide (v2 > (0.0 : R))) then (-v3) else v3))
  let v9 : Vec3 R := (Vec3.moved (Vec3.zero : Vec3 R) Coord.X v2)
  let o10 := (AABB3.hitsRay v6 (Ray3.from (Vec3.moved v8 v4 v3) v9))
  bad := ck bad 445 (decide (o10.isSome = false))
  let o11 := (AABB3.hitsRay v6 (Ray3.from (Vec3.moved v8 v4 (-v3)) v9))
  bad := ck bad 446 (decide (o11.isSome = false))
  return bad
end Aabb3_36
#guard passes Aabb3_36.run

namespace Aabb3_37
abbrev R := Float32
def run : Res (List Nat) := do
  let mut bad : List Nat := []
  let v1 : R := (0.001 : R)
  let v2 : R := (-(1.0 : R))
  let v3 : R := (v1 * (5.0 : R))
  let v4 : Coord := (next3D Coord.Y)
  let v5 : Coord := (next3D v4)
  let v6 : AABB3 R := (⟨(⟨(-v1), (-v1), (-v1)⟩ : Vec3 R), (⟨v1, v1, v1⟩ : Vec3 R)⟩ : AABB3 R)
  let v7 : R := (v3 - v1)
  let v8 : Vec3 R := (Vec3.moved (Vec3.zero : Vec3 R) Coord.Y (if (decide (v2 > (0.0 : R))) then (-v3) else v3))
  let v9 : Vec3 R := (Vec3.moved (Vec3.zero : Vec3 R) Coord.Y v2)
  let o10 := (AABB3.hitsRay v6 (Ray3.from (Vec3.moved v8 v4 v3) v9))
  bad := ck bad 445 (decide (o10.isSome = false))
  let o11 := (AABB3.hitsRay v6 (Ray3.from (Vec3.moved v8 v4 (-v3)) v9))
  bad := ck bad 446 (decide (o11.isSome = false))
  return bad
end Aabb3_37
#guard passes Aabb3_37.run

namespace Aabb3_38
abbrev R := Float32
def run : Res (List Nat) := do
  let mut bad : List Nat := []
  let v1 : R := (1000.0 : R)
  let v2 : R := (1.0 : R)
  let v3 : R := (v1 * (5.0 : R))
  let v4 : Coord := (next3D Coord.X)
  let v5 : Coord := (next3D v4)
  let v6 : AABB3 R := (⟨(⟨(-v1), (-v1), (-v1)⟩ : Vec3 R), (⟨v1, v1, v1⟩ : Vec3 R)⟩ : AABB3 R)
  let v7 : R := (v3 - v1)
  let v8 : Vec3 R := (Vec3.moved (Vec3.zero : Vec3 R) Coord.X (if (decide (v2 > (0.0 : R))) then (-v3) else v3))
  let v9 : Vec3 R := (Vec3.moved (Vec3.zero : Vec3 R) Coord.X v2)
  let o10 := (AABB3.hitsRay v6 (Ray3.from (Vec3.moved v8 v4 v3) v9))
  bad := ck bad 445 (decide (o10.isSome = false))
  let o11 := (AABB3.hitsRay v6 (Ray3.from (Vec3.moved v8 v4 (-v3)) v9))
  bad := ck bad 446 (decide (o11.isSome = false))
  return bad
end Aabb3_38
#guard passes Aabb3_38.run

namespace Aabb3_39
abbrev R := Float32
def run : Res (List Nat) := do
  let mut bad : List Nat := []
  let v1 : R := (1000.0 : R)
  let v2 : R := (-(1.0 : R))
  let v3 : R := (v1 * (5.0 : R))
  let v4 : Coord := (next3D Coord.Y)
  let v5 : Coord := (next3D v4)
  let v6 : AABB3 R := (⟨(⟨(-v1), (-v1), (-v1)⟩ : Vec3 R), (⟨v1, v1, v1⟩ : Vec3 R)⟩ : AABB3 R)
  let v7 : R := (v3 - v1)
  let v8 : Vec3 R := (Vec3.moved (Vec3.zero : Vec3 R) Coord.Y (if (decide (v2 > (0.0 : R))) then (-v3) else v3))
  let v9 : Vec3 R := (Vec3.moved (Vec3.zero : Vec3 R) Coord.Y v2)
  let o10 := (AABB3.hitsRay v6 (Ray3.from (Vec3.moved v8 v4 v3) v9))
  bad := ck bad 445 (decide (o10.isSome = false))
  let o11 := (AABB3.hitsRay v6 (Ray3.from (Vec3.moved v8 v4 (-v3)) v9))
  bad := ck bad 446 (decide (o11.isSome = false))
  return bad
end Aabb3_39
#guard passes Aabb3_39.run

namespace Aabb3_40
abbrev R := Float32
def run : Res (List Nat) := do
  let mut bad : List Nat := []
  let v1 : R := (1.0 : R)
  let v2 : R := (1.0 : R)
  let v3 : R := (v1 * (5.0 : R))
  let v4 : Coord := (next3D Coord.X)
  let v5 : Coord := (next3D v4)
  let v6 : AABB3 R := (⟨(⟨(-v1), (-v1), (-v1)⟩ : Vec3 R), (⟨v1, v1, v1⟩ : Vec3 R)⟩ : AABB3 R)
  let v7 : R := (v3 - v1)
  let v8 : Vec3 R := (Vec3.moved (Vec3.zero : Vec3 R) Coord.X (if (decide (v2 > (0.0 : R))) then (-v3) else v3))
  let v9 : Vec3 R := (Vec3.moved (Vec3.zero : Vec3 R) Coord.X v2)
  let o10 := (AABB3.hitsRay v6 (Ray3.from (Vec3.moved v8 v5 v3) v9))
  bad := ck bad 450 (decide (o10.isSome = false))
  let o11 := (AABB3.hitsRay v6 (Ray3.from (Vec3.moved v8 v5 (-v3)) v9))
  bad := ck bad 451 (decide (o11.isSome = false))
  return bad
end Aabb3_40
#guard passes Aabb3_40.run

namespace Aabb3_41
abbrev R := Float32
def run : Res (List Nat) := do
  let mut bad : List Nat := []
  let v1 : R := (1.0 : R)
  let v2 : R := (-(1.0 : R))
  let v3 : R := (v1 * (5.0 : R))
  let v4 : Coord := (next3D Coord.Y)
  let v5 : Coord := (next3D v4)
  let v6 : AABB3 R := (⟨(⟨(-v1), (-v1), (-v1)⟩ : Vec3 R), (⟨v1, v1, v1⟩ : Vec3 R)⟩ : AABB3 R)
  let v7 : R := (v3 - v1)
  let v8 : Vec3 R := (Vec3.moved (Vec3.zero : Vec3 R) Coord.Y (if (decide (v2 > (0.0 : R))) then (-v3) else v3))
  let v9 : Vec3 R := (Vec3.moved (Vec3.zero : Vec3 R) Coord.Y v2)
  let o10 := (AABB3.hitsRay v6 (Ray3.from (Vec3.moved v8 v5 v3) v9))
  bad := ck bad 450 (decide (o10.isSome = false))
  let o11 := (AABB3.hitsRay v6 (Ray3.from (Vec3.moved v8 v5 (-v3)) v9))
  bad := ck bad 451 (decide (o11.isSome = false))
  return bad
end Aabb3_41
#guard passes Aabb3_41.run

namespace Aabb3_42
abbrev R := Float32
def run : Res (List Nat) := do
  let mut bad : List Nat := []
  let v1 : R := (0.001 : R)
  let v2 : R := (1.0 : R)
  let v3 : R := (v1 * (5.0 : R))
  let v4 : Coord := (next3D Coord.X)
  let v5 : Coord := (next3D v4)
  let v6 : AABB3 R := (⟨(⟨(-v1), (-v1), (-v1)⟩ : Vec3 R), (⟨v1, v1, v1⟩ : Vec3 R)⟩ : AABB3 R)
  let v7 : R := (v3 - v1)
  let v8 : Vec3 R := (Vec3.moved (Vec3.zero : Vec3 R) Coord.X (if (decide (v2 > (0.0 : R))) then (-v3) else v3))
  let v9 : Vec3 R := (Vec3.moved (Vec3.zero : Vec3 R) Coord.X v2)
  let o10 := (AABB3.hitsRay v6 (Ray3.from (Vec3.moved v8 v5 v3) v9))
  bad := ck bad 450 (decide (o10.isSome = false))
  let o11 := (AABB3.hitsRay v6 (Ray3.from (Vec3.moved v8 v5 (-v3)) v9))
  bad := ck bad 451 (decide (o11.isSome = false))
  return bad
end Aabb3_42
#guard passes Aabb3_42.run

namespace Aabb3_43
abbrev R := Float32
def run : Res (List Nat) := do
  let mut bad : List Nat := []
  let v1 : R := (0.001 : R)
  let v2 : R := (-(1.0 : R))
  let v3 : R := (v1 * (5.0 : R))
  let v4 : Coord := (next3D Coord.Y)
  let v5 : Coord := (next3D v4)
  let v6 : AABB3 R := (⟨(⟨(-v1), (-v1), (-v1)⟩ : Vec3 R), (⟨v1, v1, v1⟩ : Vec3 R)⟩ : AABB3 R)
  let v7 : R := (v3 - v1)
  let v8 : Vec3 R := (Vec3.moved (Vec3.zero : Vec3 R) Coord.Y (if (decide (v2 > (0.0 : R))) then (-v3) else v3))
  let v9 : Vec3 R := (Vec3.moved (Vec3.zero : Vec3 R) Coord.Y v2)
  let o10 := (AABB3.hitsRay v6 (Ray3.from (Vec3.moved v8 v5 v3) v9))
  bad := ck bad 450 (decide (o10.isSome = false))
  let o11 := (AABB3.hitsRay v6 (Ray3.from (Vec3.moved v8 v5 (-v3)) v9))
  bad := ck bad 451 (decide (o11.isSome = false))
  return bad
end Aabb3_43
#guard passes Aabb3_43.run

namespace Aabb3_44
abbrev R := Float32
def run : Res (List Nat) := do
  let mut bad : List Nat := []
  let v1 : R := (1000.0 : R)
  let v2 : R := (1.0 : R)
  let v3 : R := (v1 * (5.0 : R))
  let v4 : Coord := (next3D Coord.X)
  let v5 : Coord := (next3D v4)
  let v6 : AABB3 R := (⟨(⟨(-v1), (-v1), (-v1)⟩ : Vec3 R), (⟨v1, v1, v1⟩ : Vec3 R)⟩ : AABB3 R)
  let v7 : R := (v3 - v1)
  let v8 : Vec3 R := (Vec3.moved (Vec3.zero : Vec3 R) Coord.X (if (decide (v2 > (0.0 : R))) then (-v3) else v3))
  let v9 : Vec3 R := (Vec3.moved (Vec3.zero : Vec3 R) Coord.X v2)
  let o10 := (AABB3.hitsRay v6 (Ray3.from (Vec3.moved v8 v5 v3) v9))
  bad := ck bad 450 (decide (o10.isSome = false))
  let o11 := (AABB3.hitsRay v6 (Ray3.from (Vec3.moved v8 v5 (-v3)) v9))
  bad := ck bad 451 (decide (o11.isSome = false))
  return bad
end Aabb3_44
#guard passes Aabb3_44.run

namespace Aabb3_45
abbrev R := Float32
def run : Res (List Nat) := do
  let mut bad : List Nat := []
  let v1 : R := (1000.0 : R)
  let v2 : R := (-(1.0 : R))
  let v3 : R := (v1 * (5.0 : R))
  let v4 : Coord := (next3D Coord.Y)
  let v5 : Coord := (next3D v4)
  let v6 : AABB3 R := (⟨(⟨(-v1), (-v1), (-v1)⟩ : Vec3 R), (⟨v1, v1, v1⟩ : Vec3 R)⟩ : AABB3 R)
  let v7 : R := (v3 - v1)
  let v8 : Vec3 R := (Vec3.moved (Vec3.zero : Vec3 R) Coord.Y (if (decide (v2 > (0.0 : R))) then (-v3) else v3))
  let v9 : Vec3 R := (Vec3.moved (Vec3.zero : Vec3 R) Coord.Y v2)
  let o10 := (AABB3.hitsRay v6 (Ray3.from (Vec3.moved v8 v5 v3) v9))
  bad := ck bad 450 (decide (o10.isSome = false))
  let o11 := (AABB3.hitsRay v6 (Ray3.from (Vec3.moved v8 v5 (-v3)) v9))
  bad := ck bad 451 (decide (o11.isSome = false))
  return bad
end Aabb3_45
#guard passes Aabb3_45.run

namespace Aabb3_46
abbrev R := Float32
def run : Res (List Nat) := do
  let mut bad : List Nat := []
  let v1 : R := (1.0 : R)
  let v2 : R := (1.0 : R)
  let v3 : R := (v1 * (5.0 : R))
  let v4 : Coord := (next3D Coord.X)
  let v5 : Coord := (next3D v4)
  let v6 : AABB3 R := (⟨(⟨(-v1), (-v1), (-v1)⟩ : Vec3 R), (⟨v1, v1, v1⟩ : Vec3 R)⟩ : AABB3 R)
  let v7 : Vec3 R := (Vec3.zero : Vec3 R)
  let v8 : Vec3 R := (Vec3.moved (Vec3.zero : Vec3 R) Coord.X v2)
  let o9 := (AABB3.hitsRay v6 (Ray3.from v7 v8))
  bad := ck bad 461 (decide (o9.isSome = false))
  return bad
end Aabb3_46
#guard passes Aabb3_46.run

namespace Aabb3_47
abbrev R := Float32
def run : Res (List Nat) := do
  let mut bad : List Nat := []
  let v1 : R := (1.0 : R)
  let v2 : R := (-(1.0 : R))
  let v3 : R := (v1 * (5.0 : R))
  let v4 : Coord := (next3D Coord.Y)
  let v5 : Coord := (next3D v4)
  let v6 : AABB3 R := (⟨(⟨(-v1), (-v1), (-v1)⟩ : Vec3 R), (⟨v1, v1, v1⟩ : Vec3 R)⟩ : AABB3 R)
  let v7 : Vec3 R := (Vec3.zero : Vec3 R)
  let v8 : Vec3 R := (Vec3.moved (Vec3.zero : Vec3 R) Coord.Y v2)
  let o9 := (AABB3.hitsRay v6 (Ray3.from v7 v8))
  bad := ck bad 461 (decide (o9.isSome = false))
  return bad
end Aabb3_47
#guard passes Aabb3_47.run

namespace Aabb3_48
abbrev R := Float32
def run : Res (List Nat) := do
  let mut bad : List Nat := []
  let v1 : R := (0.001 : R)
  let v2 : R := (1.0 : R)
  let v3 : R := (v1 * (5.0 : R))
  let v4 : Coord := (next3D Coord.X)
  let v5 : Coord := (next3D v4)
  let v6 : AABB3 R := (⟨(⟨(-v1), (-v1), (-v1)⟩ : Vec3 R), (⟨v1, v1, v1⟩ : Vec3 R)⟩ : AABB3 R)
  let v7 : Vec3 R := (Vec3.zero : Vec3 R)
  let v8 : Vec3 R := (Vec3.moved (Vec3.zero : Vec3 R) Coord.X v2)
  let o9 := (AABB3.hitsRay v6 (Ray3.from v7 v8))
  bad := ck bad 461 (decide (o9.isSome = false))
  return bad
end Aabb3_48
#guard passes Aabb3_48.run

namespace Aabb3_49
abbrev R := Float32
def run : Res (List Nat) := do
  let mut bad : List Nat := []
  let v1 : R := (0.001 : R)
  let v2 : R := (-(1.0 : R))
  let v3 : R := (v1 * (5.0 : R))
  let v4 : Coord := (next3D Coord.Y)
  let v5 : Coord := (next3D v4)
  let v6 : AABB3 R := (⟨(⟨(-v1), (-v1), (-v1)⟩ : Vec3 R), (⟨v1, v1, v1⟩ : Vec3 R)⟩ : AABB3 R)
  let v7 : Vec3 R := (Vec3.zero : Vec3 R)
  let v8 : Vec3 R := (Vec3.moved (Vec3.zero : Vec3 R) Coord.Y v2)
  let o9 := (AABB3.hitsRay v6 (Ray3.from v7 v8))
  bad := ck bad 461 (decide (o9.isSome = false))
  return bad
end Aabb3_49
#guard passes Aabb3_49.run

namespace Aabb3_50
abbrev R := Float32
def run : Res (List Nat) := do
  let mut bad : List Nat := []
  let v1 : R := (1000.0 : R)
  let v2 : R := (1.0 : R)
  let v3 : R := (v1 * (5.0 : R))
  let v4 : Coord := (next3D Coord.X)
  let v5 : Coord := (next3D v4)
  let v6 : AABB3 R := (⟨(⟨(-v1), (-v1), (-v1)⟩ : Vec3 R), (⟨v1, v1, v1⟩ : Vec3 R)⟩ : AABB3 R)
  let v7 : Vec3 R := (Vec3.zero : Vec3 R)
  let v8 : Vec3 R := (Vec3.moved (Vec3.zero : Vec3 R) Coord.X v2)
  let o9 := (AABB3.hitsRay v6 (Ray3.from v7 v8))
  bad := ck bad 461 (decide (o9.isSome = false))
  return bad
end Aabb3_50
#guard passes Aabb3_50.run

namespace Aabb3_51
abbrev R := Float32
def run : Res (List Nat) := do
  let mut bad : List Nat := []
  let v1 : R := (1000.0 : R)
  let v2 : R := (-(1.0 : R))
  let v3 : R := (v1 * (5.0 : R))
  let v4 : Coord := (next3D Coord.Y)
  let v5 : Coord := (next3D v4)
  let v6 : AABB3 R := (⟨(⟨(-v1), (-v1), (-v1)⟩ : Vec3 R), (⟨v1, v1, v1⟩ : Vec3 R)⟩ : AABB3 R)
  let v7 : Vec3 R := (Vec3.zero : Vec3 R)
  let v8 : Vec3 R := (Vec3.moved (Vec3.zero : Vec3 R) Coord.Y v2)
  let o9 := (AABB3.hitsRay v6 (Ray3.from v7 v8))
  bad := ck bad 461 (decide (o9.isSome = false))
  return bad
end Aabb3_51
#guard passes Aabb3_51.run

namespace Aabb3_52
abbrev R := Float32
def run : Res (List Nat) := do
  let mut bad : List Nat := []
  let v1 : R := (1.0 : R)
  let v2 : R := (1.0 : R)
  let v3 : R := (v1 * (5.0 : R))
  let v4 : Coord := (next3D Coord.X)
  let v5 : Coord := (next3D v4)
  let v6 : AABB3 R := (⟨(⟨(-v1), (-v1), (-v1)⟩ : Vec3 R), (⟨v1, v1, v1⟩ : Vec3 R)⟩ : AABB3 R)
  let v7 : Vec3 R := (Vec3.zero : Vec3 R)
  let v8 : Vec3 R := (Vec3.moved (Vec3.zero : Vec3 R) Coord.X v2)
  let o9 := (AABB3.hitsRay v6 (Ray3.from (Vec3.moved v7 v4 v3) v8))
  bad := ck bad 465 (decide (o9.isSome = false))
  let o10 := (AABB3.hitsRay v6 (Ray3.from (Vec3.moved v7 v4 (-v3)) v8))
  bad := ck bad 466 (decide (o10.isSome = false))
  return bad
end Aabb3_52
#guard passes Aabb3_52.run

namespace Aabb3_53
abbrev R := Float32
def run : Res (List Nat) := do
  let mut bad : List Nat := []
  let v1 : R := (1.0 : R)
  let v2 : R := (-(1.0 : R))
  let v3 : R := (v1 * (5.0 : R))
  let v4 : Coord := (next3D Coord.Y)
  let v5 : Coord := (next3D v4)
  let v6 : AABB3 R := (⟨(⟨(-v1), (-v1), (-v1)⟩ : Vec3 R), (⟨v1, v1, v1⟩ : Vec3 R)⟩ : AABB3 R)
  let v7 : Vec3 R := (Vec3.zero : Vec3 R)
  let v8 : Vec3 R := (Vec3.moved (Vec3.zero : Vec3 R) Coord.Y v2)
  let o9 := (AABB3.hitsRay v6 (Ray3.from (Vec3.moved v7 v4 v3) v8))
  bad := ck bad 465 (decide (o9.isSome = false))
  let o10 := (AABB3.hitsRay v6 (Ray3.from (Vec3.moved v7 v4 (-v3)) v8))
  bad := ck bad 466 (decide (o10.isSome = false))
  return bad
end Aabb3_53
#guard passes Aabb3_53.run

namespace Aabb3_54
abbrev R := Float32
def run : Res (List Nat) := do
  let mut bad : List Nat := []
  let v1 : R := (0.001 : R)
  let v2 : R := (1.0 : R)
  let v3 : R := (v1 * (5.0 : R))
  let v4 : Coord := (next3D Coord.X)
  let v5 : Coord := (next3D v4)
  let v6 : AABB3 R := (⟨(⟨(-v1), (-v1), (-v1)⟩ : Vec3 R), (⟨v1, v1, v1⟩ : Vec3 R)⟩ : AABB3 R)
  let v7 : Vec3 R := (Vec3.zero : Vec3 R)
  let v8 : Vec3 R := (Vec3.moved (Vec3.zero : Vec3 R) Coord.X v2)
  let o9 := (AABB3.hitsRay v6 (Ray3.from (Vec3.moved v7 v4 v3) v8))
  bad := ck bad 465 (decide (o9.isSome = false))
  let o10 := (AABB3.hitsRay v6 (Ray3.from (Vec3.moved v7 v4 (-v3)) v8))
  bad := ck bad 466 (decide (o10.isSome = false))
  return bad
end Aabb3_54
#guard passes Aabb3_54.run

namespace Aabb3_55
abbrev R := Float32
def run : Res (List Nat) := do
  let mut bad : List Nat := []
  let v1 : R := (0.001 : R)
  let v2 : R := (-(1.0 : R))
  let v3 : R := (v1 * (5.0 : R))
  let v4 : Coord := (next3D Coord.Y)
  let v5 : Coord := (next3D v4)
  let v6 : AABB3 R := (⟨(⟨(-v1), (-v1), (-v1)⟩ : Vec3 R), (⟨v1, v1, v1⟩ : Vec3 R)⟩ : AABB3 R)
  let v7 : Vec3 R := (Vec3.zero : Vec3 R)
  let v8 : Vec3 R := (Vec3.moved (Vec3.zero : Vec3 R) Coord.Y v2)
  let o9 := (AABB3.hitsRay v6 (Ray3.from (Vec3.moved v7 v4 v3) v8))
  bad := ck bad 465 (decide (o9.isSome = false))
  let o10 := (AABB3.hitsRay v6 (Ray3.from (Vec3.moved v7 v4 (-v3)) v8))
  bad := ck bad 466 (decide (o10.isSome = false))
  return bad
end Aabb3_55
#guard passes Aabb3_55.run

namespace Aabb3_56
abbrev R := Float32
def run : Res (List Nat) := do
  let mut bad : List Nat := []
  let v1 : R := (1000.0 : R)
  let v2 : R := (1.0 : R)
  let v3 : R := (v1 * (5.0 : R))
  let v4 : Coord := (next3D Coord.X)
  let v5 : Coord := (next3D v4)
  let v6 : AABB3 R := (⟨(⟨(-v1), (-v1), (-v1)⟩ : Vec3 R), (⟨v1, v1, v1⟩ : Vec3 R)⟩ : AABB3 R)
  let v7 : Vec3 R := (Vec3.zero : Vec3 R)
  let v8 : Vec3 R := (Vec3.moved (Vec3.zero : Vec3 R) Coord.X v2)
  let o9 := (AABB3.hitsRay v6 (Ray3.from (Vec3.moved v7 v4 v3) v8))
  bad := ck bad 465 (decide (o9.isSome = false))
  let o10 := (AABB3.hitsRay v6 (Ray3.from (Vec3.moved v7 v4 (-v3)) v8))
  bad := ck bad 466 (decide (o10.isSome = false))
  return bad
end Aabb3_56
#guard passes Aabb3_56.run

namespace Aabb3_57
abbrev R := Float32
def run : Res (List Nat) := do
  let mut bad : List Nat := []
  let v1 : R := (1000.0 : R)
  let v2 : R := (-(1.0 : R))
  let v3 : R := (v1 * (5.0 : R))
  let v4 : Coord := (next3D Coord.Y)
  let v5 : Coord := (next3D v4)
  let v6 : AABB3 R := (⟨(⟨(-v1), (-v1), (-v1)⟩ : Vec3 R), (⟨v1, v1, v1⟩ : Vec3 R)⟩ : AABB3 R)
  let v7 : Vec3 R := (Vec3.zero : Vec3 R)
  let v8 : Vec3 R := (Vec3.moved (Vec3.zero : Vec3 R) Coord.Y v2)
  let o9 := (AABB3.hitsRay v6 (Ray3.from (Vec3.moved v7 v4 v3) v8))
  bad := ck bad 465 (decide (o9.isSome = false))
  let o10 := (AABB3.hitsRay v6 (Ray3.from (Vec3.moved v7 v4 (-v3)) v8))
  bad := ck bad 466 (decide (o10.isSome = false))
  return bad
end Aabb3_57
#guard passes Aabb3_57.run

namespace Aabb3_58
abbrev R := Float32
def run : Res (List Nat) := do
  let mut bad : List Nat := []
  let v1 : R := (1.0 : R)
  let v2 : R := (1.0 : R)
  let v3 : R := (v1 * (5.0 : R))
  let v4 : Coord := (next3D Coord.X)
  let v5 : Coord := (next3D v4)
  let v6 : AABB3 R := (⟨(⟨(-v1), (-v1), (-v1)⟩ : Vec3 R), (⟨v1, v1, v1⟩ : Vec3 R)⟩ : AABB3 R)
  let v7 : Vec3 R := (Vec3.zero : Vec3 R)
  let v8 : Vec3 R := (Vec3.moved (Vec3.zero : Vec3 R) Coord.X v2)
  let o9 := (AABB3.hitsRay v6 (Ray3.from (Vec3.moved v7 v5 v3) v8))
  bad := ck bad 470 (decide (o9.isSome = false))
  let o10 := (AABB3.hitsRay v6 (Ray3.from (Vec3.moved v7 v5 (-v3)) v8))
  bad := ck bad 471 (decide (o10.isSome = false))
  return bad
end Aabb3_58
#guard passes Aabb3_58.run

namespace Aabb3_59
abbrev R := Float32
def run : Res (List Nat) := do
  let mut bad : List Nat := []
  let v1 : R := (1.0 : R)
  let v2 : R := (-(1.0 : R))
  let v3 : R := (v1 * (5.0 : R))
  let v4 : Coord := (next3D Coord.Y)
  let v5 : Coord := (next3D v4)
  let v6 : AABB3 R := (⟨(⟨(-v1), (-v1), (-v1)⟩ : Vec3 R), (⟨v1, v1, v1⟩ : Vec3 R)⟩ : AABB3 R)
  let v7 : Vec3 R := (Vec3.zero : Vec3 R)
  let v8 : Vec3 R := (Vec3.moved (Vec3.zero : Vec3 R) Coord.Y v2)
  let o9 := (AABB3.hitsRay v6 (Ray3.from (Vec3.moved v7 v5 v3) v8))
  bad := ck bad 470 (decide (o9.isSome = false))
  let o10 := (AABB3.hitsRay v6 (Ray3.from (Vec3.moved v7 v5 (-v3)) v8))
  bad := ck bad 471 (decide (o10.isSome = false))
  return bad
end Aabb3_59
#guard passes Aabb3_59.run

namespace Aabb3_60
abbrev R := Float32
def run : Res (List Nat) := do
  let mut bad : List Nat := []
  let v1 : R := (0.001 : R)
  let v2 : R := (1.0 : R)
  let v3 : R := (v1 * (5.0 : R))
  let v4 : Coord := (next3D Coord.X)
  let v5 : Coord := (next3D v4)
  let v6 : AABB3 R := (⟨(⟨(-v1), (-v1), (-v1)⟩ : Vec3 R), (⟨v1, v1, v1⟩ : Vec3 R)⟩ : AABB3 R)
  let v7 : Vec3 R := (Vec3.zero : Vec3 R)
  let v8 : Vec3 R := (Vec3.moved (Vec3.zero : Vec3 R) Coord.X v2)
  let o9 := (AABB3.hitsRay v6 (Ray3.from (Vec3.moved v7 v5 v3) v8))
  bad := ck bad 470 (decide (o9.isSome = false))
  let o10 := (AABB3.hitsRay v6 (Ray3.from (Vec3.moved v7 v5 (-v3)) v8))
  bad := ck bad 471 (decide (o10.isSome = false))
  return bad
end Aabb3_60
#guard passes Aabb3_60.run

namespace Aabb3_61
abbrev R := Float32
def run : Res (List Nat) := do
  let mut bad : List Nat := []
  let v1 : R := (0.001 : R)
  let v2 : R := (-(1.0 : R))
  let v3 : R := (v1 * (5.0 : R))
  let v4 : Coord := (next3D Coord.Y)
  let v5 : Coord := (next3D v4)
  let v6 : AABB3 R := (⟨(⟨(-v1), (-v1), (-v1)⟩ : Vec3 R), (⟨v1, v1, v1⟩ : Vec3 R)⟩ : AABB3 R)
  let v7 : Vec3 R := (Vec3.zero : Vec3 R)
  let v8 : Vec3 R := (Vec3.moved (Vec3.zero : Vec3 R) Coord.Y v2)
  let o9 := (AABB3.hitsRay v6 (Ray3.from (Vec3.moved v7 v5 v3) v8))
  bad := ck bad 470 (decide (o9.isSome = false))
  let o10 := (AABB3.hitsRay v6 (Ray3.from (Vec3.moved v7 v5 (-v3)) v8))
  bad := ck bad 471 (decide (o10.isSome = false))
  return bad
end Aabb3_61
#guard passes Aabb3_61.run

namespace Aabb3_62
abbrev R := Float32
def run : Res (List Nat) := do
  let mut bad : List Nat := []
  let v1 : R := (1000.0 : R)
  let v2 : R := (1.0 : R)
  let v3 : R := (v1 * (5.0 : R))
  let v4 : Coord := (next3D Coord.X)
  let v5 : Coord := (next3D v4)
  let v6 : AABB3 R := (⟨(⟨(-v1), (-v1), (-v1)⟩ : Vec3 R), (⟨v1, v1, v1⟩ : Vec3 R)⟩ : AABB3 R)
  let v7 : Vec3 R := (Vec3.zero : Vec3 R)
  let v8 : Vec3 R := (Vec3.moved (Vec3.zero : Vec3 R) Coord.X v2)
  let o9 := (AABB3.hitsRay v6 (Ray3.from (Vec3.moved v7 v5 v3) v8))
  bad := ck bad 470 (decide (o9.isSome = false))
  let o10 := (AABB3.hitsRay v6 (Ray3.from (Vec3.moved v7 v5 (-v3)) v8))
  bad := ck bad 471 (decide (o10.isSome = false))
  return bad
end Aabb3_62
#guard passes Aabb3_62.run

namespace Aabb3_63
abbrev R := Float32
def run : Res (List Nat) := do
  let mut bad : List Nat := []
  let v1 : R := (1000.0 : R)
  let v2 : R := (-(1.0 : R))
  let v3 : R := (v1 * (5.0 : R))
  let v4 : Coord := (next3D Coord.Y)
  let v5 : Coord := (next3D v4)
  let v6 : AABB3 R := (⟨(⟨(-v1), (-v1), (-v1)⟩ : Vec3 R), (⟨v1, v1, v1⟩ : Vec3 R)⟩ : AABB3 R)
  let v7 : Vec3 R := (Vec3.zero : Vec3 R)
  let v8 : Vec3 R := (Vec3.moved (Vec3.zero : Vec3 R) Coord.Y v2)
  let o9 := (AABB3.hitsRay v6 (Ray3.from (Vec3.moved v7 v5 v3) v8))
  bad := ck bad 470 (decide (o9.isSome = false))
  let o10 := (AABB3.hitsRay v6 (Ray3.from (Vec3.moved v7 v5 (-v3)) v8))
  bad := ck bad 471 (decide (o10.isSome = false))
  return bad
end Aabb3_63
#guard passes Aabb3_63.run

namespace Aabb3_64
abbrev R := Float32
def run : Res (List Nat) := do
  let mut bad : List Nat := []
  let v1 : R := (1.0 : R)
  let v2 : R := (1.0 : R)
  let v3 : R := (v1 * (5.0 : R))
  let v4 : Coord := (next3D Coord.X)
  let v5 : Coord := (next3D v4)
  let v6 : AABB3 R := (⟨(⟨(-v1), (-v1), (-v1)⟩ : Vec3 R), (⟨v1, v1, v1⟩ : Vec3 R)⟩ : AABB3 R)
  let v7 : Vec3 R := (Vec3.moved (Vec3.zero : Vec3 R) Coord.X (if (decide (v2 > (0.0 : R))) then v3 else (-v3)))
  let v8 : Vec3 R := (Vec3.moved (Vec3.zero : Vec3 R) Coord.X v2)
  let o9 := (AABB3.hitsRay v6 (Ray3.from v7 v8))
  bad := ck bad 481 (decide (o9.isSome = false))
  return bad
end Aabb3_64
#guard passes Aabb3_64.run

namespace Aabb3_65
abbrev R := Float32
def run : Res (List Nat) := do
  let mut bad : List Nat := []
  let v1 : R := (1.0 : R)
  let v2 : R := (-(1.0 : R))
  let v3 : R := (v1 * (5.0 : R))
  let v4 : Coord := (next3D Coord.Y)
  let v5 : Coord := (next3D v4)
  let v6 : AABB3 R := (⟨(⟨(-v1), (-v1), (-v1)⟩ : Vec3 R), (⟨v1, v1, v1⟩ : Vec3 R)⟩ : AABB3 R)
  let v7 : Vec3 R := (Vec3.moved (Vec3.zero : Vec3 R) Coord.Y (if (decide (v2 > (0.0 : R))) then v3 else (-v3)))
  let v8 : Vec3 R := (Vec3.moved (Vec3.zero : Vec3 R) Coord.Y v2)
  let o9 := (AABB3.hitsRay v6 (Ray3.from v7 v8))
  bad := ck bad 481 (decide (o9.isSome = false))
  return bad
end Aabb3_65
#guard passes Aabb3_65.run

namespace Aabb3_66
abbrev R := Float32
def run : Res (List Nat) := do
  let mut bad : List Nat := []
  let v1 : R := (0.001 : R)
  let v2 : R := (1.0 : R)
  let v3 : R := (v1 * (5.0 : R))
  let v4 : Coord := (next3D Coord.X)
  let v5 : Coord := (next3D v4)
  let v6 : AABB3 R := (⟨(⟨(-v1), (-v1), (-v1)⟩ : Vec3 R), (⟨v1, v1, v1⟩ : Vec3 R)⟩ : AABB3 R)
  let v7 : Vec3 R := (Vec3.moved (Vec3.zero : Vec3 R) Coord.X (if (decide (v2 > (0.0 : R))) then v3 else (-v3)))
  let v8 : Vec3 R := (Vec3.moved (Vec3.zero : Vec3 R) Coord.X v2)
  let o9 := (AABB3.hitsRay v6 (Ray3.from v7 v8))
  bad := ck bad 481 (decide (o9.isSome = false))
  return bad
end Aabb3_66
#guard passes Aabb3_66.run

namespace Aabb3_67
abbrev R := Float32
def run : Res (List Nat) := do
  let mut bad : List Nat := []
  let v1 : R := (0.001 : R)
  let v2 : R := (-(1.0 : R))
  let v3 : R := (v1 * (5.0 : R))
  let v4 : Coord := (next3D Coord.Y)
  let v5 : Coord := (next3D v4)
  let v6 : AABB3 R := (⟨(⟨(-v1), (-v1), (-v1)⟩ : Vec3 R), (⟨v1, v1, v1⟩ : Vec3 R)⟩ : AABB3 R)
  let v7 : Vec3 R := (Vec3.moved (Vec3.zero : Vec3 R) Coord.Y (if (decide (v2 > (0.0 : R))) then v3 else (-v3)))
  let v8 : Vec3 R := (Vec3.moved (Vec3.zero : Vec3 R) Coord.Y v2)
  let o9 := (AABB3.hitsRay v6 (Ray3.from v7 v8))
  bad := ck bad 481 (decide (o9.isSome = false))
  return bad
end Aabb3_67
#guard passes Aabb3_67.run

namespace Aabb3_68
abbrev R := Float32
def run : Res (List Nat) := do
  let mut bad : List Nat := []
  let v1 : R := (1000.0 : R)
  let v2 : R := (1.0 : R)
  let v3 : R := (v1 * (5.0 : R))
  let v4 : Coord := (next3D Coord.X)
  let v5 : Coord := (next3D v4)
  let v6 : AABB3 R := (⟨(⟨(-v1), (-v1), (-v1)⟩ : Vec3 R), (⟨v1, v1, v1⟩ : Vec3 R)⟩ : AABB3 R)
  let v7 : Vec3 R := (Vec3.moved (Vec3.zero : Vec3 R) Coord.X (if (decide (v2 > (0.0 : R))) then v3 else (-v3)))
  let v8 : Vec3 R := (Vec3.moved (Vec3.zero : Vec3 R) Coord.X v2)
  let o9 := (AABB3.hitsRay v6 (Ray3.from v7 v8))
  bad := ck bad 481 (decide (o9.isSome = false))
  return bad
end Aabb3_68
#guard passes Aabb3_68.run

namespace Aabb3_69
abbrev R := Float32
def run : Res (List Nat) := do
  let mut bad : List Nat := []
  let v1 : R := (1000.0 : R)
  let v2 : R := (-(1.0 : R))
  let v3 : R := (v1 * (5.0 : R))
  let v4 : Coord := (next3D Coord.Y)
  let v5 : Coord := (next3D v4)
  let v6 : AABB3 R := (⟨(⟨(-v1), (-v1), (-v1)⟩ : Vec3 R), (⟨v1, v1, v1⟩ : Vec3 R)⟩ : AABB3 R)
  let v7 : Vec3 R := (Vec3.moved (Vec3.zero : Vec3 R) Coord.Y (if (decide (v2 > (0.0 : R))) then v3 else (-v3)))
  let v8 : Vec3 R := (Vec3.moved (Vec3.zero : Vec3 R) Coord.Y v2)
  let o9 := (AABB3.hitsRay v6 (Ray3.from v7 v8))
  bad := ck bad 481 (decide (o9.isSome = false))
  return bad
end Aabb3_69
#guard passes Aabb3_69.run

namespace Aabb3_70
abbrev R := Float32
def run : Res (List Nat) := do
  let mut bad : List Nat := []
  let v1 : R := (1.0 : R)
  let v2 : R := (1.0 : R)
  let v3 : R := (v1 * (5.0 : R))
  let v4 : Coord := (next3D Coord.X)
  let v5 : Coord := (next3D v4)
  let v6 : AABB3 R := (⟨(⟨(-v1), (-v1), (-v1)⟩ : Vec3 R), (⟨v1, v1, v1⟩ : Vec3 R)⟩ : AABB3 R)
  let v7 : Vec3 R := (Vec3.moved (Vec3.zero : Vec3 R) Coord.X (if (decide (v2 > (0.0 : R))) then v3 else (-v3)))
  let v8 : Vec3 R := (Vec3.moved (Vec3.zero : Vec3 R) Coord.X v2)
  let o9 := (AABB3.hitsRay v6 (Ray3.from (Vec3.moved v7 v4 v3) v8))
  bad := ck bad 485 (decide (o9.isSome = false))
  let o10 := (AABB3.hitsRay v6 (Ray3.from (Vec3.moved v7 v4 (-v3)) v8))
  bad := ck bad 486 (decide (o10.isSome = false))
  return bad
end Aabb3_70
#guard passes Aabb3_70.run

namespace Aabb3_71
abbrev R := Float32
def run : Res (List Nat) := do
  let mut bad : List Nat := []
  let v1 : R := (1.0 : R)
  let v2 : R := (-(1.0 : R))
  let v3 : R := (v1 * (5.0 : R))
  let v4 : Coord := (next3D Coord.Y)
  let v5 : Coord := (next3D v4)
  let v6 : AABB3 R := (⟨(⟨(-v1), (-v1), (-v1)⟩ : Vec3 R), (⟨v1, v1, v1⟩ : Vec3 R)⟩ : AABB3 R)
  let v7 : Vec3 R := (Vec3.moved (Vec3.zero : Vec3 R) Coord.Y (if (decide (v2 > (0.0 : R))) then v3 else (-v3)))
  let v8 : Vec3 R := (Vec3.moved (Vec3.zero : Vec3 R) Coord.Y v2)
  let o9 := (AABB3.hitsRay v6 (Ray3.from (Vec3.moved v7 v4 v3) v8))
  bad := ck bad 485 (decide (o9.isSome = false))
  let o10 := (AABB3.hitsRay v6 (Ray3.from (Vec3.moved v7 v4 (-v3)) v8))
  bad := ck bad 486 (decide (o10.isSome = false))
  return bad
end Aabb3_71
#guard passes Aabb3_71.run

namespace Aabb3_72
abbrev R := Float32
def run : Res (List Nat) := do
  let mut bad : List Nat := []
  let v1 : R := (0.001 : R)
  let v2 : R := (1.0 : R)
  let v3 : R := (v1 * (5.0 : R))
  let v4 : Coord := (next3D Coord.X)
  let v5 : Coord := (next3D v4)
  let v6 : AABB3 R := (⟨(⟨(-v1), (-v1), (-v1)⟩ : Vec3 R), (⟨v1, v1, v1⟩ : Vec3 R)⟩ : AABB3 R)
  let v7 : Vec3 R := (Vec3.moved (Vec3.zero : Vec3 R) Coord.X (if (decide (v2 > (0.0 : R))) then v3 else (-v3)))
  let v8 : Vec3 R := (Vec3.moved (Vec3.zero : Vec3 R) Coord.X v2)
  let o9 := (AABB3.hitsRay v6 (Ray3.from (Vec3.moved v7 v4 v3) v8))
  bad := ck bad 485 (decide (o9.isSome = false))
  let o10 := (AABB3.hitsRay v6 (Ray3.from (Vec3.moved v7 v4 (-v3)) v8))
  bad := ck bad 486 (decide (o10.isSome = false))
  return bad
end Aabb3_72
#guard passes Aabb3_72.run

namespace Aabb3_73
abbrev R := Float32
def run : Res (List Nat) := do
  let mut bad : List Nat := []
  let v1 : R := (0.001 : R)
  let v2 : R := (-(1.0 : R))
  let v3 : R := (v1 * (5.0 : R))
  let v4 : Coord := (next3D Coord.Y)
  let v5 : Coord := (next3D v4)
  let v6 : AABB3 R := (⟨(⟨(-v1), (-v1), (-v1)⟩ : Vec3 R), (⟨v1, v1, v1⟩ : Vec3 R)⟩ : AABB3 R)
  let v7 : Vec3 R := (Vec3.moved (Vec3.zero : Vec3 R) Coord.Y (if (decide (v2 > (0.0 : R))) then v3 else (-v3)))
  let v8 : Vec3 R := (Vec3.moved (Vec3.zero : Vec3 R) Coord.Y v2)
  let o9 := (AABB3.hitsRay v6 (Ray3.from (Vec3.moved v7 v4 v3) v8))
  bad := ck bad 485 (decide (o9.isSome = false))
  let o10 := (AABB3.hitsRay v6 (Ray3.from (Vec3.moved v7 v4 (-v3)) v8))
  bad := ck bad 486 (decide (o10.isSome = false))
  return bad
end Aabb3_73
#guard passes Aabb3_73.run

namespace Aabb3_74
abbrev R := Float32
def run : Res (List Nat) := do
  let mut bad : List Nat := []
  let v1 : R := (1000.0 : R)
  let v2 : R := (1.0 : R)
  let v3 : R := (v1 * (5.0 : R))
  let v4 : Coord := (next3D Coord.X)
  let v5 : Coord := (next3D v4)
  let v6 : AABB3 R := (⟨(⟨(-v1), (-v1), (-v1)⟩ : Vec3 R), (⟨v1, v1, v1⟩ : Vec3 R)⟩ : AABB3 R)
  let v7 : Vec3 R := (Vec3.moved (Vec3.zero : Vec3 R) Coord.X (if (decide (v2 > (0.0 : R))) then v3 else (-v3)))
  let v8 : Vec3 R := (Vec3.moved (Vec3.zero : Vec3 R) Coord.X v2)
  let o9 := (AABB3.hitsRay v6 (Ray3.from (Vec3.moved v7 v4 v3) v8))
  bad := ck bad 485 (decide (o9.isSome = false))
  let o10 := (AABB3.hitsRay v6 (Ray3.from (Vec3.moved v7 v4 (-v3)) v8))
  bad := ck bad 486 (decide (o10.isSome = false))
  return bad
end Aabb3_74
#guard passes Aabb3_74.run

namespace Aabb3_75
abbrev R := Float32
def run : Res (List Nat) := do
  let mut bad : List Nat := []
  let v1 : R := (1000.0 : R)
  let v2 : R := (-(1.0 : R))
  let v3 : R := (v1 * (5.0 : R))
  let v4 : Coord := (next3D Coord.Y)
  let v5 : Coord := (next3D v4)
  let v6 : AABB3 R := (⟨(⟨(-v1), (-v1), (-v1)⟩ : Vec3 R), (⟨v1, v1, v1⟩ : Vec3 R)⟩ : AABB3 R)
  let v7 : Vec3 R := (Vec3.moved (Vec3.zero : Vec3 R) Coord.Y (if (decide (v2 > (0.0 : R))) then v3 else (-v3)))
  let v8 : Vec3 R := (Vec3.moved (Vec3.zero : Vec3 R) Coord.Y v2)
  let o9 := (AABB3.hitsRay v6 (Ray3.from (Vec3.moved v7 v4 v3) v8))
  bad := ck bad 485 (decide (o9.isSome = false))
  let o10 := (AABB3.hitsRay v6 (Ray3.from (Vec3.moved v7 v4 (-v3)) v8))
  bad := ck bad 486 (decide (o10.isSome = false))
  return bad
end Aabb3_75
#guard passes Aabb3_75.run

namespace Aabb3_76
abbrev R := Float32
def run : Res (List Nat) := do
  let mut bad : List Nat := []
  let v1 : R := (1.0 : R)
  let v2 : R := (1.0 : R)
  let v3 : R := (v1 * (5.0 : R))
  let v4 : Coord := (next3D Coord.X)
  let v5 : Coord := (next3D v4)
  let v6 : AABB3 R := (⟨(⟨(-v1), (-v1), (-v1)⟩ : Vec3 R), (⟨v1, v1, v1⟩ : Vec3 R)⟩ : AABB3 R)
  let v7 : Vec3 R := (Vec3.moved (Vec3.zero : Vec3 R) Coord.X (if (decide (v2 > (0.0 : R))) then v3 else (-v3)))
  let v8 : Vec3 R := (Vec3.moved (Vec3.zero : Vec3 R) Coord.X v2)
  let o9 := (AABB3.hitsRay v6 (Ray3.from (Vec3.moved v7 v5 v3) v8))
  bad := ck bad 490 (decide (o9.isSome = false))
  let o10 := (AABB3.hitsRay v6 (Ray3.from (Vec3.moved v7 v5 (-v3)) v8))
  bad := ck bad 491 (decide (o10.isSome = false))
  return bad
end Aabb3_76
#guard passes Aabb3_76.run

namespace Aabb3_77
abbrev R := Float32
def run : Res (List Nat) := do
  let mut bad : List Nat := []
  let v1 : R := (1.0 : R)
  let v2 : R := (-(1.0 : R))
  let v3 : R := (v1 * (5.0 : R))
  let v4 : Coord := (next3D Coord.Y)
  let v5 : Coord := (next3D v4)
  let v6 : AABB3 R := (⟨(⟨(-v1), (-v1), (-v1)⟩ : Vec3 R), (⟨v1, v1, v1⟩ : Vec3 R)⟩ : AABB3 R)
  let v7 : Vec3 R := (Vec3.moved (Vec3.zero : Vec3 R) Coord.Y (if (decide (v2 > (0.0 : R))) then v3 else (-v3)))
  let v8 : Vec3 R := (Vec3.moved (Vec3.zero : Vec3 R) Coord.Y v2)
  let o9 := (AABB3.hitsRay v6 (Ray3.from (Vec3.moved v7 v5 v3) v8))
  bad := ck bad 490 (decide (o9.isSome = false))
  let o10 := (AABB3.hitsRay v6 (Ray3.from (Vec3.moved v7 v5 (-v3)) v8))
  bad := ck bad 491 (decide (o10.isSome = false))
  return bad
end Aabb3_77
#guard passes Aabb3_77.run

namespace Aabb3_78
abbrev R := Float32
def run : Res (List Nat) := do
  let mut bad : List Nat := []
  let v1 : R := (0.001 : R)
  let v2 : R := (1.0 : R)
  let v3 : R := (v1 * (5.0 : R))
  let v4 : Coord := (next3D Coord.X)
  let v5 : Coord := (next3D v4)
  let v6 : AABB3 R := (⟨(⟨(-v1), (-v1), (-v1)⟩ : Vec3 R), (⟨v1, v1, v1⟩ : Vec3 R)⟩ : AABB3 R)
  let v7 : Vec3 R := (Vec3.moved (Vec3.zero : Vec3 R) Coord.X (if (decide (v2 > (0.0 : R))) then v3 else (-v3)))
  let v8 : Vec3 R := (Vec3.moved (Vec3.zero : Vec3 R) Coord.X v2)
  let o9 := (AABB3.hitsRay v6 (Ray3.from (Vec3.moved v7 v5 v3) v8))
  bad := ck bad 490 (decide (o9.isSome = false))
  let o10 := (AABB3.hitsRay v6 (Ray3.from (Vec3.moved v7 v5 (-v3)) v8))
  bad := ck bad 491 (decide (o10.isSome = false))
  return bad
end Aabb3_78
#guard passes Aabb3_78.run

namespace Aabb3_79
abbrev R := Float32
def run : Res (List Nat) := do
  let mut bad : List Nat := []
  let v1 : R := (0.001 : R)
  let v2 : R := (-(1.0 : R))
  let v3 : R := (v1 * (5.0 : R))
  let v4 : Coord := (next3D Coord.Y)
  let v5 : Coord := (next3D v4)
  let v6 : AABB3 R := (⟨(⟨(-v1), (-v1), (-v1)⟩ : Vec3 R), (⟨v1, v1, v1⟩ : Vec3 R)⟩ : AABB3 R)
  let v7 : Vec3 R := (Vec3.moved (Vec3.zero : Vec3 R) Coord.Y (if (decide (v2 > (0.0 : R))) then v3 else (-v3)))
  let v8 : Vec3 R := (Vec3.moved (Vec3.zero : Vec3 R) Coord.Y v2)
  let o9 := (AABB3.hitsRay v6 (Ray3.from (Vec3.moved v7 v5 v3) v8))
  bad := ck bad 490 (decide (o9.isSome = false))
  let o10 := (AABB3.hitsRay v6 (Ray3.from (Vec3.moved v7 v5 (-v3)) v8))
  bad := ck bad 491 (decide (o10.isSome = false))
  return bad
end Aabb3_79
#guard passes Aabb3_79.run

namespace Aabb3_80
abbrev R := Float32
def run : Res (List Nat) := do
  let mut bad : List Nat := []
  let v1 : R := (1000.0 : R)
  let v2 : R := (1.0 : R)
  let v3 : R := (v1 * (5.0 : R))
  let v4 : Coord := (next3D Coord.X)
  let v5 : Coord := (next3D v4)
  let v6 : AABB3 R := (⟨(⟨(-v1), (-v1), (-v1)⟩ : Vec3 R), (⟨v1, v1, v1⟩ : Vec3 R)⟩ : AABB3 R)
  let v7 : Vec3 R := (Vec3.moved (Vec3.zero : Vec3 R) Coord.X (if (decide (v2 > (0.0 : R))) then v3 else (-v3)))
  let v8 : Vec3 R := (Vec3.moved (Vec3.zero : Vec3 R) Coord.X v2)
  let o9 := (AABB3.hitsRay v6 (Ray3.from (Vec3.moved v7 v5 v3) v8))
  bad := ck bad 490 (decide (o9.isSome = false))
  let o10 := (AABB3.hitsRay v6 (Ray3.from (Vec3.moved v7 v5 (-v3)) v8))
  bad := ck bad 491 (decide (o10.isSome = false))
  return bad
end Aabb3_80
#guard passes Aabb3_80.run

namespace Aabb3_81
abbrev R := Float32
def run : Res (List Nat) := do
  let mut bad : List Nat := []
  let v1 : R := (1000.0 : R)
  let v2 : R := (-(1.0 : R))
  let v3 : R := (v1 * (5.0 : R))
  let v4 : Coord := (next3D Coord.Y)
  let v5 : Coord := (next3D v4)
  let v6 : AABB3 R := (⟨(⟨(-v1), (-v1), (-v1)⟩ : Vec3 R), (⟨v1, v1, v1⟩ : Vec3 R)⟩ : AABB3 R)
  let v7 : Vec3 R := (Vec3.moved (Vec3.zero : Vec3 R) Coord.Y (if (decide (v2 > (0.0 : R))) then v3 else (-v3)))
  let v8 : Vec3 R := (Vec3.moved (Vec3.zero : Vec3 R) Coord.Y v2)
  let o9 := (AABB3.hitsRay v6 (Ray3.from (Vec3.moved v7 v5 v3) v8))
  bad := ck bad 490 (decide (o9.isSome = false))
  let o10 := (AABB3.hitsRay v6 (Ray3.from (Vec3.moved v7 v5 (-v3)) v8))
  bad := ck bad 491 (decide (o10.isSome = false))
  return bad
end Aabb3_81
#guard passes Aabb3_81.run

namespace Aabb3_82
abbrev R := Float32
def run : Res (List Nat) := do
  let mut bad : List Nat := []
  let v1 : R := (1.0 : R)
  let v2 : R := (1.0 : R)
  let v3 : R := (v1 * (5.0 : R))
  let v4 : Coord := (next3D Coord.X)
  let v5 : Coord := (next3D v4)
  let v6 : AABB3 R := (⟨(⟨(-v1), (-v1), (-v1)⟩ : Vec3 R), (⟨v1, v1, v1⟩ : Vec3 R)⟩ : AABB3 R)
  let v7 : Vec3 R := (Vec3.moved (Vec3.moved (Vec3.zero : Vec3 R) Coord.X (if (decide (v2 > (0.0 : R))) then (-v3) else v3)) v4 (if (decide (v2 > (0.0 : R))) then (-v3) else v3))
  let v8 : Vec3 R := (Vec3.normalized (Vec3.moved (Vec3.moved (Vec3.zero : Vec3 R) Coord.X v2) v4 v2) (1 : R))
  let v9 : Vec3 R := v7
  let v10 : Vec3 R := (Vec3.moved v7 Coord.X (v2 * v1))
  let v11 : Vec3 R := (Vec3.moved v7 Coord.X ((v2 * v1) * (2 : R)))
  let v12 : Vec3 R := (Vec3.moved v7 v4 (v2 * v1))
  let v13 : Vec3 R := (Vec3.moved v7 v4 ((v2 * v1) * (2 : R)))
  let v14 : Vec3 R := v9
  let v15 : R := ((MathFns.sqrt (((4.0 : R) * (4.0 : R)) * (2.0 : R))) * v1)
  let o16 := (AABB3.hitsRay v6 (Ray3.from v14 v8))
  bad := ck bad 514 (decide (o16.isSome = true))
  bad := ck bad 515 (Near.near (v1 / (1000.0 : R)) (o16.getD (0)) v15)
  return bad
end Aabb3_82
#guard passes Aabb3_82.run

namespace Aabb3_83
abbrev R := Float32
def run : Res (List Nat) := do
  let mut bad : List Nat := []
  let v1 : R := (1.0 : R)
  let v2 : R := (1.0 : R)
  let v3 : R := (v1 * (5.0 : R))
  let v4 : Coord := (next3D Coord.Y)
  let v5 : Coord := (next3D v4)
  let v6 : AABB3 R := (⟨(⟨(-v1), (-v1), (-v1)⟩ : Vec3 R), (⟨v1, v1, v1⟩ : Vec3 R)⟩ : AABB3 R)
  let v7 : Vec3 R := (Vec3.moved (Vec3.moved (Vec3.zero : Vec3 R) Coord.Y (if (decide (v2 > (0.0 : R))) then (-v3) else v3)) v4 (if (decide (v2 > (0.0 : R))) then (-v3) else v3))
  let v8 : Vec3 R := (Vec3.normalized (Vec3.moved (Vec3.moved (Vec3.zero : Vec3 R) Coord.Y v2) v4 v2) (1 : R))
  let v9 : Vec3 R := v7
  let v10 : Vec3 R := (Vec3.moved v7 Coord.Y (v2 * v1))
  let v11 : Vec3 R := (Vec3.moved v7 Coord.Y ((v2 * v1) * (2 : R)))
  let v12 : Vec3 R := (Vec3.moved v7 v4 (v2 * v1))
  let v13 : Vec3 R := (Vec3.moved v7 v4 ((v2 * v1) * (2 : R)))
  let v14 : Vec3 R := v12
  let v15 : R := ((MathFns.sqrt (((4.0 : R) * (4.0 : R)) * (2.0 : R))) * v1)
  let o16 := (AABB3.hitsRay v6 (Ray3.from v14 v8))
  bad := ck bad 514 (decide (o16.isSome = true))
  bad := ck bad 515 (Near.near (v1 / (1000.0 : R)) (o16.getD (0)) v15)
  return bad
end Aabb3_83
#guard passes Aabb3_83.run

namespace Aabb3_84
abbrev R := Float32
def run : Res (List Nat) := do
  let mut bad : List Nat := []
  let v1 : R := (1.0 : R)
  let v2 : R := (-(1.0 : R))
  let v3 : R := (v1 * (5.0 : R))
  let v4 : Coord := (next3D Coord.Z)
  let v5 : Coord := (next3D v4)
  let v6 : AABB3 R := (⟨(⟨(-v1), (-v1), (-v1)⟩ : Vec3 R), (⟨v1, v1, v1⟩ : Vec3 R)⟩ : AABB3 R)
  let v7 : Vec3 R := (Vec3.moved (Vec3.moved (Vec3.zero : Vec3 R) Coord.Z (if (decide (v2 > (0.0 : R))) then (-v3) else v3)) v4 (if (decide (v2 > (0.0 : R))) then (-v3) else v3))
  let v8 : Vec3 R := (Vec3.normalized (Vec3.moved (Vec3.moved (Vec3.zero : Vec3 R) Coord.Z v2) v4 v2) (1 : R))
  let v9 : Vec3 R := v7
  let v10 : Vec3 R := (Vec3.moved v7 Coord.Z (v2 * v1))
  let v11 : Vec3 R := (Vec3.moved v7 Coord.Z ((v2 * v1) * (2 : R)))
  let v12 : Vec3 R := (Vec3.moved v7 v4 (v2 * v1))
  let v13 : Vec3 R := (Vec3.moved v7 v4 ((v2 * v1) * (2 : R)))
  let v14 : Vec3 R := v10
  let v15 : R := ((MathFns.sqrt (((4.0 : R) * (4.0 : R)) * (2.0 : R))) * v1)
  let o16 := (AABB3.hitsRay v6 (Ray3.from v14 v8))
  bad := ck bad 514 (decide (o16.isSome = true))
  bad := ck bad 515 (Near.near (v1 / (1000.0 : R)) (o16.getD (0)) v15)
  return bad
end Aabb3_84
#guard passes Aabb3_84.run

namespace Aabb3_85
abbrev R := Float32
def run : Res (List Nat) := do
  let mut bad : List Nat := []
  let v1 : R := (0.001 : R)
  let v2 : R := (-(1.0 : R))
  let v3 : R := (v1 * (5.0 : R))
  let v4 : Coord := (next3D Coord.X)
  let v5 : Coord := (next3D v4)
  let v6 : AABB3 R := (⟨(⟨(-v1), (-v1), (-v1)⟩ : Vec3 R), (⟨v1, v1, v1⟩ : Vec3 R)⟩ : AABB3 R)
  let v7 : Vec3 R := (Vec3.moved (Vec3.moved (Vec3.zero : Vec3 R) Coord.X (if (decide (v2 > (0.0 : R))) then (-v3) else v3)) v4 (if (decide (v2 > (0.0 : R))) then (-v3) else v3))
  let v8 : Vec3 R := (Vec3.normalized (Vec3.moved (Vec3.moved (Vec3.zero : Vec3 R) Coord.X v2) v4 v2) (1 : R))
  let v9 : Vec3 R := v7
  let v10 : Vec3 R := (Vec3.moved v7 Coord.X (v2 * v1))
  let v11 : Vec3 R := (Vec3.moved v7 Coord.X ((v2 * v1) * (2 : R)))
  let v12 : Vec3 R := (Vec3.moved v7 v4 (v2 * v1))
  let v13 : Vec3 R := (Vec3.moved v7 v4 ((v2 * v1) * (2 : R)))
  let v14 : Vec3 R := v13
  let v15 : R := ((MathFns.sqrt (((4.0 : R) * (4.0 : R)) * (2.0 : R))) * v1)
  let o16 := (AABB3.hitsRay v6 (Ray3.from v14 v8))
  bad := ck bad 514 (decide (o16.isSome = true))
  bad := ck bad 515 (Near.near (v1 / (1000.0 : R)) (o16.getD (0)) v15)
  return bad
end Aabb3_85
#guard passes Aabb3_85.run

namespace Aabb3_86
abbrev R := Float32
def run : Res (List Nat) := do
  let mut bad : List Nat := []
  let v1 : R := (0.001 : R)
  let v2 : R := (1.0 : R)
  let v3 : R := (v1 * (5.0 : R))
  let v4 : Coord := (next3D Coord.Z)
  let v5 : Coord := (next3D v4)
  let v6 : AABB3 R := (⟨(⟨(-v1), (-v1), (-v1)⟩ : Vec3 R), (⟨v1, v1, v1⟩ : Vec3 R)⟩ : AABB3 R)
  let v7 : Vec3 R := (Vec3.moved (Vec3.moved (Vec3.zero : Vec3 R) Coord.Z (if (decide (v2 > (0.0 : R))) then (-v3) else v3)) v4 (if (decide (v2 > (0.0 : R))) then (-v3) else v3))
  let v8 : Vec3 R := (Vec3.normalized (Vec3.moved (Vec3.moved (Vec3.zero : Vec3 R) Coord.Z v2) v4 v2) (1 : R))
  let v9 : Vec3 R := v7
  let v10 : Vec3 R := (Vec3.moved v7 Coord.Z (v2 * v1))
  let v11 : Vec3 R := (Vec3.moved v7 Coord.Z ((v2 * v1) * (2 : R)))
  let v12 : Vec3 R := (Vec3.moved v7 v4 (v2 * v1))
  let v13 : Vec3 R := (Vec3.moved v7 v4 ((v2 * v1) * (2 : R)))
  let v14 : Vec3 R := v11
  let v15 : R := ((MathFns.sqrt (((4.0 : R) * (4.0 : R)) * (2.0 : R))) * v1)
  let o16 := (AABB3.hitsRay v6 (Ray3.from v14 v8))
  bad := ck bad 514 (decide (o16.isSome = true))
  bad := ck bad 515 (Near.near (v1 / (1000.0 : R)) (o16.getD (0)) v15)
  return bad
end Aabb3_86
#guard passes Aabb3_86.run

namespace Aabb3_87
abbrev R := Float32
def run : Res (List Nat) := do
  let mut bad : List Nat := []
  let v1 : R := (1000.0 : R)
  let v2 : R := (-(1.0 : R))
  let v3 : R := (v1 * (5.0 : R))
  let v4 : Coord := (next3D Coord.X)
  let v5 : Coord := (next3D v4)
  let v6 : AABB3 R := (⟨(⟨(-v1), (-v1), (-v1)⟩ : Vec3 R), (⟨v1, v1, v1⟩ : Vec3 R)⟩ : AABB3 R)
  let v7 : Vec3 R := (Vec3.moved (Vec3.moved (Vec3.zero : Vec3 R) Coord.X (if (decide (v2 > (0.0 : R))) then (-v3) else v3)) v4 (if (decide (v2 > (0.0 : R))) then (-v3) else v3))
  let v8 : Vec3 R := (Vec3.normalized (Vec3.moved (Vec3.moved (Vec3.zero : Vec3 R) Coord.X v2) v4 v2) (1 : R))
  let v9 : Vec3 R := v7
  let v10 : Vec3 R := (Vec3.moved v7 Coord.X (v2 * v1))
  let v11 : Vec3 R := (Vec3.moved v7 Coord.X ((v2 * v1) * (2 : R)))
  let v12 : Vec3 R := (Vec3.moved v7 v4 (v2 * v1))
  let v13 : Vec3 R := (Vec3.moved v7 v4 ((v2 * v1) * (2 : R)))
  let v14 : Vec3 R := v9
  let v15 : R := ((MathFns.sqrt (((4.0 : R) * (4.0 : R)) * (2.0 : R))) * v1)
  let o16 := (AABB3.hitsRay v6 (Ray3.from v14 v8))
  bad := ck bad 514 (decide (o16.isSome = true))
  bad := ck bad 515 (Near.near (v1 / (1000.0 : R)) (o16.getD (0)) v15)
  return bad
end Aabb3_87
#guard passes Aabb3_87.run

namespace Aabb3_88
abbrev R := Float32
def run : Res (List Nat) := do
  let mut bad : List Nat := []
  let v1 : R := (1000.0 : R)
  let v2 : R := (-(1.0 : R))
  let v3 : R := (v1 * (5.0 : R))
  let v4 : Coord := (next3D Coord.Y)
  let v5 : Coord := (next3D v4)
  let v6 : AABB3 R := (⟨(⟨(-v1), (-v1), (-v1)⟩ : Vec3 R), (⟨v1, v1, v1⟩ : Vec3 R)⟩ : AABB3 R)
  let v7 : Vec3 R := (Vec3.moved (Vec3.moved (Vec3.zero : Vec3 R) Coord.Y (if (decide (v2 > (0.0 : R))) then (-v3) else v3)) v4 (if (decide (v2 > (0.0 : R))) then (-v3) else v3))
  let v8 : Vec3 R := (Vec3.normalized (Vec3.moved (Vec3.moved (Vec3.zero : Vec3 R) Coord.Y v2) v4 v2) (1 : R))
  let v9 : Vec3 R := v7
  let v10 : Vec3 R := (Vec3.moved v7 Coord.Y (v2 * v1))
  let v11 : Vec3 R := (Vec3.moved v7 Coord.Y ((v2 * v1) * (2 : R)))
  let v12 : Vec3 R := (Vec3.moved v7 v4 (v2 * v1))
  let v13 : Vec3 R := (Vec3.moved v7 v4 ((v2 * v1) * (2 : R)))
  let v14 : Vec3 R := v12
  let v15 : R := ((MathFns.sqrt (((4.0 : R) * (4.0 : R)) * (2.0 : R))) * v1)
  let o16 := (AABB3.hitsRay v6 (Ray3.from v14 v8))
  bad := ck bad 514 (decide (o16.isSome = true))
  bad := ck bad 515 (Near.near (v1 / (1000.0 : R)) (o16.getD (0)) v15)
  return bad
end Aabb3_88
#guard passes Aabb3_88.run

namespace Aabb3_89
abbrev R := Float32
def run : Res (List Nat) := do
  let mut bad : List Nat := []
  let v1 : R := (1.0 : R)
  let v2 : R := (1.0 : R)
  let v3 : R := (v1 * (5.0 : R))
  let v4 : Coord := (next3D Coord.X)
  let v5 : Coord := (next3D v4)
  let v6 : AABB3 R := (⟨(⟨(-v1), (-v1), (-v1)⟩ : Vec3 R), (⟨v1, v1, v1⟩ : Vec3 R)⟩ : AABB3 R)
  let v7 : Vec3 R := (Vec3.moved (Vec3.moved (Vec3.zero : Vec3 R) Coord.X (if (decide (v2 > (0.0 : R))) then (-v3) else v3)) v4 (if (decide (v2 > (0.0 : R))) then (-v3) else v3))
  let v8 : Vec3 R := (Vec3.normalized (Vec3.moved (Vec3.moved (Vec3.zero : Vec3 R) Coord.X v2) v4 v2) (1 : R))
  let v9 : Vec3 R := v7
  let v10 : Vec3 R := (Vec3.moved v7 Coord.X (v2 * v1))
  let v11 : Vec3 R := (Vec3.moved v7 Coord.X ((v2 * v1) * (2 : R)))
  let v12 : Vec3 R := (Vec3.moved v7 v4 (v2 * v1))
  let v13 : Vec3 R := (Vec3.moved v7 v4 ((v2 * v1) * (2 : R)))
  let v14 : Vec3 R := v9
  let v15 : R := ((MathFns.sqrt (((4.0 : R) * (4.0 : R)) * (2.0 : R))) * v1)
  let o16 := (AABB3.hitsRay v6 (Ray3.from (Vec3.moved v14 v5 v3) v8))
  bad := ck bad 519 (decide (o16.isSome = false))
  let o17 := (AABB3.hitsRay v6 (Ray3.from (Vec3.moved v14 v5 (-v3)) v8))
  bad := ck bad 520 (decide (o17.isSome = false))
  return bad
end Aabb3_89
#guard passes Aabb3_89.run

namespace Aabb3_90
abbrev R := Float32
def run : Res (List Nat) := do
  let mut bad : List Nat := []
  let v1 : R := (1.0 : R)
  let v2 : R := (1.0 : R)
  let v3 : R := (v1 * (5.0 : R))
  let v4 : Coord := (next3D Coord.Y)
  let v5 : Coord := (next3D v4)
  let v6 : AABB3 R := (⟨(⟨(-v1), (-v1), (-v1)⟩ : Vec3 R), (⟨v1, v1, v1⟩ : Vec3 R)⟩ : AABB3 R)
  let v7 : Vec3 R := (Vec3.moved (Vec3.moved (Vec3.zero : Vec3 R) Coord.Y (if (decide (v2 > (0.0 : R))) then (-v3) else v3)) v4 (if (decide (v2 > (0.0 : R))) then (-v3) else v3))
  let v8 : Vec3 R := (Vec3.normalized (Vec3.moved (Vec3.moved (Vec3.zero : Vec3 R) Coord.Y v2) v4 v2) (1 : R))
  let v9 : Vec3 R := v7
  let v10 : Vec3 R := (Vec3.moved v7 Coord.Y (v2 * v1))
  let v11 : Vec3 R := (Vec3.moved v7 Coord.Y ((v2 * v1) * (2 : R)))
  let v12 : Vec3 R := (Vec3.moved v7 v4 (v2 * v1))
  let v13 : Vec3 R := (Vec3.moved v7 v4 ((v2 * v1) * (2 : R)))
  let v14 : Vec3 R := v12
  let v15 : R := ((MathFns.sqrt (((4.0 : R) * (4.0 : R)) * (2.0 : R))) * v1)
  let o16 := (AABB3.hitsRay v6 (Ray3.from (Vec3.moved v14 v5 v3) v8))
  bad := ck bad 519 (decide (o16.isSome = false))
  let o17 := (AABB3.hitsRay v6 (Ray3.from (Vec3.moved v14 v5 (-v3)) v8))
  bad := ck bad 520 (decide (o17.isSome = false))
  return bad
end Aabb3_90
#guard passes Aabb3_90.run

namespace Aabb3_91
abbrev R := Float32
def run : Res (List Nat) := do
  let mut bad : List Nat := []
  let v1 : R := (1.0 : R)
  let v2 : R := (-(1.0 : R))
  let v3 : R := (v1 * (5.0 : R))
  let v4 : Coord := (next3D Coord.Z)
  let v5 : Coord := (next3D v4)
  let v6 : AABB3 R := (⟨(⟨(-v1), (-v1), (-v1)⟩ : Vec3 R), (⟨v1, v1, v1⟩ : Vec3 R)⟩ : AABB3 R)
  let v7 : Vec3 R := (Vec3.moved (Vec3.moved (Vec3.zero : Vec3 R) Coord.Z (if (decide (v2 > (0.0 : R))) then (-v3) else v3)) v4 (if (decide (v2 > (0.0 : R))) then (-v3) else v3))
  let v8 : Vec3 R := (Vec3.normalized (Vec3.moved (Vec3.moved (Vec3.zero : Vec3 R) Coord.Z v2) v4 v2) (1 : R))
  let v9 : Vec3 R := v7
  let v10 : Vec3 R := (Vec3.moved v7 Coord.Z (v2 * v1))
  let v11 : Vec3 R := (Vec3.moved v7 Coord.Z ((v2 * v1) * (2 : R)))
  let v12 : Vec3 R := (Vec3.moved v7 v4 (v2 * v1))
  let v13 : Vec3 R := (Vec3.moved v7 v4 ((v2 * v1) * (2 : R)))
  let v14 : Vec3 R := v10
  let v15 : R := ((MathFns.sqrt (((4.0 : R) * (4.0 : R)) * (2.0 : R))) * v1)
  let o16 := (AABB3.hitsRay v6 (Ray3.from (Vec3.moved v14 v5 v3) v8))
  bad := ck bad 519 (decide (o16.isSome = false))
  let o17 := (AABB3.hitsRay v6 (Ray3.from (Vec3.moved v14 v5 (-v3)) v8))
  bad := ck bad 520 (decide (o17.isSome = false))
  return bad
end Aabb3_91
#guard passes Aabb3_91.run

namespace Aabb3_92
abbrev R := Float32
def run : Res (List Nat) := do
  let mut bad : List Nat := []
  let v1 : R := (0.001 : R)
  let v2 : R := (-(1.0 : R))
  let v3 : R := (v1 * (5.0 : R))
  let v4 : Coord := (next3D Coord.X)
  let v5 : Coord := (next3D v4)
  let v6 : AABB3 R := (⟨(⟨(-v1), (-v1), (-v1)⟩ : Vec3 R), (⟨v1, v1, v1⟩ : Vec3 R)⟩ : AABB3 R)
  let v7 : Vec3 R := (Vec3.moved (Vec3.moved (Vec3.zero : Vec3 R) Coord.X (if (decide (v2 > (0.0 : R))) then (-v3) else v3)) v4 (if (decide (v2 > (0.0 : R))) then (-v3) else v3))
  let v8 : Vec3 R := (Vec3.normalized (Vec3.moved (Vec3.moved (Vec3.zero : Vec3 R) Coord.X v2) v4 v2) (1 : R))
  let v9 : Vec3 R := v7
  let v10 : Vec3 R := (Vec3.moved v7 Coord.X (v2 * v1))
  let v11 : Vec3 R := (Vec3.moved v7 Coord.X ((v2 * v1) * (2 : R)))
  let v12 : Vec3 R := (Vec3.moved v7 v4 (v2 * v1))
  let v13 : Vec3 R := (Vec3.moved v7 v4 ((v2 * v1) * (2 : R)))
  let v14 : Vec3 R := v13
  let v15 : R := ((MathFns.sqrt (((4.0 : R) * (4.0 : R)) * (2.0 : R))) * v1)
  let o16 := (AABB3.hitsRay v6 (Ray3.from (Vec3.moved v14 v5 v3) v8))
  bad := ck bad 519 (decide (o16.isSome = false))
  let o17 := (AABB3.hitsRay v6 (Ray3.from (Vec3.moved v14 v5 (-v3)) v8))
  bad := ck bad 520 (decide (o17.isSome = false))
  return bad
end Aabb3_92
#guard passes Aabb3_92.run

namespace Aabb3_93
abbrev R := Float32
def run : Res (List Nat) := do
  let mut bad : List Nat := []
  let v1 : R := (0.001 : R)
  let v2 : R := (1.0 : R)
  let v3 : R := (v1 * (5.0 : R))
  let v4 : Coord := (next3D Coord.Z)
  let v5 : Coord := (next3D v4)
  let v6 : AABB3 R := (⟨(⟨(-v1), (-v1), (-v1)⟩ : Vec3 R), (⟨v1, v1, v1⟩ : Vec3 R)⟩ : AABB3 R)
  let v7 : Vec3 R := (Vec3.moved (Vec3.moved (Vec3.zero : Vec3 R) Coord.Z (if (decide (v2 > (0.0 : R))) then (-v3) else v3)) v4 (if (decide (v2 > (0.0 : R))) then (-v3) else v3))
  let v8 : Vec3 R := (Vec3.normalized (Vec3.moved (Vec3.moved (Vec3.zero : Vec3 R) Coord.Z v2) v4 v2) (1 : R))
  let v9 : Vec3 R := v7
  let v10 : Vec3 R := (Vec3.moved v7 Coord.Z (v2 * v1))
  let v11 : Vec3 R := (Vec3.moved v7 Coord.Z ((v2 * v1) * (2 : R)))
  let v12 : Vec3 R := (Vec3.moved v7 v4 (v2 * v1))
  let v13 : Vec3 R := (Vec3.moved v7 v4 ((v2 * v1) * (2 : R)))
  let v14 : Vec3 R := v11
  let v15 : R := ((MathFns.sqrt (((4.0 : R) * (4.0 : R)) * (2.0 : R))) * v1)
  let o16 := (AABB3.hitsRay v6 (Ray3.from (Vec3.moved v14 v5 v3) v8))
  bad := ck bad 519 (decide (o16.isSome = false))
  let o17 := (AABB3.hitsRay v6 (Ray3.from (Vec3.moved v14 v5 (-v3)) v8))
  bad := ck bad 520 (decide (o17.isSome = false))
  return bad
end Aabb3_93
#guard passes Aabb3_93.run

namespace Aabb3_94
abbrev R := Float32
def run : Res (List Nat) := do
  let mut bad : List Nat := []
  let v1 : R := (1000.0 : R)
  let v2 : R := (-(1.0 : R))
  let v3 : R := (v1 * (5.0 : R))
  let v4 : Coord := (next3D Coord.X)
  let v5 : Coord := (next3D v4)
  let v6 : AABB3 R := (⟨(⟨(-v1), (-v1), (-v1)⟩ : Vec3 R), (⟨v1, v1, v1⟩ : Vec3 R)⟩ : AABB3 R)
  let v7 : Vec3 R := (Vec3.moved (Vec3.moved (Vec3.zero : Vec3 R) Coord.X (if (decide (v2 > (0.0 : R))) then (-v3) else v3)) v4 (if (decide (v2 > (0.0 : R))) then (-v3) else v3))
  let v8 : Vec3 R := (Vec3.normalized (Vec3.moved (Vec3.moved (Vec3.zero : Vec3 R) Coord.X v2) v4 v2) (1 : R))
  let v9 : Vec3 R := v7
  let v10 : Vec3 R := (Vec3.moved v7 Coord.X (v2 * v1))
  let v11 : Vec3 R := (Vec3.moved v7 Coord.X ((v2 * v1) * (2 : R)))
  let v12 : Vec3 R := (Vec3.moved v7 v4 (v2 * v1))
  let v13 : Vec3 R := (Vec3.moved v7 v4 ((v2 * v1) * (2 : R)))
  let v14 : Vec3 R := v9
  let v15 : R := ((MathFns.sqrt (((4.0 : R) * (4.0 : R)) * (2.0 : R))) * v1)
  let o16 := (AABB3.hitsRay v6 (Ray3.from (Vec3.moved v14 v5 v3) v8))
  bad := ck bad 519 (decide (o16.isSome = false))
  let o17 := (AABB3.hitsRay v6 (Ray3.from (Vec3.moved v14 v5 (-v3)) v8))
  bad := ck bad 520 (decide (o17.isSome = false))
  return bad
end Aabb3_94
#guard passes Aabb3_94.run

namespace Aabb3_95
abbrev R := Float32
def run : Res (List Nat) := do
  let mut bad : List Nat := []
  let v1 : R := (1000.0 : R)
  let v2 : R := (-(1.0 : R))
  let v3 : R := (v1 * (5.0 : R))
  let v4 : Coord := (next3D Coord.Y)
  let v5 : Coord := (next3D v4)
  let v6 : AABB3 R := (⟨(⟨(-v1), (-v1), (-v1)⟩ : Vec3 R), (⟨v1, v1, v1⟩ : Vec3 R)⟩ : AABB3 R)
  let v7 : Vec3 R := (Vec3.moved (Vec3.moved (Vec3.zero : Vec3 R) Coord.Y (if (decide (v2 > (0.0 : R))) then (-v3) else v3)) v4 (if (decide (v2 > (0.0 : R))) then (-v3) else v3))
  let v8 : Vec3 R := (Vec3.normalized (Vec3.moved (Vec3.moved (Vec3.zero : Vec3 R) Coord.Y v2) v4 v2) (1 : R))
  let v9 : Vec3 R := v7
  let v10 : Vec3 R := (Vec3.moved v7 Coord.Y (v2 * v1))
  let v11 : Vec3 R := (Vec3.moved v7 Coord.Y ((v2 * v1) * (2 : R)))
  let v12 : Vec3 R := (Vec3.moved v7 v4 (v2 * v1))
  let v13 : Vec3 R := (Vec3.moved v7 v4 ((v2 * v1) * (2 : R)))
  let v14 : Vec3 R := v12
  let v15 : R := ((MathFns.sqrt (((4.0 : R) * (4.0 : R)) * (2.0 : R))) * v1)
  let o16 := (AABB3.hitsRay v6 (Ray3.from (Vec3.moved v14 v5 v3) v8))
  bad := ck bad 519 (decide (o16.isSome = false))
  let o17 := (AABB3.hitsRay v6 (Ray3.from (Vec3.moved v14 v5 (-v3)) v8))
  bad := ck bad 520 (decide (o17.isSome = false))
  return bad
end Aabb3_95
#guard passes Aabb3_95.run

namespace Aabb3_96
abbrev R := Float32
def run : Res (List Nat) := do
  let mut bad : List Nat := []
  let v1 : R := (1.0 : R)
  let v2 : R := (1.0 : R)
  let v3 : R := (v1 * (5.0 : R))
  let v4 : Coord := (next3D Coord.X)
  let v5 : Coord := (next3D v4)
  let v6 : AABB3 R := (⟨(⟨(-v1), (-v1), (-v1)⟩ : Vec3 R), (⟨v1, v1, v1⟩ : Vec3 R)⟩ : AABB3 R)
  let v7 : R := (0.4 : R)
  let v8 : Vec3 R := (Vec3.moved (Vec3.zero : Vec3 R) Coord.X (if (decide (v2 > (0.0 : R))) then (-v3) else v3))
  let v9 : Vec3 R := (Vec3.moved (Vec3.zero : Vec3 R) Coord.X (if (decide (v2 > (0.0 : R))) then v3 else (-v3)))
  let o10 := (AABB3.hitsLine v6 (⟨v8, v9⟩ : Line3 R))
  bad := ck bad 547 (decide (o10.isSome = true))
  bad := ck bad 548 (nearRel (0.0001 : R) (o10.getD (0)) v7)
  return bad
end Aabb3_96
#guard passes Aabb3_96.run

namespace Aabb3_97
abbrev R := Float32
def run : Res (List Nat) := do
  let mut bad : List Nat := []
  let v1 : R := (1.0 : R)
  let v2 : R := (-(1.0 : R))
  let v3 : R := (v1 * (5.0 : R))
  let v4 : Coord := (next3D Coord.Y)
  let v5 : Coord := (next3D v4)
  let v6 : AABB3 R := (⟨(⟨(-v1), (-v1), (-v1)⟩ : Vec3 R), (⟨v1, v1, v1⟩ : Vec3 R)⟩ : AABB3 R)
  let v7 : R := (0.4 : R)
  let v8 : Vec3 R := (Vec3.moved (Vec3.zero : Vec3 R) Coord.Y (if (decide (v2 > (0.0 : R))) then (-v3) else v3))
  let v9 : Vec3 R := (Vec3.moved (Vec3.zero : Vec3 R) Coord.Y (if (decide (v2 > (0.0 : R))) then v3 else (-v3)))
  let o10 := (AABB3.hitsLine v6 (⟨v8, v9⟩ : Line3 R))
  bad := ck bad 547 (decide (o10.isSome = true))
  bad := ck bad 548 (nearRel (0.0001 : R) (o10.getD (0)) v7)
  return bad
end Aabb3_97
#guard passes Aabb3_97.run

namespace Aabb3_98
abbrev R := Float32
def run : Res (List Nat) := do
  let mut bad : List Nat := []
  let v1 : R := (0.001 : R)
  let v2 : R := (1.0 : R)
  let v3 : R := (v1 * (5.0 : R))
  let v4 : Coord := (next3D Coord.X)
  let v5 : Coord := (next3D v4)
  let v6 : AABB3 R := (⟨(⟨(-v1), (-v1), (-v1)⟩ : Vec3 R), (⟨v1, v1, v1⟩ : Vec3 R)⟩ : AABB3 R)
  let v7 : R := (0.4 : R)
  let v8 : Vec3 R := (Vec3.moved (Vec3.zero : Vec3 R) Coord.X (if (decide (v2 > (0.0 : R))) then (-v3) else v3))
  let v9 : Vec3 R := (Vec3.moved (Vec3.zero : Vec3 R) Coord.X (if (decide (v2 > (0.0 : R))) then v3 else (-v3)))
  let o10 := (AABB3.hitsLine v6 (⟨v8, v9⟩ : Line3 R))
  bad := ck bad 547 (decide (o10.isSome = true))
  bad := ck bad 548 (nearRel (0.0001 : R) (o10.getD (0)) v7)
  return bad
end Aabb3_98
#guard passes Aabb3_98.run

namespace Aabb3_99
abbrev R := Float32
def run : Res (List Nat) := do
  let mut bad : List Nat := []
  let v1 : R := (0.001 : R)
  let v2 : R := (-(1.0 : R))
  let v3 : R := (v1 * (5.0 : R))
  let v4 : Coord := (next3D Coord.Y)
  let v5 : Coord := (next3D v4)
  let v6 : AABB3 R := (⟨(⟨(-v1), (-v1), (-v1)⟩ : Vec3 R), (⟨v1, v1, v1⟩ : Vec3 R)⟩ : AABB3 R)
  let v7 : R := (0.4 : R)
  let v8 : Vec3 R := (Vec3.moved (Vec3.zero : Vec3 R) Coord.Y (if (decide (v2 > (0.0 : R))) then (-v3) else v3))
  let v9 : Vec3 R := (Vec3.moved (Vec3.zero : Vec3 R) Coord.Y (if (decide (v2 > (0.0 : R))) then v3 else (-v3)))
  let o10 := (AABB3.hitsLine v6 (⟨v8, v9⟩ : Line3 R))
  bad := ck bad 547 (decide (o10.isSome = true))
  bad := ck bad 548 (nearRel (0.0001 : R) (o10.getD (0)) v7)
  return bad
end Aabb3_99
#guard passes Aabb3_99.run

namespace Aabb3_100
abbrev R := Float32
def run : Res (List Nat) := do
  let mut bad : List Nat := []
  let v1 : R := (1000.0 : R)
  let v2 : R := (1.0 : R)
  let v3 : R := (v1 * (5.0 : R))
  let v4 : Coord := (next3D Coord.X)
  let v5 : Coord := (next3D v4)
  let v6 : AABB3 R := (⟨(⟨(-v1), (-v1), (-v1)⟩ : Vec3 R), (⟨v1, v1, v1⟩ : Vec3 R)⟩ : AABB3 R)
  let v7 : R := (0.4 : R)
  let v8 : Vec3 R := (Vec3.moved (Vec3.zero : Vec3 R) Coord.X (if (decide (v2 > (0.0 : R))) then (-v3) else v3))
  let v9 : Vec3 R := (Vec3.moved (Vec3.zero : Vec3 R) Coord.X (if (decide (v2 > (0.0 : R))) then v3 else (-v3)))
  let o10 := (AABB3.hitsLine v6 (⟨v8, v9⟩ : Line3 R))
  bad := ck bad 547 (decide (o10.isSome = true))
  bad := ck bad 548 (nearRel (0.0001 : R) (o10.getD (0)) v7)
  return bad
end Aabb3_100
#guard passes Aabb3_100.run

namespace Aabb3_101
abbrev R := Float32
def run : Res (List Nat) := do
  let mut bad : List Nat := []
  let v1 : R := (1000.0 : R)
  let v2 : R := (-(1.0 : R))
  let v3 : R := (v1 * (5.0 : R))
  let v4 : Coord := (next3D Coord.Y)
  let v5 : Coord := (next3D v4)
  let v6 : AABB3 R := (⟨(⟨(-v1), (-v1), (-v1)⟩ : Vec3 R), (⟨v1, v1, v1⟩ : Vec3 R)⟩ : AABB3 R)
  let v7 : R := (0.4 : R)
  let v8 : Vec3 R := (Vec3.moved (Vec3.zero : Vec3 R) Coord.Y (if (decide (v2 > (0.0 : R))) then (-v3) else v3))
  let v9 : Vec3 R := (Vec3.moved (Vec3.zero : Vec3 R) Coord.Y (if (decide (v2 > (0.0 : R))) then v3 else (-v3)))
  let o10 := (AABB3.hitsLine v6 (⟨v8, v9⟩ : Line3 R))
  bad := ck bad 547 (decide (o10.isSome = true))
  bad := ck bad 548 (nearRel (0.0001 : R) (o10.getD (0)) v7)
  return bad
end Aabb3_101
#guard passes Aabb3_101.run

namespace Aabb3_102
abbrev R := Float32
def run : Res (List Nat) := do
  let mut bad : List Nat := []
  let v1 : R := (1.0 : R)
  let v2 : R := (1.0 : R)
  let v3 : R := (v1 * (5.0 : R))
  let v4 : Coord := (next3D Coord.X)
  let v5 : Coord := (next3D v4)
  let v6 : AABB3 R := (⟨(⟨(-v1), (-v1), (-v1)⟩ : Vec3 R), (⟨v1, v1, v1⟩ : Vec3 R)⟩ : AABB3 R)
  let v7 : R := (0.4 : R)
  let v8 : Vec3 R := (Vec3.moved (Vec3.zero : Vec3 R) Coord.X (if (decide (v2 > (0.0 : R))) then (-v3) else v3))
  let v9 : Vec3 R := (Vec3.moved (Vec3.zero : Vec3 R) Coord.X (if (decide (v2 > (0.0 : R))) then v3 else (-v3)))
  let o10 := (AABB3.hitsLine v6 (⟨(Vec3.moved v8 v4 v3), (Vec3.moved v9 v4 v3)⟩ : Line3 R))
  bad := ck bad 552 (decide (o10.isSome = false))
  let o11 := (AABB3.hitsLine v6 (⟨(Vec3.moved v8 v4 (-v3)), (Vec3.moved v9 v4 (-v3))⟩ : Line3 R))
  bad := ck bad 553 (decide (o11.isSome = false))
  return bad
end Aabb3_102
#guard passes Aabb3_102.run

namespace Aabb3_103
abbrev R := Float32
def run : Res (List Nat) := do
  let mut bad : List Nat := []
  let v1 : R := (1.0 : R)
  let v2 : R := (-(1.0 : R))
  let v3 : R := (v1 * (5.0 : R))
  let v4 : Coord := (next3D Coord.Y)
  let v5 : Coord := (next3D v4)
  let v6 : AABB3 R := (⟨(⟨(-v1), (-v1), (-v1)⟩ : Vec3 R), (⟨v1, v1, v1⟩ : Vec3 R)⟩ : AABB3 R)
  let v7 : R := (0.4 : R)
  let v8 : Vec3 R := (Vec3.moved (Vec3.zero : Vec3 R) Coord.Y (if (decide (v2 > (0.0 : R))) then (-v3) else v3))
  let v9 : Vec3 R := (Vec3.moved (Vec3.zero : Vec3 R) Coord.Y (if (decide (v2 > (0.0 : R))) then v3 else (-v3)))
  let o10 := (AABB3.hitsLine v6 (⟨(Vec3.moved v8 v4 v3), (Vec3.moved v9 v4 v3)⟩ : Line3 R))
  bad := ck bad 552 (decide (o10.isSome = false))
  let o11 := (AABB3.hitsLine v6 (⟨(Vec3.moved v8 v4 (-v3)), (Vec3.moved v9 v4 (-v3))⟩ : Line3 R))
  bad := ck bad 553 (decide (o11.isSome = false))
  return bad
end Aabb3_103
#guard passes Aabb3_103.run

namespace Aabb3_104
abbrev R := Float32
def run : Res (List Nat) := do
  let mut bad : List Nat := []
  let v1 : R := (0.001 : R)
  let v2 : R := (1.0 : R)
  let v3 : R := (v1 * (5.0 : R))
  let v4 : Coord := (next3D Coord.X)
  let v5 : Coord := (next3D v4)
  let v6 : AABB3 R := (⟨(⟨(-v1), (-v1), (-v1)⟩ : Vec3 R), (⟨v1, v1, v1⟩ : Vec3 R)⟩ : AABB3 R)
  let v7 : R := (0.4 : R)
  let v8 : Vec3 R := (Vec3.moved (Vec3.zero : Vec3 R) Coord.X (if (decide (v2 > (0.0 : R))) then (-v3) else v3))
  let v9 : Vec3 R := (Vec3.moved (Vec3.zero : Vec3 R) Coord.X (if (decide (v2 > (0.0 : R))) then v3 else (-v3)))
  let o10 := (AABB3.hitsLine v6 (⟨(Vec3.moved v8 v4 v3), (Vec3.moved v9 v4 v3)⟩ : Line3 R))
  bad := ck bad 552 (decide (o10.isSome = false))
  let o11 := (AABB3.hitsLine v6 (⟨(Vec3.moved v8 v4 (-v3)), (Vec3.moved v9 v4 (-v3))⟩ : Line3 R))
  bad := ck bad 553 (decide (o11.isSome = false))
  return bad
end Aabb3_104
#guard passes Aabb3_104.run

namespace Aabb3_105
abbrev R := Float32
def run : Res (List Nat) := do
  let mut bad : List Nat := []
  let v1 : R := (0.001 : R)
  let v2 : R := (-(1.0 : R))
  let v3 : R := (v1 * (5.0 : R))
  let v4 : Coord := (next3D Coord.Y)
  let v5 : Coord := (next3D v4)
  let v6 : AABB3 R := (⟨(⟨(-v1), (-v1), (-v1)⟩ : Vec3 R), (⟨v1, v1, v1⟩ : Vec3 R)⟩ : AABB3 R)
  let v7 : R := (0.4 : R)
  let v8 : Vec3 R := (Vec3.moved (Vec3.zero : Vec3 R) Coord.Y (if (decide (v2 > (0.0 : R))) then (-v3) else v3))
  let v9 : Vec3 R := (Vec3.moved (Vec3.zero : Vec3 R) Coord.Y (if (decide (v2 > (0.0 : R))) then v3 else (-v3)))
  let o10 := (AABB3.hitsLine v6 (⟨(Vec3.moved v8 v4 v3), (Vec3.moved v9 v4 v3)⟩ : Line3 R))
  bad := ck bad 552 (decide (o10.isSome = false))
  let o11 := (AABB3.hitsLine v6 (⟨(Vec3.moved v8 v4 (-v3)), (Vec3.moved v9 v4 (-v3))⟩ : Line3 R))
  bad := ck bad 553 (decide (o11.isSome = false))
  return bad
end Aabb3_105
#guard passes Aabb3_105.run

namespace Aabb3_106
abbrev R := Float32
def run : Res (List Nat) := do
  let mut bad : List Nat := []
  let v1 : R := (1000.0 : R)
  let v2 : R := (1.0 : R)
  let v3 : R := (v1 * (5.0 : R))
  let v4 : Coord := (next3D Coord.X)
  let v5 : Coord := (next3D v4)
  let v6 : AABB3 R := (⟨(⟨(-v1), (-v1), (-v1)⟩ : Vec3 R), (⟨v1, v1, v1⟩ : Vec3 R)⟩ : AABB3 R)
  let v7 : R := (0.4 : R)
  let v8 : Vec3 R := (Vec3.moved (Vec3.zero : Vec3 R) Coord.X (if (decide (v2 > (0.0 : R))) then (-v3) else v3))
  let v9 : Vec3 R := (Vec3.moved (Vec3.zero : Vec3 R) Coord.X (if (decide (v2 > (0.0 : R))) then v3 else (-v3)))
  let o10 := (AABB3.hitsLine v6 (⟨(Vec3.moved v8 v4 v3), (Vec3.moved v9 v4 v3)⟩ : Line3 R))
  bad := ck bad 552 (decide (o10.isSome = false))
  let o11 := (AABB3.hitsLine v6 (⟨(Vec3.moved v8 v4 (-v3)), (Vec3.moved v9 v4 (-v3))⟩ : Line3 R))
  bad := ck bad 553 (decide (o11.isSome = false))
  return bad
end Aabb3_106
#guard passes Aabb3_106.run

namespace Aabb3_107
abbrev R := Float32
def run : Res (List Nat) := do
  let mut bad : List Nat := []
  let v1 : R := (1000.0 : R)
  let v2 : R := (-(1.0 : R))
  let v3 : R := (v1 * (5.0 : R))
  let v4 : Coord := (next3D Coord.Y)
  let v5 : Coord := (next3D v4)
  let v6 : AABB3 R := (⟨(⟨(-v1), (-v1), (-v1)⟩ : Vec3 R), (⟨v1, v1, v1⟩ : Vec3 R)⟩ : AABB3 R)
  let v7 : R := (0.4 : R)
  let v8 : Vec3 R := (Vec3.moved (Vec3.zero : Vec3 R) Coord.Y (if (decide (v2 > (0.0 : R))) then (-v3) else v3))
  let v9 : Vec3 R := (Vec3.moved (Vec3.zero : Vec3 R) Coord.Y (if (decide (v2 > (0.0 : R))) then v3 else (-v3)))
  let o10 := (AABB3.hitsLine v6 (⟨(Vec3.moved v8 v4 v3), (Vec3.moved v9 v4 v3)⟩ : Line3 R))
  bad := ck bad 552 (decide (o10.isSome = false))
  let o11 := (AABB3.hitsLine v6 (⟨(Vec3.moved v8 v4 (-v3)), (Vec3.moved v9 v4 (-v3))⟩ : Line3 R))
  bad := ck bad 553 (decide (o11.isSome = false))
  return bad
end Aabb3_107
#guard passes Aabb3_107.run

namespace Aabb3_108
abbrev R := Float32
def run : Res (List Nat) := do
  let mut bad : List Nat := []
  let v1 : R := (1.0 : R)
  let v2 : R := (1.0 : R)
  let v3 : R := (v1 * (5.0 : R))
  let v4 : Coord := (next3D Coord.X)
  let v5 : Coord := (next3D v4)
  let v6 : AABB3 R := (⟨(⟨(-v1), (-v1), (-v1)⟩ : Vec3 R), (⟨v1, v1, v1⟩ : Vec3 R)⟩ : AABB3 R)
  let v7 : R := (0.4 : R)
  let v8 : Vec3 R := (Vec3.moved (Vec3.zero : Vec3 R) Coord.X (if (decide (v2 > (0.0 : R))) then (-v3) else v3))
  let v9 : Vec3 R := (Vec3.moved (Vec3.zero : Vec3 R) Coord.X (if (decide (v2 > (0.0 : R))) then v3 else (-v3)))
  let o10 := (AABB3.hitsLine v6 (⟨(Vec3.moved v8 v5 v3), (Vec3.moved v9 v5 v3)⟩ : Line3 R))
  bad := ck bad 557 (decide (o10.isSome = false))
  let o11 := (AABB3.hitsLine v6 (⟨(Vec3.moved v8 v5 (-v3)), (Vec3.moved v9 v5 (-v3))⟩ : Line3 R))
  bad := ck bad 558 (decide (o11.isSome = false))
  return bad
end Aabb3_108
#guard passes Aabb3_108.run

namespace Aabb3_109
abbrev R := Float32
def run : Res (List Nat) := do
  let mut bad : List Nat := []
  let v1 : R := (1.0 : R)
  let v2 : R := (-(1.0 : R))
  let v3 : R := (v1 * (5.0 : R))
  let v4 : Coord := (next3D Coord.Y)
  let v5 : Coord := (next3D v4)
  let v6 : AABB3 R := (⟨(⟨(-v1), (-v1), (-v1)⟩ : Vec3 R), (⟨v1, v1, v1⟩ : Vec3 R)⟩ : AABB3 R)
  let v7 : R := (0.4 : R)
  let v8 : Vec3 R := (Vec3.moved (Vec3.zero : Vec3 R) Coord.Y (if (decide (v2 > (0.0 : R))) then (-v3) else v3))
  let v9 : Vec3 R := (Vec3.moved (Vec3.zero : Vec3 R) Coord.Y (if (decide (v2 > (0.0 : R))) then v3 else (-v3)))
  let o10 := (AABB3.hitsLine v6 (⟨(Vec3.moved v8 v5 v3), (Vec3.moved v9 v5 v3)⟩ : Line3 R))
  bad := ck bad 557 (decide (o10.isSome = false))
  let o11 := (AABB3.hitsLine v6 (⟨(Vec3.moved v8 v5 (-v3)), (Vec3.moved v9 v5 (-v3))⟩ : Line3 R))
  bad := ck bad 558 (decide (o11.isSome = false))
  return bad
end Aabb3_109
#guard passes Aabb3_109.run

namespace Aabb3_110
abbrev R := Float32
def run : Res (List Nat) := do
  let mut bad : List Nat := []
  let v1 : R := (0.001 : R)
  let v2 : R := (1.0 : R)
  let v3 : R := (v1 * (5.0 : R))
  let v4 : Coord := (next3D Coord.X)
  let v5 : Coord := (next3D v4)
  let v6 : AABB3 R := (⟨(⟨(-v1), (-v1), (-v1)⟩ : Vec3 R), (⟨v1, v1, v1⟩ : Vec3 R)⟩ : AABB3 R)
  let v7 : R := (0.4 : R)
  let v8 : Vec3 R := (Vec3.moved (Vec3.zero : Vec3 R) Coord.X (if (decide (v2 > (0.0 : R))) then (-v3) else v3))
  let v9 : Vec3 R := (Vec3.moved (Vec3.zero : Vec3 R) Coord.X (if (decide (v2 > (0.0 : R))) then v3 else (-v3)))
  let o10 := (AABB3.hitsLine v6 (⟨(Vec3.moved v8 v5 v3), (Vec3.moved v9 v5 v3)⟩ : Line3 R))
  bad := ck bad 557 (decide (o10.isSome = false))
  let o11 := (AABB3.hitsLine v6 (⟨(Vec3.moved v8 v5 (-v3)), (Vec3.moved v9 v5 (-v3))⟩ : Line3 R))
  bad := ck bad 558 (decide (o11.isSome = false))
  return bad
end Aabb3_110
#guard passes Aabb3_110.run

namespace Aabb3_111
abbrev R := Float32
def run : Res (List Nat) := do
  let mut bad : List Nat := []
  let v1 : R := (0.001 : R)
  let v2 : R := (-(1.0 : R))
  let v3 : R := (v1 * (5.0 : R))
  let v4 : Coord := (next3D Coord.Y)
  let v5 : Coord := (next3D v4)
  let v6 : AABB3 R := (⟨(⟨(-v1), (-v1), (-v1)⟩ : Vec3 R), (⟨v1, v1, v1⟩ : Vec3 R)⟩ : AABB3 R)
  let v7 : R := (0.4 : R)
  let v8 : Vec3 R := (Vec3.moved (Vec3.zero : Vec3 R) Coord.Y (if (decide (v2 > (0.0 : R))) then (-v3) else v3))
  let v9 : Vec3 R := (Vec3.moved (Vec3.zero : Vec3 R) Coord.Y (if (decide (v2 > (0.0 : R))) then v3 else (-v3)))
  let o10 := (AABB3.hitsLine v6 (⟨(Vec3.moved v8 v5 v3), (Vec3.moved v9 v5 v3)⟩ : Line3 R))
  bad := ck bad 557 (decide (o10.isSome = false))
  let o11 := (AABB3.hitsLine v6 (⟨(Vec3.moved v8 v5 (-v3)), (Vec3.moved v9 v5 (-v3))⟩ : Line3 R))
  bad := ck bad 558 (decide (o11.isSome = false))
  return bad
end Aabb3_111
#guard passes Aabb3_111.run

namespace Aabb3_112
abbrev R := Float32
def run : Res (List Nat) := do
  let mut bad : List Nat := []
  let v1 : R := (1000.0 : R)
  let v2 : R := (1.0 : R)
  let v3 : R := (v1 * (5.0 : R))
  let v4 : Coord := (next3D Coord.X)
  let v5 : Coord := (next3D v4)
  let v6 : AABB3 R := (⟨(⟨(-v1), (-v1), (-v1)⟩ : Vec3 R), (⟨v1, v1, v1⟩ : Vec3 R)⟩ : AABB3 R)
  let v7 : R := (0.4 : R)
  let v8 : Vec3 R := (Vec3.moved (Vec3.zero : Vec3 R) Coord.X (if (decide (v2 > (0.0 : R))) then (-v3) else v3))
  let v9 : Vec3 R := (Vec3.moved (Vec3.zero : Vec3 R) Coord.X (if (decide (v2 > (0.0 : R))) then v3 else (-v3)))
  let o10 := (AABB3.hitsLine v6 (⟨(Vec3.moved v8 v5 v3), (Vec3.moved v9 v5 v3)⟩ : Line3 R))
  bad := ck bad 557 (decide (o10.isSome = false))
  let o11 := (AABB3.hitsLine v6 (⟨(Vec3.moved v8 v5 (-v3)), (Vec3.moved v9 v5 (-v3))⟩ : Line3 R))
  bad := ck bad 558 (decide (o11.isSome = false))
  return bad
end Aabb3_112
#guard passes Aabb3_112.run

namespace Aabb3_113
abbrev R := Float32
def run : Res (List Nat) := do
  let mut bad : List Nat := []
  let v1 : R := (1000.0 : R)
  let v2 : R := (-(1.0 : R))
  let v3 : R := (v1 * (5.0 : R))
  let v4 : Coord := (next3D Coord.Y)
  let v5 : Coord := (next3D v4)
  let v6 : AABB3 R := (⟨(⟨(-v1), (-v1), (-v1)⟩ : Vec3 R), (⟨v1, v1, v1⟩ : Vec3 R)⟩ : AABB3 R)
  let v7 : R := (0.4 : R)
  let v8 : Vec3 R := (Vec3.moved (Vec3.zero : Vec3 R) Coord.Y (if (decide (v2 > (0.0 : R))) then (-v3) else v3))
  let v9 : Vec3 R := (Vec3.moved (Vec3.zero : Vec3 R) Coord.Y (if (decide (v2 > (0.0 : R))) then v3 else (-v3)))
  let o10 := (AABB3.hitsLine v6 (⟨(Vec3.moved v8 v5 v3), (Vec3.moved v9 v5 v3)⟩ : Line3 R))
  bad := ck bad 557 (decide (o10.isSome = false))
  let o11 := (AABB3.hitsLine v6 (⟨(Vec3.moved v8 v5 (-v3)), (Vec3.moved v9 v5 (-v3))⟩ : Line3 R))
  bad := ck bad 558 (decide (o11.isSome = false))
  return bad
end Aabb3_113
#guard passes Aabb3_113.run

namespace Aabb3_114
abbrev R := Float32
def run : Res (List Nat) := do
  let mut bad : List Nat := []
  let v1 : R := (1.0 : R)
  let v2 : R := (1.0 : R)
  let v3 : R := (v1 * (5.0 : R))
  let v4 : Coord := (next3D Coord.X)
  let v5 : Coord := (next3D v4)
  let v6 : AABB3 R := (⟨(⟨(-v1), (-v1), (-v1)⟩ : Vec3 R), (⟨v1, v1, v1⟩ : Vec3 R)⟩ : AABB3 R)
  let v7 : Vec3 R := (Vec3.zero : Vec3 R)
  let v8 : Vec3 R := (Vec3.moved (Vec3.zero : Vec3 R) Coord.X (if (decide (v2 > (0.0 : R))) then v3 else (-v3)))
  let o9 := (AABB3.hitsLine v6 (⟨v7, v8⟩ : Line3 R))
  bad := ck bad 568 (decide (o9.isSome = false))
  return bad
end Aabb3_114
#guard passes Aabb3_114.run

namespace Aabb3_115
abbrev R := Float32
def run : Res (List Nat) := do
  let mut bad : List Nat := []
  let v1 : R := (1.0 : R)
  let v2 : R := (-(1.0 : R))
  let v3 : R := (v1 * (5.0 : R))
  let v4 : Coord := (next3D Coord.Y)
  let v5 : Coord := (next3D v4)
  let v6 : AABB3 R := (⟨(⟨(-v1), (-v1), (-v1)⟩ : Vec3 R), (⟨v1, v1, v1⟩ : Vec3 R)⟩ : AABB3 R)
  let v7 : Vec3 R := (Vec3.zero : Vec3 R)
  let v8 : Vec3 R := (Vec3.moved (Vec3.zero : Vec3 R) Coord.Y (if (decide (v2 > (0.0 : R))) then v3 else (-v3)))
  let o9 := (AABB3.hitsLine v6 (⟨v7, v8⟩ : Line3 R))
  bad := ck bad 568 (decide (o9.isSome = false))
  return bad
end Aabb3_115
#guard passes Aabb3_115.run

namespace Aabb3_116
abbrev R := Float32
def run : Res (List Nat) := do
  let mut bad : List Nat := []
  let v1 : R := (0.001 : R)
  let v2 : R := (1.0 : R)
  let v3 : R := (v1 * (5.0 : R))
  let v4 : Coord := (next3D Coord.X)
  let v5 : Coord := (next3D v4)
  let v6 : AABB3 R := (⟨(⟨(-v1), (-v1), (-v1)⟩ : Vec3 R), (⟨v1, v1, v1⟩ : Vec3 R)⟩ : AABB3 R)
  let v7 : Vec3 R := (Vec3.zero : Vec3 R)
  let v8 : Vec3 R := (Vec3.moved (Vec3.zero : Vec3 R) Coord.X (if (decide (v2 > (0.0 : R))) then v3 else (-v3)))
  let o9 := (AABB3.hitsLine v6 (⟨v7, v8⟩ : Line3 R))
  bad := ck bad 568 (decide (o9.isSome = false))
  return bad
end Aabb3_116
#guard passes Aabb3_116.run

namespace Aabb3_117
abbrev R := Float32
def run : Res (List Nat) := do
  let mut bad : List Nat := []
  let v1 : R := (0.001 : R)
  let v2 : R := (-(1.0 : R))
  let v3 : R := (v1 * (5.0 : R))
  let v4 : Coord := (next3D Coord.Y)
  let v5 : Coord := (next3D v4)
  let v6 : AABB3 R := (⟨(⟨(-v1), (-v1), (-v1)⟩ : Vec3 R), (⟨v1, v1, v1⟩ : Vec3 R)⟩ : AABB3 R)
  let v7 : Vec3 R := (Vec3.zero : Vec3 R)
  let v8 : Vec3 R := (Vec3.moved (Vec3.zero : Vec3 R) Coord.Y (if (decide (v2 > (0.0 : R))) then v3 else (-v3)))
  let o9 := (AABB3.hitsLine v6 (⟨v7, v8⟩ : Line3 R))
  bad := ck bad 568 (decide (o9.isSome = false))
  return bad
end Aabb3_117
#guard passes Aabb3_117.run

namespace Aabb3_118
abbrev R := Float32
def run : Res (List Nat) := do
  let mut bad : List Nat := []
  let v1 : R := (1000.0 : R)
  let v2 : R := (1.0 : R)
  let v3 : R := (v1 * (5.0 : R))
  let v4 : Coord := (next3D Coord.X)
  let v5 : Coord := (next3D v4)
  let v6 : AABB3 R := (⟨(⟨(-v1), (-v1), (-v1)⟩ : Vec3 R), (⟨v1, v1, v1⟩ : Vec3 R)⟩ : AABB3 R)
  let v7 : Vec3 R := (Vec3.zero : Vec3 R)
  let v8 : Vec3 R := (Vec3.moved (Vec3.zero : Vec3 R) Coord.X (if (decide (v2 > (0.0 : R))) then v3 else (-v3)))
  let o9 := (AABB3.hitsLine v6 (⟨v7, v8⟩ : Line3 R))
  bad := ck bad 568 (decide (o9.isSome = false))
  return bad
end Aabb3_118
#guard passes Aabb3_118.run

namespace Aabb3_119
abbrev R := Float32
def run : Res (List Nat) := do
  let mut bad : List Nat := []
  let v1 : R := (1000.0 : R)
  let v2 : R := (-(1.0 : R))
  let v3 : R := (v1 * (5.0 : R))
  let v4 : Coord := (next3D Coord.Y)
  let v5 : Coord := (next3D v4)
  let v6 : AABB3 R := (⟨(⟨(-v1), (-v1), (-v1)⟩ : Vec3 R), (⟨v1, v1, v1⟩ : Vec3 R)⟩ : AABB3 R)
  let v7 : Vec3 R := (Vec3.zero : Vec3 R)
  let v8 : Vec3 R := (Vec3.moved (Vec3.zero : Vec3 R) Coord.Y (if (decide (v2 > (0.0 : R))) then v3 else (-v3)))
  let o9 := (AABB3.hitsLine v6 (⟨v7, v8⟩ : Line3 R))
  bad := ck bad 568 (decide (o9.isSome = false))
  return bad
end Aabb3_119
#guard passes Aabb3_119.run

namespace Aabb3_120
abbrev R := Float32
def run : Res (List Nat) := do
  let mut bad : List Nat := []
  let v1 : R := (1.0 : R)
  let v2 : R := (1.0 : R)
  let v3 : R := (v1 * (5.0 : R))
  let v4 : Coord := (next3D Coord.X)
  let v5 : Coord := (next3D v4)
  let v6 : AABB3 R := (⟨(⟨(-v1), (-v1), (-v1)⟩ : Vec3 R), (⟨v1, v1, v1⟩ : Vec3 R)⟩ : AABB3 R)
  let v7 : Vec3 R := (Vec3.zero : Vec3 R)
  let v8 : Vec3 R := (Vec3.moved (Vec3.zero : Vec3 R) Coord.X (if (decide (v2 > (0.0 : R))) then v3 else (-v3)))
  let o9 := (AABB3.hitsLine v6 (⟨(Vec3.moved v7 v4 v3), (Vec3.moved v8 v4 v3)⟩ : Line3 R))
  bad := ck bad 572 (decide (o9.isSome = false))
  let o10 := (AABB3.hitsLine v6 (⟨(Vec3.moved v7 v4 (-v3)), (Vec3.moved v8 v4 (-v3))⟩ : Line3 R))
  bad := ck bad 573 (decide (o10.isSome = false))
  return bad
end Aabb3_120
#guard passes Aabb3_120.run

namespace Aabb3_121
abbrev R := Float32
def run : Res (List Nat) := do
  let mut bad : List Nat := []
  let v1 : R := (1.0 : R)
  let v2 : R := (-(1.0 : R))
  let v3 : R := (v1 * (5.0 : R))
  let v4 : Coord := (next3D Coord.Y)
  let v5 : Coord := (next3D v4)
  let v6 : AABB3 R := (⟨(⟨(-v1), (-v1), (-v1)⟩ : Vec3 R), (⟨v1, v1, v1⟩ : Vec3 R)⟩ : AABB3 R)
  let v7 : Vec3 R := (Vec3.zero : Vec3 R)
  let v8 : Vec3 R := (Vec3.moved (Vec3.zero : Vec3 R) Coord.Y (if (decide (v2 > (0.0 : R))) then v3 else (-v3)))
  let o9 := (AABB3.hitsLine v6 (⟨(Vec3.moved v7 v4 v3), (Vec3.moved v8 v4 v3)⟩ : Line3 R))
  bad := ck bad 572 (decide (o9.isSome = false))
  let o10 := (AABB3.hitsLine v6 (⟨(Vec3.moved v7 v4 (-v3)), (Vec3.moved v8 v4 (-v3))⟩ : Line3 R))
  bad := ck bad 573 (decide (o10.isSome = false))
  return bad
end Aabb3_121
#guard passes Aabb3_121.run

namespace Aabb3_122
abbrev R := Float32
def run : Res (List Nat) := do
  let mut bad : List Nat := []
  let v1 : R := (0.001 : R)
  let v2 : R := (1.0 : R)
  let v3 : R := (v1 * (5.0 : R))
  let v4 : Coord := (next3D Coord.X)
  let v5 : Coord := (next3D v4)
  let v6 : AABB3 R := (⟨(⟨(-v1), (-v1), (-v1)⟩ : Vec3 R), (⟨v1, v1, v1⟩ : Vec3 R)⟩ : AABB3 R)
  let v7 : Vec3 R := (Vec3.zero : Vec3 R)
  let v8 : Vec3 R := (Vec3.moved (Vec3.zero : Vec3 R) Coord.X (if (decide (v2 > (0.0 : R))) then v3 else (-v3)))
  let o9 := (AABB3.hitsLine v6 (⟨(Vec3.moved v7 v4 v3), (Vec3.moved v8 v4 v3)⟩ : Line3 R))
  bad := ck bad 572 (decide (o9.isSome = false))
  let o10 := (AABB3.hitsLine v6 (⟨(Vec3.moved v7 v4 (-v3)), (Vec3.moved v8 v4 (-v3))⟩ : Line3 R))
  bad := ck bad 573 (decide (o10.isSome = false))
  return bad
end Aabb3_122
#guard passes Aabb3_122.run

namespace Aabb3_123
abbrev R := Float32
def run : Res (List Nat) := do
  let mut bad : List Nat := []
  let v1 : R := (0.001 : R)
  let v2 : R := (-(1.0 : R))
  let v3 : R := (v1 * (5.0 : R))
  let v4 : Coord := (next3D Coord.Y)
  let v5 : Coord := (next3D v4)
  let v6 : AABB3 R := (⟨(⟨(-v1), (-v1), (-v1)⟩ : Vec3 R), (⟨v1, v1, v1⟩ : Vec3 R)⟩ : AABB3 R)
  let v7 : Vec3 R := (Vec3.zero : Vec3 R)
  let v8 : Vec3 R := (Vec3.moved (Vec3.zero : Vec3 R) Coord.Y (if (decide (v2 > (0.0 : R))) then v3 else (-v3)))
  let o9 := (AABB3.hitsLine v6 (⟨(Vec3.moved v7 v4 v3), (Vec3.moved v8 v4 v3)⟩ : Line3 R))
  bad := ck bad 572 (decide (o9.isSome = false))
  let o10 := (AABB3.hitsLine v6 (⟨(Vec3.moved v7 v4 (-v3)), (Vec3.moved v8 v4 (-v3))⟩ : Line3 R))
  bad := ck bad 573 (decide (o10.isSome = false))
  return bad
end Aabb3_123
#guard passes Aabb3_123.run

namespace Aabb3_124
abbrev R := Float32
def run : Res (List Nat) := do
  let mut bad : List Nat := []
  let v1 : R := (1000.0 : R)
  let v2 : R := (1.0 : R)
  let v3 : R := (v1 * (5.0 : R))
  let v4 : Coord := (next3D Coord.X)
  let v5 : Coord := (next3D v4)
  let v6 : AABB3 R := (⟨(⟨(-v1), (-v1), (-v1)⟩ : Vec3 R), (⟨v1, v1, v1⟩ : Vec3 R)⟩ : AABB3 R)
  let v7 : Vec3 R := (Vec3.zero : Vec3 R)
  let v8 : Vec3 R := (Vec3.moved (Vec3.zero : Vec3 R) Coord.X (if (decide (v2 > (0.0 : R))) then v3 else (-v3)))
  let o9 := (AABB3.hitsLine v6 (⟨(Vec3.moved v7 v4 v3), (Vec3.moved v8 v4 v3)⟩ : Line3 R))
  bad := ck bad 572 (decide (o9.isSome = false))
  let o10 := (AABB3.hitsLine v6 (⟨(Vec3.moved v7 v4 (-v3)), (Vec3.moved v8 v4 (-v3))⟩ : Line3 R))
  bad := ck bad 573 (decide (o10.isSome = false))
  return bad
end Aabb3_124
#guard passes Aabb3_124.run

namespace Aabb3_125
abbrev R := Float32
def run : Res (List Nat) := do
  let mut bad : List Nat := []
  let v1 : R := (1000.0 : R)
  let v2 : R := (-(1.0 : R))
  let v3 : R := (v1 * (5.0 : R))
  let v4 : Coord := (next3D Coord.Y)
  let v5 : Coord := (next3D v4)
  let v6 : AABB3 R := (⟨(⟨(-v1), (-v1), (-v1)⟩ : Vec3 R), (⟨v1, v1, v1⟩ : Vec3 R)⟩ : AABB3 R)
  let v7 : Vec3 R := (Vec3.zero : Vec3 R)
  let v8 : Vec3 R := (Vec3.moved (Vec3.zero : Vec3 R) Coord.Y (if (decide (v2 > (0.0 : R))) then v3 else (-v3)))
  let o9 := (AABB3.hitsLine v6 (⟨(Vec3.moved v7 v4 v3), (Vec3.moved v8 v4 v3)⟩ : Line3 R))
  bad := ck bad 572 (decide (o9.isSome = false))
  let o10 := (AABB3.hitsLine v6 (⟨(Vec3.moved v7 v4 (-v3)), (Vec3.moved v8 v4 (-v3))⟩ : Line3 R))
  bad := ck bad 573 (decide (o10.isSome = false))
  return bad
end Aabb3_125
#guard passes Aabb3_125.run

namespace Aabb3_126
abbrev R := Float32
def run : Res (List Nat) := do
  let mut bad : List Nat := []
  let v1 : R := (1.0 : R)
  let v2 : R := (1.0 : R)
  let v3 : R := (v1 * (5.0 : R))
  let v4 : Coord := (next3D Coord.X)
  let v5 : Coord := (next3D v4)
  let v6 : AABB3 R := (⟨(⟨(-v1), (-v1), (-v1)⟩ : Vec3 R), (⟨v1, v1, v1⟩ : Vec3 R)⟩ : AABB3 R)
  let v7 : Vec3 R := (Vec3.zero : Vec3 R)
  let v8 : Vec3 R := (Vec3.moved (Vec3.zero : Vec3 R) Coord.X (if (decide (v2 > (0.0 : R))) then v3 else (-v3)))
  let o9 := (AABB3.hitsLine v6 (⟨(Vec3.moved v7 v5 v3), (Vec3.moved v8 v5 v3)⟩ : Line3 R))
  bad := ck bad 577 (decide (o9.isSome = false))
  let o10 := (AABB3.hitsLine v6 (⟨(Vec3.moved v7 v5 (-v3)), (Vec3.moved v8 v5 (-v3))⟩ : Line3 R))
  bad := ck bad 578 (decide (o10.isSome = false))
  return bad
end Aabb3_126
#guard passes Aabb3_126.run

namespace Aabb3_127
abbrev R := Float32
def run : Res (List Nat) := do
  let mut bad : List Nat := []
  let v1 : R := (1.0 : R)
  let v2 : R := (-(1.0 : R))
  let v3 : R := (v1 * (5.0 : R))
  let v4 : Coord := (next3D Coord.Y)
  let v5 : Coord := (next3D v4)
  let v6 : AABB3 R := (⟨(⟨(-v1), (-v1), (-v1)⟩ : Vec3 R), (⟨v1, v1, v1⟩ : Vec3 R)⟩ : AABB3 R)
  let v7 : Vec3 R := (Vec3.zero : Vec3 R)
  let v8 : Vec3 R := (Vec3.moved (Vec3.zero : Vec3 R) Coord.Y (if (decide (v2 > (0.0 : R))) then v3 else (-v3)))
  let o9 := (AABB3.hitsLine v6 (⟨(Vec3.moved v7 v5 v3), (Vec3.moved v8 v5 v3)⟩ : Line3 R))
  bad := ck bad 577 (decide (o9.isSome = false))
  let o10 := (AABB3.hitsLine v6 (⟨(Vec3.moved v7 v5 (-v3)), (Vec3.moved v8 v5 (-v3))⟩ : Line3 R))
  bad := ck bad 578 (decide (o10.isSome = false))
  return bad
end Aabb3_127
#guard passes Aabb3_127.run

namespace Aabb3_128
abbrev R := Float32
def run : Res (List Nat) := do
  let mut bad : List Nat := []
  let v1 : R := (0.001 : R)
  let v2 : R := (1.0 : R)
  let v3 : R := (v1 * (5.0 : R))
  let v4 : Coord := (next3D Coord.X)
  let v5 : Coord := (next3D v4)
  let v6 : AABB3 R := (⟨(⟨(-v1), (-v1), (-v1)⟩ : Vec3 R), (⟨v1, v1, v1⟩ : Vec3 R)⟩ : AABB3 R)
  let v7 : Vec3 R := (Vec3.zero : Vec3 R)
  let v8 : Vec3 R := (Vec3.moved (Vec3.zero : Vec3 R) Coord.X (if (decide (v2 > (0.0 : R))) then v3 else (-v3)))
  let o9 := (AABB3.hitsLine v6 (⟨(Vec3.moved v7 v5 v3), (Vec3.moved v8 v5 v3)⟩ : Line3 R))
  bad := ck bad 577 (decide (o9.isSome = false))
  let o10 := (AABB3.hitsLine v6 (⟨(Vec3.moved v7 v5 (-v3)), (Vec3.moved v8 v5 (-v3))⟩ : Line3 R))
  bad := ck bad 578 (decide (o10.isSome = false))
  return bad
end Aabb3_128
#guard passes Aabb3_128.run

namespace Aabb3_129
abbrev R := Float32
def run : Res (List Nat) := do
  let mut bad : List Nat := []
  let v1 : R := (0.001 : R)
  let v2 : R := (-(1.0 : R))
  let v3 : R := (v1 * (5.0 : R))
  let v4 : Coord := (next3D Coord.Y)
  let v5 : Coord := (next3D v4)
  let v6 : AABB3 R := (⟨(⟨(-v1), (-v1), (-v1)⟩ : Vec3 R), (⟨v1, v1, v1⟩ : Vec3 R)⟩ : AABB3 R)
  let v7 : Vec3 R := (Vec3.zero : Vec3 R)
  let v8 : Vec3 R := (Vec3.moved (Vec3.zero : Vec3 R) Coord.Y (if (decide (v2 > (0.0 : R))) then v3 else (-v3)))
  let o9 := (AABB3.hitsLine v6 (⟨(Vec3.moved v7 v5 v3), (Vec3.moved v8 v5 v3)⟩ : Line3 R))
  bad := ck bad 577 (decide (o9.isSome = false))
  let o10 := (AABB3.hitsLine v6 (⟨(Vec3.moved v7 v5 (-v3)), (Vec3.moved v8 v5 (-v3))⟩ : Line3 R))
  bad := ck bad 578 (decide (o10.isSome = false))
  return bad
end Aabb3_129
#guard passes Aabb3_129.run

namespace Aabb3_130
abbrev R := Float32
def run : Res (List Nat) := do
  let mut bad : List Nat := []
  let v1 : R := (1000.0 : R)
  let v2 : R := (1.0 : R)
  let v3 : R := (v1 * (5.0 : R))
  let v4 : Coord := (next3D Coord.X)
  let v5 : Coord := (next3D v4)
  let v6 : AABB3 R := (⟨(⟨(-v1), (-v1), (-v1)⟩ : Vec3 R), (⟨v1, v1, v1⟩ : Vec3 R)⟩ : AABB3 R)
  let v7 : Vec3 R := (Vec3.zero : Vec3 R)
  let v8 : Vec3 R := (Vec3.moved (Vec3.zero : Vec3 R) Coord.X (if (decide (v2 > (0.0 : R))) then v3 else (-v3)))
  let o9 := (AABB3.hitsLine v6 (⟨(Vec3.moved v7 v5 v3), (Vec3.moved v8 v5 v3)⟩ : Line3 R))
  bad := ck bad 577 (decide (o9.isSome = false))
  let o10 := (AABB3.hitsLine v6 (⟨(Vec3.moved v7 v5 (-v3)), (Vec3.moved v8 v5 (-v3))⟩ : Line3 R))
  bad := ck bad 578 (decide (o10.isSome = false))
  return bad
end Aabb3_130
#guard passes Aabb3_130.run

namespace Aabb3_131
abbrev R := Float32
def run : Res (List Nat) := do
  let mut bad : List Nat := []
  let v1 : R := (1000.0 : R)
  let v2 : R := (-(1.0 : R))
  let v3 : R := (v1 * (5.0 : R))
  let v4 : Coord := (next3D Coord.Y)
  let v5 : Coord := (next3D v4)
  let v6 : AABB3 R := (⟨(⟨(-v1), (-v1), (-v1)⟩ : Vec3 R), (⟨v1, v1, v1⟩ : Vec3 R)⟩ : AABB3 R)
  let v7 : Vec3 R := (Vec3.zero : Vec3 R)
  let v8 : Vec3 R := (Vec3.moved (Vec3.zero : Vec3 R) Coord.Y (if (decide (v2 > (0.0 : R))) then v3 else (-v3)))
  let o9 := (AABB3.hitsLine v6 (⟨(Vec3.moved v7 v5 v3), (Vec3.moved v8 v5 v3)⟩ : Line3 R))
  bad := ck bad 577 (decide (o9.isSome = false))
  let o10 := (AABB3.hitsLine v6 (⟨(Vec3.moved v7 v5 (-v3)), (Vec3.moved v8 v5 (-v3))⟩ : Line3 R))
  bad := ck bad 578 (decide (o10.isSome = false))
  return bad
end Aabb3_131
#guard passes Aabb3_131.run

namespace Aabb3_132
abbrev R := Float32
def run : Res (List Nat) := do
  let mut bad : List Nat := []
  let v1 : R := (1.0 : R)
  let v2 : R := (1.0 : R)
  let v3 : R := (v1 * (5.0 : R))
  let v4 : Coord := (next3D Coord.X)
  let v5 : Coord := (next3D v4)
  let v6 : AABB3 R := (⟨(⟨(-v1), (-v1), (-v1)⟩ : Vec3 R), (⟨v1, v1, v1⟩ : Vec3 R)⟩ : AABB3 R)
  let v7 : R := (0.8 : R)
  let v8 : Vec3 R := (Vec3.moved (Vec3.zero : Vec3 R) Coord.X (if (decide (v2 > (0.0 : R))) then (-v3) else v3))
  let v9 : Vec3 R := (Vec3.zero : Vec3 R)
  let o10 := (AABB3.hitsLine v6 (⟨v8, v9⟩ : Line3 R))
  bad := ck bad 590 (decide (o10.isSome = true))
  bad := ck bad 591 (nearRel (0.0001 : R) (o10.getD (0)) v7)
  return bad
end Aabb3_132
#guard passes Aabb3_132.run

namespace Aabb3_133
abbrev R := Float32
def run : Res (List Nat) := do
  let mut bad : List Nat := []
  let v1 : R := (1.0 : R)
  let v2 : R := (-(1.0 : R))
  let v3 : R := (v1 * (5.0 : R))
  let v4 : Coord := (next3D Coord.Y)
  let v5 : Coord := (next3D v4)
  let v6 : AABB3 R := (⟨(⟨(-v1), (-v1), (-v1)⟩ : Vec3 R), (⟨v1, v1, v1⟩ : Vec3 R)⟩ : AABB3 R)
  let v7 : R := (0.8 : R)
  let v8 : Vec3 R := (Vec3.moved (Vec3.zero : Vec3 R) Coord.Y (if (decide (v2 > (0.0 : R))) then (-v3) else v3))
  let v9 : Vec3 R := (Vec3.zero : Vec3 R)
  let o10 := (AABB3.hitsLine v6 (⟨v8, v9⟩ : Line3 R))
  bad := ck bad 590 (decide (o10.isSome = true))
  bad := ck bad 591 (nearRel (0.0001 : R) (o10.getD (0)) v7)
  return bad
end Aabb3_133
#guard passes Aabb3_133.run

namespace Aabb3_134
abbrev R := Float32
def run : Res (List Nat) := do
  let mut bad : List Nat := []
  let v1 : R := (0.001 : R)
  let v2 : R := (1.0 : R)
  let v3 : R := (v1 * (5.0 : R))
  let v4 : Coord := (next3D Coord.X)
  let v5 : Coord := (next3D v4)
  let v6 : AABB3 R := (⟨(⟨(-v1), (-v1), (-v1)⟩ : Vec3 R), (⟨v1, v1, v1⟩ : Vec3 R)⟩ : AABB3 R)
  let v7 : R := (0.8 : R)
  let v8 : Vec3 R := (Vec3.moved (Vec3.zero : Vec3 R) Coord.X (if (decide (v2 > (0.0 : R))) then (-v3) else v3))
  let v9 : Vec3 R := (Vec3.zero : Vec3 R)
  let o10 := (AABB3.hitsLine v6 (⟨v8, v9⟩ : Line3 R))
  bad := ck bad 590 (decide (o10.isSome = true))
  bad := ck bad 591 (nearRel (0.0001 : R) (o10.getD (0)) v7)
  return bad
end Aabb3_134
#guard passes Aabb3_134.run

namespace Aabb3_135
abbrev R := Float32
def run : Res (List Nat) := do
  let mut bad : List Nat := []
  let v1 : R := (0.001 : R)
  let v2 : R := (-(1.0 : R))
  let v3 : R := (v1 * (5.0 : R))
  let v4 : Coord := (next3D Coord.Y)
  let v5 : Coord := (next3D v4)
  let v6 : AABB3 R := (⟨(⟨(-v1), (-v1), (-v1)⟩ : Vec3 R), (⟨v1, v1, v1⟩ : Vec3 R)⟩ : AABB3 R)
  let v7 : R := (0.8 : R)
  let v8 : Vec3 R := (Vec3.moved (Vec3.zero : Vec3 R) Coord.Y (if (decide (v2 > (0.0 : R))) then (-v3) else v3))
  let v9 : Vec3 R := (Vec3.zero : Vec3 R)
  let o10 := (AABB3.hitsLine v6 (⟨v8, v9⟩ : Line3 R))
  bad := ck bad 590 (decide (o10.isSome = true))
  bad := ck bad 591 (nearRel (0.0001 : R) (o10.getD (0)) v7)
  return bad
end Aabb3_135
#guard passes Aabb3_135.run

namespace Aabb3_136
abbrev R := Float32
def run : Res (List Nat) := do
  let mut bad : List Nat := []
  let v1 : R := (1000.0 : R)
  let v2 : R := (1.0 : R)
  let v3 : R := (v1 * (5.0 : R))
  let v4 : Coord := (next3D Coord.X)
  let v5 : Coord := (next3D v4)
  let v6 : AABB3 R := (⟨(⟨(-v1), (-v1), (-v1)⟩ : Vec3 R), (⟨v1, v1, v1⟩ : Vec3 R)⟩ : AABB3 R)
  let v7 : R := (0.8 : R)
  let v8 : Vec3 R := (Vec3.moved (Vec3.zero : Vec3 R) Coord.X (if (decide (v2 > (0.0 : R))) then (-v3) else v3))
  let v9 : Vec3 R := (Vec3.zero : Vec3 R)
  let o10 := (AABB3.hitsLine v6 (⟨v8, v9⟩ : Line3 R))
  bad := ck bad 590 (decide (o10.isSome = true))
  bad := ck bad 591 (nearRel (0.0001 : R) (o10.getD (0)) v7)
  return bad
end Aabb3_136
#guard passes Aabb3_136.run

namespace Aabb3_137
abbrev R := Float32
def run : Res (List Nat) := do
  let mut bad : List Nat := []
  let v1 : R := (1000.0 : R)
  let v2 : R := (-(1.0 : R))
  let v3 : R := (v1 * (5.0 : R))
  let v4 : Coord := (next3D Coord.Y)
  let v5 : Coord := (next3D v4)
  let v6 : AABB3 R := (⟨(⟨(-v1), (-v1), (-v1)⟩ : Vec3 R), (⟨v1, v1, v1⟩ : Vec3 R)⟩ : AABB3 R)
  let v7 : R := (0.8 : R)
  let v8 : Vec3 R := (Vec3.moved (Vec3.zero : Vec3 R) Coord.Y (if (decide (v2 > (0.0 : R))) then (-v3) else v3))
  let v9 : Vec3 R := (Vec3.zero : Vec3 R)
  let o10 := (AABB3.hitsLine v6 (⟨v8, v9⟩ : Line3 R))
  bad := ck bad 590 (decide (o10.isSome = true))
  bad := ck bad 591 (nearRel (0.0001 : R) (o10.getD (0)) v7)
  return bad
end Aabb3_137
#guard passes Aabb3_137.run

namespace Aabb3_138
abbrev R := Float32
def run : Res (List Nat) := do
  let mut bad : List Nat := []
  let v1 : R := (1.0 : R)
  let v2 : R := (1.0 : R)
  let v3 : R := (v1 * (5.0 : R))
  let v4 : Coord := (next3D Coord.X)
  let v5 : Coord := (next3D v4)
  let v6 : AABB3 R := (⟨(⟨(-v1), (-v1), (-v1)⟩ : Vec3 R), (⟨v1, v1, v1⟩ : Vec3 R)⟩ : AABB3 R)
  let v7 : R := (0.8 : R)
  let v8 : Vec3 R := (Vec3.moved (Vec3.zero : Vec3 R) Coord.X (if (decide (v2 > (0.0 : R))) then (-v3) else v3))
  let v9 : Vec3 R := (Vec3.zero : Vec3 R)
  let o10 := (AABB3.hitsLine v6 (⟨(Vec3.moved v8 v4 v3), (Vec3.moved v9 v4 v3)⟩ : Line3 R))
  bad := ck bad 595 (decide (o10.isSome = false))
  let o11 := (AABB3.hitsLine v6 (⟨(Vec3.moved v8 v4 (-v3)), (Vec3.moved v9 v4 (-v3))⟩ : Line3 R))
  bad := ck bad 596 (decide (o11.isSome = false))
  return bad
end Aabb3_138
#guard passes Aabb3_138.run

namespace Aabb3_139
abbrev R := Float32
def run : Res (List Nat) := do
  let mut bad : List Nat := []
  let v1 : R := (1.0 : R)
  let v2 : R := (-(1.0 : R))
  let v3 : R := (v1 * (5.0 : R))
  let v4 : Coord := (next3D Coord.Y)
  let v5 : Coord := (next3D v4)
  let v6 : AABB3 R := (⟨(⟨(-v1), (-v1), (-v1)⟩ : Vec3 R), (⟨v1, v1, v1⟩ : Vec3 R)⟩ : AABB3 R)
  let v7 : R := (0.8 : R)
  let v8 : Vec3 R := (Vec3.moved (Vec3.zero : Vec3 R) Coord.Y (if (decide (v2 > (0.0 : R))) then (-v3) else v3))
  let v9 : Vec3 R := (Vec3.zero : Vec3 R)
  let o10 := (AABB3.hitsLine v6 (⟨(Vec3.moved v8 v4 v3), (Vec3.moved v9 v4 v3)⟩ : Line3 R))
  bad := ck bad 595 (decide (o10.isSome = false))
  let o11 := (AABB3.hitsLine v6 (⟨(Vec3.moved v8 v4 (-v3)), (Vec3.moved v9 v4 (-v3))⟩ : Line3 R))
  bad := ck bad 596 (decide (o11.isSome = false))
  return bad
end Aabb3_139
#guard passes Aabb3_139.run

namespace Aabb3_140
abbrev R := Float32
def run : Res (List Nat) := do
  let mut bad : List Nat := []
  let v1 : R := (0.001 : R)
  let v2 : R := (1.0 : R)
  let v3 : R := (v1 * (5.0 : R))
  let v4 : Coord := (next3D Coord.X)
  let v5 : Coord := (next3D v4)
  let v6 : AABB3 R := (⟨(⟨(-v1), (-v1), (-v1)⟩ : Vec3 R), (⟨v1, v1, v1⟩ : Vec3 R)⟩ : AABB3 R)
  let v7 : R := (0.8 : R)
  let v8 : Vec3 R := (Vec3.moved (Vec3.zero : Vec3 R) Coord.X (if (decide (v2 > (0.0 : R))) then (-v3) else v3))
  let v9 : Vec3 R := (Vec3.zero : Vec3 R)
  let o10 := (AABB3.hitsLine v6 (⟨(Vec3.moved v8 v4 v3), (Vec3.moved v9 v4 v3)⟩ : Line3 R))
  bad := ck bad 595 (decide (o10.isSome = false))
  let o11 := (AABB3.hitsLine v6 (⟨(Vec3.moved v8 v4 (-v3)), (Vec3.moved v9 v4 (-v3))⟩ : Line3 R))
  bad := ck bad 596 (decide (o11.isSome = false))
  return bad
end Aabb3_140
#guard passes Aabb3_140.run

namespace Aabb3_141
abbrev R := Float32
def run : Res (List Nat) := do
  let mut bad : List Nat := []
  let v1 : R := (0.001 : R)
  let v2 : R := (-(1.0 : R))
  let v3 : R := (v1 * (5.0 : R))
  let v4 : Coord := (next3D Coord.Y)
  let v5 : Coord := (next3D v4)
  let v6 : AABB3 R := (⟨(⟨(-v1), (-v1), (-v1)⟩ : Vec3 R), (⟨v1, v1, v1⟩ : Vec3 R)⟩ : AABB3 R)
  let v7 : R := (0.8 : R)
  let v8 : Vec3 R := (Vec3.moved (Vec3.zero : Vec3 R) Coord.Y (if (decide (v2 > (0.0 : R))) then (-v3) else v3))
  let v9 : Vec3 R := (Vec3.zero : Vec3 R)
  let o10 := (AABB3.hitsLine v6 (⟨(Vec3.moved v8 v4 v3), (Vec3.moved v9 v4 v3)⟩ : Line3 R))
  bad := ck bad 595 (decide (o10.isSome = false))
  let o11 := (AABB3.hitsLine v6 (⟨(Vec3.moved v8 v4 (-v3)), (Vec3.moved v9 v4 (-v3))⟩ : Line3 R))
  bad := ck bad 596 (decide (o11.isSome = false))
  return bad
end Aabb3_141
#guard passes Aabb3_141.run

namespace Aabb3_142
abbrev R := Float32
def run : Res (List Nat) := do
  let mut bad : List Nat := []
  let v1 : R := (1000.0 : R)
  let v2 : R := (1.0 : R)
  let v3 : R := (v1 * (5.0 : R))
  let v4 : Coord := (next3D Coord.X)
  let v5 : Coord := (next3D v4)
  let v6 : AABB3 R := (⟨(⟨(-v1), (-v1), (-v1)⟩ : Vec3 R), (⟨v1, v1, v1⟩ : Vec3 R)⟩ : AABB3 R)
  let v7 : R := (0.8 : R)
  let v8 : Vec3 R := (Vec3.moved (Vec3.zero : Vec3 R) Coord.X (if (decide (v2 > (0.0 : R))) then (-v3) else v3))
  let v9 : Vec3 R := (Vec3.zero : Vec3 R)
  let o10 := (AABB3.hitsLine v6 (⟨(Vec3.moved v8 v4 v3), (Vec3.moved v9 v4 v3)⟩ : Line3 R))
  bad := ck bad 595 (decide (o10.isSome = false))
  let o11 := (AABB3.hitsLine v6 (⟨(Vec3.moved v8 v4 (-v3)), (Vec3.moved v9 v4 (-v3))⟩ : Line3 R))
  bad := ck bad 596 (decide (o11.isSome = false))
  return bad
end Aabb3_142
#guard passes Aabb3_142.run

namespace Aabb3_143
abbrev R := Float32
def run : Res (List Nat) := do
  let mut bad : List Nat := []
  let v1 : R := (1000.0 : R)
  let v2 : R := (-(1.0 : R))
  let v3 : R := (v1 * (5.0 : R))
  let v4 : Coord := (next3D Coord.Y)
  let v5 : Coord := (next3D v4)
  let v6 : AABB3 R := (⟨(⟨(-v1), (-v1), (-v1)⟩ : Vec3 R), (⟨v1, v1, v1⟩ : Vec3 R)⟩ : AABB3 R)
  let v7 : R := (0.8 : R)
  let v8 : Vec3 R := (Vec3.moved (Vec3.zero : Vec3 R) Coord.Y (if (decide (v2 > (0.0 : R))) then (-v3) else v3))
  let v9 : Vec3 R := (Vec3.zero : Vec3 R)
  let o10 := (AABB3.hitsLine v6 (⟨(Vec3.moved v8 v4 v3), (Vec3.moved v9 v4 v3)⟩ : Line3 R))
  bad := ck bad 595 (decide (o10.isSome = false))
  let o11 := (AABB3.hitsLine v6 (⟨(Vec3.moved v8 v4 (-v3)), (Vec3.moved v9 v4 (-v3))⟩ : Line3 R))
  bad := ck bad 596 (decide (o11.isSome = false))
  return bad
end Aabb3_143
#guard passes Aabb3_143.run

namespace Aabb3_144
abbrev R := Float32
def run : Res (List Nat) := do
  let mut bad : List Nat := []
  let v1 : R := (1.0 : R)
  let v2 : R := (1.0 : R)
  let v3 : R := (v1 * (5.0 : R))
  let v4 : Coord := (next3D Coord.X)
  let v5 : Coord := (next3D v4)
  let v6 : AABB3 R := (⟨(⟨(-v1), (-v1), (-v1)⟩ : Vec3 R), (⟨v1, v1, v1⟩ : Vec3 R)⟩ : AABB3 R)
  let v7 : R := (0.8 : R)
  let v8 : Vec3 R := (Vec3.moved (Vec3.zero : Vec3 R) Coord.X (if (decide (v2 > (0.0 : R))) then (-v3) else v3))
  let v9 : Vec3 R := (Vec3.zero : Vec3 R)
  let o10 := (AABB3.hitsLine v6 (⟨(Vec3.moved v8 v5 v3), (Vec3.moved v9 v5 v3)⟩ : Line3 R))
  bad := ck bad 600 (decide (o10.isSome = false))
  let o11 := (AABB3.hitsLine v6 (⟨(Vec3.moved v8 v5 (-v3)), (Vec3.moved v9 v5 (-v3))⟩ : Line3 R))
  bad := ck bad 601 (decide (o11.isSome = false))
  return bad
end Aabb3_144
#guard passes Aabb3_144.run

namespace Aabb3_145
abbrev R := Float32
def run : Res (List Nat) := do
  let mut bad : List Nat := []
  let v1 : R := (1.0 : R)
  let v2 : R := (-(1.0 : R))
  let v3 : R := (v1 * (5.0 : R))
  let v4 : Coord := (next3D Coord.Y)
  let v5 : Coord := (next3D v4)
  let v6 : AABB3 R := (⟨(⟨(-v1), (-v1), (-v1)⟩ : Vec3 R), (⟨v1, v1, v1⟩ : Vec3 R)⟩ : AABB3 R)
  let v7 : R := (0.8 : R)
  let v8 : Vec3 R := (Vec3.moved (Vec3.zero : Vec3 R) Coord.Y (if (decide (v2 > (0.0 : R))) then (-v3) else v3))
  let v9 : Vec3 R := (Vec3.zero : Vec3 R)
  let o10 := (AABB3.hitsLine v6 (⟨(Vec3.moved v8 v5 v3), (Vec3.moved v9 v5 v3)⟩ : Line3 R))
  bad := ck bad 600 (decide (o10.isSome = false))
  let o11 := (AABB3.hitsLine v6 (⟨(Vec3.moved v8 v5 (-v3)), (Vec3.moved v9 v5 (-v3))⟩ : Line3 R))
  bad := ck bad 601 (decide (o11.isSome = false))
  return bad
end Aabb3_145
#guard passes Aabb3_145.run

namespace Aabb3_146
abbrev R := Float32
def run : Res (List Nat) := do
  let mut bad : List Nat := []
  let v1 : R := (0.001 : R)
  let v2 : R := (1.0 : R)
  let v3 : R := (v1 * (5.0 : R))
  let v4 : Coord := (next3D Coord.X)
  let v5 : Coord := (next3D v4)
  let v6 : AABB3 R := (⟨(⟨(-v1), (-v1), (-v1)⟩ : Vec3 R), (⟨v1, v1, v1⟩ : Vec3 R)⟩ : AABB3 R)
  let v7 : R := (0.8 : R)
  let v8 : Vec3 R := (Vec3.moved (Vec3.zero : Vec3 R) Coord.X (if (decide (v2 > (0.0 : R))) then (-v3) else v3))
  let v9 : Vec3 R := (Vec3.zero : Vec3 R)
  let o10 := (AABB3.hitsLine v6 (⟨(Vec3.moved v8 v5 v3), (Vec3.moved v9 v5 v3)⟩ : Line3 R))
  bad := ck bad 600 (decide (o10.isSome = false))
  let o11 := (AABB3.hitsLine v6 (⟨(Vec3.moved v8 v5 (-v3)), (Vec3.moved v9 v5 (-v3))⟩ : Line3 R))
  bad := ck bad 601 (decide (o11.isSome = false))
  return bad
end Aabb3_146
#guard passes Aabb3_146.run

namespace Aabb3_147
abbrev R := Float32
def run : Res (List Nat) := do
  let mut bad : List Nat := []
  let v1 : R := (0.001 : R)
  let v2 : R := (-(1.0 : R))
  let v3 : R := (v1 * (5.0 : R))
  let v4 : Coord := (next3D Coord.Y)
  let v5 : Coord := (next3D v4)
  let v6 : AABB3 R := (⟨(⟨(-v1), (-v1), (-v1)⟩ : Vec3 R), (⟨v1, v1, v1⟩ : Vec3 R)⟩ : AABB3 R)
  let v7 : R := (0.8 : R)
  let v8 : Vec3 R := (Vec3.moved (Vec3.zero : Vec3 R) Coord.Y (if (decide (v2 > (0.0 : R))) then (-v3) else v3))
  let v9 : Vec3 R := (Vec3.zero : Vec3 R)
  let o10 := (AABB3.hitsLine v6 (⟨(Vec3.moved v8 v5 v3), (Vec3.moved v9 v5 v3)⟩ : Line3 R))
  bad := ck bad 600 (decide (o10.isSome = false))
  let o11 := (AABB3.hitsLine v6 (⟨(Vec3.moved v8 v5 (-v3)), (Vec3.moved v9 v5 (-v3))⟩ : Line3 R))
  bad := ck bad 601 (decide (o11.isSome = false))
  return bad
end Aabb3_147
#guard passes Aabb3_147.run

namespace Aabb3_148
abbrev R := Float32
def run : Res (List Nat) := do
  let mut bad : List Nat := []
  let v1 : R := (1000.0 : R)
  let v2 : R := (1.0 : R)
  let v3 : R := (v1 * (5.0 : R))
  let v4 : Coord := (next3D Coord.X)
  let v5 : Coord := (next3D v4)
  let v6 : AABB3 R := (⟨(⟨(-v1), (-v1), (-v1)⟩ : Vec3 R), (⟨v1, v1, v1⟩ : Vec3 R)⟩ : AABB3 R)
  let v7 : R := (0.8 : R)
  let v8 : Vec3 R := (Vec3.moved (Vec3.zero : Vec3 R) Coord.X (if (decide (v2 > (0.0 : R))) then (-v3) else v3))
  let v9 : Vec3 R := (Vec3.zero : Vec3 R)
  let o10 := (AABB3.hitsLine v6 (⟨(Vec3.moved v8 v5 v3), (Vec3.moved v9 v5 v3)⟩ : Line3 R))
  bad := ck bad 600 (decide (o10.isSome = false))
  let o11 := (AABB3.hitsLine v6 (⟨(Vec3.moved v8 v5 (-v3)), (Vec3.moved v9 v5 (-v3))⟩ : Line3 R))
  bad := ck bad 601 (decide (o11.isSome = false))
  return bad
end Aabb3_148
#guard passes Aabb3_148.run

namespace Aabb3_149
abbrev R := Float32
def run : Res (List Nat) := do
  let mut bad : List Nat := []
  let v1 : R := (1000.0 : R)
  let v2 : R := (-(1.0 : R))
  let v3 : R := (v1 * (5.0 : R))
  let v4 : Coord := (next3D Coord.Y)
  let v5 : Coord := (next3D v4)
  let v6 : AABB3 R := (⟨(⟨(-v1), (-v1), (-v1)⟩ : Vec3 R), (⟨v1, v1, v1⟩ : Vec3 R)⟩ : AABB3 R)
  let v7 : R := (0.8 : R)
  let v8 : Vec3 R := (Vec3.moved (Vec3.zero : Vec3 R) Coord.Y (if (decide (v2 > (0.0 : R))) then (-v3) else v3))
  let v9 : Vec3 R := (Vec3.zero : Vec3 R)
  let o10 := (AABB3.hitsLine v6 (⟨(Vec3.moved v8 v5 v3), (Vec3.moved v9 v5 v3)⟩ : Line3 R))
  bad := ck bad 600 (decide (o10.isSome = false))
  let o11 := (AABB3.hitsLine v6 (⟨(Vec3.moved v8 v5 (-v3)), (Vec3.moved v9 v5 (-v3))⟩ : Line3 R))
  bad := ck bad 601 (decide (o11.isSome = false))
  return bad
end Aabb3_149
#guard passes Aabb3_149.run

namespace Aabb3_150
abbrev R := Float32
def run : Res (List Nat) := do
  let mut bad : List Nat := []
  let v1 : R := (1.0 : R)
  let v2 : R := (1.0 : R)
  let v3 : R := (v1 * (5.0 : R))
  let v4 : Coord := (next3D Coord.X)
  let v5 : Coord := (next3D v4)
  let v6 : AABB3 R := (⟨(⟨(-v1), (-v1), (-v1)⟩ : Vec3 R), (⟨v1, v1, v1⟩ : Vec3 R)⟩ : AABB3 R)
  let v7 : Vec3 R := (Vec3.moved (Vec3.zero : Vec3 R) Coord.X (if (decide (v2 > (0.0 : R))) then v3 else (-v3)))
  let v8 : Vec3 R := (Vec3.moved v7 Coord.X v1)
  let o9 := (AABB3.hitsLine v6 (⟨v7, v8⟩ : Line3 R))
  let v10 : Bool := o9.isSome
  bad := ck bad 612 (decide (v10 = false))
  return bad
end Aabb3_150
#guard passes Aabb3_150.run

namespace Aabb3_151
abbrev R := Float32
def run : Res (List Nat) := do
  let mut bad : List Nat := []
  let v1 : R := (1.0 : R)
  let v2 : R := (-(1.0 : R))
  let v3 : R := (v1 * (5.0 : R))
  let v4 : Coord := (next3D Coord.Y)
  let v5 : Coord := (next3D v4)
  let v6 : AABB3 R := (⟨(⟨(-v1), (-v1), (-v1)⟩ : Vec3 R), (⟨v1, v1, v1⟩ : Vec3 R)⟩ : AABB3 R)
  let v7 : Vec3 R := (Vec3.moved (Vec3.zero : Vec3 R) Coord.Y (if (decide (v2 > (0.0 : R))) then v3 else (-v3)))
  let v8 : Vec3 R := (Vec3.moved v7 Coord.Y v1)
  let o9 := (AABB3.hitsLine v6 (⟨v7, v8⟩ : Line3 R))
  let v10 : Bool := o9.isSome
  bad := ck bad 612 (decide (v10 = false))
  return bad
end Aabb3_151
#guard passes Aabb3_151.run

namespace Aabb3_152
abbrev R := Float32
def run : Res (List Nat) := do
  let mut bad : List Nat := []
  let v1 : R := (0.001 : R)
  let v2 : R := (1.0 : R)
  let v3 : R := (v1 * (5.0 : R))
  let v4 : Coord := (next3D Coord.X)
  let v5 : Coord := (next3D v4)
  let v6 : AABB3 R := (⟨(⟨(-v1), (-v1), (-v1)⟩ : Vec3 R), (⟨v1, v1, v1⟩ : Vec3 R)⟩ : AABB3 R)
  let v7 : Vec3 R := (Vec3.moved (Vec3.zero : Vec3 R) Coord.X (if (decide (v2 > (0.0 : R))) then v3 else (-v3)))
  let v8 : Vec3 R := (Vec3.moved v7 Coord.X v1)
  let o9 := (AABB3.hitsLine v6 (⟨v7, v8⟩ : Line3 R))
  let v10 : Bool := o9.isSome
  bad := ck bad 612 (decide (v10 = false))
  return bad
end Aabb3_152
#guard passes Aabb3_152.run

namespace Aabb3_153
abbrev R := Float32
def run : Res (List Nat) := do
  let mut bad : List Nat := []
  let v1 : R := (0.001 : R)
  let v2 : R := (-(1.0 : R))
  let v3 : R := (v1 * (5.0 : R))
  let v4 : Coord := (next3D Coord.Y)
  let v5 : Coord := (next3D v4)
  let v6 : AABB3 R := (⟨(⟨(-v1), (-v1), (-v1)⟩ : Vec3 R), (⟨v1, v1, v1⟩ : Vec3 R)⟩ : AABB3 R)
  let v7 : Vec3 R := (Vec3.moved (Vec3.zero : Vec3 R) Coord.Y (if (decide (v2 > (0.0 : R))) then v3 else (-v3)))
  let v8 : Vec3 R := (Vec3.moved v7 Coord.Y v1)
  let o9 := (AABB3.hitsLine v6 (⟨v7, v8⟩ : Line3 R))
  let v10 : Bool := o9.isSome
  bad := ck bad 612 (decide (v10 = false))
  return bad
end Aabb3_153
#guard passes Aabb3_153.run

namespace Aabb3_154
abbrev R := Float32
def run : Res (List Nat) := do
  let mut bad : List Nat := []
  let v1 : R := (1000.0 : R)
  let v2 : R := (1.0 : R)
  let v3 : R := (v1 * (5.0 : R))
  let v4 : Coord := (next3D Coord.X)
  let v5 : Coord := (next3D v4)
  let v6 : AABB3 R := (⟨(⟨(-v1), (-v1), (-v1)⟩ : Vec3 R), (⟨v1, v1, v1⟩ : Vec3 R)⟩ : AABB3 R)
  let v7 : Vec3 R := (Vec3.moved (Vec3.zero : Vec3 R) Coord.X (if (decide (v2 > (0.0 : R))) then v3 else (-v3)))
  let v8 : Vec3 R := (Vec3.moved v7 Coord.X v1)
  let o9 := (AABB3.hitsLine v6 (⟨v7, v8⟩ : Line3 R))
  let v10 : Bool := o9.isSome
  bad := ck bad 612 (decide (v10 = false))
  return bad
end Aabb3_154
#guard passes Aabb3_154.run

namespace Aabb3_155
abbrev R := Float32
def run : Res (List Nat) := do
  let mut bad : List Nat := []
  let v1 : R := (1000.0 : R)
  let v2 : R := (-(1.0 : R))
  let v3 : R := (v1 * (5.0 : R))
  let v4 : Coord := (next3D Coord.Y)
  let v5 : Coord := (next3D v4)
  let v6 : AABB3 R := (⟨(⟨(-v1), (-v1), (-v1)⟩ : Vec3 R), (⟨v1, v1, v1⟩ : Vec3 R)⟩ : AABB3 R)
  let v7 : Vec3 R := (Vec3.moved (Vec3.zero : Vec3 R) Coord.Y (if (decide (v2 > (0.0 : R))) then v3 else (-v3)))
  let v8 : Vec3 R := (Vec3.moved v7 Coord.Y v1)
  let o9 := (AABB3.hitsLine v6 (⟨v7, v8⟩ : Line3 R))
  let v10 : Bool := o9.isSome
  bad := ck bad 612 (decide (v10 = false))
  return bad
end Aabb3_155
#guard passes Aabb3_155.run

namespace Aabb3_156
abbrev R := Float32
def run : Res (List Nat) := do
  let mut bad : List Nat := []
  let v1 : R := (1.0 : R)
  let v2 : R := (1.0 : R)
  let v3 : R := (v1 * (5.0 : R))
  let v4 : Coord := (next3D Coord.X)
  let v5 : Coord := (next3D v4)
  let v6 : AABB3 R := (⟨(⟨(-v1), (-v1), (-v1)⟩ : Vec3 R), (⟨v1, v1, v1⟩ : Vec3 R)⟩ : AABB3 R)
  let v7 : Vec3 R := (Vec3.moved (Vec3.zero : Vec3 R) Coord.X (if (decide (v2 > (0.0 : R))) then v3 else (-v3)))
  let v8 : Vec3 R := (Vec3.moved v7 Coord.X v1)
  let o9 := (AABB3.hitsLine v6 (⟨(Vec3.moved v7 v4 v3), (Vec3.moved v8 v4 v3)⟩ : Line3 R))
  bad := ck bad 616 (decide (o9.isSome = false))
  let o10 := (AABB3.hitsLine v6 (⟨(Vec3.moved v7 v4 (-v3)), (Vec3.moved v8 v4 (-v3))⟩ : Line3 R))
  bad := ck bad 617 (decide (o10.isSome = false))
  return bad
end Aabb3_156
#guard passes Aabb3_156.run

namespace Aabb3_157
abbrev R := Float32
def run : Res (List Nat) := do
  let mut bad : List Nat := []
  let v1 : R := (1.0 : R)
  let v2 : R := (-(1.0 : R))
  let v3 : R := (v1 * (5.0 : R))
  let v4 : Coord := (next3D Coord.Y)
  let v5 : Coord := (next3D v4)
  let v6 : AABB3 R := (⟨(⟨(-v1), (-v1), (-v1)⟩ : Vec3 R), (⟨v1, v1, v1⟩ : Vec3 R)⟩ : AABB3 R)
  let v7 : Vec3 R := (Vec3.moved (Vec3.zero : Vec3 R) Coord.Y (if (decide (v2 > (0.0 : R))) then v3 else (-v3)))
  let v8 : Vec3 R := (Vec3.moved v7 Coord.Y v1)
  let o9 := (AABB3.hitsLine v6 (⟨(Vec3.moved v7 v4 v3), (Vec3.moved v8 v4 v3)⟩ : Line3 R))
  bad := ck bad 616 (decide (o9.isSome = false))
  let o10 := (AABB3.hitsLine v6 (⟨(Vec3.moved v7 v4 (-v3)), (Vec3.moved v8 v4 (-v3))⟩ : Line3 R))
  bad := ck bad 617 (decide (o10.isSome = false))
  return bad
end Aabb3_157
#guard passes Aabb3_157.run

namespace Aabb3_158
abbrev R := Float32
def run : Res (List Nat) := do
  let mut bad : List Nat := []
  let v1 : R := (0.001 : R)
  let v2 : R := (1.0 : R)
  let v3 : R := (v1 * (5.0 : R))
  let v4 : Coord := (next3D Coord.X)
  let v5 : Coord := (next3D v4)
  let v6 : AABB3 R := (⟨(⟨(-v1), (-v1), (-v1)⟩ : Vec3 R), (⟨v1, v1, v1⟩ : Vec3 R)⟩ : AABB3 R)
  let v7 : Vec3 R := (Vec3.moved (Vec3.zero : Vec3 R) Coord.X (if (decide (v2 > (0.0 : R))) then v3 else (-v3)))
  let v8 : Vec3 R := (Vec3.moved v7 Coord.X v1)
  let o9 := (AABB3.hitsLine v6 (⟨(Vec3.moved v7 v4 v3), (Vec3.moved v8 v4 v3)⟩ : Line3 R))
  bad := ck bad 616 (decide (o9.isSome = false))
  let o10 := (AABB3.hitsLine v6 (⟨(Vec3.moved v7 v4 (-v3)), (Vec3.moved v8 v4 (-v3))⟩ : Line3 R))
  bad := ck bad 617 (decide (o10.isSome = false))
  return bad
end Aabb3_158
#guard passes Aabb3_158.run

namespace Aabb3_159
abbrev R := Float32
def run : Res (List Nat) := do
  let mut bad : List Nat := []
  let v1 : R := (0.001 : R)
  let v2 : R := (-(1.0 : R))
  let v3 : R := (v1 * (5.0 : R))
  let v4 : Coord := (next3D Coord.Y)
  let v5 : Coord := (next3D v4)
  let v6 : AABB3 R := (⟨(⟨(-v1), (-v1), (-v1)⟩ : Vec3 R), (⟨v1, v1, v1⟩ : Vec3 R)⟩ : AABB3 R)
  let v7 : Vec3 R := (Vec3.moved (Vec3.zero : Vec3 R) Coord.Y (if (decide (v2 > (0.0 : R))) then v3 else (-v3)))
  let v8 : Vec3 R := (Vec3.moved v7 Coord.Y v1)
  let o9 := (AABB3.hitsLine v6 (⟨(Vec3.moved v7 v4 v3), (Vec3.moved v8 v4 v3)⟩ : Line3 R))
  bad := ck bad 616 (decide (o9.isSome = false))
  let o10 := (AABB3.hitsLine v6 (⟨(Vec3.moved v7 v4 (-v3)), (Vec3.moved v8 v4 (-v3))⟩ : Line3 R))
  bad := ck bad 617 (decide (o10.isSome = false))
  return bad
end Aabb3_159
#guard passes Aabb3_159.run

namespace Aabb3_160
abbrev R := Float32
def run : Res (List Nat) := do
  let mut bad : List Nat := []
  let v1 : R := (1000.0 : R)
  let v2 : R := (1.0 : R)
  let v3 : R := (v1 * (5.0 : R))
  let v4 : Coord := (next3D Coord.X)
  let v5 : Coord := (next3D v4)
  let v6 : AABB3 R := (⟨(⟨(-v1), (-v1), (-v1)⟩ : Vec3 R), (⟨v1, v1, v1⟩ : Vec3 R)⟩ : AABB3 R)
  let v7 : Vec3 R := (Vec3.moved (Vec3.zero : Vec3 R) Coord.X (if (decide (v2 > (0.0 : R))) then v3 else (-v3)))
  let v8 : Vec3 R := (Vec3.moved v7 Coord.X v1)
  let o9 := (AABB3.hitsLine v6 (⟨(Vec3.moved v7 v4 v3), (Vec3.moved v8 v4 v3)⟩ : Line3 R))
  bad := ck bad 616 (decide (o9.isSome = false))
  let o10 := (AABB3.hitsLine v6 (⟨(Vec3.moved v7 v4 (-v3)), (Vec3.moved v8 v4 (-v3))⟩ : Line3 R))
  bad := ck bad 617 (decide (o10.isSome = false))
  return bad
end Aabb3_160
#guard passes Aabb3_160.run

namespace Aabb3_161
abbrev R := Float32
def run : Res (List Nat) := do
  let mut bad : List Nat := []
  let v1 : R := (1000.0 : R)
  let v2 : R := (-(1.0 : R))
  let v3 : R := (v1 * (5.0 : R))
  let v4 : Coord := (next3D Coord.Y)
  let v5 : Coord := (next3D v4)
  let v6 : AABB3 R := (⟨(⟨(-v1), (-v1), (-v1)⟩ : Vec3 R), (⟨v1, v1, v1⟩ : Vec3 R)⟩ : AABB3 R)
  let v7 : Vec3 R := (Vec3.moved (Vec3.zero : Vec3 R) Coord.Y (if (decide (v2 > (0.0 : R))) then v3 else (-v3)))
  let v8 : Vec3 R := (Vec3.moved v7 Coord.Y v1)
  let o9 := (AABB3.hitsLine v6 (⟨(Vec3.moved v7 v4 v3), (Vec3.moved v8 v4 v3)⟩ : Line3 R))
  bad := ck bad 616 (decide (o9.isSome = false))
  let o10 := (AABB3.hitsLine v6 (⟨(Vec3.moved v7 v4 (-v3)), (Vec3.moved v8 v4 (-v3))⟩ : Line3 R))
  bad := ck bad 617 (decide (o10.isSome = false))
  return bad
end Aabb3_161
#guard passes Aabb3_161.run

namespace Aabb3_162
abbrev R := Float32
def run : Res (List Nat) := do
  let mut bad : List Nat := []
  let v1 : R := (1.0 : R)
  let v2 : R := (1.0 : R)
  let v3 : R := (v1 * (5.0 : R))
  let v4 : Coord := (next3D Coord.X)
  let v5 : Coord := (next3D v4)
  let v6 : AABB3 R := (⟨(⟨(-v1), (-v1), (-v1)⟩ : Vec3 R), (⟨v1, v1, v1⟩ : Vec3 R)⟩ : AABB3 R)
  let v7 : Vec3 R := (Vec3.moved (Vec3.zero : Vec3 R) Coord.X (if (decide (v2 > (0.0 : R))) then v3 else (-v3)))
  let v8 : Vec3 R := (Vec3.moved v7 Coord.X v1)
  let o9 := (AABB3.hitsLine v6 (⟨(Vec3.moved v7 v5 v3), (Vec3.moved v8 v5 v3)⟩ : Line3 R))
  bad := ck bad 621 (decide (o9.isSome = false))
  let o10 := (AABB3.hitsLine v6 (⟨(Vec3.moved v7 v5 (-v3)), (Vec3.moved v8 v5 (-v3))⟩ : Line3 R))
  bad := ck bad 622 (decide (o10.isSome = false))
  return bad
end Aabb3_162
#guard passes Aabb3_162.run

namespace Aabb3_163
abbrev R := Float32
def run : Res (List Nat) := do
  let mut bad : List Nat := []
  let v1 : R := (1.0 : R)
  let v2 : R := (-(1.0 : R))
  let v3 : R := (v1 * (5.0 : R))
  let v4 : Coord := (next3D Coord.Y)
  let v5 : Coord := (next3D v4)
  let v6 : AABB3 R := (⟨(⟨(-v1), (-v1), (-v1)⟩ : Vec3 R), (⟨v1, v1, v1⟩ : Vec3 R)⟩ : AABB3 R)
  let v7 : Vec3 R := (Vec3.moved (Vec3.zero : Vec3 R) Coord.Y (if (decide (v2 > (0.0 : R))) then v3 else (-v3)))
  let v8 : Vec3 R := (Vec3.moved v7 Coord.Y v1)
  let o9 := (AABB3.hitsLine v6 (⟨(Vec3.moved v7 v5 v3), (Vec3.moved v8 v5 v3)⟩ : Line3 R))
  bad := ck bad 621 (decide (o9.isSome = false))
  let o10 := (AABB3.hitsLine v6 (⟨(Vec3.moved v7 v5 (-v3)), (Vec3.moved v8 v5 (-v3))⟩ : Line3 R))
  bad := ck bad 622 (decide (o10.isSome = false))
  return bad
end Aabb3_163
#guard passes Aabb3_163.run

namespace Aabb3_164
abbrev R := Float32
def run : Res (List Nat) := do
  let mut bad : List Nat := []
  let v1 : R := (0.001 : R)
  let v2 : R := (1.0 : R)
  let v3 : R := (v1 * (5.0 : R))
  let v4 : Coord := (next3D Coord.X)
  let v5 : Coord := (next3D v4)
  let v6 : AABB3 R := (⟨(⟨(-v1), (-v1), (-v1)⟩ : Vec3 R), (⟨v1, v1, v1⟩ : Vec3 R)⟩ : AABB3 R)
  let v7 : Vec3 R := (Vec3.moved (Vec3.zero : Vec3 R) Coord.X (if (decide (v2 > (0.0 : R))) then v3 else (-v3)))
  let v8 : Vec3 R := (Vec3.moved v7 Coord.X v1)
  let o9 := (AABB3.hitsLine v6 (⟨(Vec3.moved v7 v5 v3), (Vec3.moved v8 v5 v3)⟩ : Line3 R))
  bad := ck bad 621 (decide (o9.isSome = false))
  let o10 := (AABB3.hitsLine v6 (⟨(Vec3.moved v7 v5 (-v3)), (Vec3.moved v8 v5 (-v3))⟩ : Line3 R))
  bad := ck bad 622 (decide (o10.isSome = false))
  return bad
end Aabb3_164
#guard passes Aabb3_164.run

namespace Aabb3_165
abbrev R := Float32
def run : Res (List Nat) := do
  let mut bad : List Nat := []
  let v1 : R := (0.001 : R)
  let v2 : R := (-(1.0 : R))
  let v3 : R := (v1 * (5.0 : R))
  let v4 : Coord := (next3D Coord.Y)
  let v5 : Coord := (next3D v4)
  let v6 : AABB3 R := (⟨(⟨(-v1), (-v1), (-v1)⟩ : Vec3 R), (⟨v1, v1, v1⟩ : Vec3 R)⟩ : AABB3 R)
  let v7 : Vec3 R := (Vec3.moved (Vec3.zero : Vec3 R) Coord.Y (if (decide (v2 > (0.0 : R))) then v3 else (-v3)))
  let v8 : Vec3 R := (Vec3.moved v7 Coord.Y v1)
  let o9 := (AABB3.hitsLine v6 (⟨(Vec3.moved v7 v5 v3), (Vec3.moved v8 v5 v3)⟩ : Line3 R))
  bad := ck bad 621 (decide (o9.isSome = false))
  let o10 := (AABB3.hitsLine v6 (⟨(Vec3.moved v7 v5 (-v3)), (Vec3.moved v8 v5 (-v3))⟩ : Line3 R))
  bad := ck bad 622 (decide (o10.isSome = false))
  return bad
end Aabb3_165
#guard passes Aabb3_165.run

namespace Aabb3_166
abbrev R := Float32
def run : Res (List Nat) := do
  let mut bad : List Nat := []
  let v1 : R := (1000.0 : R)
  let v2 : R := (1.0 : R)
  let v3 : R := (v1 * (5.0 : R))
  let v4 : Coord := (next3D Coord.X)
  let v5 : Coord := (next3D v4)
  let v6 : AABB3 R := (⟨(⟨(-v1), (-v1), (-v1)⟩ : Vec3 R), (⟨v1, v1, v1⟩ : Vec3 R)⟩ : AABB3 R)
  let v7 : Vec3 R := (Vec3.moved (Vec3.zero : Vec3 R) Coord.X (if (decide (v2 > (0.0 : R))) then v3 else (-v3)))
  let v8 : Vec3 R := (Vec3.moved v7 Coord.X v1)
  let o9 := (AABB3.hitsLine v6 (⟨(Vec3.moved v7 v5 v3), (Vec3.moved v8 v5 v3)⟩ : Line3 R))
  bad := ck bad 621 (decide (o9.isSome = false))
  let o10 := (AABB3.hitsLine v6 (⟨(Vec3.moved v7 v5 (-v3)), (Vec3.moved v8 v5 (-v3))⟩ : Line3 R))
  bad := ck bad 622 (decide (o10.isSome = false))
  return bad
end Aabb3_166
#guard passes Aabb3_166.run

namespace Aabb3_167
abbrev R := Float32
def run : Res (List Nat) := do
  let mut bad : List Nat := []
  let v1 : R := (1000.0 : R)
  let v2 : R := (-(1.0 : R))
  let v3 : R := (v1 * (5.0 : R))
  let v4 : Coord := (next3D Coord.Y)
  let v5 : Coord := (next3D v4)
  let v6 : AABB3 R := (⟨(⟨(-v1), (-v1), (-v1)⟩ : Vec3 R), (⟨v1, v1, v1⟩ : Vec3 R)⟩ : AABB3 R)
  let v7 : Vec3 R := (Vec3.moved (Vec3.zero : Vec3 R) Coord.Y (if (decide (v2 > (0.0 : R))) then v3 else (-v3)))
  let v8 : Vec3 R := (Vec3.moved v7 Coord.Y v1)
  let o9 := (AABB3.hitsLine v6 (⟨(Vec3.moved v7 v5 v3), (Vec3.moved v8 v5 v3)⟩ : Line3 R))
  bad := ck bad 621 (decide (o9.isSome = false))
  let o10 := (AABB3.hitsLine v6 (⟨(Vec3.moved v7 v5 (-v3)), (Vec3.moved v8 v5 (-v3))⟩ : Line3 R))
  bad := ck bad 622 (decide (o10.isSome = false))
  return bad
end Aabb3_167
#guard passes Aabb3_167.run

namespace Aabb3_168
abbrev R := Float32
def run : Res (List Nat) := do
  let mut bad : List Nat := []
  let v1 : R := (1.0 : R)
  let v2 : R := (1.0 : R)
  let v3 : R := (v1 * (5.0 : R))
  let v4 : Coord := (next3D Coord.X)
  let v5 : Coord := (next3D v4)
  let v6 : AABB3 R := (⟨(⟨(-v1), (-v1), (-v1)⟩ : Vec3 R), (⟨v1, v1, v1⟩ : Vec3 R)⟩ : AABB3 R)
  let v7 : Vec3 R := (Vec3.moved (Vec3.moved (Vec3.zero : Vec3 R) Coord.X (if (decide (v2 > (0.0 : R))) then (-v3) else v3)) v4 (if (decide (v2 > (0.0 : R))) then (-v3) else v3))
  let v8 : Vec3 R := v7
  let v9 : Vec3 R := (Vec3.moved v7 Coord.X (v2 * v1))
  let v10 : Vec3 R := (Vec3.moved v7 Coord.X ((v2 * v1) * (2 : R)))
  let v11 : Vec3 R := (Vec3.moved v7 v4 (v2 * v1))
  let v12 : Vec3 R := (Vec3.moved v7 v4 ((v2 * v1) * (2 : R)))
  let v13 : R := (0.6 : R)
  let v14 : R := (0.5 : R)
  let v15 : R := (0.4 : R)
  let v16 : R := (0.5 : R)
  let v17 : R := (0.4 : R)
  let v18 : Vec3 R := v8
  let v19 : Vec3 R := (Vec3.moved (Vec3.moved v18 Coord.X ((v2 * v3) * (2.0 : R))) v4 ((v2 * v3) * (2.0 : R)))
  let v20 : R := (0.4 : R)
  let o21 := (AABB3.hitsLine v6 (⟨v18, v19⟩ : Line3 R))
  let v22 : Bool := o21.isSome
  bad := ck bad 654 (decide (v22 = true))
  bad := ck bad 655 (Near.near (0.0001 : R) (o21.getD (0)) v20)
  return bad
end Aabb3_168
#guard passes Aabb3_168.run

namespace Aabb3_169
abbrev R := Float32
def run : Res (List Nat) := do
  let mut bad : List Nat := []
  let v1 : R := (1.0 : R)
  let v2 : R := (1.0 : R)
  let v3 : R := (v1 * (5.0 : R))
  let v4 : Coord := (next3D Coord.Y)
  let v5 : Coord := (next3D v4)
  let v6 : AABB3 R := (⟨(⟨(-v1), (-v1), (-v1)⟩ : Vec3 R), (⟨v1, v1, v1⟩ : Vec3 R)⟩ : AABB3 R)
  let v7 : Vec3 R := (Vec3.moved (Vec3.moved (Vec3.zero : Vec3 R) Coord.Y (if (decide (v2 > (0.0 : R))) then (-v3) else v3)) v4 (if (decide (v2 > (0.0 : R))) then (-v3) else v3))
  let v8 : Vec3 R := v7
  let v9 : Vec3 R := (Vec3.moved v7 Coord.Y (v2 * v1))
  let v10 : Vec3 R := (Vec3.moved v7 Coord.Y ((v2 * v1) * (2 : R)))
  let v11 : Vec3 R := (Vec3.moved v7 v4 (v2 * v1))
  let v12 : Vec3 R := (Vec3.moved v7 v4 ((v2 * v1) * (2 : R)))
  let v13 : R := (0.6 : R)
  let v14 : R := (0.5 : R)
  let v15 : R := (0.4 : R)
  let v16 : R := (0.5 : R)
  let v17 : R := (0.4 : R)
  let v18 : Vec3 R := v11
  let v19 : Vec3 R := (Vec3.moved (Vec3.moved v18 Coord.Y ((v2 * v3) * (2.0 : R))) v4 ((v2 * v3) * (2.0 : R)))
  let v20 : R := (0.4 : R)
  let o21 := (AABB3.hitsLine v6 (⟨v18, v19⟩ : Line3 R))
  let v22 : Bool := o21.isSome
  bad := ck bad 654 (decide (v22 = true))
  bad := ck bad 655 (Near.near (0.0001 : R) (o21.getD (0)) v20)
  return bad
end Aabb3_169
#guard passes Aabb3_169.run

namespace Aabb3_170
abbrev R := Float32
def run : Res (List Nat) := do
  let mut bad : List Nat := []
  let v1 : R := (1.0 : R)
  let v2 : R := (-(1.0 : R))
  let v3 : R := (v1 * (5.0 : R))
  let v4 : Coord := (next3D Coord.Z)
  let v5 : Coord := (next3D v4)
  let v6 : AABB3 R := (⟨(⟨(-v1), (-v1), (-v1)⟩ : Vec3 R), (⟨v1, v1, v1⟩ : Vec3 R)⟩ : AABB3 R)
  let v7 : Vec3 R := (Vec3.moved (Vec3.moved (Vec3.zero : Vec3 R) Coord.Z (if (decide (v2 > (0.0 : R))) then (-v3) else v3)) v4 (if (decide (v2 > (0.0 : R))) then (-v3) else v3))
  let v8 : Vec3 R := v7
  let v9 : Vec3 R := (Vec3.moved v7 Coord.Z (v2 * v1))
  let v10 : Vec3 R := (Vec3.moved v7 Coord.Z ((v2 * v1) * (2 : R)))
  let v11 : Vec3 R := (Vec3.moved v7 v4 (v2 * v1))
  let v12 : Vec3 R := (Vec3.moved v7 v4 ((v2 * v1) * (2 : R)))
  let v13 : R := (0.6 : R)
  let v14 : R := (0.5 : R)
  let v15 : R := (0.4 : R)
  let v16 : R := (0.5 : R)
  let v17 : R := (0.4 : R)
  let v18 : Vec3 R := v9
  let v19 : Vec3 R := (Vec3.moved (Vec3.moved v18 Coord.Z ((v2 * v3) * (2.0 : R))) v4 ((v2 * v3) * (2.0 : R)))
  let v20 : R := (0.4 : R)
  let o21 := (AABB3.hitsLine v6 (⟨v18, v19⟩ : Line3 R))
  let v22 : Bool := o21.isSome
  bad := ck bad 654 (decide (v22 = true))
  bad := ck bad 655 (Near.near (0.0001 : R) (o21.getD (0)) v20)
  return bad
end Aabb3_170
#guard passes Aabb3_170.run

namespace Aabb3_171
abbrev R := Float32
def run : Res (List Nat) := do
  let mut bad : List Nat := []
  let v1 : R := (0.001 : R)
  let v2 : R := (-(1.0 : R))
  let v3 : R := (v1 * (5.0 : R))
  let v4 : Coord := (next3D Coord.X)
  let v5 : Coord := (next3D v4)
  let v6 : AABB3 R := (⟨(⟨(-v1), (-v1), (-v1)⟩ : Vec3 R), (⟨v1, v1, v1⟩ : Vec3 R)⟩ : AABB3 R)
  let v7 : Vec3 R := (Vec3.moved (Vec3.moved (Vec3.zero : Vec3 R) Coord.X (if (decide (v2 > (0.0 : R))) then (-v3) else v3)) v4 (if (decide (v2 > (0.0 : R))) then (-v3) else v3))
  let v8 : Vec3 R := v7
  let v9 : Vec3 R := (Vec3.moved v7 Coord.X (v2 * v1))
  let v10 : Vec3 R := (Vec3.moved v7 Coord.X ((v2 * v1) * (2 : R)))
  let v11 : Vec3 R := (Vec3.moved v7 v4 (v2 * v1))
  let v12 : Vec3 R := (Vec3.moved v7 v4 ((v2 * v1) * (2 : R)))
  let v13 : R := (0.6 : R)
  let v14 : R := (0.5 : R)
  let v15 : R := (0.4 : R)
  let v16 : R := (0.5 : R)
  let v17 : R := (0.4 : R)
  let v18 : Vec3 R := v12
  let v19 : Vec3 R := (Vec3.moved (Vec3.moved v18 Coord.X ((v2 * v3) * (2.0 : R))) v4 ((v2 * v3) * (2.0 : R)))
  let v20 : R := (0.4 : R)
  let o21 := (AABB3.hitsLine v6 (⟨v18, v19⟩ : Line3 R))
  let v22 : Bool := o21.isSome
  bad := ck bad 654 (decide (v22 = true))
  bad := ck bad 655 (Near.near (0.0001 : R) (o21.getD (0)) v20)
  return bad
end Aabb3_171
#guard passes Aabb3_171.run

namespace Aabb3_172
abbrev R := Float32
def run : Res (List Nat) := do
  let mut bad : List Nat := []
  let v1 : R := (0.001 : R)
  let v2 : R := (1.0 : R)
  let v3 : R := (v1 * (5.0 : R))
  let v4 : Coord := (next3D Coord.Z)
  let v5 : Coord := (next3D v4)
  let v6 : AABB3 R := (⟨(⟨(-v1), (-v1), (-v1)⟩ : Vec3 R), (⟨v1, v1, v1⟩ : Vec3 R)⟩ : AABB3 R)
  let v7 : Vec3 R := (Vec3.moved (Vec3.moved (Vec3.zero : Vec3 R) Coord.Z (if (decide (v2 > (0.0 : R))) then (-v3) else v3)) v4 (if (decide (v2 > (0.0 : R))) then (-v3) else v3))
  let v8 : Vec3 R := v7
  let v9 : Vec3 R := (Vec3.moved v7 Coord.Z (v2 * v1))
  let v10 : Vec3 R := (Vec3.moved v7 Coord.Z ((v2 * v1) * (2 : R)))
  let v11 : Vec3 R := (Vec3.moved v7 v4 (v2 * v1))
  let v12 : Vec3 R := (Vec3.moved v7 v4 ((v2 * v1) * (2 : R)))
  let v13 : R := (0.6 : R)
  let v14 : R := (0.5 : R)
  let v15 : R := (0.4 : R)
  let v16 : R := (0.5 : R)
  let v17 : R := (0.4 : R)
  let v18 : Vec3 R := v10
  let v19 : Vec3 R := (Vec3.moved (Vec3.moved v18 Coord.Z ((v2 * v3) * (2.0 : R))) v4 ((v2 * v3) * (2.0 : R)))
  let v20 : R := (0.4 : R)
  let o21 := (AABB3.hitsLine v6 (⟨v18, v19⟩ : Line3 R))
  let v22 : Bool := o21.isSome
  bad := ck bad 654 (decide (v22 = true))
  bad := ck bad 655 (Near.near (0.0001 : R) (o21.getD (0)) v20)
  return bad
end Aabb3_172
#guard passes Aabb3_172.run

namespace Aabb3_173
abbrev R := Float32
def run : Res (List Nat) := do
  let mut bad : List Nat := []
  let v1 : R := (1000.0 : R)
  let v2 : R := (-(1.0 : R))
  let v3 : R := (v1 * (5.0 : R))
  let v4 : Coord := (next3D Coord.X)
  let v5 : Coord := (next3D v4)
  let v6 : AABB3 R := (⟨(⟨(-v1), (-v1), (-v1)⟩ : Vec3 R), (⟨v1, v1, v1⟩ : Vec3 R)⟩ : AABB3 R)
  let v7 : Vec3 R := (Vec3.moved (Vec3.moved (Vec3.zero : Vec3 R) Coord.X (if (decide (v2 > (0.0 : R))) then (-v3) else v3)) v4 (if (decide (v2 > (0.0 : R))) then (-v3) else v3))
  let v8 : Vec3 R := v7
  let v9 : Vec3 R := (Vec3.moved v7 Coord.X (v2 * v1))
  let v10 : Vec3 R := (Vec3.moved v7 Coord.X ((v2 * v1) * (2 : R)))
  let v11 : Vec3 R := (Vec3.moved v7 v4 (v2 * v1))
  let v12 : Vec3 R := (Vec3.moved v7 v4 ((v2 * v1) * (2 : R)))
  let v13 : R := (0.6 : R)
  let v14 : R := (0.5 : R)
  let v15 : R := (0.4 : R)
  let v16 : R := (0.5 : R)
  let v17 : R := (0.4 : R)
  let v18 : Vec3 R := v8
  let v19 : Vec3 R := (Vec3.moved (Vec3.moved v18 Coord.X ((v2 * v3) * (2.0 : R))) v4 ((v2 * v3) * (2.0 : R)))
  let v20 : R := (0.4 : R)
  let o21 := (AABB3.hitsLine v6 (⟨v18, v19⟩ : Line3 R))
  let v22 : Bool := o21.isSome
  bad := ck bad 654 (decide (v22 = true))
  bad := ck bad 655 (Near.near (0.0001 : R) (o21.getD (0)) v20)
  return bad
end Aabb3_173
#guard passes Aabb3_173.run

namespace Aabb3_174
abbrev R := Float32
def run : Res (List Nat) := do
  let mut bad : List Nat := []
  let v1 : R := (1000.0 : R)
  let v2 : R := (-(1.0 : R))
  let v3 : R := (v1 * (5.0 : R))
  let v4 : Coord := (next3D Coord.Y)
  let v5 : Coord := (next3D v4)
  let v6 : AABB3 R := (⟨(⟨(-v1), (-v1), (-v1)⟩ : Vec3 R), (⟨v1, v1, v1⟩ : Vec3 R)⟩ : AABB3 R)
  let v7 : Vec3 R := (Vec3.moved (Vec3.moved (Vec3.zero : Vec3 R) Coord.Y (if (decide (v2 > (0.0 : R))) then (-v3) else v3)) v4 (if (decide (v2 > (0.0 : R))) then (-v3) else v3))
  let v8 : Vec3 R := v7
  let v9 : Vec3 R := (Vec3.moved v7 Coord.Y (v2 * v1))
  let v10 : Vec3 R := (Vec3.moved v7 Coord.Y ((v2 * v1) * (2 : R)))
  let v11 : Vec3 R := (Vec3.moved v7 v4 (v2 * v1))
  let v12 : Vec3 R := (Vec3.moved v7 v4 ((v2 * v1) * (2 : R)))
  let v13 : R := (0.6 : R)
  let v14 : R := (0.5 : R)
  let v15 : R := (0.4 : R)
  let v16 : R := (0.5 : R)
  let v17 : R := (0.4 : R)
  let v18 : Vec3 R := v11
  let v19 : Vec3 R := (Vec3.moved (Vec3.moved v18 Coord.Y ((v2 * v3) * (2.0 : R))) v4 ((v2 * v3) * (2.0 : R)))
  let v20 : R := (0.4 : R)
  let o21 := (AABB3.hitsLine v6 (⟨v18, v19⟩ : Line3 R))
  let v22 : Bool := o21.isSome
  bad := ck bad 654 (decide (v22 = true))
  bad := ck bad 655 (Near.near (0.0001 : R) (o21.getD (0)) v20)
  return bad
end Aabb3_174
#guard passes Aabb3_174.run

namespace Aabb3_175
abbrev R := Float32
def run : Res (List Nat) := do
  let mut bad : List Nat := []
  let v1 : R := (1.0 : R)
  let v2 : R := (1.0 : R)
  let v3 : R := (v1 * (5.0 : R))
  let v4 : Coord := (next3D Coord.X)
  let v5 : Coord := (next3D v4)
  let v6 : AABB3 R := (⟨(⟨(-v1), (-v1), (-v1)⟩ : Vec3 R), (⟨v1, v1, v1⟩ : Vec3 R)⟩ : AABB3 R)
  let v7 : Vec3 R := (Vec3.moved (Vec3.moved (Vec3.zero : Vec3 R) Coord.X (if (decide (v2 > (0.0 : R))) then (-v3) else v3)) v4 (if (decide (v2 > (0.0 : R))) then (-v3) else v3))
  let v8 : Vec3 R := v7
  let v9 : Vec3 R := (Vec3.moved v7 Coord.X (v2 * v1))
  let v10 : Vec3 R := (Vec3.moved v7 Coord.X ((v2 * v1) * (2 : R)))
  let v11 : Vec3 R := (Vec3.moved v7 v4 (v2 * v1))
  let v12 : Vec3 R := (Vec3.moved v7 v4 ((v2 * v1) * (2 : R)))
  let v13 : R := (0.6 : R)
  let v14 : R := (0.5 : R)
  let v15 : R := (0.4 : R)
  let v16 : R := (0.5 : R)
  let v17 : R := (0.4 : R)
  let v18 : Vec3 R := v8
  let v19 : Vec3 R := (Vec3.moved (Vec3.moved v18 Coord.X ((v2 * v3) * (2.0 : R))) v4 ((v2 * v3) * (2.0 : R)))
  let v20 : R := (0.4 : R)
  let o21 := (AABB3.hitsLine v6 (⟨(Vec3.moved v18 v5 v3), (Vec3.moved v19 v5 v3)⟩ : Line3 R))
  bad := ck bad 659 (decide (o21.isSome = false))
  let o22 := (AABB3.hitsLine v6 (⟨(Vec3.moved v18 v5 (-v3)), (Vec3.moved v19 v5 (-v3))⟩ : Line3 R))
  bad := ck bad 660 (decide (o22.isSome = false))
  return bad
end Aabb3_175
#guard passes Aabb3_175.run

namespace Aabb3_176
abbrev R := Float32
def run : Res (List Nat) := do
  let mut bad : List Nat := []
  let v1 : R := (1.0 : R)
  let v2 : R := (1.0 : R)
  let v3 : R := (v1 * (5.0 : R))
  let v4 : Coord := (next3D Coord.Y)
  let v5 : Coord := (next3D v4)
  let v6 : AABB3 R := (⟨(⟨(-v1), (-v1), (-v1)⟩ : Vec3 R), (⟨v1, v1, v1⟩ : Vec3 R)⟩ : AABB3 R)
  let v7 : Vec3 R := (Vec3.moved (Vec3.moved (Vec3.zero : Vec3 R) Coord.Y (if (decide (v2 > (0.0 : R))) then (-v3) else v3)) v4 (if (decide (v2 > (0.0 : R))) then (-v3) else v3))
  let v8 : Vec3 R := v7
  let v9 : Vec3 R := (Vec3.moved v7 Coord.Y (v2 * v1))
  let v10 : Vec3 R := (Vec3.moved v7 Coord.Y ((v2 * v1) * (2 : R)))
  let v11 : Vec3 R := (Vec3.moved v7 v4 (v2 * v1))
  let v12 : Vec3 R := (Vec3.moved v7 v4 ((v2 * v1) * (2 : R)))
  let v13 : R := (0.6 : R)
  let v14 : R := (0.5 : R)
  let v15 : R := (0.4 : R)
  let v16 : R := (0.5 : R)
  let v17 : R := (0.4 : R)
  let v18 : Vec3 R := v11
  let v19 : Vec3 R := (Vec3.moved (Vec3.moved v18 Coord.Y ((v2 * v3) * (2.0 : R))) v4 ((v2 * v3) * (2.0 : R)))
  let v20 : R := (0.4 : R)
  let o21 := (AABB3.hitsLine v6 (⟨(Vec3.moved v18 v5 v3), (Vec3.moved v19 v5 v3)⟩ : Line3 R))
  bad := ck bad 659 (decide (o21.isSome = false))
  let o22 := (AABB3.hitsLine v6 (⟨(Vec3.moved v18 v5 (-v3)), (Vec3.moved v19 v5 (-v3))⟩ : Line3 R))
  bad := ck bad 660 (decide (o22.isSome = false))
  return bad
end Aabb3_176
#guard passes Aabb3_176.run

namespace Aabb3_177
abbrev R := Float32
def run : Res (List Nat) := do
  let mut bad : List Nat := []
  let v1 : R := (1.0 : R)
  let v2 : R := (-(1.0 : R))
  let v3 : R := (v1 * (5.0 : R))
  let v4 : Coord := (next3D Coord.Z)
  let v5 : Coord := (next3D v4)
  let v6 : AABB3 R := (⟨(⟨(-v1), (-v1), (-v1)⟩ : Vec3 R), (⟨v1, v1, v1⟩ : Vec3 R)⟩ : AABB3 R)
  let v7 : Vec3 R := (Vec3.moved (Vec3.moved (Vec3.zero : Vec3 R) Coord.Z (if (decide (v2 > (0.0 : R))) then (-v3) else v3)) v4 (if (decide (v2 > (0.0 : R))) then (-v3) else v3))
  let v8 : Vec3 R := v7
  let v9 : Vec3 R := (Vec3.moved v7 Coord.Z (v2 * v1))
  let v10 : Vec3 R := (Vec3.moved v7 Coord.Z ((v2 * v1) * (2 : R)))
  let v11 : Vec3 R := (Vec3.moved v7 v4 (v2 * v1))
  let v12 : Vec3 R := (Vec3.moved v7 v4 ((v2 * v1) * (2 : R)))
  let v13 : R := (0.6 : R)
  let v14 : R := (0.5 : R)
  let v15 : R := (0.4 : R)
  let v16 : R := (0.5 : R)
  let v17 : R := (0.4 : R)
  let v18 : Vec3 R := v9
  let v19 : Vec3 R := (Vec3.moved (Vec3.moved v18 Coord.Z ((v2 * v3) * (2.0 : R))) v4 ((v2 * v3) * (2.0 : R)))
  let v20 : R := (0.4 : R)
  let o21 := (AABB3.hitsLine v6 (⟨(Vec3.moved v18 v5 v3), (Vec3.moved v19 v5 v3)⟩ : Line3 R))
  bad := ck bad 659 (decide (o21.isSome = false))
  let o22 := (AABB3.hitsLine v6 (⟨(Vec3.moved v18 v5 (-v3)), (Vec3.moved v19 v5 (-v3))⟩ : Line3 R))
  bad := ck bad 660 (decide (o22.isSome = false))
  return bad
end Aabb3_177
#guard passes Aabb3_177.run

namespace Aabb3_178
abbrev R := Float32
def run : Res (List Nat) := do
  let mut bad : List Nat := []
  let v1 : R := (0.001 : R)
  let v2 : R := (-(1.0 : R))
  let v3 : R := (v1 * (5.0 : R))
  let v4 : Coord := (next3D Coord.X)
  let v5 : Coord := (next3D v4)
  let v6 : AABB3 R := (⟨(⟨(-v1), (-v1), (-v1)⟩ : Vec3 R), (⟨v1, v1, v1⟩ : Vec3 R)⟩ : AABB3 R)
  let v7 : Vec3 R := (Vec3.moved (Vec3.moved (Vec3.zero : Vec3 R) Coord.X (if (decide (v2 > (0.0 : R))) then (-v3) else v3)) v4 (if (decide (v2 > (0.0 : R))) then (-v3) else v3))
  let v8 : Vec3 R := v7
  let v9 : Vec3 R := (Vec3.moved v7 Coord.X (v2 * v1))
  let v10 : Vec3 R := (Vec3.moved v7 Coord.X ((v2 * v1) * (2 : R)))
  let v11 : Vec3 R := (Vec3.moved v7 v4 (v2 * v1))
  let v12 : Vec3 R := (Vec3.moved v7 v4 ((v2 * v1) * (2 : R)))
  let v13 : R := (0.6 : R)
  let v14 : R := (0.5 : R)
  let v15 : R := (0.4 : R)
  let v16 : R := (0.5 : R)
  let v17 : R := (0.4 : R)
  let v18 : Vec3 R := v12
  let v19 : Vec3 R := (Vec3.moved (Vec3.moved v18 Coord.X ((v2 * v3) * (2.0 : R))) v4 ((v2 * v3) * (2.0 : R)))
  let v20 : R := (0.4 : R)
  let o21 := (AABB3.hitsLine v6 (⟨(Vec3.moved v18 v5 v3), (Vec3.moved v19 v5 v3)⟩ : Line3 R))
  bad := ck bad 659 (decide (o21.isSome = false))
  let o22 := (AABB3.hitsLine v6 (⟨(Vec3.moved v18 v5 (-v3)), (Vec3.moved v19 v5 (-v3))⟩ : Line3 R))
  bad := ck bad 660 (decide (o22.isSome = false))
  return bad
end Aabb3_178
#guard passes Aabb3_178.run

namespace Aabb3_179
abbrev R := Float32
def run : Res (List Nat) := do
  let mut bad : List Nat := []
  let v1 : R := (0.001 : R)
  let v2 : R := (1.0 : R)
  let v3 : R := (v1 * (5.0 : R))
  let v4 : Coord := (next3D Coord.Z)
  let v5 : Coord := (next3D v4)
  let v6 : AABB3 R := (⟨(⟨(-v1), (-v1), (-v1)⟩ : Vec3 R), (⟨v1, v1, v1⟩ : Vec3 R)⟩ : AABB3 R)
  let v7 : Vec3 R := (Vec3.moved (Vec3.moved (Vec3.zero : Vec3 R) Coord.Z (if (decide (v2 > (0.0 : R))) then (-v3) else v3)) v4 (if (decide (v2 > (0.0 : R))) then (-v3) else v3))
  let v8 : Vec3 R := v7
  let v9 : Vec3 R := (Vec3.moved v7 Coord.Z (v2 * v1))
  let v10 : Vec3 R := (Vec3.moved v7 Coord.Z ((v2 * v1) * (2 : R)))
  let v11 : Vec3 R := (Vec3.moved v7 v4 (v2 * v1))
  let v12 : Vec3 R := (Vec3.moved v7 v4 ((v2 * v1) * (2 : R)))
  let v13 : R := (0.6 : R)
  let v14 : R := (0.5 : R)
  let v15 : R := (0.4 : R)
  let v16 : R := (0.5 : R)
  let v17 : R := (0.4 : R)
  let v18 : Vec3 R := v10
  let v19 : Vec3 R := (Vec3.moved (Vec3.moved v18 Coord.Z ((v2 * v3) * (2.0 : R))) v4 ((v2 * v3) * (2.0 : R)))
  let v20 : R := (0.4 : R)
  let o21 := (AABB3.hitsLine v6 (⟨(Vec3.moved v18 v5 v3), (Vec3.moved v19 v5 v3)⟩ : Line3 R))
  bad := ck bad 659 (decide (o21.isSome = false))
  let o22 := (AABB3.hitsLine v6 (⟨(Vec3.moved v18 v5 (-v3)), (Vec3.moved v19 v5 (-v3))⟩ : Line3 R))
  bad := ck bad 660 (decide (o22.isSome = false))
  return bad
end Aabb3_179
#guard passes Aabb3_179.run

namespace Aabb3_180
abbrev R := Float32
def run : Res (List Nat) := do
  let mut bad : List Nat := []
  let v1 : R := (1000.0 : R)
  let v2 : R := (-(1.0 : R))
  let v3 : R := (v1 * (5.0 : R))
  let v4 : Coord := (next3D Coord.X)
  let v5 : Coord := (next3D v4)
  let v6 : AABB3 R := (⟨(⟨(-v1), (-v1), (-v1)⟩ : Vec3 R), (⟨v1, v1, v1⟩ : Vec3 R)⟩ : AABB3 R)
  let v7 : Vec3 R := (Vec3.moved (Vec3.moved (Vec3.zero : Vec3 R) Coord.X (if (decide (v2 > (0.0 : R))) then (-v3) else v3)) v4 (if (decide (v2 > (0.0 : R))) then (-v3) else v3))
  let v8 : Vec3 R := v7
  let v9 : Vec3 R := (Vec3.moved v7 Coord.X (v2 * v1))
  let v10 : Vec3 R := (Vec3.moved v7 Coord.X ((v2 * v1) * (2 : R)))
  let v11 : Vec3 R := (Vec3.moved v7 v4 (v2 * v1))
  let v12 : Vec3 R := (Vec3.moved v7 v4 ((v2 * v1) * (2 : R)))
  let v13 : R := (0.6 : R)
  let v14 : R := (0.5 : R)
  let v15 : R := (0.4 : R)
  let v16 : R := (0.5 : R)
  let v17 : R := (0.4 : R)
  let v18 : Vec3 R := v8
  let v19 : Vec3 R := (Vec3.moved (Vec3.moved v18 Coord.X ((v2 * v3) * (2.0 : R))) v4 ((v2 * v3) * (2.0 : R)))
  let v20 : R := (0.4 : R)
  let o21 := (AABB3.hitsLine v6 (⟨(Vec3.moved v18 v5 v3), (Vec3.moved v19 v5 v3)⟩ : Line3 R))
  bad := ck bad 659 (decide (o21.isSome = false))
  let o22 := (AABB3.hitsLine v6 (⟨(Vec3.moved v18 v5 (-v3)), (Vec3.moved v19 v5 (-v3))⟩ : Line3 R))
  bad := ck bad 660 (decide (o22.isSome = false))
  return bad
end Aabb3_180
#guard passes Aabb3_180.run

namespace Aabb3_181
abbrev R := Float32
def run : Res (List Nat) := do
  let mut bad : List Nat := []
  let v1 : R := (1000.0 : R)
  let v2 : R := (-(1.0 : R))
  let v3 : R := (v1 * (5.0 : R))
  let v4 : Coord := (next3D Coord.Y)
  let v5 : Coord := (next3D v4)
  let v6 : AABB3 R := (⟨(⟨(-v1), (-v1), (-v1)⟩ : Vec3 R), (⟨v1, v1, v1⟩ : Vec3 R)⟩ : AABB3 R)
  let v7 : Vec3 R := (Vec3.moved (Vec3.moved (Vec3.zero : Vec3 R) Coord.Y (if (decide (v2 > (0.0 : R))) then (-v3) else v3)) v4 (if (decide (v2 > (0.0 : R))) then (-v3) else v3))
  let v8 : Vec3 R := v7
  let v9 : Vec3 R := (Vec3.moved v7 Coord.Y (v2 * v1))
  let v10 : Vec3 R := (Vec3.moved v7 Coord.Y ((v2 * v1) * (2 : R)))
  let v11 : Vec3 R := (Vec3.moved v7 v4 (v2 * v1))
  let v12 : Vec3 R := (Vec3.moved v7 v4 ((v2 * v1) * (2 : R)))
  let v13 : R := (0.6 : R)
  let v14 : R := (0.5 : R)
  let v15 : R := (0.4 : R)
  let v16 : R := (0.5 : R)
  let v17 : R := (0.4 : R)
  let v18 : Vec3 R := v11
  let v19 : Vec3 R := (Vec3.moved (Vec3.moved v18 Coord.Y ((v2 * v3) * (2.0 : R))) v4 ((v2 * v3) * (2.0 : R)))
  let v20 : R := (0.4 : R)
  let o21 := (AABB3.hitsLine v6 (⟨(Vec3.moved v18 v5 v3), (Vec3.moved v19 v5 v3)⟩ : Line3 R))
  bad := ck bad 659 (decide (o21.isSome = false))
  let o22 := (AABB3.hitsLine v6 (⟨(Vec3.moved v18 v5 (-v3)), (Vec3.moved v19 v5 (-v3))⟩ : Line3 R))
  bad := ck bad 660 (decide (o22.isSome = false))
  return bad
end Aabb3_181
#guard passes Aabb3_181.run

namespace Aabb3_182
abbrev R := Float32
def run : Res (List Nat) := do
  let mut bad : List Nat := []
  let v1 : AABB3 R := (constAABB3One : AABB3 R)
  let v2 : AABB3 R := (AABB3.scaleCentered (constAABB3One : AABB3 R) (0.1 : R))
  bad := ck bad 670 (AABB3.intersects v1 v2)
  bad := ck bad 672 (AABB3.intersects v1 (AABB3.translate v2 (⟨(0.45 : R), (0.45 : R), (0.45 : R)⟩ : Vec3 R)))
  bad := ck bad 673 (AABB3.intersects v1 (AABB3.translate v2 (⟨(0.45 : R), (-(0.45 : R)), (0.45 : R)⟩ : Vec3 R)))
  bad := ck bad 674 (AABB3.intersects v1 (AABB3.translate v2 (⟨(-(0.45 : R)), (-(0.45 : R)), (0.45 : R)⟩ : Vec3 R)))
  bad := ck bad 675 (AABB3.intersects v1 (AABB3.translate v2 (⟨(-(0.45 : R)), (0.45 : R), (0.45 : R)⟩ : Vec3 R)))
  bad := ck bad 676 (AABB3.intersects v1 (AABB3.translate v2 (⟨(0.45 : R), (0.45 : R), (-(0.45 : R))⟩ : Vec3 R)))
  bad := ck bad 677 (AABB3.intersects v1 (AABB3.translate v2 (⟨(0.45 : R), (-(0.45 : R)), (-(0.45 : R))⟩ : Vec3 R)))
  bad := ck bad 678 (AABB3.intersects v1 (AABB3.translate v2 (⟨(-(0.45 : R)), (-(0.45 : R)), (-(0.45 : R))⟩ : Vec3 R)))
  bad := ck bad 679 (AABB3.intersects v1 (AABB3.translate v2 (⟨(-(0.45 : R)), (0.45 : R), (-(0.45 : R))⟩ : Vec3 R)))
  bad := ck bad 681 (AABB3.intersects v1 (AABB3.translate v2 (⟨(0.46 : R), (0.46 : R), (0.46 : R)⟩ : Vec3 R)))
  bad := ck bad 682 (AABB3.intersects v1 (AABB3.translate v2 (⟨(0.46 : R), (-(0.46 : R)), (0.46 : R)⟩ : Vec3 R)))
  bad := ck bad 683 (AABB3.intersects v1 (AABB3.translate v2 (⟨(-(0.46 : R)), (-(0.46 : R)), (0.46 : R)⟩ : Vec3 R)))
  bad := ck bad 684 (AABB3.intersects v1 (AABB3.translate v2 (⟨(-(0.46 : R)), (0.46 : R), (0.46 : R)⟩ : Vec3 R)))
  bad := ck bad 685 (AABB3.intersects v1 (AABB3.translate v2 (⟨(0.46 : R), (0.46 : R), (-(0.46 : R))⟩ : Vec3 R)))
  bad := ck bad 686 (AABB3.intersects v1 (AABB3.translate v2 (⟨(0.46 : R), (-(0.46 : R)), (-(0.46 : R))⟩ : Vec3 R)))
  bad := ck bad 687 (AABB3.intersects v1 (AABB3.translate v2 (⟨(-(0.46 : R)), (-(0.46 : R)), (-(0.46 : R))⟩ : Vec3 R)))
  bad := ck bad 688 (AABB3.intersects v1 (AABB3.translate v2 (⟨(-(0.46 : R)), (0.46 : R), (-(0.46 : R))⟩ : Vec3 R)))
  bad := ck bad 690 (!(AABB3.intersects v1 (AABB3.translate v2 (⟨(0.56 : R), (0.56 : R), (0.56 : R)⟩ : Vec3 R))))
  bad := ck bad 691 (!(AABB3.intersects v1 (AABB3.translate v2 (⟨(0.56 : R), (-(0.56 : R)), (0.56 : R)⟩ : Vec3 R))))
  bad := ck bad 692 (!(AABB3.intersects v1 (AABB3.translate v2 (⟨(-(0.56 : R)), (-(0.56 : R)), (0.56 : R)⟩ : Vec3 R))))
  bad := ck bad 693 (!(AABB3.intersects v1 (AABB3.translate v2 (⟨(-(0.56 : R)), (0.56 : R), (0.56 : R)⟩ : Vec3 R))))
  bad := ck bad 694 (!(AABB3.intersects v1 (AABB3.translate v2 (⟨(0.56 : R), (0.56 : R), (-(0.56 : R))⟩ : Vec3 R))))
  bad := ck bad 695 (!(AABB3.intersects v1 (AABB3.translate v2 (⟨(0.56 : R), (-(0.56 : R)), (-(0.56 : R))⟩ : Vec3 R))))
  bad := ck bad 696 (!(AABB3.intersects v1 (AABB3.translate v2 (⟨(-(0.56 : R)), (-(0.56 : R)), (-(0.56 : R))⟩ : Vec3 R))))
  bad := ck bad 697 (!(AABB3.intersects v1 (AABB3.translate v2 (⟨(-(0.56 : R)), (0.56 : R), (-(0.56 : R))⟩ : Vec3 R))))
  return bad
end Aabb3_182
#guard passes Aabb3_182.run

namespace Aabb3_183
abbrev R := Float32
def run : Res (List Nat) := do
  let mut bad : List Nat := []
  let v1 : R := (1.0 : R)
  let v2 : R := (1.0 : R)
  let v3 : R := (v1 * (5.0 : R))
  let v4 : Coord := (next3D Coord.X)
  let v5 : Coord := (next3D v4)
  let v6 : AABB3 R := (⟨(⟨(-v1), (-v1), (-v1)⟩ : Vec3 R), (⟨v1, v1, v1⟩ : Vec3 R)⟩ : AABB3 R)
  let v7 : R := (v3 - v1)
  let v8 : R := (v3 + v1)
  let v9 : Vec3 R := (Vec3.moved (Vec3.zero : Vec3 R) Coord.X (if (decide (v2 > (0.0 : R))) then (-v3) else v3))
  let v10 : Vec3 R := (Vec3.moved (Vec3.zero : Vec3 R) Coord.X v2)
  let o11 := (AABB3.intersectsRay (fltMax : R) v6 (Ray3.from v9 v10))
  bad := ck bad 723 (decide (o11.isSome = true))
  bad := ck bad 724 ((o11.getD (0, 0)).1 == v7)
  bad := ck bad 725 ((o11.getD (0, 0)).2 == v8)
  return bad
end Aabb3_183
#guard passes Aabb3_183.run

namespace Aabb3_184
abbrev R := Float32
def run : Res (List Nat) := do
  let mut bad : List Nat := []
  let v1 : R := (1.0 : R)
  let v2 : R := (-(1.0 : R))
  let v3 : R := (v1 * (5.0 : R))
  let v4 : Coord := (next3D Coord.Y)
  let v5 : Coord := (next3D v4)
  let v6 : AABB3 R := (⟨(⟨(-v1), (-v1), (-v1)⟩ : Vec3 R), (⟨v1, v1, v1⟩ : Vec3 R)⟩ : AABB3 R)
  let v7 : R := (v3 - v1)
  let v8 : R := (v3 + v1)
  let v9 : Vec3 R := (Vec3.moved (Vec3.zero : Vec3 R) Coord.Y (if (decide (v2 > (0.0 : R))) then (-v3) else v3))
  let v10 : Vec3 R := (Vec3.moved (Vec3.zero : Vec3 R) Coord.Y v2)
  let o11 := (AABB3.intersectsRay (fltMax : R) v6 (Ray3.from v9 v10))
  bad := ck bad 723 (decide (o11.isSome = true))
  bad := ck bad 724 ((o11.getD (0, 0)).1 == v7)
  bad := ck bad 725 ((o11.getD (0, 0)).2 == v8)
  return bad
end Aabb3_184
#guard passes Aabb3_184.run

namespace Aabb3_185
abbrev R := Float32
def run : Res (List Nat) := do
  let mut bad : List Nat := []
  let v1 : R := (0.001 : R)
  let v2 : R := (1.0 : R)
  let v3 : R := (v1 * (5.0 : R))
  let v4 : Coord := (next3D Coord.X)
  let v5 : Coord := (next3D v4)
  let v6 : AABB3 R := (⟨(⟨(-v1), (-v1), (-v1)⟩ : Vec3 R), (⟨v1, v1, v1⟩ : Vec3 R)⟩ : AABB3 R)
  let v7 : R := (v3 - v1)
  let v8 : R := (v3 + v1)
  let v9 : Vec3 R := (Vec3.moved (Vec3.zero : Vec3 R) Coord.X (if (decide (v2 > (0.0 : R))) then (-v3) else v3))
  let v10 : Vec3 R := (Vec3.moved (Vec3.zero : Vec3 R) Coord.X v2)
  let o11 := (AABB3.intersectsRay (fltMax : R) v6 (Ray3.from v9 v10))
  bad := ck bad 723 (decide (o11.isSome = true))
  bad := ck bad 724 ((o11.getD (0, 0)).1 == v7)
  bad := ck bad 725 ((o11.getD (0, 0)).2 == v8)
  return bad
end Aabb3_185
#guard passes Aabb3_185.run

namespace Aabb3_186
abbrev R := Float32
def run : Res (List Nat) := do
  let mut bad : List Nat := []
  let v1 : R := (0.001 : R)
  let v2 : R := (-(1.0 : R))
  let v3 : R := (v1 * (5.0 : R))
  let v4 : Coord := (next3D Coord.Y)
  let v5 : Coord := (next3D v4)
  let v6 : AABB3 R := (⟨(⟨(-v1), (-v1), (-v1)⟩ : Vec3 R), (⟨v1, v1, v1⟩ : Vec3 R)⟩ : AABB3 R)
  let v7 : R := (v3 - v1)
  let v8 : R := (v3 + v1)
  let v9 : Vec3 R := (Vec3.moved (Vec3.zero : Vec3 R) Coord.Y (if (decide (v2 > (0.0 : R))) then (-v3) else v3))
  let v10 : Vec3 R := (Vec3.moved (Vec3.zero : Vec3 R) Coord.Y v2)
  let o11 := (AABB3.intersectsRay (fltMax : R) v6 (Ray3.from v9 v10))
  bad := ck bad 723 (decide (o11.isSome = true))
  bad := ck bad 724 ((o11.getD (0, 0)).1 == v7)
  bad := ck bad 725 ((o11.getD (0, 0)).2 == v8)
  return bad
end Aabb3_186
#guard passes Aabb3_186.run

namespace Aabb3_187
abbrev R := Float32
def run : Res (List Nat) := do
  let mut bad : List Nat := []
  let v1 : R := (1000.0 : R)
  let v2 : R := (1.0 : R)
  let v3 : R := (v1 * (5.0 : R))
  let v4 : Coord := (next3D Coord.X)
  let v5 : Coord := (next3D v4)
  let v6 : AABB3 R := (⟨(⟨(-v1), (-v1), (-v1)⟩ : Vec3 R), (⟨v1, v1, v1⟩ : Vec3 R)⟩ : AABB3 R)
  let v7 : R := (v3 - v1)
  let v8 : R := (v3 + v1)
  let v9 : Vec3 R := (Vec3.moved (Vec3.zero : Vec3 R) Coord.X (if (decide (v2 > (0.0 : R))) then (-v3) else v3))
  let v10 : Vec3 R := (Vec3.moved (Vec3.zero : Vec3 R) Coord.X v2)
  let o11 := (AABB3.intersectsRay (fltMax : R) v6 (Ray3.from v9 v10))
  bad := ck bad 723 (decide (o11.isSome = true))
  bad := ck bad 724 ((o11.getD (0, 0)).1 == v7)
  bad := ck bad 725 ((o11.getD (0, 0)).2 == v8)
  return bad
end Aabb3_187
#guard passes Aabb3_187.run

namespace Aabb3_188
abbrev R := Float32
def run : Res (List Nat) := do
  let mut bad : List Nat := []
  let v1 : R := (1000.0 : R)
  let v2 : R := (-(1.0 : R))
  let v3 : R := (v1 * (5.0 : R))
  let v4 : Coord := (next3D Coord.Y)
  let v5 : Coord := (next3D v4)
  let v6 : AABB3 R := (⟨(⟨(-v1), (-v1), (-v1)⟩ : Vec3 R), (⟨v1, v1, v1⟩ : Vec3 R)⟩ : AABB3 R)
  let v7 : R := (v3 - v1)
  let v8 : R := (v3 + v1)
  let v9 : Vec3 R := (Vec3.moved (Vec3.zero : Vec3 R) Coord.Y (if (decide (v2 > (0.0 : R))) then (-v3) else v3))
  let v10 : Vec3 R := (Vec3.moved (Vec3.zero : Vec3 R) Coord.Y v2)
  let o11 := (AABB3.intersectsRay (fltMax : R) v6 (Ray3.from v9 v10))
  bad := ck bad 723 (decide (o11.isSome = true))
  bad := ck bad 724 ((o11.getD (0, 0)).1 == v7)
  bad := ck bad 725 ((o11.getD (0, 0)).2 == v8)
  return bad
end Aabb3_188
#guard passes Aabb3_188.run

namespace Aabb3_189
abbrev R := Float32
def run : Res (List Nat) := do
  let mut bad : List Nat := []
  let v1 : R := (1.0 : R)
  let v2 : R := (1.0 : R)
  let v3 : R := (v1 * (5.0 : R))
  let v4 : Coord := (next3D Coord.X)
  let v5 : Coord := (next3D v4)
  let v6 : AABB3 R := (⟨(⟨(-v1), (-v1), (-v1)⟩ : Vec3 R), (⟨v1, v1, v1⟩ : Vec3 R)⟩ : AABB3 R)
  let v7 : R := (v3 - v1)
  let v8 : R := (v3 + v1)
  let v9 : Vec3 R := (Vec3.moved (Vec3.zero : Vec3 R) Coord.X (if (decide (v2 > (0.0 : R))) then (-v3) else v3))
  let v10 : Vec3 R := (Vec3.moved (Vec3.zero : Vec3 R) Coord.X v2)
  let o11 := (AABB3.intersectsRay (fltMax : R) v6 (Ray3.from (Vec3.moved v9 v4 v3) v10))
  bad := ck bad 729 (decide (o11.isSome = false))
  let o12 := (AABB3.intersectsRay (fltMax : R) v6 (Ray3.from (Vec3.moved v9 v4 (-v3)) v10))
  bad := ck bad 730 (decide (o12.isSome = false))
  return bad
end Aabb3_189
#guard passes Aabb3_189.run

namespace Aabb3_190
abbrev R := Float32
def run : Res (List Nat) := do
  let mut bad : List Nat := []
  let v1 : R := (1.0 : R)
  let v2 : R := (-(1.0 : R))
  let v3 : R := (v1 * (5.0 : R))
  let v4 : Coord := (next3D Coord.Y)
  let v5 : Coord := (next3D v4)
  let v6 : AABB3 R := (⟨(⟨(-v1), (-v1), (-v1)⟩ : Vec3 R), (⟨v1, v1, v1⟩ : Vec3 R)⟩ : AABB3 R)
  let v7 : R := (v3 - v1)
  let v8 : R := (v3 + v1)
  let v9 : Vec3 R := (Vec3.moved (Vec3.zero : Vec3 R) Coord.Y (if (decide (v2 > (0.0 : R))) then (-v3) else v3))
  let v10 : Vec3 R := (Vec3.moved (Vec3.zero : Vec3 R) Coord.Y v2)
  let o11 := (AABB3.intersectsRay (fltMax : R) v6 (Ray3.from (Vec3.moved v9 v4 v3) v10))
  bad := ck bad 729 (decide (o11.isSome = false))
  let o12 := (AABB3.intersectsRay (fltMax : R) v6 (Ray3.from (Vec3.moved v9 v4 (-v3)) v10))
  bad := ck bad 730 (decide (o12.isSome = false))
  return bad
end Aabb3_190
#guard passes Aabb3_190.run

namespace Aabb3_191
abbrev R := Float32
def run : Res (List Nat) := do
  let mut bad : List Nat := []
  let v1 : R := (0.001 : R)
  let v2 : R := (1.0 : R)
  let v3 : R := (v1 * (5.0 : R))
  let v4 : Coord := (next3D Coord.X)
  let v5 : Coord := (next3D v4)
  let v6 : AABB3 R := (⟨(⟨(-v1), (-v1), (-v1)⟩ : Vec3 R), (⟨v1, v1, v1⟩ : Vec3 R)⟩ : AABB3 R)
  let v7 : R := (v3 - v1)
  let v8 : R := (v3 + v1)
  let v9 : Vec3 R := (Vec3.moved (Vec3.zero : Vec3 R) Coord.X (if (decide (v2 > (0.0 : R))) then (-v3) else v3))
  let v10 : Vec3 R := (Vec3.moved (Vec3.zero : Vec3 R) Coord.X v2)
  let o11 := (AABB3.intersectsRay (fltMax : R) v6 (Ray3.from (Vec3.moved v9 v4 v3) v10))
  bad := ck bad 729 (decide (o11.isSome = false))
  let o12 := (AABB3.intersectsRay (fltMax : R) v6 (Ray3.from (Vec3.moved v9 v4 (-v3)) v10))
  bad := ck bad 730 (decide (o12.isSome = false))
  return bad
end Aabb3_191
#guard passes Aabb3_191.run

namespace Aabb3_192
abbrev R := Float32
def run : Res (List Nat) := do
  let mut bad : List Nat := []
  let v1 : R := (0.001 : R)
  let v2 : R := (-(1.0 : R))
  let v3 : R := (v1 * (5.0 : R))
  let v4 : Coord := (next3D Coord.Y)
  let v5 : Coord := (next3D v4)
  let v6 : AABB3 R := (⟨(⟨(-v1), (-v1), (-v1)⟩ : Vec3 R), (⟨v1, v1, v1⟩ : Vec3 R)⟩ : AABB3 R)
  let v7 : R := (v3 - v1)
  let v8 : R := (v3 + v1)
  let v9 : Vec3 R := (Vec3.moved (Vec3.zero : Vec3 R) Coord.Y (if (decide (v2 > (0.0 : R))) then (-v3) else v3))
  let v10 : Vec3 R := (Vec3.moved (Vec3.zero : Vec3 R) Coord.Y v2)
  let o11 := (AABB3.intersectsRay (fltMax : R) v6 (Ray3.from (Vec3.moved v9 v4 v3) v10))
  bad := ck bad 729 (decide (o11.isSome = false))
  let o12 := (AABB3.intersectsRay (fltMax : R) v6 (Ray3.from (Vec3.moved v9 v4 (-v3)) v10))
  bad := ck bad 730 (decide (o12.isSome = false))
  return bad
end Aabb3_192
#guard passes Aabb3_192.run

namespace Aabb3_193
abbrev R := Float32
def run : Res (List Nat) := do
  let mut bad : List Nat := []
  let v1 : R := (1000.0 : R)
  let v2 : R := (1.0 : R)
  let v3 : R := (v1 * (5.0 : R))
  let v4 : Coord := (next3D Coord.X)
  let v5 : Coord := (next3D v4)
  let v6 : AABB3 R := (⟨(⟨(-v1), (-v1), (-v1)⟩ : Vec3 R), (⟨v1, v1, v1⟩ : Vec3 R)⟩ : AABB3 R)
  let v7 : R := (v3 - v1)
  let v8 : R := (v3 + v1)
  let v9 : Vec3 R := (Vec3.moved (Vec3.zero : Vec3 R) Coord.X (if (decide (v2 > (0.0 : R))) then (-v3) else v3))
  let v10 : Vec3 R := (Vec3.moved (Vec3.zero : Vec3 R) Coord.X v2)
  let o11 := (AABB3.intersectsRay (fltMax : R) v6 (Ray3.from (Vec3.moved v9 v4 v3) v10))
  bad := ck bad 729 (decide (o11.isSome = false))
  let o12 := (AABB3.intersectsRay (fltMax : R) v6 (Ray3.from (Vec3.moved v9 v4 (-v3)) v10))
  bad := ck bad 730 (decide (o12.isSome = false))
  return bad
end Aabb3_193
#guard passes Aabb3_193.run

namespace Aabb3_194
abbrev R := Float32
def run : Res (List Nat) := do
  let mut bad : List Nat := []
  let v1 : R := (1000.0 : R)
  let v2 : R := (-(1.0 : R))
  let v3 : R := (v1 * (5.0 : R))
  let v4 : Coord := (next3D Coord.Y)
  let v5 : Coord := (next3D v4)
  let v6 : AABB3 R := (⟨(⟨(-v1), (-v1), (-v1)⟩ : Vec3 R), (⟨v1, v1, v1⟩ : Vec3 R)⟩ : AABB3 R)
  let v7 : R := (v3 - v1)
  let v8 : R := (v3 + v1)
  let v9 : Vec3 R := (Vec3.moved (Vec3.zero : Vec3 R) Coord.Y (if (decide (v2 > (0.0 : R))) then (-v3) else v3))
  let v10 : Vec3 R := (Vec3.moved (Vec3.zero : Vec3 R) Coord.Y v2)
  let o11 := (AABB3.intersectsRay (fltMax : R) v6 (Ray3.from (Vec3.moved v9 v4 v3) v10))
  bad := ck bad 729 (decide (o11.isSome = false))
  let o12 := (AABB3.intersectsRay (fltMax : R) v6 (Ray3.from (Vec3.moved v9 v4 (-v3)) v10))
  bad := ck bad 730 (decide (o12.isSome = false))
  return bad
end Aabb3_194
#guard passes Aabb3_194.run

namespace Aabb3_195
abbrev R := Float32
def run : Res (List Nat) := do
  let mut bad : List Nat := []
  let v1 : R := (1.0 : R)
  let v2 : R := (1.0 : R)
  let v3 : R := (v1 * (5.0 : R))
  let v4 : Coord := (next3D Coord.X)
  let v5 : Coord := (next3D v4)
  let v6 : AABB3 R := (⟨(⟨(-v1), (-v1), (-v1)⟩ : Vec3 R), (⟨v1, v1, v1⟩ : Vec3 R)⟩ : AABB3 R)
  let v7 : R := (v3 - v1)
  let v8 : R := (v3 + v1)
  let v9 : Vec3 R := (Vec3.moved (Vec3.zero : Vec3 R) Coord.X (if (decide (v2 > (0.0 : R))) then (-v3) else v3))
  let v10 : Vec3 R := (Vec3.moved (Vec3.zero : Vec3 R) Coord.X v2)
  let o11 := (AABB3.intersectsRay (fltMax : R) v6 (Ray3.from (Vec3.moved v9 v5 v3) v10))
  bad := ck bad 734 (decide (o11.isSome = false))
  let o12 := (AABB3.intersectsRay (fltMax : R) v6 (Ray3.from (Vec3.moved v9 v5 (-v3)) v10))
  bad := ck bad 735 (decide (o12.isSome = false))
  return bad
end Aabb3_195
#guard passes Aabb3_195.run

namespace Aabb3_196
abbrev R := Float32
def run : Res (List Nat) := do
  let mut bad : List Nat := []
  let v1 : R := (1.0 : R)
  let v2 : R := (-(1.0 : R))
  let v3 : R := (v1 * (5.0 : R))
  let v4 : Coord := (next3D Coord.Y)
  let v5 : Coord := (next3D v4)
  let v6 : AABB3 R := (⟨(⟨(-v1), (-v1), (-v1)⟩ : Vec3 R), (⟨v1, v1, v1⟩ : Vec3 R)⟩ : AABB3 R)
  let v7 : R := (v3 - v1)
  let v8 : R := (v3 + v1)
  let v9 : Vec3 R := (Vec3.moved (Vec3.zero : Vec3 R) Coord.Y (if (decide (v2 > (0.0 : R))) then (-v3) else v3))
  let v10 : Vec3 R := (Vec3.moved (Vec3.zero : Vec3 R) Coord.Y v2)
  let o11 := (AABB3.intersectsRay (fltMax : R) v6 (Ray3.from (Vec3.moved v9 v5 v3) v10))
  bad := ck bad 734 (decide (o11.isSome = false))
  let o12 := (AABB3.intersectsRay (fltMax : R) v6 (Ray3.from (Vec3.moved v9 v5 (-v3)) v10))
  bad := ck bad 735 (decide (o12.isSome = false))
  return bad
end Aabb3_196
#guard passes Aabb3_196.run

namespace Aabb3_197
abbrev R := Float32
def run : Res (List Nat) := do
  let mut bad : List Nat := []
  let v1 : R := (0.001 : R)
  let v2 : R := (1.0 : R)
  let v3 : R := (v1 * (5.0 : R))
  let v4 : Coord := (next3D Coord.X)
  let v5 : Coord := (next3D v4)
  let v6 : AABB3 R := (⟨(⟨(-v1), (-v1), (-v1)⟩ : Vec3 R), (⟨v1, v1, v1⟩ : Vec3 R)⟩ : AABB3 R)
  let v7 : R := (v3 - v1)
  let v8 : R := (v3 + v1)
  let v9 : Vec3 R := (Vec3.moved (Vec3.zero : Vec3 R) Coord.X (if (decide (v2 > (0.0 : R))) then (-v3) else v3))
  let v10 : Vec3 R := (Vec3.moved (Vec3.zero : Vec3 R) Coord.X v2)
  let o11 := (AABB3.intersectsRay (fltMax : R) v6 (Ray3.from (Vec3.moved v9 v5 v3) v10))
  bad := ck bad 734 (decide (o11.isSome = false))
  let o12 := (AABB3.intersectsRay (fltMax : R) v6 (Ray3.from (Vec3.moved v9 v5 (-v3)) v10))
  bad := ck bad 735 (decide (o12.isSome = false))
  return bad
end Aabb3_197
#guard passes Aabb3_197.run

namespace Aabb3_198
abbrev R := Float32
def run : Res (List Nat) := do
  let mut bad : List Nat := []
  let v1 : R := (0.001 : R)
  let v2 : R := (-(1.0 : R))
  let v3 : R := (v1 * (5.0 : R))
  let v4 : Coord := (next3D Coord.Y)
  let v5 : Coord := (next3D v4)
  let v6 : AABB3 R := (⟨(⟨(-v1), (-v1), (-v1)⟩ : Vec3 R), (⟨v1, v1, v1⟩ : Vec3 R)⟩ : AABB3 R)
  let v7 : R := (v3 - v1)
  let v8 : R := (v3 + v1)
  let v9 : Vec3 R := (Vec3.moved (Vec3.zero : Vec3 R) Coord.Y (if (decide (v2 > (0.0 : R))) then (-v3) else v3))
  let v10 : Vec3 R := (Vec3.moved (Vec3.zero : Vec3 R) Coord.Y v2)
  let o11 := (AABB3.intersectsRay (fltMax : R) v6 (Ray3.from (Vec3.moved v9 v5 v3) v10))
  bad := ck bad 734 (decide (o11.isSome = false))
  let o12 := (AABB3.intersectsRay (fltMax : R) v6 (Ray3.from (Vec3.moved v9 v5 (-v3)) v10))
  bad := ck bad 735 (decide (o12.isSome = false))
  return bad
end Aabb3_198
#guard passes Aabb3_198.run

namespace Aabb3_199
abbrev R := Float32
def run : Res (List Nat) := do
  let mut bad : List Nat := []
  let v1 : R := (1000.0 : R)
  let v2 : R := (1.0 : R)
  let v3 : R := (v1 * (5.0 : R))
  let v4 : Coord := (next3D Coord.X)
  let v5 : Coord := (next3D v4)
  let v6 : AABB3 R := (⟨(⟨(-v1), (-v1), (-v1)⟩ : Vec3 R), (⟨v1, v1, v1⟩ : Vec3 R)⟩ : AABB3 R)
  let v7 : R := (v3 - v1)
  let v8 : R := (v3 + v1)
  let v9 : Vec3 R := (Vec3.moved (Vec3.zero : Vec3 R) Coord.X (if (decide (v2 > (0.0 : R))) then (-v3) else v3))
  let v10 : Vec3 R := (Vec3.moved (Vec3.zero : Vec3 R) Coord.X v2)
  let o11 := (AABB3.intersectsRay (fltMax : R) v6 (Ray3.from (Vec3.moved v9 v5 v3) v10))
  bad := ck bad 734 (decide (o11.isSome = false))
  let o12 := (AABB3.intersectsRay (fltMax : R) v6 (Ray3.from (Vec3.moved v9 v5 (-v3)) v10))
  bad := ck bad 735 (decide (o12.isSome = false))
  return bad
end Aabb3_199
#guard passes Aabb3_199.run

namespace Aabb3_200
abbrev R := Float32
def run : Res (List Nat) := do
  let mut bad : List Nat := []
  let v1 : R := (1000.0 : R)
  let v2 : R := (-(1.0 : R))
  let v3 : R := (v1 * (5.0 : R))
  let v4 : Coord := (next3D Coord.Y)
  let v5 : Coord := (next3D v4)
  let v6 : AABB3 R := (⟨(⟨(-v1), (-v1), (-v1)⟩ : Vec3 R), (⟨v1, v1, v1⟩ : Vec3 R)⟩ : AABB3 R)
  let v7 : R := (v3 - v1)
  let v8 : R := (v3 + v1)
  let v9 : Vec3 R := (Vec3.moved (Vec3.zero : Vec3 R) Coord.Y (if (decide (v2 > (0.0 : R))) then (-v3) else v3))
  let v10 : Vec3 R := (Vec3.moved (Vec3.zero : Vec3 R) Coord.Y v2)
  let o11 := (AABB3.intersectsRay (fltMax : R) v6 (Ray3.from (Vec3.moved v9 v5 v3) v10))
  bad := ck bad 734 (decide (o11.isSome = false))
  let o12 := (AABB3.intersectsRay (fltMax : R) v6 (Ray3.from (Vec3.moved v9 v5 (-v3)) v10))
  bad := ck bad 735 (decide (o12.isSome = false))
  return bad
end Aabb3_200
#guard passes Aabb3_200.run

namespace Aabb3_201
abbrev R := Float32
def run : Res (List Nat) := do
  let mut bad : List Nat := []
  let v1 : R := (1.0 : R)
  let v2 : R := (1.0 : R)
  let v3 : R := (v1 * (5.0 : R))
  let v4 : Coord := (next3D Coord.X)
  let v5 : Coord := (next3D v4)
  let v6 : AABB3 R := (⟨(⟨(-v1), (-v1), (-v1)⟩ : Vec3 R), (⟨v1, v1, v1⟩ : Vec3 R)⟩ : AABB3 R)
  let v7 : R := (0.0 : R)
  let v8 : R := v1
  let v9 : Vec3 R := (Vec3.zero : Vec3 R)
  let v10 : Vec3 R := (Vec3.moved (Vec3.zero : Vec3 R) Coord.X v2)
  let o11 := (AABB3.intersectsRay (fltMax : R) v6 (Ray3.from v9 v10))
  bad := ck bad 748 (decide (o11.isSome = true))
  bad := ck bad 749 ((o11.getD (0, 0)).1 == v7)
  bad := ck bad 750 ((o11.getD (0, 0)).2 == v8)
  return bad
end Aabb3_201
#guard passes Aabb3_201.run

namespace Aabb3_202
abbrev R := Float32
def run : Res (List Nat) := do
  let mut bad : List Nat := []
  let v1 : R := (1.0 : R)
  let v2 : R := (-(1.0 : R))
  let v3 : R := (v1 * (5.0 : R))
  let v4 : Coord := (next3D Coord.Y)
  let v5 : Coord := (next3D v4)
  let v6 : AABB3 R := (⟨(⟨(-v1), (-v1), (-v1)⟩ : Vec3 R), (⟨v1, v1, v1⟩ : Vec3 R)⟩ : AABB3 R)
  let v7 : R := (0.0 : R)
  let v8 : R := v1
  let v9 : Vec3 R := (Vec3.zero : Vec3 R)
  let v10 : Vec3 R := (Vec3.moved (Vec3.zero : Vec3 R) Coord.Y v2)
  let o11 := (AABB3.intersectsRay (fltMax : R) v6 (Ray3.from v9 v10))
  bad := ck bad 748 (decide (o11.isSome = true))
  bad := ck bad 749 ((o11.getD (0, 0)).1 == v7)
  bad := ck bad 750 ((o11.getD (0, 0)).2 == v8)
  return bad
end Aabb3_202
#guard passes Aabb3_202.run

namespace Aabb3_203
abbrev R := Float32
def run : Res (List Nat) := do
  let mut bad : List Nat := []
  let v1 : R := (0.001 : R)
  let v2 : R := (1.0 : R)
  let v3 : R := (v1 * (5.0 : R))
  let v4 : Coord := (next3D Coord.X)
  let v5 : Coord := (next3D v4)
  let v6 : AABB3 R := (⟨(⟨(-v1), (-v1), (-v1)⟩ : Vec3 R), (⟨v1, v1, v1⟩ : Vec3 R)⟩ : AABB3 R)
  let v7 : R := (0.0 : R)
  let v8 : R := v1
  let v9 : Vec3 R := (Vec3.zero : Vec3 R)
  let v10 : Vec3 R := (Vec3.moved (Vec3.zero : Vec3 R) Coord.X v2)
  let o11 := (AABB3.intersectsRay (fltMax : R) v6 (Ray3.from v9 v10))
  bad := ck bad 748 (decide (o11.isSome = true))
  bad := ck bad 749 ((o11.getD (0, 0)).1 == v7)
  bad := ck bad 750 ((o11.getD (0, 0)).2 == v8)
  return bad
end Aabb3_203
#guard passes Aabb3_203.run

namespace Aabb3_204
abbrev R := Float32
def run : Res (List Nat) := do
  let mut bad : List Nat := []
  let v1 : R := (0.001 : R)
  let v2 : R := (-(1.0 : R))
  let v3 : R := (v1 * (5.0 : R))
  let v4 : Coord := (next3D Coord.Y)
  let v5 : Coord := (next3D v4)
  let v6 : AABB3 R := (⟨(⟨(-v1), (-v1), (-v1)⟩ : Vec3 R), (⟨v1, v1, v1⟩ : Vec3 R)⟩ : AABB3 R)
  let v7 : R := (0.0 : R)
  let v8 : R := v1
  let v9 : Vec3 R := (Vec3.zero : Vec3 R)
  let v10 : Vec3 R := (Vec3.moved (Vec3.zero : Vec3 R) Coord.Y v2)
  let o11 := (AABB3.intersectsRay (fltMax : R) v6 (Ray3.from v9 v10))
  bad := ck bad 748 (decide (o11.isSome = true))
  bad := ck bad 749 ((o11.getD (0, 0)).1 == v7)
  bad := ck bad 750 ((o11.getD (0, 0)).2 == v8)
  return bad
end Aabb3_204
#guard passes Aabb3_204.run

namespace Aabb3_205
abbrev R := Float32
def run : Res (List Nat) := do
  let mut bad : List Nat := []
  let v1 : R := (1000.0 : R)
  let v2 : R := (1.0 : R)
  let v3 : R := (v1 * (5.0 : R))
  let v4 : Coord := (next3D Coord.X)
  let v5 : Coord := (next3D v4)
  let v6 : AABB3 R := (⟨(⟨(-v1), (-v1), (-v1)⟩ : Vec3 R), (⟨v1, v1, v1⟩ : Vec3 R)⟩ : AABB3 R)
  let v7 : R := (0.0 : R)
  let v8 : R := v1
  let v9 : Vec3 R := (Vec3.zero : Vec3 R)
  let v10 : Vec3 R := (Vec3.moved (Vec3.zero : Vec3 R) Coord.X v2)
  let o11 := (AABB3.intersectsRay (fltMax : R) v6 (Ray3.from v9 v10))
  bad := ck bad 748 (decide (o11.isSome = true))
  bad := ck bad 749 ((o11.getD (0, 0)).1 == v7)
  bad := ck bad 750 ((o11.getD (0, 0)).2 == v8)
  return bad
end Aabb3_205
#guard passes Aabb3_205.run

namespace Aabb3_206
abbrev R := Float32
def run : Res (List Nat) := do
  let mut bad : List Nat := []
  let v1 : R := (1000.0 : R)
  let v2 : R := (-(1.0 : R))
  let v3 : R := (v1 * (5.0 : R))
  let v4 : Coord := (next3D Coord.Y)
  let v5 : Coord := (next3D v4)
  let v6 : AABB3 R := (⟨(⟨(-v1), (-v1), (-v1)⟩ : Vec3 R), (⟨v1, v1, v1⟩ : Vec3 R)⟩ : AABB3 R)
  let v7 : R := (0.0 : R)
  let v8 : R := v1
  let v9 : Vec3 R := (Vec3.zero : Vec3 R)
  let v10 : Vec3 R := (Vec3.moved (Vec3.zero : Vec3 R) Coord.Y v2)
  let o11 := (AABB3.intersectsRay (fltMax : R) v6 (Ray3.from v9 v10))
  bad := ck bad 748 (decide (o11.isSome = true))
  bad := ck bad 749 ((o11.getD (0, 0)).1 == v7)
  bad := ck bad 750 ((o11.getD (0, 0)).2 == v8)
  return bad
end Aabb3_206
#guard passes Aabb3_206.run

namespace Aabb3_207
abbrev R := Float32
def run : Res (List Nat) := do
  let mut bad : List Nat := []
  let v1 : R := (1.0 : R)
  let v2 : R := (1.0 : R)
  let v3 : R := (v1 * (5.0 : R))
  let v4 : Coord := (next3D Coord.X)
  let v5 : Coord := (next3D v4)
  let v6 : AABB3 R := (⟨(⟨(-v1), (-v1), (-v1)⟩ : Vec3 R), (⟨v1, v1, v1⟩ : Vec3 R)⟩ : AABB3 R)
  let v7 : R := (0.0 : R)
  let v8 : R := v1
  let v9 : Vec3 R := (Vec3.zero : Vec3 R)
  let v10 : Vec3 R := (Vec3.moved (Vec3.zero : Vec3 R) Coord.X v2)
  let o11 := (AABB3.intersectsRay (fltMax : R) v6 (Ray3.from (Vec3.moved v9 v4 v3) v10))
  bad := ck bad 754 (decide (o11.isSome = false))
  let o12 := (AABB3.intersectsRay (fltMax : R) v6 (Ray3.from (Vec3.moved v9 v4 (-v3)) v10))
  bad := ck bad 755 (decide (o12.isSome = false))
  return bad
end Aabb3_207
#guard passes Aabb3_207.run

namespace Aabb3_208
abbrev R := Float32
def run : Res (List Nat) := do
  let mut bad : List Nat := []
  let v1 : R := (1.0 : R)
  let v2 : R := (-(1.0 : R))
  let v3 : R := (v1 * (5.0 : R))
  let v4 : Coord := (next3D Coord.Y)
  let v5 : Coord := (next3D v4)
  let v6 : AABB3 R := (⟨(⟨(-v1), (-v1), (-v1)⟩ : Vec3 R), (⟨v1, v1, v1⟩ : Vec3 R)⟩ : AABB3 R)
  let v7 : R := (0.0 : R)
  let v8 : R := v1
  let v9 : Vec3 R := (Vec3.zero : Vec3 R)
  let v10 : Vec3 R := (Vec3.moved (Vec3.zero : Vec3 R) Coord.Y v2)
  let o11 := (AABB3.intersectsRay (fltMax : R) v6 (Ray3.from (Vec3.moved v9 v4 v3) v10))
  bad := ck bad 754 (decide (o11.isSome = false))
  let o12 := (AABB3.intersectsRay (fltMax : R) v6 (Ray3.from (Vec3.moved v9 v4 (-v3)) v10))
  bad := ck bad 755 (decide (o12.isSome = false))
  return bad
end Aabb3_208
#guard passes Aabb3_208.run

namespace Aabb3_209
abbrev R := Float32
def run : Res (List Nat) := do
  let mut bad : List Nat := []
  let v1 : R := (0.001 : R)
  let v2 : R := (1.0 : R)
  let v3 : R := (v1 * (5.0 : R))
  let v4 : Coord := (next3D Coord.X)
  let v5 : Coord := (next3D v4)
  let v6 : AABB3 R := (⟨(⟨(-v1), (-v1), (-v1)⟩ : Vec3 R), (⟨v1, v1, v1⟩ : Vec3 R)⟩ : AABB3 R)
  let v7 : R := (0.0 : R)
  let v8 : R := v1
  let v9 : Vec3 R := (Vec3.zero : Vec3 R)
  let v10 : Vec3 R := (Vec3.moved (Vec3.zero : Vec3 R) Coord.X v2)
  let o11 := (AABB3.intersectsRay (fltMax : R) v6 (Ray3.from (Vec3.moved v9 v4 v3) v10))
  bad := ck bad 754 (decide (o11.isSome = false))
  let o12 := (AABB3.intersectsRay (fltMax : R) v6 (Ray3.from (Vec3.moved v9 v4 (-v3)) v10))
  bad := ck bad 755 (decide (o12.isSome = false))
  return bad
end Aabb3_209
#guard passes Aabb3_209.run

namespace Aabb3_210
abbrev R := Float32
def run : Res (List Nat) := do
  let mut bad : List Nat := []
  let v1 : R := (0.001 : R)
  let v2 : R := (-(1.0 : R))
  let v3 : R := (v1 * (5.0 : R))
  let v4 : Coord := (next3D Coord.Y)
  let v5 : Coord := (next3D v4)
  let v6 : AABB3 R := (⟨(⟨(-v1), (-v1), (-v1)⟩ : Vec3 R), (⟨v1, v1, v1⟩ : Vec3 R)⟩ : AABB3 R)
  let v7 : R := (0.0 : R)
  let v8 : R := v1
  let v9 : Vec3 R := (Vec3.zero : Vec3 R)
  let v10 : Vec3 R := (Vec3.moved (Vec3.zero : Vec3 R) Coord.Y v2)
  let o11 := (AABB3.intersectsRay (fltMax : R) v6 (Ray3.from (Vec3.moved v9 v4 v3) v10))
  bad := ck bad 754 (decide (o11.isSome = false))
  let o12 := (AABB3.intersectsRay (fltMax : R) v6 (Ray3.from (Vec3.moved v9 v4 (-v3)) v10))
  bad := ck bad 755 (decide (o12.isSome = false))
  return bad
end Aabb3_210
#guard passes Aabb3_210.run

namespace Aabb3_211
abbrev R := Float32
def run : Res (List Nat) := do
  let mut bad : List Nat := []
  let v1 : R := (1000.0 : R)
  let v2 : R := (1.0 : R)
  let v3 : R := (v1 * (5.0 : R))
  let v4 : Coord := (next3D Coord.X)
  let v5 : Coord := (next3D v4)
  let v6 : AABB3 R := (⟨(⟨(-v1), (-v1), (-v1)⟩ : Vec3 R), (⟨v1, v1, v1⟩ : Vec3 R)⟩ : AABB3 R)
  let v7 : R := (0.0 : R)
  let v8 : R := v1
  let v9 : Vec3 R := (Vec3.zero : Vec3 R)
  let v10 : Vec3 R := (Vec3.moved (Vec3.zero : Vec3 R) Coord.X v2)
  let o11 := (AABB3.intersectsRay (fltMax : R) v6 (Ray3.from (Vec3.moved v9 v4 v3) v10))
  bad := ck bad 754 (decide (o11.isSome = false))
  let o12 := (AABB3.intersectsRay (fltMax : R) v6 (Ray3.from (Vec3.moved v9 v4 (-v3)) v10))
  bad := ck bad 755 (decide (o12.isSome = false))
  return bad
end Aabb3_211
#guard passes Aabb3_211.run

namespace Aabb3_212
abbrev R := Float32
def run : Res (List Nat) := do
  let mut bad : List Nat := []
  let v1 : R := (1000.0 : R)
  let v2 : R := (-(1.0 : R))
  let v3 : R := (v1 * (5.0 : R))
  let v4 : Coord := (next3D Coord.Y)
  let v5 : Coord := (next3D v4)
  let v6 : AABB3 R := (⟨(⟨(-v1), (-v1), (-v1)⟩ : Vec3 R), (⟨v1, v1, v1⟩ : Vec3 R)⟩ : AABB3 R)
  let v7 : R := (0.0 : R)
  let v8 : R := v1
  let v9 : Vec3 R := (Vec3.zero : Vec3 R)
  let v10 : Vec3 R := (Vec3.moved (Vec3.zero : Vec3 R) Coord.Y v2)
  let o11 := (AABB3.intersectsRay (fltMax : R) v6 (Ray3.from (Vec3.moved v9 v4 v3) v10))
  bad := ck bad 754 (decide (o11.isSome = false))
  let o12 := (AABB3.intersectsRay (fltMax : R) v6 (Ray3.from (Vec3.moved v9 v4 (-v3)) v10))
  bad := ck bad 755 (decide (o12.isSome = false))
  return bad
end Aabb3_212
#guard passes Aabb3_212.run

namespace Aabb3_213
abbrev R := Float32
def run : Res (List Nat) := do
  let mut bad : List Nat := []
  let v1 : R := (1.0 : R)
  let v2 : R := (1.0 : R)
  let v3 : R := (v1 * (5.0 : R))
  let v4 : Coord := (next3D Coord.X)
  let v5 : Coord := (next3D v4)
  let v6 : AABB3 R := (⟨(⟨(-v1), (-v1), (-v1)⟩ : Vec3 R), (⟨v1, v1, v1⟩ : Vec3 R)⟩ : AABB3 R)
  let v7 : R := (0.0 : R)
  let v8 : R := v1
  let v9 : Vec3 R := (Vec3.zero : Vec3 R)
  let v10 : Vec3 R := (Vec3.moved (Vec3.zero : Vec3 R) Coord.X v2)
  let o11 := (AABB3.intersectsRay (fltMax : R) v6 (Ray3.from (Vec3.moved v9 v5 v3) v10))
  bad := ck bad 759 (decide (o11.isSome = false))
  let o12 := (AABB3.intersectsRay (fltMax : R) v6 (Ray3.from (Vec3.moved v9 v5 (-v3)) v10))
  bad := ck bad 760 (decide (o12.isSome = false))
  return bad
end Aabb3_213
#guard passes Aabb3_213.run

namespace Aabb3_214
abbrev R := Float32
def run : Res (List Nat) := do
  let mut bad : List Nat := []
  let v1 : R := (1.0 : R)
  let v2 : R := (-(1.0 : R))
  let v3 : R := (v1 * (5.0 : R))
  let v4 : Coord := (next3D Coord.Y)
  let v5 : Coord := (next3D v4)
  let v6 : AABB3 R := (⟨(⟨(-v1), (-v1), (-v1)⟩ : Vec3 R), (⟨v1, v1, v1⟩ : Vec3 R)⟩ : AABB3 R)
  let v7 : R := (0.0 : R)
  let v8 : R := v1
  let v9 : Vec3 R := (Vec3.zero : Vec3 R)
  let v10 : Vec3 R := (Vec3.moved (Vec3.zero : Vec3 R) Coord.Y v2)
  let o11 := (AABB3.intersectsRay (fltMax : R) v6 (Ray3.from (Vec3.moved v9 v5 v3) v10))
  bad := ck bad 759 (decide (o11.isSome = false))
  let o12 := (AABB3.intersectsRay (fltMax : R) v6 (Ray3.from (Vec3.moved v9 v5 (-v3)) v10))
  bad := ck bad 760 (decide (o12.isSome = false))
  return bad
end Aabb3_214
#guard passes Aabb3_214.run

namespace Aabb3_215
abbrev R := Float32
def run : Res (List Nat) := do
  let mut bad : List Nat := []
  let v1 : R := (0.001 : R)
  let v2 : R := (1.0 : R)
  let v3 : R := (v1 * (5.0 : R))
  let v4 : Coord := (next3D Coord.X)
  let v5 : Coord := (next3D v4)
  let v6 : AABB3 R := (⟨(⟨(-v1), (-v1), (-v1)⟩ : Vec3 R), (⟨v1, v1, v1⟩ : Vec3 R)⟩ : AABB3 R)
  let v7 : R := (0.0 : R)
  let v8 : R := v1
  let v9 : Vec3 R := (Vec3.zero : Vec3 R)
  let v10 : Vec3 R := (Vec3.moved (Vec3.zero : Vec3 R) Coord.X v2)
  let o11 := (AABB3.intersectsRay (fltMax : R) v6 (Ray3.from (Vec3.moved v9 v5 v3) v10))
  bad := ck bad 759 (decide (o11.isSome = false))
  let o12 := (AABB3.intersectsRay (fltMax : R) v6 (Ray3.from (Vec3.moved v9 v5 (-v3)) v10))
  bad := ck bad 760 (decide (o12.isSome = false))
  return bad
end Aabb3_215
#guard passes Aabb3_215.run

namespace Aabb3_216
abbrev R := Float32
def run : Res (List Nat) := do
  let mut bad : List Nat := []
  let v1 : R := (0.001 : R)
  let v2 : R := (-(1.0 : R))
  let v3 : R := (v1 * (5.0 : R))
  let v4 : Coord := (next3D Coord.Y)
  let v5 : Coord := (next3D v4)
  let v6 : AABB3 R := (⟨(⟨(-v1), (-v1), (-v1)⟩ : Vec3 R), (⟨v1, v1, v1⟩ : Vec3 R)⟩ : AABB3 R)
  let v7 : R := (0.0 : R)
  let v8 : R := v1
  let v9 : Vec3 R := (Vec3.zero : Vec3 R)
  let v10 : Vec3 R := (Vec3.moved (Vec3.zero : Vec3 R) Coord.Y v2)
  let o11 := (AABB3.intersectsRay (fltMax : R) v6 (Ray3.from (Vec3.moved v9 v5 v3) v10))
  bad := ck bad 759 (decide (o11.isSome = false))
  let o12 := (AABB3.intersectsRay (fltMax : R) v6 (Ray3.from (Vec3.moved v9 v5 (-v3)) v10))
  bad := ck bad 760 (decide (o12.isSome = false))
  return bad
end Aabb3_216
#guard passes Aabb3_216.run

namespace Aabb3_217
abbrev R := Float32
def run : Res (List Nat) := do
  let mut bad : List Nat := []
  let v1 : R := (1000.0 : R)
  let v2 : R := (1.0 : R)
  let v3 : R := (v1 * (5.0 : R))
  let v4 : Coord := (next3D Coord.X)
  let v5 : Coord := (next3D v4)
  let v6 : AABB3 R := (⟨(⟨(-v1), (-v1), (-v1)⟩ : Vec3 R), (⟨v1, v1, v1⟩ : Vec3 R)⟩ : AABB3 R)
  let v7 : R := (0.0 : R)
  let v8 : R := v1
  let v9 : Vec3 R := (Vec3.zero : Vec3 R)
  let v10 : Vec3 R := (Vec3.moved (Vec3.zero : Vec3 R) Coord.X v2)
  let o11 := (AABB3.intersectsRay (fltMax : R) v6 (Ray3.from (Vec3.moved v9 v5 v3) v10))
  bad := ck bad 759 (decide (o11.isSome = false))
  let o12 := (AABB3.intersectsRay (fltMax : R) v6 (Ray3.from (Vec3.moved v9 v5 (-v3)) v10))
  bad := ck bad 760 (decide (o12.isSome = false))
  return bad
end Aabb3_217
#guard passes Aabb3_217.run

namespace Aabb3_218
abbrev R := Float32
def run : Res (List Nat) := do
  let mut bad : List Nat := []
  let v1 : R := (1000.0 : R)
  let v2 : R := (-(1.0 : R))
  let v3 : R := (v1 * (5.0 : R))
  let v4 : Coord := (next3D Coord.Y)
  let v5 : Coord := (next3D v4)
  let v6 : AABB3 R := (⟨(⟨(-v1), (-v1), (-v1)⟩ : Vec3 R), (⟨v1, v1, v1⟩ : Vec3 R)⟩ : AABB3 R)
  let v7 : R := (0.0 : R)
  let v8 : R := v1
  let v9 : Vec3 R := (Vec3.zero : Vec3 R)
  let v10 : Vec3 R := (Vec3.moved (Vec3.zero : Vec3 R) Coord.Y v2)
  let o11 := (AABB3.intersectsRay (fltMax : R) v6 (Ray3.from (Vec3.moved v9 v5 v3) v10))
  bad := ck bad 759 (decide (o11.isSome = false))
  let o12 := (AABB3.intersectsRay (fltMax : R) v6 (Ray3.from (Vec3.moved v9 v5 (-v3)) v10))
  bad := ck bad 760 (decide (o12.isSome = false))
  return bad
end Aabb3_218
#guard passes Aabb3_218.run

namespace Aabb3_219
abbrev R := Float32
def run : Res (List Nat) := do
  let mut bad : List Nat := []
  let v1 : R := (1.0 : R)
  let v2 : R := (1.0 : R)
  let v3 : R := (v1 * (5.0 : R))
  let v4 : Coord := (next3D Coord.X)
  let v5 : Coord := (next3D v4)
  let v6 : AABB3 R := (⟨(⟨(-v1), (-v1), (-v1)⟩ : Vec3 R), (⟨v1, v1, v1⟩ : Vec3 R)⟩ : AABB3 R)
  let v7 : Vec3 R := (Vec3.moved (Vec3.zero : Vec3 R) Coord.X (if (decide (v2 > (0.0 : R))) then v3 else (-v3)))
  let v8 : Vec3 R := (Vec3.moved (Vec3.zero : Vec3 R) Coord.X v2)
  let o9 := (AABB3.intersectsRay (fltMax : R) v6 (Ray3.from v7 v8))
  bad := ck bad 770 (decide (o9.isSome = false))
  return bad
end Aabb3_219
#guard passes Aabb3_219.run

namespace Aabb3_220
abbrev R := Float32
def run : Res (List Nat) := do
  let mut bad : List Nat := []
  let v1 : R := (1.0 : R)
  let v2 : R := (-(1.0 : R))
  let v3 : R := (v1 * (5.0 : R))
  let v4 : Coord := (next3D Coord.Y)
  let v5 : Coord := (next3D v4)
  let v6 : AABB3 R := (⟨(⟨(-v1), (-v1), (-v1)⟩ : Vec3 R), (⟨v1, v1, v1⟩ : Vec3 R)⟩ : AABB3 R)
  let v7 : Vec3 R := (Vec3.moved (Vec3.zero : Vec3 R) Coord.Y (if (decide (v2 > (0.0 : R))) then v3 else (-v3)))
  let v8 : Vec3 R := (Vec3.moved (Vec3.zero : Vec3 R) Coord.Y v2)
  let o9 := (AABB3.intersectsRay (fltMax : R) v6 (Ray3.from v7 v8))
  bad := ck bad 770 (decide (o9.isSome = false))
  return bad
end Aabb3_220
#guard passes Aabb3_220.run

namespace Aabb3_221
abbrev R := Float32
def run : Res (List Nat) := do
  let mut bad : List Nat := []
  let v1 : R := (0.001 : R)
  let v2 : R := (1.0 : R)
  let v3 : R := (v1 * (5.0 : R))
  let v4 : Coord := (next3D Coord.X)
  let v5 : Coord := (next3D v4)
  let v6 : AABB3 R := (⟨(⟨(-v1), (-v1), (-v1)⟩ : Vec3 R), (⟨v1, v1, v1⟩ : Vec3 R)⟩ : AABB3 R)
  let v7 : Vec3 R := (Vec3.moved (Vec3.zero : Vec3 R) Coord.X (if (decide (v2 > (0.0 : R))) then v3 else (-v3)))
  let v8 : Vec3 R := (Vec3.moved (Vec3.zero : Vec3 R) Coord.X v2)
  let o9 := (AABB3.intersectsRay (fltMax : R) v6 (Ray3.from v7 v8))
  bad := ck bad 770 (decide (o9.isSome = false))
  return bad
end Aabb3_221
#guard passes Aabb3_221.run

namespace Aabb3_222
abbrev R := Float32
def run : Res (List Nat) := do
  let mut bad : List Nat := []
  let v1 : R := (0.001 : R)
  let v2 : R := (-(1.0 : R))
  let v3 : R := (v1 * (5.0 : R))
  let v4 : Coord := (next3D Coord.Y)
  let v5 : Coord := (next3D v4)
  let v6 : AABB3 R := (⟨(⟨(-v1), (-v1), (-v1)⟩ : Vec3 R), (⟨v1, v1, v1⟩ : Vec3 R)⟩ : AABB3 R)
  let v7 : Vec3 R := (Vec3.moved (Vec3.zero : Vec3 R) Coord.Y (if (decide (v2 > (0.0 : R))) then v3 else (-v3)))
  let v8 : Vec3 R := (Vec3.moved (Vec3.zero : Vec3 R) Coord.Y v2)
  let o9 := (AABB3.intersectsRay (fltMax : R) v6 (Ray3.from v7 v8))
  bad := ck bad 770 (decide (o9.isSome = false))
  return bad
end Aabb3_222
#guard passes Aabb3_222.run

namespace Aabb3_223
abbrev R := Float32
def run : Res (List Nat) := do
  let mut bad : List Nat := []
  let v1 : R := (1000.0 : R)
  let v2 : R := (1.0 : R)
  let v3 : R := (v1 * (5.0 : R))
  let v4 : Coord := (next3D Coord.X)
  let v5 : Coord := (next3D v4)
  let v6 : AABB3 R := (⟨(⟨(-v1), (-v1), (-v1)⟩ : Vec3 R), (⟨v1, v1, v1⟩ : Vec3 R)⟩ : AABB3 R)
  let v7 : Vec3 R := (Vec3.moved (Vec3.zero : Vec3 R) Coord.X (if (decide (v2 > (0.0 : R))) then v3 else (-v3)))
  let v8 : Vec3 R := (Vec3.moved (Vec3.zero : Vec3 R) Coord.X v2)
  let o9 := (AABB3.intersectsRay (fltMax : R) v6 (Ray3.from v7 v8))
  bad := ck bad 770 (decide (o9.isSome = false))
  return bad
end Aabb3_223
#guard passes Aabb3_223.run

namespace Aabb3_224
abbrev R := Float32
def run : Res (List Nat) := do
  let mut bad : List Nat := []
  let v1 : R := (1000.0 : R)
  let v2 : R := (-(1.0 : R))
  let v3 : R := (v1 * (5.0 : R))
  let v4 : Coord := (next3D Coord.Y)
  let v5 : Coord := (next3D v4)
  let v6 : AABB3 R := (⟨(⟨(-v1), (-v1), (-v1)⟩ : Vec3 R), (⟨v1, v1, v1⟩ : Vec3 R)⟩ : AABB3 R)
  let v7 : Vec3 R := (Vec3.moved (Vec3.zero : Vec3 R) Coord.Y (if (decide (v2 > (0.0 : R))) then v3 else (-v3)))
  let v8 : Vec3 R := (Vec3.moved (Vec3.zero : Vec3 R) Coord.Y v2)
  let o9 := (AABB3.intersectsRay (fltMax : R) v6 (Ray3.from v7 v8))
  bad := ck bad 770 (decide (o9.isSome = false))
  return bad
end Aabb3_224
#guard passes Aabb3_224.run

namespace Aabb3_225
abbrev R := Float32
def run : Res (List Nat) := do
  let mut bad : List Nat := []
  let v1 : R := (1.0 : R)
  let v2 : R := (1.0 : R)
  let v3 : R := (v1 * (5.0 : R))
  let v4 : Coord := (next3D Coord.X)
  let v5 : Coord := (next3D v4)
  let v6 : AABB3 R := (⟨(⟨(-v1), (-v1), (-v1)⟩ : Vec3 R), (⟨v1, v1, v1⟩ : Vec3 R)⟩ : AABB3 R)
  let v7 : Vec3 R := (Vec3.moved (Vec3.zero : Vec3 R) Coord.X (if (decide (v2 > (0.0 : R))) then v3 else (-v3)))
  let v8 : Vec3 R := (Vec3.moved (Vec3.zero : Vec3 R) Coord.X v2)
  let o9 := (AABB3.intersectsRay (fltMax : R) v6 (Ray3.from (Vec3.moved v7 v4 v3) v8))
  bad := ck bad 774 (decide (o9.isSome = false))
  let o10 := (AABB3.intersectsRay (fltMax : R) v6 (Ray3.from (Vec3.moved v7 v4 (-v3)) v8))
  bad := ck bad 775 (decide (o10.isSome = false))
  return bad
end Aabb3_225
#guard passes Aabb3_225.run

namespace Aabb3_226
abbrev R := Float32
def run : Res (List Nat) := do
  let mut bad : List Nat := []
  let v1 : R := (1.0 : R)
  let v2 : R := (-(1.0 : R))
  let v3 : R := (v1 * (5.0 : R))
  let v4 : Coord := (next3D Coord.Y)
  let v5 : Coord := (next3D v4)
  let v6 : AABB3 R := (⟨(⟨(-v1), (-v1), (-v1)⟩ : Vec3 R), (⟨v1, v1, v1⟩ : Vec3 R)⟩ : AABB3 R)
  let v7 : Vec3 R := (Vec3.moved (Vec3.zero : Vec3 R) Coord.Y (if (decide (v2 > (0.0 : R))) then v3 else (-v3)))
  let v8 : Vec3 R := (Vec3.moved (Vec3.zero : Vec3 R) Coord.Y v2)
  let o9 := (AABB3.intersectsRay (fltMax : R) v6 (Ray3.from (Vec3.moved v7 v4 v3) v8))
  bad := ck bad 774 (decide (o9.isSome = false))
  let o10 := (AABB3.intersectsRay (fltMax : R) v6 (Ray3.from (Vec3.moved v7 v4 (-v3)) v8))
  bad := ck bad 775 (decide (o10.isSome = false))
  return bad
end Aabb3_226
#guard passes Aabb3_226.run

namespace Aabb3_227
abbrev R := Float32
def run : Res (List Nat) := do
  let mut bad : List Nat := []
  let v1 : R := (0.001 : R)
  let v2 : R := (1.0 : R)
  let v3 : R := (v1 * (5.0 : R))
  let v4 : Coord := (next3D Coord.X)
  let v5 : Coord := (next3D v4)
  let v6 : AABB3 R := (⟨(⟨(-v1), (-v1), (-v1)⟩ : Vec3 R), (⟨v1, v1, v1⟩ : Vec3 R)⟩ : AABB3 R)
  let v7 : Vec3 R := (Vec3.moved (Vec3.zero : Vec3 R) Coord.X (if (decide (v2 > (0.0 : R))) then v3 else (-v3)))
  let v8 : Vec3 R := (Vec3.moved (Vec3.zero : Vec3 R) Coord.X v2)
  let o9 := (AABB3.intersectsRay (fltMax : R) v6 (Ray3.from (Vec3.moved v7 v4 v3) v8))
  bad := ck bad 774 (decide (o9.isSome = false))
  let o10 := (AABB3.intersectsRay (fltMax : R) v6 (Ray3.from (Vec3.moved v7 v4 (-v3)) v8))
  bad := ck bad 775 (decide (o10.isSome = false))
  return bad
end Aabb3_227
#guard passes Aabb3_227.run

namespace Aabb3_228
abbrev R := Float32
def run : Res (List Nat) := do
  let mut bad : List Nat := []
  let v1 : R := (0.001 : R)
  let v2 : R := (-(1.0 : R))
  let v3 : R := (v1 * (5.0 : R))
  let v4 : Coord := (next3D Coord.Y)
  let v5 : Coord := (next3D v4)
  let v6 : AABB3 R := (⟨(⟨(-v1), (-v1), (-v1)⟩ : Vec3 R), (⟨v1, v1, v1⟩ : Vec3 R)⟩ : AABB3 R)
  let v7 : Vec3 R := (Vec3.moved (Vec3.zero : Vec3 R) Coord.Y (if (decide (v2 > (0.0 : R))) then v3 else (-v3)))
  let v8 : Vec3 R := (Vec3.moved (Vec3.zero : Vec3 R) Coord.Y v2)
  let o9 := (AABB3.intersectsRay (fltMax : R) v6 (Ray3.from (Vec3.moved v7 v4 v3) v8))
  bad := ck bad 774 (decide (o9.isSome = false))
  let o10 := (AABB3.intersectsRay (fltMax : R) v6 (Ray3.from (Vec3.moved v7 v4 (-v3)) v8))
  bad := ck bad 775 (decide (o10.isSome = false))
  return bad
end Aabb3_228
#guard passes Aabb3_228.run

namespace Aabb3_229
abbrev R := Float32
def run : Res (List Nat) := do
  let mut bad : List Nat := []
  let v1 : R := (1000.0 : R)
  let v2 : R := (1.0 : R)
  let v3 : R := (v1 * (5.0 : R))
  let v4 : Coord := (next3D Coord.X)
  let v5 : Coord := (next3D v4)
  let v6 : AABB3 R := (⟨(⟨(-v1), (-v1), (-v1)⟩ : Vec3 R), (⟨v1, v1, v1⟩ : Vec3 R)⟩ : AABB3 R)
  let v7 : Vec3 R := (Vec3.moved (Vec3.zero : Vec3 R) Coord.X (if (decide (v2 > (0.0 : R))) then v3 else (-v3)))
  let v8 : Vec3 R := (Vec3.moved (Vec3.zero : Vec3 R) Coord.X v2)
  let o9 := (AABB3.intersectsRay (fltMax : R) v6 (Ray3.from (Vec3.moved v7 v4 v3) v8))
  bad := ck bad 774 (decide (o9.isSome = false))
  let o10 := (AABB3.intersectsRay (fltMax : R) v6 (Ray3.from (Vec3.moved v7 v4 (-v3)) v8))
  bad := ck bad 775 (decide (o10.isSome = false))
  return bad
end Aabb3_229
#guard passes Aabb3_229.run

namespace Aabb3_230
abbrev R := Float32
def run : Res (List Nat) := do
  let mut bad : List Nat := []
  let v1 : R := (1000.0 : R)
  let v2 : R := (-(1.0 : R))
  let v3 : R := (v1 * (5.0 : R))
  let v4 : Coord := (next3D Coord.Y)
  let v5 : Coord := (next3D v4)
  let v6 : AABB3 R := (⟨(⟨(-v1), (-v1), (-v1)⟩ : Vec3 R), (⟨v1, v1, v1⟩ : Vec3 R)⟩ : AABB3 R)
  let v7 : Vec3 R := (Vec3.moved (Vec3.zero : Vec3 R) Coord.Y (if (decide (v2 > (0.0 : R))) then v3 else (-v3)))
  let v8 : Vec3 R := (Vec3.moved (Vec3.zero : Vec3 R) Coord.Y v2)
  let o9 := (AABB3.intersectsRay (fltMax : R) v6 (Ray3.from (Vec3.moved v7 v4 v3) v8))
  bad := ck bad 774 (decide (o9.isSome = false))
  let o10 := (AABB3.intersectsRay (fltMax : R) v6 (Ray3.from (Vec3.moved v7 v4 (-v3)) v8))
  bad := ck bad 775 (decide (o10.isSome = false))
  return bad
end Aabb3_230
#guard passes Aabb3_230.run

namespace Aabb3_231
abbrev R := Float32
def run : Res (List Nat) := do
  let mut bad : List Nat := []
  let v1 : R := (1.0 : R)
  let v2 : R := (1.0 : R)
  let v3 : R := (v1 * (5.0 : R))
  let v4 : Coord := (next3D Coord.X)
  let v5 : Coord := (next3D v4)
  let v6 : AABB3 R := (⟨(⟨(-v1), (-v1), (-v1)⟩ : Vec3 R), (⟨v1, v1, v1⟩ : Vec3 R)⟩ : AABB3 R)
  let v7 : Vec3 R := (Vec3.moved (Vec3.zero : Vec3 R) Coord.X (if (decide (v2 > (0.0 : R))) then v3 else (-v3)))
  let v8 : Vec3 R := (Vec3.moved (Vec3.zero : Vec3 R) Coord.X v2)
  let o9 := (AABB3.intersectsRay (fltMax : R) v6 (Ray3.from (Vec3.moved v7 v5 v3) v8))
  bad := ck bad 779 (decide (o9.isSome = false))
  let o10 := (AABB3.intersectsRay (fltMax : R) v6 (Ray3.from (Vec3.moved v7 v5 (-v3)) v8))
  bad := ck bad 780 (decide (o10.isSome = false))
  return bad
end Aabb3_231
#guard passes Aabb3_231.run

namespace Aabb3_232
abbrev R := Float32
def run : Res (List Nat) := do
  let mut bad : List Nat := []
  let v1 : R := (1.0 : R)
  let v2 : R := (-(1.0 : R))
  let v3 : R := (v1 * (5.0 : R))
  let v4 : Coord := (next3D Coord.Y)
  let v5 : Coord := (next3D v4)
  let v6 : AABB3 R := (⟨(⟨(-v1), (-v1), (-v1)⟩ : Vec3 R), (⟨v1, v1, v1⟩ : Vec3 R)⟩ : AABB3 R)
  let v7 : Vec3 R := (Vec3.moved (Vec3.zero : Vec3 R) Coord.Y (if (decide (v2 > (0.0 : R))) then v3 else (-v3)))
  let v8 : Vec3 R := (Vec3.moved (Vec3.zero : Vec3 R) Coord.Y v2)
  let o9 := (AABB3.intersectsRay (fltMax : R) v6 (Ray3.from (Vec3.moved v7 v5 v3) v8))
  bad := ck bad 779 (decide (o9.isSome = false))
  let o10 := (AABB3.intersectsRay (fltMax : R) v6 (Ray3.from (Vec3.moved v7 v5 (-v3)) v8))
  bad := ck bad 780 (decide (o10.isSome = false))
  return bad
end Aabb3_232
#guard passes Aabb3_232.run

namespace Aabb3_233
abbrev R := Float32
def run : Res (List Nat) := do
  let mut bad : List Nat := []
  let v1 : R := (0.001 : R)
  let v2 : R := (1.0 : R)
  let v3 : R := (v1 * (5.0 : R))
  let v4 : Coord := (next3D Coord.X)
  let v5 : Coord := (next3D v4)
  let v6 : AABB3 R := (⟨(⟨(-v1), (-v1), (-v1)⟩ : Vec3 R), (⟨v1, v1, v1⟩ : Vec3 R)⟩ : AABB3 R)
  let v7 : Vec3 R := (Vec3.moved (Vec3.zero : Vec3 R) Coord.X (if (decide (v2 > (0.0 : R))) then v3 else (-v3)))
  let v8 : Vec3 R := (Vec3.moved (Vec3.zero : Vec3 R) Coord.X v2)
  let o9 := (AABB3.intersectsRay (fltMax : R) v6 (Ray3.from (Vec3.moved v7 v5 v3) v8))
  bad := ck bad 779 (decide (o9.isSome = false))
  let o10 := (AABB3.intersectsRay (fltMax : R) v6 (Ray3.from (Vec3.moved v7 v5 (-v3)) v8))
  bad := ck bad 780 (decide (o10.isSome = false))
  return bad
end Aabb3_233
#guard passes Aabb3_233.run

namespace Aabb3_234
abbrev R := Float32
def run : Res (List Nat) := do
  let mut bad : List Nat := []
  let v1 : R := (0.001 : R)
  let v2 : R := (-(1.0 : R))
  let v3 : R := (v1 * (5.0 : R))
  let v4 : Coord := (next3D Coord.Y)
  let v5 : Coord := (next3D v4)
  let v6 : AABB3 R := (⟨(⟨(-v1), (-v1), (-v1)⟩ : Vec3 R), (⟨v1, v1, v1⟩ : Vec3 R)⟩ : AABB3 R)
  let v7 : Vec3 R := (Vec3.moved (Vec3.zero : Vec3 R) Coord.Y (if (decide (v2 > (0.0 : R))) then v3 else (-v3)))
  let v8 : Vec3 R := (Vec3.moved (Vec3.zero : Vec3 R) Coord.Y v2)
  let o9 := (AABB3.intersectsRay (fltMax : R) v6 (Ray3.from (Vec3.moved v7 v5 v3) v8))
  bad := ck bad 779 (decide (o9.isSome = false))
  let o10 := (AABB3.intersectsRay (fltMax : R) v6 (Ray3.from (Vec3.moved v7 v5 (-v3)) v8))
  bad := ck bad 780 (decide (o10.isSome = false))
  return bad
end Aabb3_234
#guard passes Aabb3_234.run

namespace Aabb3_235
abbrev R := Float32
def run : Res (List Nat) := do
  let mut bad : List Nat := []
  let v1 : R := (1000.0 : R)
  let v2 : R := (1.0 : R)
  let v3 : R := (v1 * (5.0 : R))
  let v4 : Coord := (next3D Coord.X)
  let v5 : Coord := (next3D v4)
  let v6 : AABB3 R := (⟨(⟨(-v1), (-v1), (-v1)⟩ : Vec3 R), (⟨v1, v1, v1⟩ : Vec3 R)⟩ : AABB3 R)
  let v7 : Vec3 R := (Vec3.moved (Vec3.zero : Vec3 R) Coord.X (if (decide (v2 > (0.0 : R))) then v3 else (-v3)))
  let v8 : Vec3 R := (Vec3.moved (Vec3.zero : Vec3 R) Coord.X v2)
  let o9 := (AABB3.intersectsRay (fltMax : R) v6 (Ray3.from (Vec3.moved v7 v5 v3) v8))
  bad := ck bad 779 (decide (o9.isSome = false))
  let o10 := (AABB3.intersectsRay (fltMax : R) v6 (Ray3.from (Vec3.moved v7 v5 (-v3)) v8))
  bad := ck bad 780 (decide (o10.isSome = false))
  return bad
end Aabb3_235
#guard passes Aabb3_235.run

namespace Aabb3_236
abbrev R := Float32
def run : Res (List Nat) := do
  let mut bad : List Nat := []
  let v1 : R := (1000.0 : R)
  let v2 : R := (-(1.0 : R))
  let v3 : R := (v1 * (5.0 : R))
  let v4 : Coord := (next3D Coord.Y)
  let v5 : Coord := (next3D v4)
  let v6 : AABB3 R := (⟨(⟨(-v1), (-v1), (-v1)⟩ : Vec3 R), (⟨v1, v1, v1⟩ : Vec3 R)⟩ : AABB3 R)
  let v7 : Vec3 R := (Vec3.moved (Vec3.zero : Vec3 R) Coord.Y (if (decide (v2 > (0.0 : R))) then v3 else (-v3)))
  let v8 : Vec3 R := (Vec3.moved (Vec3.zero : Vec3 R) Coord.Y v2)
  let o9 := (AABB3.intersectsRay (fltMax : R) v6 (Ray3.from (Vec3.moved v7 v5 v3) v8))
  bad := ck bad 779 (decide (o9.isSome = false))
  let o10 := (AABB3.intersectsRay (fltMax : R) v6 (Ray3.from (Vec3.moved v7 v5 (-v3)) v8))
  bad := ck bad 780 (decide (o10.isSome = false))
  return bad
end Aabb3_236
#guard passes Aabb3_236.run

namespace Aabb3_237
abbrev R := Float32
def run : Res (List Nat) := do
  let mut bad : List Nat := []
  let v1 : R := (1.0 : R)
  let v2 : R := (1.0 : R)
  let v3 : R := (v1 * (5.0 : R))
  let v4 : Coord := (next3D Coord.X)
  let v5 : Coord := (next3D v4)
  let v6 : AABB3 R := (⟨(⟨(-v1), (-v1), (-v1)⟩ : Vec3 R), (⟨v1, v1, v1⟩ : Vec3 R)⟩ : AABB3 R)
  let v7 : Vec3 R := (Vec3.moved (Vec3.moved (Vec3.zero : Vec3 R) Coord.X (if (decide (v2 > (0.0 : R))) then (-v3) else v3)) v4 (if (decide (v2 > (0.0 : R))) then (-v3) else v3))
  let v8 : Vec3 R := (Vec3.normalized (Vec3.moved (Vec3.moved (Vec3.zero : Vec3 R) Coord.X v2) v4 v2) (1 : R))
  let v9 : Vec3 R := v7
  let v10 : Vec3 R := (Vec3.moved v7 Coord.X (v2 * v1))
  let v11 : Vec3 R := (Vec3.moved v7 Coord.X ((v2 * v1) * (2 : R)))
  let v12 : Vec3 R := (Vec3.moved v7 v4 (v2 * v1))
  let v13 : Vec3 R := (Vec3.moved v7 v4 ((v2 * v1) * (2 : R)))
  let v14 : R := (MathFns.sqrt (((6.0 : R) * (6.0 : R)) * (2.0 : R)))
  let v15 : R := (MathFns.sqrt (((5.0 : R) * (5.0 : R)) * (2.0 : R)))
  let v16 : R := (MathFns.sqrt (((4.0 : R) * (4.0 : R)) * (2.0 : R)))
  let v17 : R := (MathFns.sqrt (((5.0 : R) * (5.0 : R)) * (2.0 : R)))
  let v18 : R := (MathFns.sqrt (((4.0 : R) * (4.0 : R)) * (2.0 : R)))
  let v19 : Vec3 R := v9
  let v20 : R := ((MathFns.sqrt (((4.0 : R) * (4.0 : R)) * (2.0 : R))) * v1)
  let v21 : R := (v14 * v1)
  let o22 := (AABB3.intersectsRay (fltMax : R) v6 (Ray3.from v19 v8))
  bad := ck bad 812 (decide (o22.isSome = true))
  bad := ck bad 813 (Near.near (v1 / (1000.0 : R)) (o22.getD (0, 0)).1 v20)
  bad := ck bad 814 (Near.near (v1 / (1000.0 : R)) (o22.getD (0, 0)).2 v21)
  return bad
end Aabb3_237
#guard passes Aabb3_237.run

namespace Aabb3_238
abbrev R := Float32
def run : Res (List Nat) := do
  let mut bad : List Nat := []
  let v1 : R := (1.0 : R)
  let v2 : R := (1.0 : R)
  let v3 : R := (v1 * (5.0 : R))
  let v4 : Coord := (next3D Coord.Y)
  let v5 : Coord := (next3D v4)
  let v6 : AABB3 R := (⟨(⟨(-v1), (-v1), (-v1)⟩ : Vec3 R), (⟨v1, v1, v1⟩ : Vec3 R)⟩ : AABB3 R)
  let v7 : Vec3 R := (Vec3.moved (Vec3.moved (Vec3.zero : Vec3 R) Coord.Y (if (decide (v2 > (0.0 : R))) then (-v3) else v3)) v4 (if (decide (v2 > (0.0 : R))) then (-v3) else v3))
  let v8 : Vec3 R := (Vec3.normalized (Vec3.moved (Vec3.moved (Vec3.zero : Vec3 R) Coord.Y v2) v4 v2) (1 : R))
  let v9 : Vec3 R := v7
  let v10 : Vec3 R := (Vec3.moved v7 Coord.Y (v2 * v1))
  let v11 : Vec3 R := (Vec3.moved v7 Coord.Y ((v2 * v1) * (2 : R)))
  let v12 : Vec3 R := (Vec3.moved v7 v4 (v2 * v1))
  let v13 : Vec3 R := (Vec3.moved v7 v4 ((v2 * v1) * (2 : R)))
  let v14 : R := (MathFns.sqrt (((6.0 : R) * (6.0 : R)) * (2.0 : R)))
  let v15 : R := (MathFns.sqrt (((5.0 : R) * (5.0 : R)) * (2.0 : R)))
  let v16 : R := (MathFns.sqrt (((4.0 : R) * (4.0 : R)) * (2.0 : R)))
  let v17 : R := (MathFns.sqrt (((5.0 : R) * (5.0 : R)) * (2.0 : R)))
  let v18 : R := (MathFns.sqrt (((4.0 : R) * (4.0 : R)) * (2.0 : R)))
  let v19 : Vec3 R := v12
  let v20 : R := ((MathFns.sqrt (((4.0 : R) * (4.0 : R)) * (2.0 : R))) * v1)
  let v21 : R := (v17 * v1)
  let o22 := (AABB3.intersectsRay (fltMax : R) v6 (Ray3.from v19 v8))
  bad := ck bad 812 (decide (o22.isSome = true))
  bad := ck bad 813 (Near.near (v1 / (1000.0 : R)) (o22.getD (0, 0)).1 v20)
  bad := ck bad 814 (Near.near (v1 / (1000.0 : R)) (o22.getD (0, 0)).2 v21)
  return bad
end Aabb3_238
#guard passes Aabb3_238.run

namespace Aabb3_239
abbrev R := Float32
def run : Res (List Nat) := do
  let mut bad : List Nat := []
  let v1 : R := (1.0 : R)
  let v2 : R := (-(1.0 : R))
  let v3 : R := (v1 * (5.0 : R))
  let v4 : Coord := (next3D Coord.Z)
  let v5 : Coord := (next3D v4)
  let v6 : AABB3 R := (⟨(⟨(-v1), (-v1), (-v1)⟩ : Vec3 R), (⟨v1, v1, v1⟩ : Vec3 R)⟩ : AABB3 R)
  let v7 : Vec3 R := (Vec3.moved (Vec3.moved (Vec3.zero : Vec3 R) Coord.Z (if (decide (v2 > (0.0 : R))) then (-v3) else v3)) v4 (if (decide (v2 > (0.0 : R))) then (-v3) else v3))
  let v8 : Vec3 R := (Vec3.normalized (Vec3.moved (Vec3.moved (Vec3.zero : Vec3 R) Coord.Z v2) v4 v2) (1 : R))
  let v9 : Vec3 R := v7
  let v10 : Vec3 R := (Vec3.moved v7 Coord.Z (v2 * v1))
  let v11 : Vec3 R := (Vec3.moved v7 Coord.Z ((v2 * v1) * (2 : R)))
  let v12 : Vec3 R := (Vec3.moved v7 v4 (v2 * v1))
  let v13 : Vec3 R := (Vec3.moved v7 v4 ((v2 * v1) * (2 : R)))
  let v14 : R := (MathFns.sqrt (((6.0 : R) * (6.0 : R)) * (2.0 : R)))
  let v15 : R := (MathFns.sqrt (((5.0 : R) * (5.0 : R)) * (2.0 : R)))
  let v16 : R := (MathFns.sqrt (((4.0 : R) * (4.0 : R)) * (2.0 : R)))
  let v17 : R := (MathFns.sqrt (((5.0 : R) * (5.0 : R)) * (2.0 : R)))
  let v18 : R := (MathFns.sqrt (((4.0 : R) * (4.0 : R)) * (2.0 : R)))
  let v19 : Vec3 R := v10
  let v20 : R := ((MathFns.sqrt (((4.0 : R) * (4.0 : R)) * (2.0 : R))) * v1)
  let v21 : R := (v15 * v1)
  let o22 := (AABB3.intersectsRay (fltMax : R) v6 (Ray3.from v19 v8))
  bad := ck bad 812 (decide (o22.isSome = true))
  bad := ck bad 813 (Near.near (v1 / (1000.0 : R)) (o22.getD (0, 0)).1 v20)
  bad := ck bad 814 (Near.near (v1 / (1000.0 : R)) (o22.getD (0, 0)).2 v21)
  return bad
end Aabb3_239
#guard passes Aabb3_239.run

namespace Aabb3_240
abbrev R := Float32
def run : Res (List Nat) := do
  let mut bad : List Nat := []
  let v1 : R := (0.001 : R)
  let v2 : R := (-(1.0 : R))
  let v3 : R := (v1 * (5.0 : R))
  let v4 : Coord := (next3D Coord.X)
  let v5 : Coord := (next3D v4)
  let v6 : AABB3 R := (⟨(⟨(-v1), (-v1), (-v1)⟩ : Vec3 R), (⟨v1, v1, v1⟩ : Vec3 R)⟩ : AABB3 R)
  let v7 : Vec3 R := (Vec3.moved (Vec3.moved (Vec3.zero : Vec3 R) Coord.X (if (decide (v2 > (0.0 : R))) then (-v3) else v3)) v4 (if (decide (v2 > (0.0 : R))) then (-v3) else v3))
  let v8 : Vec3 R := (Vec3.normalized (Vec3.moved (Vec3.moved (Vec3.zero : Vec3 R) Coord.X v2) v4 v2) (1 : R))
  let v9 : Vec3 R := v7
  let v10 : Vec3 R := (Vec3.moved v7 Coord.X (v2 * v1))
  let v11 : Vec3 R := (Vec3.moved v7 Coord.X ((v2 * v1) * (2 : R)))
  let v12 : Vec3 R := (Vec3.moved v7 v4 (v2 * v1))
  let v13 : Vec3 R := (Vec3.moved v7 v4 ((v2 * v1) * (2 : R)))
  let v14 : R := (MathFns.sqrt (((6.0 : R) * (6.0 : R)) * (2.0 : R)))
  let v15 : R := (MathFns.sqrt (((5.0 : R) * (5.0 : R)) * (2.0 : R)))
  let v16 : R := (MathFns.sqrt (((4.0 : R) * (4.0 : R)) * (2.0 : R)))
  let v17 : R := (MathFns.sqrt (((5.0 : R) * (5.0 : R)) * (2.0 : R)))
  let v18 : R := (MathFns.sqrt (((4.0 : R) * (4.0 : R)) * (2.0 : R)))
  let v19 : Vec3 R := v13
  let v20 : R := ((MathFns.sqrt (((4.0 : R) * (4.0 : R)) * (2.0 : R))) * v1)
  let v21 : R := (v18 * v1)
  let o22 := (AABB3.intersectsRay (fltMax : R) v6 (Ray3.from v19 v8))
  bad := ck bad 812 (decide (o22.isSome = true))
  bad := ck bad 813 (Near.near (v1 / (1000.0 : R)) (o22.getD (0, 0)).1 v20)
  bad := ck bad 814 (Near.near (v1 / (1000.0 : R)) (o22.getD (0, 0)).2 v21)
  return bad
end Aabb3_240
#guard passes Aabb3_240.run

namespace Aabb3_241
abbrev R := Float32
def run : Res (List Nat) := do
  let mut bad : List Nat := []
  let v1 : R := (0.001 : R)
  let v2 : R := (1.0 : R)
  let v3 : R := (v1 * (5.0 : R))
  let v4 : Coord := (next3D Coord.Z)
  let v5 : Coord := (next3D v4)
  let v6 : AABB3 R := (⟨(⟨(-v1), (-v1), (-v1)⟩ : Vec3 R), (⟨v1, v1, v1⟩ : Vec3 R)⟩ : AABB3 R)
  let v7 : Vec3 R := (Vec3.moved (Vec3.moved (Vec3.zero : Vec3 R) Coord.Z (if (decide (v2 > (0.0 : R))) then (-v3) else v3)) v4 (if (decide (v2 > (0.0 : R))) then (-v3) else v3))
  let v8 : Vec3 R := (Vec3.normalized (Vec3.moved (Vec3.moved (Vec3.zero : Vec3 R) Coord.Z v2) v4 v2) (1 : R))
  let v9 : Vec3 R := v7
  let v10 : Vec3 R := (Vec3.moved v7 Coord.Z (v2 * v1))
  let v11 : Vec3 R := (Vec3.moved v7 Coord.Z ((v2 * v1) * (2 : R)))
  let v12 : Vec3 R := (Vec3.moved v7 v4 (v2 * v1))
  let v13 : Vec3 R := (Vec3.moved v7 v4 ((v2 * v1) * (2 : R)))
  let v14 : R := (MathFns.sqrt (((6.0 : R) * (6.0 : R)) * (2.0 : R)))
  let v15 : R := (MathFns.sqrt (((5.0 : R) * (5.0 : R)) * (2.0 : R)))
  let v16 : R := (MathFns.sqrt (((4.0 : R) * (4.0 : R)) * (2.0 : R)))
  let v17 : R := (MathFns.sqrt (((5.0 : R) * (5.0 : R)) * (2.0 : R)))
  let v18 : R := (MathFns.sqrt (((4.0 : R) * (4.0 : R)) * (2.0 : R)))
  let v19 : Vec3 R := v11
  let v20 : R := ((MathFns.sqrt (((4.0 : R) * (4.0 : R)) * (2.0 : R))) * v1)
  let v21 : R := (v16 * v1)
  let o22 := (AABB3.intersectsRay (fltMax : R) v6 (Ray3.from v19 v8))
  bad := ck bad 812 (decide (o22.isSome = true))
  bad := ck bad 813 (Near.near (v1 / (1000.0 : R)) (o22.getD (0, 0)).1 v20)
  bad := ck bad 814 (Near.near (v1 / (1000.0 : R)) (o22.getD (0, 0)).2 v21)
  return bad
end Aabb3_241
#guard passes Aabb3_241.run

namespace Aabb3_242
abbrev R := Float32
def run : Res (List Nat) := do
  let mut bad : List Nat := []
  let v1 : R := (1000.0 : R)
  let v2 : R := (-(1.0 : R))
  let v3 : R := (v1 * (5.0 : R))
  let v4 : Coord := (next3D Coord.X)
  let v5 : Coord := (next3D v4)
  let v6 : AABB3 R := (⟨(⟨(-v1), (-v1), (-v1)⟩ : Vec3 R), (⟨v1, v1, v1⟩ : Vec3 R)⟩ : AABB3 R)
  let v7 : Vec3 R := (Vec3.moved (Vec3.moved (Vec3.zero : Vec3 R) Coord.X (if (decide (v2 > (0.0 : R))) then (-v3) else v3)) v4 (if (decide (v2 > (0.0 : R))) then (-v3) else v3))
  let v8 : Vec3 R := (Vec3.normalized (Vec3.moved (Vec3.moved (Vec3.zero : Vec3 R) Coord.X v2) v4 v2) (1 : R))
  let v9 : Vec3 R := v7
  let v10 : Vec3 R := (Vec3.moved v7 Coord.X (v2 * v1))
  let v11 : Vec3 R := (Vec3.moved v7 Coord.X ((v2 * v1) * (2 : R)))
  let v12 : Vec3 R := (Vec3.moved v7 v4 (v2 * v1))
  let v13 : Vec3 R := (Vec3.moved v7 v4 ((v2 * v1) * (2 : R)))
  let v14 : R := (MathFns.sqrt (((6.0 : R) * (6.0 : R)) * (2.0 : R)))
  let v15 : R := (MathFns.sqrt (((5.0 : R) * (5.0 : R)) * (2.0 : R)))
  let v16 : R := (MathFns.sqrt (((4.0 : R) * (4.0 : R)) * (2.0 : R)))
  let v17 : R := (MathFns.sqrt (((5.0 : R) * (5.0 : R)) * (2.0 : R)))
  let v18 : R := (MathFns.sqrt (((4.0 : R) * (4.0 : R)) * (2.0 : R)))
  let v19 : Vec3 R := v9
  let v20 : R := ((MathFns.sqrt (((4.0 : R) * (4.0 : R)) * (2.0 : R))) * v1)
  let v21 : R := (v14 * v1)
  let o22 := (AABB3.intersectsRay (fltMax : R) v6 (Ray3.from v19 v8))
  bad := ck bad 812 (decide (o22.isSome = true))
  bad := ck bad 813 (Near.near (v1 / (1000.0 : R)) (o22.getD (0, 0)).1 v20)
  bad := ck bad 814 (Near.near (v1 / (1000.0 : R)) (o22.getD (0, 0)).2 v21)
  return bad
end Aabb3_242
#guard passes Aabb3_242.run

namespace Aabb3_243
abbrev R := Float32
def run : Res (List Nat) := do
  let mut bad : List Nat := []
  let v1 : R := (1000.0 : R)
  let v2 : R := (-(1.0 : R))
  let v3 : R := (v1 * (5.0 : R))
  let v4 : Coord := (next3D Coord.Y)
  let v5 : Coord := (next3D v4)
  let v6 : AABB3 R := (⟨(⟨(-v1), (-v1), (-v1)⟩ : Vec3 R), (⟨v1, v1, v1⟩ : Vec3 R)⟩ : AABB3 R)
  let v7 : Vec3 R := (Vec3.moved (Vec3.moved (Vec3.zero : Vec3 R) Coord.Y (if (decide (v2 > (0.0 : R))) then (-v3) else v3)) v4 (if (decide (v2 > (0.0 : R))) then (-v3) else v3))
  let v8 : Vec3 R := (Vec3.normalized (Vec3.moved (Vec3.moved (Vec3.zero : Vec3 R) Coord.Y v2) v4 v2) (1 : R))
  let v9 : Vec3 R := v7
  let v10 : Vec3 R := (Vec3.moved v7 Coord.Y (v2 * v1))
  let v11 : Vec3 R := (Vec3.moved v7 Coord.Y ((v2 * v1) * (2 : R)))
  let v12 : Vec3 R := (Vec3.moved v7 v4 (v2 * v1))
  let v13 : Vec3 R := (Vec3.moved v7 v4 ((v2 * v1) * (2 : R)))
  let v14 : R := (MathFns.sqrt (((6.0 : R) * (6.0 : R)) * (2.0 : R)))
  let v15 : R := (MathFns.sqrt (((5.0 : R) * (5.0 : R)) * (2.0 : R)))
  let v16 : R := (MathFns.sqrt (((4.0 : R) * (4.0 : R)) * (2.0 : R)))
  let v17 : R := (MathFns.sqrt (((5.0 : R) * (5.0 : R)) * (2.0 : R)))
  let v18 : R := (MathFns.sqrt (((4.0 : R) * (4.0 : R)) * (2.0 : R)))
  let v19 : Vec3 R := v12
  let v20 : R := ((MathFns.sqrt (((4.0 : R) * (4.0 : R)) * (2.0 : R))) * v1)
  let v21 : R := (v17 * v1)
  let o22 := (AABB3.intersectsRay (fltMax : R) v6 (Ray3.from v19 v8))
  bad := ck bad 812 (decide (o22.isSome = true))
  bad := ck bad 813 (Near.near (v1 / (1000.0 : R)) (o22.getD (0, 0)).1 v20)
  bad := ck bad 814 (Near.near (v1 / (1000.0 : R)) (o22.getD (0, 0)).2 v21)
  return bad
end Aabb3_243
#guard passes Aabb3_243.run

namespace Aabb3_244
abbrev R := Float32
def run : Res (List Nat) := do
  let mut bad : List Nat := []
  let v1 : R := (1.0 : R)
  let v2 : R := (1.0 : R)
  let v3 : R := (v1 * (5.0 : R))
  let v4 : Coord := (next3D Coord.X)
  let v5 : Coord := (next3D v4)
  let v6 : AABB3 R := (⟨(⟨(-v1), (-v1), (-v1)⟩ : Vec3 R), (⟨v1, v1, v1⟩ : Vec3 R)⟩ : AABB3 R)
  let v7 : Vec3 R := (Vec3.moved (Vec3.moved (Vec3.zero : Vec3 R) Coord.X (if (decide (v2 > (0.0 : R))) then (-v3) else v3)) v4 (if (decide (v2 > (0.0 : R))) then (-v3) else v3))
  let v8 : Vec3 R := (Vec3.normalized (Vec3.moved (Vec3.moved (Vec3.zero : Vec3 R) Coord.X v2) v4 v2) (1 : R))
  let v9 : Vec3 R := v7
  let v10 : Vec3 R := (Vec3.moved v7 Coord.X (v2 * v1))
  let v11 : Vec3 R := (Vec3.moved v7 Coord.X ((v2 * v1) * (2 : R)))
  let v12 : Vec3 R := (Vec3.moved v7 v4 (v2 * v1))
  let v13 : Vec3 R := (Vec3.moved v7 v4 ((v2 * v1) * (2 : R)))
  let v14 : R := (MathFns.sqrt (((6.0 : R) * (6.0 : R)) * (2.0 : R)))
  let v15 : R := (MathFns.sqrt (((5.0 : R) * (5.0 : R)) * (2.0 : R)))
  let v16 : R := (MathFns.sqrt (((4.0 : R) * (4.0 : R)) * (2.0 : R)))
  let v17 : R := (MathFns.sqrt (((5.0 : R) * (5.0 : R)) * (2.0 : R)))
  let v18 : R := (MathFns.sqrt (((4.0 : R) * (4.0 : R)) * (2.0 : R)))
  let v19 : Vec3 R := v9
  let v20 : R := ((MathFns.sqrt (((4.0 : R) * (4.0 : R)) * (2.0 : R))) * v1)
  let v21 : R := (v14 * v1)
  let o22 := (AABB3.intersectsRay (fltMax : R) v6 (Ray3.from (Vec3.moved v19 v5 v3) v8))
  bad := ck bad 818 (decide (o22.isSome = false))
  let o23 := (AABB3.intersectsRay (fltMax : R) v6 (Ray3.from (Vec3.moved v19 v5 (-v3)) v8))
  bad := ck bad 819 (decide (o23.isSome = false))
  return bad
end Aabb3_244
#guard passes Aabb3_244.run

namespace Aabb3_245
abbrev R := Float32
def run : Res (List Nat) := do
  let mut bad : List Nat := []
  let v1 : R := (1.0 : R)
  let v2 : R := (1.0 : R)
  let v3 : R := (v1 * (5.0 : R))
  let v4 : Coord := (next3D Coord.Y)
  let v5 : Coord := (next3D v4)
  let v6 : AABB3 R := (⟨(⟨(-v1), (-v1), (-v1)⟩ : Vec3 R), (⟨v1, v1, v1⟩ : Vec3 R)⟩ : AABB3 R)
  let v7 : Vec3 R := (Vec3.moved (Vec3.moved (Vec3.zero : Vec3 R) Coord.Y (if (decide (v2 > (0.0 : R))) then (-v3) else v3)) v4 (if (decide (v2 > (0.0 : R))) then (-v3) else v3))
  let v8 : Vec3 R := (Vec3.normalized (Vec3.moved (Vec3.moved (Vec3.zero : Vec3 R) Coord.Y v2) v4 v2) (1 : R))
  let v9 : Vec3 R := v7
  let v10 : Vec3 R := (Vec3.moved v7 Coord.Y (v2 * v1))
  let v11 : Vec3 R := (Vec3.moved v7 Coord.Y ((v2 * v1) * (2 : R)))
  let v12 : Vec3 R := (Vec3.moved v7 v4 (v2 * v1))
  let v13 : Vec3 R := (Vec3.moved v7 v4 ((v2 * v1) * (2 : R)))
  let v14 : R := (MathFns.sqrt (((6.0 : R) * (6.0 : R)) * (2.0 : R)))
  let v15 : R := (MathFns.sqrt (((5.0 : R) * (5.0 : R)) * (2.0 : R)))
  let v16 : R := (MathFns.sqrt (((4.0 : R) * (4.0 : R)) * (2.0 : R)))
  let v17 : R := (MathFns.sqrt (((5.0 : R) * (5.0 : R)) * (2.0 : R)))
  let v18 : R := (MathFns.sqrt (((4.0 : R) * (4.0 : R)) * (2.0 : R)))
  let v19 : Vec3 R := v12
  let v20 : R := ((MathFns.sqrt (((4.0 : R) * (4.0 : R)) * (2.0 : R))) * v1)
  let v21 : R := (v17 * v1)
  let o22 := (AABB3.intersectsRay (fltMax : R) v6 (Ray3.from (Vec3.moved v19 v5 v3) v8))
  bad := ck bad 818 (decide (o22.isSome = false))
  let o23 := (AABB3.intersectsRay (fltMax : R) v6 (Ray3.from (Vec3.moved v19 v5 (-v3)) v8))
  bad := ck bad 819 (decide (o23.isSome = false))
  return bad
end Aabb3_245
#guard passes Aabb3_245.run

namespace Aabb3_246
abbrev R := Float32
def run : Res (List Nat) := do
  let mut bad : List Nat := []
  let v1 : R := (1.0 : R)
  let v2 : R := (-(1.0 : R))
  let v3 : R := (v1 * (5.0 : R))
  let v4 : Coord := (next3D Coord.Z)
  let v5 : Coord := (next3D v4)
  let v6 : AABB3 R := (⟨(⟨(-v1), (-v1), (-v1)⟩ : Vec3 R), (⟨v1, v1, v1⟩ : Vec3 R)⟩ : AABB3 R)
  let v7 : Vec3 R := (Vec3.moved (Vec3.moved (Vec3.zero : Vec3 R) Coord.Z (if (decide (v2 > (0.0 : R))) then (-v3) else v3)) v4 (if (decide (v2 > (0.0 : R))) then (-v3) else v3))
  let v8 : Vec3 R := (Vec3.normalized (Vec3.moved (Vec3.moved (Vec3.zero : Vec3 R) Coord.Z v2) v4 v2) (1 : R))
  let v9 : Vec3 R := v7
  let v10 : Vec3 R := (Vec3.moved v7 Coord.Z (v2 * v1))
  let v11 : Vec3 R := (Vec3.moved v7 Coord.Z ((v2 * v1) * (2 : R)))
  let v12 : Vec3 R := (Vec3.moved v7 v4 (v2 * v1))
  let v13 : Vec3 R := (Vec3.moved v7 v4 ((v2 * v1) * (2 : R)))
  let v14 : R := (MathFns.sqrt (((6.0 : R) * (6.0 : R)) * (2.0 : R)))
  let v15 : R := (MathFns.sqrt (((5.0 : R) * (5.0 : R)) * (2.0 : R)))
  let v16 : R := (MathFns.sqrt (((4.0 : R) * (4.0 : R)) * (2.0 : R)))
  let v17 : R := (MathFns.sqrt (((5.0 : R) * (5.0 : R)) * (2.0 : R)))
  let v18 : R := (MathFns.sqrt (((4.0 : R) * (4.0 : R)) * (2.0 : R)))
  let v19 : Vec3 R := v10
  let v20 : R := ((MathFns.sqrt (((4.0 : R) * (4.0 : R)) * (2.0 : R))) * v1)
  let v21 : R := (v15 * v1)
  let o22 := (AABB3.intersectsRay (fltMax : R) v6 (Ray3.from (Vec3.moved v19 v5 v3) v8))
  bad := ck bad 818 (decide (o22.isSome = false))
  let o23 := (AABB3.intersectsRay (fltMax : R) v6 (Ray3.from (Vec3.moved v19 v5 (-v3)) v8))
  bad := ck bad 819 (decide (o23.isSome = false))
  return bad
end Aabb3_246
#guard passes Aabb3_246.run

namespace Aabb3_247
abbrev R := Float32
def run : Res (List Nat) := do
  let mut bad : List Nat := []
  let v1 : R := (0.001 : R)
  let v2 : R := (-(1.0 : R))
  let v3 : R := (v1 * (5.0 : R))
  let v4 : Coord := (next3D Coord.X)
  let v5 : Coord := (next3D v4)
  let v6 : AABB3 R := (⟨(⟨(-v1), (-v1), (-v1)⟩ : Vec3 R), (⟨v1, v1, v1⟩ : Vec3 R)⟩ : AABB3 R)
  let v7 : Vec3 R := (Vec3.moved (Vec3.moved (Vec3.zero : Vec3 R) Coord.X (if (decide (v2 > (0.0 : R))) then (-v3) else v3)) v4 (if (decide (v2 > (0.0 : R))) then (-v3) else v3))
  let v8 : Vec3 R := (Vec3.normalized (Vec3.moved (Vec3.moved (Vec3.zero : Vec3 R) Coord.X v2) v4 v2) (1 : R))
  let v9 : Vec3 R := v7
  let v10 : Vec3 R := (Vec3.moved v7 Coord.X (v2 * v1))
  let v11 : Vec3 R := (Vec3.moved v7 Coord.X ((v2 * v1) * (2 : R)))
  let v12 : Vec3 R := (Vec3.moved v7 v4 (v2 * v1))
  let v13 : Vec3 R := (Vec3.moved v7 v4 ((v2 * v1) * (2 : R)))
  let v14 : R := (MathFns.sqrt (((6.0 : R) * (6.0 : R)) * (2.0 : R)))
  let v15 : R := (MathFns.sqrt (((5.0 : R) * (5.0 : R)) * (2.0 : R)))
  let v16 : R := (MathFns.sqrt (((4.0 : R) * (4.0 : R)) * (2.0 : R)))
  let v17 : R := (MathFns.sqrt (((5.0 : R) * (5.0 : R)) * (2.0 : R)))
  let v18 : R := (MathFns.sqrt (((4.0 : R) * (4.0 : R)) * (2.0 : R)))
  let v19 : Vec3 R := v13
  let v20 : R := ((MathFns.sqrt (((4.0 : R) * (4.0 : R)) * (2.0 : R))) * v1)
  let v21 : R := (v18 * v1)
  let o22 := (AABB3.intersectsRay (fltMax : R) v6 (Ray3.from (Vec3.moved v19 v5 v3) v8))
  bad := ck bad 818 (decide (o22.isSome = false))
  let o23 := (AABB3.intersectsRay (fltMax : R) v6 (Ray3.from (Vec3.moved v19 v5 (-v3)) v8))
  bad := ck bad 819 (decide (o23.isSome = false))
  return bad
end Aabb3_247
#guard passes Aabb3_247.run

namespace Aabb3_248
abbrev R := Float32
def run : Res (List Nat) := do
  let mut bad : List Nat := []
  let v1 : R := (0.001 : R)
  let v2 : R := (1.0 : R)
  let v3 : R := (v1 * (5.0 : R))
  let v4 : Coord := (next3D Coord.Z)
  let v5 : Coord := (next3D v4)
  let v6 : AABB3 R := (⟨(⟨(-v1), (-v1), (-v1)⟩ : Vec3 R), (⟨v1, v1, v1⟩ : Vec3 R)⟩ : AABB3 R)
  let v7 : Vec3 R := (Vec3.moved (Vec3.moved (Vec3.zero : Vec3 R) Coord.Z (if (decide (v2 > (0.0 : R))) then (-v3) else v3)) v4 (if (decide (v2 > (0.0 : R))) then (-v3) else v3))
  let v8 : Vec3 R := (Vec3.normalized (Vec3.moved (Vec3.moved (Vec3.zero : Vec3 R) Coord.Z v2) v4 v2) (1 : R))
  let v9 : Vec3 R := v7
  let v10 : Vec3 R := (Vec3.moved v7 Coord.Z (v2 * v1))
  let v11 : Vec3 R := (Vec3.moved v7 Coord.Z ((v2 * v1) * (2 : R)))
  let v12 : Vec3 R := (Vec3.moved v7 v4 (v2 * v1))
  let v13 : Vec3 R := (Vec3.moved v7 v4 ((v2 * v1) * (2 : R)))
  let v14 : R := (MathFns.sqrt (((6.0 : R) * (6.0 : R)) * (2.0 : R)))
  let v15 : R := (MathFns.sqrt (((5.0 : R) * (5.0 : R)) * (2.0 : R)))
  let v16 : R := (MathFns.sqrt (((4.0 : R) * (4.0 : R)) * (2.0 : R)))
  let v17 : R := (MathFns.sqrt (((5.0 : R) * (5.0 : R)) * (2.0 : R)))
  let v18 : R := (MathFns.sqrt (((4.0 : R) * (4.0 : R)) * (2.0 : R)))
  let v19 : Vec3 R := v11
  let v20 : R := ((MathFns.sqrt (((4.0 : R) * (4.0 : R)) * (2.0 : R))) * v1)
  let v21 : R := (v16 * v1)
  let o22 := (AABB3.intersectsRay (fltMax : R) v6 (Ray3.from (Vec3.moved v19 v5 v3) v8))
  bad := ck bad 818 (decide (o22.isSome = false))
  let o23 := (AABB3.intersectsRay (fltMax : R) v6 (Ray3.from (Vec3.moved v19 v5 (-v3)) v8))
  bad := ck bad 819 (decide (o23.isSome = false))
  return bad
end Aabb3_248
#guard passes Aabb3_248.run

namespace Aabb3_249
abbrev R := Float32
def run : Res (List Nat) := do
  let mut bad : List Nat := []
  let v1 : R := (1000.0 : R)
  let v2 : R := (-(1.0 : R))
  let v3 : R := (v1 * (5.0 : R))
  let v4 : Coord := (next3D Coord.X)
  let v5 : Coord := (next3D v4)
  let v6 : AABB3 R := (⟨(⟨(-v1), (-v1), (-v1)⟩ : Vec3 R), (⟨v1, v1, v1⟩ : Vec3 R)⟩ : AABB3 R)
  let v7 : Vec3 R := (Vec3.moved (Vec3.moved (Vec3.zero : Vec3 R) Coord.X (if (decide (v2 > (0.0 : R))) then (-v3) else v3)) v4 (if (decide (v2 > (0.0 : R))) then (-v3) else v3))
  let v8 : Vec3 R := (Vec3.normalized (Vec3.moved (Vec3.moved (Vec3.zero : Vec3 R) Coord.X v2) v4 v2) (1 : R))
  let v9 : Vec3 R := v7
  let v10 : Vec3 R := (Vec3.moved v7 Coord.X (v2 * v1))
  let v11 : Vec3 R := (Vec3.moved v7 Coord.X ((v2 * v1) * (2 : R)))
  let v12 : Vec3 R := (Vec3.moved v7 v4 (v2 * v1))
  let v13 : Vec3 R := (Vec3.moved v7 v4 ((v2 * v1) * (2 : R)))
  let v14 : R := (MathFns.sqrt (((6.0 : R) * (6.0 : R)) * (2.0 : R)))
  let v15 : R := (MathFns.sqrt (((5.0 : R) * (5.0 : R)) * (2.0 : R)))
  let v16 : R := (MathFns.sqrt (((4.0 : R) * (4.0 : R)) * (2.0 : R)))
  let v17 : R := (MathFns.sqrt (((5.0 : R) * (5.0 : R)) * (2.0 : R)))
  let v18 : R := (MathFns.sqrt (((4.0 : R) * (4.0 : R)) * (2.0 : R)))
  let v19 : Vec3 R := v9
  let v20 : R := ((MathFns.sqrt (((4.0 : R) * (4.0 : R)) * (2.0 : R))) * v1)
  let v21 : R := (v14 * v1)
  let o22 := (AABB3.intersectsRay (fltMax : R) v6 (Ray3.from (Vec3.moved v19 v5 v3) v8))
  bad := ck bad 818 (decide (o22.isSome = false))
  let o23 := (AABB3.intersectsRay (fltMax : R) v6 (Ray3.from (Vec3.moved v19 v5 (-v3)) v8))
  bad := ck bad 819 (decide (o23.isSome = false))
  return bad
end Aabb3_249
#guard passes Aabb3_249.run

namespace Aabb3_250
abbrev R := Float32
def run : Res (List Nat) := do
  let mut bad : List Nat := []
  let v1 : R := (1000.0 : R)
  let v2 : R := (-(1.0 : R))
  let v3 : R := (v1 * (5.0 : R))
  let v4 : Coord := (next3D Coord.Y)
  let v5 : Coord := (next3D v4)
  let v6 : AABB3 R := (⟨(⟨(-v1), (-v1), (-v1)⟩ : Vec3 R), (⟨v1, v1, v1⟩ : Vec3 R)⟩ : AABB3 R)
  let v7 : Vec3 R := (Vec3.moved (Vec3.moved (Vec3.zero : Vec3 R) Coord.Y (if (decide (v2 > (0.0 : R))) then (-v3) else v3)) v4 (if (decide (v2 > (0.0 : R))) then (-v3) else v3))
  let v8 : Vec3 R := (Vec3.normalized (Vec3.moved (Vec3.moved (Vec3.zero : Vec3 R) Coord.Y v2) v4 v2) (1 : R))
  let v9 : Vec3 R := v7
  let v10 : Vec3 R := (Vec3.moved v7 Coord.Y (v2 * v1))
  let v11 : Vec3 R := (Vec3.moved v7 Coord.Y ((v2 * v1) * (2 : R)))
  let v12 : Vec3 R := (Vec3.moved v7 v4 (v2 * v1))
  let v13 : Vec3 R := (Vec3.moved v7 v4 ((v2 * v1) * (2 : R)))
  let v14 : R := (MathFns.sqrt (((6.0 : R) * (6.0 : R)) * (2.0 : R)))
  let v15 : R := (MathFns.sqrt (((5.0 : R) * (5.0 : R)) * (2.0 : R)))
  let v16 : R := (MathFns.sqrt (((4.0 : R) * (4.0 : R)) * (2.0 : R)))
  let v17 : R := (MathFns.sqrt (((5.0 : R) * (5.0 : R)) * (2.0 : R)))
  let v18 : R := (MathFns.sqrt (((4.0 : R) * (4.0 : R)) * (2.0 : R)))
  let v19 : Vec3 R := v12
  let v20 : R := ((MathFns.sqrt (((4.0 : R) * (4.0 : R)) * (2.0 : R))) * v1)
  let v21 : R := (v17 * v1)
  let o22 := (AABB3.intersectsRay (fltMax : R) v6 (Ray3.from (Vec3.moved v19 v5 v3) v8))
  bad := ck bad 818 (decide (o22.isSome = false))
  let o23 := (AABB3.intersectsRay (fltMax : R) v6 (Ray3.from (Vec3.moved v19 v5 (-v3)) v8))
  bad := ck bad 819 (decide (o23.isSome = false))
  return bad
end Aabb3_250
#guard passes Aabb3_250.run

namespace Aabb3_251
abbrev R := Float32
def run : Res (List Nat) := do
  let mut bad : List Nat := []
  let v1 : R := (1.0 : R)
  let v2 : R := (1.0 : R)
  let v3 : R := (v1 * (5.0 : R))
  let v4 : Coord := (next3D Coord.X)
  let v5 : Coord := (next3D v4)
  let v6 : AABB3 R := (⟨(⟨(-v1), (-v1), (-v1)⟩ : Vec3 R), (⟨v1, v1, v1⟩ : Vec3 R)⟩ : AABB3 R)
  let v7 : R := (0.4 : R)
  let v8 : R := (0.6 : R)
  let v9 : Vec3 R := (Vec3.moved (Vec3.zero : Vec3 R) Coord.X (if (decide (v2 > (0.0 : R))) then (-v3) else v3))
  let v10 : Vec3 R := (Vec3.moved (Vec3.zero : Vec3 R) Coord.X (if (decide (v2 > (0.0 : R))) then v3 else (-v3)))
  let o11 := (AABB3.intersectsLine (fltMax : R) v6 (⟨v9, v10⟩ : Line3 R))
  bad := ck bad 847 (decide (o11.isSome = true))
  bad := ck bad 848 (nearRel (0.0001 : R) (o11.getD (0, 0)).1 v7)
  bad := ck bad 849 (nearRel (0.0001 : R) (o11.getD (0, 0)).2 v8)
  return bad
end Aabb3_251
#guard passes Aabb3_251.run

namespace Aabb3_252
abbrev R := Float32
def run : Res (List Nat) := do
  let mut bad : List Nat := []
  let v1 : R := (1.0 : R)
  let v2 : R := (-(1.0 : R))
  let v3 : R := (v1 * (5.0 : R))
  let v4 : Coord := (next3D Coord.Y)
  let v5 : Coord := (next3D v4)
  let v6 : AABB3 R := (⟨(⟨(-v1), (-v1), (-v1)⟩ : Vec3 R), (⟨v1, v1, v1⟩ : Vec3 R)⟩ : AABB3 R)
  let v7 : R := (0.4 : R)
  let v8 : R := (0.6 : R)
  let v9 : Vec3 R := (Vec3.moved (Vec3.zero : Vec3 R) Coord.Y (if (decide (v2 > (0.0 : R))) then (-v3) else v3))
  let v10 : Vec3 R := (Vec3.moved (Vec3.zero : Vec3 R) Coord.Y (if (decide (v2 > (0.0 : R))) then v3 else (-v3)))
  let o11 := (AABB3.intersectsLine (fltMax : R) v6 (⟨v9, v10⟩ : Line3 R))
  bad := ck bad 847 (decide (o11.isSome = true))
  bad := ck bad 848 (nearRel (0.0001 : R) (o11.getD (0, 0)).1 v7)
  bad := ck bad 849 (nearRel (0.0001 : R) (o11.getD (0, 0)).2 v8)
  return bad
end Aabb3_252
#guard passes Aabb3_252.run

namespace Aabb3_253
abbrev R := Float32
def run : Res (List Nat) := do
  let mut bad : List Nat := []
  let v1 : R := (0.001 : R)
  let v2 : R := (1.0 : R)
  let v3 : R := (v1 * (5.0 : R))
  let v4 : Coord := (next3D Coord.X)
  let v5 : Coord := (next3D v4)
  let v6 : AABB3 R := (⟨(⟨(-v1), (-v1), (-v1)⟩ : Vec3 R), (⟨v1, v1, v1⟩ : Vec3 R)⟩ : AABB3 R)
  let v7 : R := (0.4 : R)
  let v8 : R := (0.6 : R)
  let v9 : Vec3 R := (Vec3.moved (Vec3.zero : Vec3 R) Coord.X (if (decide (v2 > (0.0 : R))) then (-v3) else v3))
  let v10 : Vec3 R := (Vec3.moved (Vec3.zero : Vec3 R) Coord.X (if (decide (v2 > (0.0 : R))) then v3 else (-v3)))
  let o11 := (AABB3.intersectsLine (fltMax : R) v6 (⟨v9, v10⟩ : Line3 R))
  bad := ck bad 847 (decide (o11.isSome = true))
  bad := ck bad 848 (nearRel (0.0001 : R) (o11.getD (0, 0)).1 v7)
  bad := ck bad 849 (nearRel (0.0001 : R) (o11.getD (0, 0)).2 v8)
  return bad
end Aabb3_253
#guard passes Aabb3_253.run

namespace Aabb3_254
abbrev R := Float32
def run : Res (List Nat) := do
  let mut bad : List Nat := []
  let v1 : R := (0.001 : R)
  let v2 : R := (-(1.0 : R))
  let v3 : R := (v1 * (5.0 : R))
  let v4 : Coord := (next3D Coord.Y)
  let v5 : Coord := (next3D v4)
  let v6 : AABB3 R := (⟨(⟨(-v1), (-v1), (-v1)⟩ : Vec3 R), (⟨v1, v1, v1⟩ : Vec3 R)⟩ : AABB3 R)
  let v7 : R := (0.4 : R)
  let v8 : R := (0.6 : R)
  let v9 : Vec3 R := (Vec3.moved (Vec3.zero : Vec3 R) Coord.Y (if (decide (v2 > (0.0 : R))) then (-v3) else v3))
  let v10 : Vec3 R := (Vec3.moved (Vec3.zero : Vec3 R) Coord.Y (if (decide (v2 > (0.0 : R))) then v3 else (-v3)))
  let o11 := (AABB3.intersectsLine (fltMax : R) v6 (⟨v9, v10⟩ : Line3 R))
  bad := ck bad 847 (decide (o11.isSome = true))
  bad := ck bad 848 (nearRel (0.0001 : R) (o11.getD (0, 0)).1 v7)
  bad := ck bad 849 (nearRel (0.0001 : R) (o11.getD (0, 0)).2 v8)
  return bad
end Aabb3_254
#guard passes Aabb3_254.run

namespace Aabb3_255
abbrev R := Float32
def run : Res (List Nat) := do
  let mut bad : List Nat := []
  let v1 : R := (1000.0 : R)
  let v2 : R := (1.0 : R)
  let v3 : R := (v1 * (5.0 : R))
  let v4 : Coord := (next3D Coord.X)
  let v5 : Coord := (next3D v4)
  let v6 : AABB3 R := (⟨(⟨(-v1), (-v1), (-v1)⟩ : Vec3 R), (⟨v1, v1, v1⟩ : Vec3 R)⟩ : AABB3 R)
  let v7 : R := (0.4 : R)
  let v8 : R := (0.6 : R)
  let v9 : Vec3 R := (Vec3.moved (Vec3.zero : Vec3 R) Coord.X (if (decide (v2 > (0.0 : R))) then (-v3) else v3))
  let v10 : Vec3 R := (Vec3.moved (Vec3.zero : Vec3 R) Coord.X (if (decide (v2 > (0.0 : R))) then v3 else (-v3)))
  let o11 := (AABB3.intersectsLine (fltMax : R) v6 (⟨v9, v10⟩ : Line3 R))
  bad := ck bad 847 (decide (o11.isSome = true))
  bad := ck bad 848 (nearRel (0.0001 : R) (o11.getD (0, 0)).1 v7)
  bad := ck bad 849 (nearRel (0.0001 : R) (o11.getD (0, 0)).2 v8)
  return bad
end Aabb3_255
#guard passes Aabb3_255.run

namespace Aabb3_256
abbrev R := Float32
def run : Res (List Nat) := do
  let mut bad : List Nat := []
  let v1 : R := (1000.0 : R)
  let v2 : R := (-(1.0 : R))
  let v3 : R := (v1 * (5.0 : R))
  let v4 : Coord := (next3D Coord.Y)
  let v5 : Coord := (next3D v4)
  let v6 : AABB3 R := (⟨(⟨(-v1), (-v1), (-v1)⟩ : Vec3 R), (⟨v1, v1, v1⟩ : Vec3 R)⟩ : AABB3 R)
  let v7 : R := (0.4 : R)
  let v8 : R := (0.6 : R)
  let v9 : Vec3 R := (Vec3.moved (Vec3.zero : Vec3 R) Coord.Y (if (decide (v2 > (0.0 : R))) then (-v3) else v3))
  let v10 : Vec3 R := (Vec3.moved (Vec3.zero : Vec3 R) Coord.Y (if (decide (v2 > (0.0 : R))) then v3 else (-v3)))
  let o11 := (AABB3.intersectsLine (fltMax : R) v6 (⟨v9, v10⟩ : Line3 R))
  bad := ck bad 847 (decide (o11.isSome = true))
  bad := ck bad 848 (nearRel (0.0001 : R) (o11.getD (0, 0)).1 v7)
  bad := ck bad 849 (nearRel (0.0001 : R) (o11.getD (0, 0)).2 v8)
  return bad
end Aabb3_256
#guard passes Aabb3_256.run

namespace Aabb3_257
abbrev R := Float32
def run : Res (List Nat) := do
  let mut bad : List Nat := []
  let v1 : R := (1.0 : R)
  let v2 : R := (1.0 : R)
  let v3 : R := (v1 * (5.0 : R))
  let v4 : Coord := (next3D Coord.X)
  let v5 : Coord := (next3D v4)
  let v6 : AABB3 R := (⟨(⟨(-v1), (-v1), (-v1)⟩ : Vec3 R), (⟨v1, v1, v1⟩ : Vec3 R)⟩ : AABB3 R)
  let v7 : R := (0.4 : R)
  let v8 : R := (0.6 : R)
  let v9 : Vec3 R := (Vec3.moved (Vec3.zero : Vec3 R) Coord.X (if (decide (v2 > (0.0 : R))) then (-v3) else v3))
  let v10 : Vec3 R := (Vec3.moved (Vec3.zero : Vec3 R) Coord.X (if (decide (v2 > (0.0 : R))) then v3 else (-v3)))
  let o11 := (AABB3.intersectsLine (fltMax : R) v6 (⟨(Vec3.moved v9 v4 v3), (Vec3.moved v10 v4 v3)⟩ : Line3 R))
  bad := ck bad 853 (decide (o11.isSome = false))
  let o12 := (AABB3.intersectsLine (fltMax : R) v6 (⟨(Vec3.moved v9 v4 (-v3)), (Vec3.moved v10 v4 (-v3))⟩ : Line3 R))
  bad := ck bad 854 (decide (o12.isSome = false))
  return bad
end Aabb3_257
#guard passes Aabb3_257.run

namespace Aabb3_258
abbrev R := Float32
def run : Res (List Nat) := do
  let mut bad : List Nat := []
  let v1 : R := (1.0 : R)
  let v2 : R := (-(1.0 : R))
  let v3 : R := (v1 * (5.0 : R))
  let v4 : Coord := (next3D Coord.Y)
  let v5 : Coord := (next3D v4)
  let v6 : AABB3 R := (⟨(⟨(-v1), (-v1), (-v1)⟩ : Vec3 R), (⟨v1, v1, v1⟩ : Vec3 R)⟩ : AABB3 R)
  let v7 : R := (0.4 : R)
  let v8 : R := (0.6 : R)
  let v9 : Vec3 R := (Vec3.moved (Vec3.zero : Vec3 R) Coord.Y (if (decide (v2 > (0.0 : R))) then (-v3) else v3))
  let v10 : Vec3 R := (Vec3.moved (Vec3.zero : Vec3 R) Coord.Y (if (decide (v2 > (0.0 : R))) then v3 else (-v3)))
  let o11 := (AABB3.intersectsLine (fltMax : R) v6 (⟨(Vec3.moved v9 v4 v3), (Vec3.moved v10 v4 v3)⟩ : Line3 R))
  bad := ck bad 853 (decide (o11.isSome = false))
  let o12 := (AABB3.intersectsLine (fltMax : R) v6 (⟨(Vec3.moved v9 v4 (-v3)), (Vec3.moved v10 v4 (-v3))⟩ : Line3 R))
  bad := ck bad 854 (decide (o12.isSome = false))
  return bad
end Aabb3_258
#guard passes Aabb3_258.run

namespace Aabb3_259
abbrev R := Float32
def run : Res (List Nat) := do
  let mut bad : List Nat := []
  let v1 : R := (0.001 : R)
  let v2 : R := (1.0 : R)
  let v3 : R := (v1 * (5.0 : R))
  let v4 : Coord := (next3D Coord.X)
  let v5 : Coord := (next3D v4)
  let v6 : AABB3 R := (⟨(⟨(-v1), (-v1), (-v1)⟩ : Vec3 R), (⟨v1, v1, v1⟩ : Vec3 R)⟩ : AABB3 R)
  let v7 : R := (0.4 : R)
  let v8 : R := (0.6 : R)
  let v9 : Vec3 R := (Vec3.moved (Vec3.zero : Vec3 R) Coord.X (if (decide (v2 > (0.0 : R))) then (-v3) else v3))
  let v10 : Vec3 R := (Vec3.moved (Vec3.zero : Vec3 R) Coord.X (if (decide (v2 > (0.0 : R))) then v3 else (-v3)))
  let o11 := (AABB3.intersectsLine (fltMax : R) v6 (⟨(Vec3.moved v9 v4 v3), (Vec3.moved v10 v4 v3)⟩ : Line3 R))
  bad := ck bad 853 (decide (o11.isSome = false))
  let o12 := (AABB3.intersectsLine (fltMax : R) v6 (⟨(Vec3.moved v9 v4 (-v3)), (Vec3.moved v10 v4 (-v3))⟩ : Line3 R))
  bad := ck bad 854 (decide (o12.isSome = false))
  return bad
end Aabb3_259
#guard passes Aabb3_259.run

namespace Aabb3_260
abbrev R := Float32
def run : Res (List Nat) := do
  let mut bad : List Nat := []
  let v1 : R := (0.001 : R)
  let v2 : R := (-(1.0 : R))
  let v3 : R := (v1 * (5.0 : R))
  let v4 : Coord := (next3D Coord.Y)
  let v5 : Coord := (next3D v4)
  let v6 : AABB3 R := (⟨(⟨(-v1), (-v1), (-v1)⟩ : Vec3 R), (⟨v1, v1, v1⟩ : Vec3 R)⟩ : AABB3 R)
  let v7 : R := (0.4 : R)
  let v8 : R := (0.6 : R)
  let v9 : Vec3 R := (Vec3.moved (Vec3.zero : Vec3 R) Coord.Y (if (decide (v2 > (0.0 : R))) then (-v3) else v3))
  let v10 : Vec3 R := (Vec3.moved (Vec3.zero : Vec3 R) Coord.Y (if (decide (v2 > (0.0 : R))) then v3 else (-v3)))
  let o11 := (AABB3.intersectsLine (fltMax : R) v6 (⟨(Vec3.moved v9 v4 v3), (Vec3.moved v10 v4 v3)⟩ : Line3 R))
  bad := ck bad 853 (decide (o11.isSome = false))
  let o12 := (AABB3.intersectsLine (fltMax : R) v6 (⟨(Vec3.moved v9 v4 (-v3)), (Vec3.moved v10 v4 (-v3))⟩ : Line3 R))
  bad := ck bad 854 (decide (o12.isSome = false))
  return bad
end Aabb3_260
#guard passes Aabb3_260.run

namespace Aabb3_261
abbrev R := Float32
def run : Res (List Nat) := do
  let mut bad : List Nat := []
  let v1 : R := (1000.0 : R)
  let v2 : R := (1.0 : R)
  let v3 : R := (v1 * (5.0 : R))
  let v4 : Coord := (next3D Coord.X)
  let v5 : Coord := (next3D v4)
  let v6 : AABB3 R := (⟨(⟨(-v1), (-v1), (-v1)⟩ : Vec3 R), (⟨v1, v1, v1⟩ : Vec3 R)⟩ : AABB3 R)
  let v7 : R := (0.4 : R)
  let v8 : R := (0.6 : R)
  let v9 : Vec3 R := (Vec3.moved (Vec3.zero : Vec3 R) Coord.X (if (decide (v2 > (0.0 : R))) then (-v3) else v3))
  let v10 : Vec3 R := (Vec3.moved (Vec3.zero : Vec3 R) Coord.X (if (decide (v2 > (0.0 : R))) then v3 else (-v3)))
  let o11 := (AABB3.intersectsLine (fltMax : R) v6 (⟨(Vec3.moved v9 v4 v3), (Vec3.moved v10 v4 v3)⟩ : Line3 R))
  bad := ck bad 853 (decide (o11.isSome = false))
  let o12 := (AABB3.intersectsLine (fltMax : R) v6 (⟨(Vec3.moved v9 v4 (-v3)), (Vec3.moved v10 v4 (-v3))⟩ : Line3 R))
  bad := ck bad 854 (decide (o12.isSome = false))
  return bad
end Aabb3_261
#guard passes Aabb3_261.run

namespace Aabb3_262
abbrev R := Float32
def run : Res (List Nat) := do
  let mut bad : List Nat := []
  let v1 : R := (1000.0 : R)
  let v2 : R := (-(1.0 : R))
  let v3 : R := (v1 * (5.0 : R))
  let v4 : Coord := (next3D Coord.Y)
  let v5 : Coord := (next3D v4)
  let v6 : AABB3 R := (⟨(⟨(-v1), (-v1), (-v1)⟩ : Vec3 R), (⟨v1, v1, v1⟩ : Vec3 R)⟩ : AABB3 R)
  let v7 : R := (0.4 : R)
  let v8 : R := (0.6 : R)
  let v9 : Vec3 R := (Vec3.moved (Vec3.zero : Vec3 R) Coord.Y (if (decide (v2 > (0.0 : R))) then (-v3) else v3))
  let v10 : Vec3 R := (Vec3.moved (Vec3.zero : Vec3 R) Coord.Y (if (decide (v2 > (0.0 : R))) then v3 else (-v3)))
  let o11 := (AABB3.intersectsLine (fltMax : R) v6 (⟨(Vec3.moved v9 v4 v3), (Vec3.moved v10 v4 v3)⟩ : Line3 R))
  bad := ck bad 853 (decide (o11.isSome = false))
  let o12 := (AABB3.intersectsLine (fltMax : R) v6 (⟨(Vec3.moved v9 v4 (-v3)), (Vec3.moved v10 v4 (-v3))⟩ : Line3 R))
  bad := ck bad 854 (decide (o12.isSome = false))
  return bad
end Aabb3_262
#guard passes Aabb3_262.run

namespace Aabb3_263
abbrev R := Float32
def run : Res (List Nat) := do
  let mut bad : List Nat := []
  let v1 : R := (1.0 : R)
  let v2 : R := (1.0 : R)
  let v3 : R := (v1 * (5.0 : R))
  let v4 : Coord := (next3D Coord.X)
  let v5 : Coord := (next3D v4)
  let v6 : AABB3 R := (⟨(⟨(-v1), (-v1), (-v1)⟩ : Vec3 R), (⟨v1, v1, v1⟩ : Vec3 R)⟩ : AABB3 R)
  let v7 : R := (0.4 : R)
  let v8 : R := (0.6 : R)
  let v9 : Vec3 R := (Vec3.moved (Vec3.zero : Vec3 R) Coord.X (if (decide (v2 > (0.0 : R))) then (-v3) else v3))
  let v10 : Vec3 R := (Vec3.moved (Vec3.zero : Vec3 R) Coord.X (if (decide (v2 > (0.0 : R))) then v3 else (-v3)))
  let o11 := (AABB3.intersectsLine (fltMax : R) v6 (⟨(Vec3.moved v9 v5 v3), (Vec3.moved v10 v5 v3)⟩ : Line3 R))
  bad := ck bad 858 (decide (o11.isSome = false))
  let o12 := (AABB3.intersectsLine (fltMax : R) v6 (⟨(Vec3.moved v9 v5 (-v3)), (Vec3.moved v10 v5 (-v3))⟩ : Line3 R))
  bad := ck bad 859 (decide (o12.isSome = false))
  return bad
end Aabb3_263
#guard passes Aabb3_263.run

namespace Aabb3_264
abbrev R := Float32
def run : Res (List Nat) := do
  let mut bad : List Nat := []
  let v1 : R := (1.0 : R)
  let v2 : R := (-(1.0 : R))
  let v3 : R := (v1 * (5.0 : R))
  let v4 : Coord := (next3D Coord.Y)
  let v5 : Coord := (next3D v4)
  let v6 : AABB3 R := (⟨(⟨(-v1), (-v1), (-v1)⟩ : Vec3 R), (⟨v1, v1, v1⟩ : Vec3 R)⟩ : AABB3 R)
  let v7 : R := (0.4 : R)
  let v8 : R := (0.6 : R)
  let v9 : Vec3 R := (Vec3.moved (Vec3.zero : Vec3 R) Coord.Y (if (decide (v2 > (0.0 : R))) then (-v3) else v3))
  let v10 : Vec3 R := (Vec3.moved (Vec3.zero : Vec3 R) Coord.Y (if (decide (v2 > (0.0 : R))) then v3 else (-v3)))
  let o11 := (AABB3.intersectsLine (fltMax : R) v6 (⟨(Vec3.moved v9 v5 v3), (Vec3.moved v10 v5 v3)⟩ : Line3 R))
  bad := ck bad 858 (decide (o11.isSome = false))
  let o12 := (AABB3.intersectsLine (fltMax : R) v6 (⟨(Vec3.moved v9 v5 (-v3)), (Vec3.moved v10 v5 (-v3))⟩ : Line3 R))
  bad := ck bad 859 (decide (o12.isSome = false))
  return bad
end Aabb3_264
#guard passes Aabb3_264.run

namespace Aabb3_265
abbrev R := Float32
def run : Res (List Nat) := do
  let mut bad : List Nat := []
  let v1 : R := (0.001 : R)
  let v2 : R := (1.0 : R)
  let v3 : R := (v1 * (5.0 : R))
  let v4 : Coord := (next3D Coord.X)
  let v5 : Coord := (next3D v4)
  let v6 : AABB3 R := (⟨(⟨(-v1), (-v1), (-v1)⟩ : Vec3 R), (⟨v1, v1, v1⟩ : Vec3 R)⟩ : AABB3 R)
  let v7 : R := (0.4 : R)
  let v8 : R := (0.6 : R)
  let v9 : Vec3 R := (Vec3.moved (Vec3.zero : Vec3 R) Coord.X (if (decide (v2 > (0.0 : R))) then (-v3) else v3))
  let v10 : Vec3 R := (Vec3.moved (Vec3.zero : Vec3 R) Coord.X (if (decide (v2 > (0.0 : R))) then v3 else (-v3)))
  let o11 := (AABB3.intersectsLine (fltMax : R) v6 (⟨(Vec3.moved v9 v5 v3), (Vec3.moved v10 v5 v3)⟩ : Line3 R))
  bad := ck bad 858 (decide (o11.isSome = false))
  let o12 := (AABB3.intersectsLine (fltMax : R) v6 (⟨(Vec3.moved v9 v5 (-v3)), (Vec3.moved v10 v5 (-v3))⟩ : Line3 R))
  bad := ck bad 859 (decide (o12.isSome = false))
  return bad
end Aabb3_265
#guard passes Aabb3_265.run

namespace Aabb3_266
abbrev R := Float32
def run : Res (List Nat) := do
  let mut bad : List Nat := []
  let v1 : R := (0.001 : R)
  let v2 : R := (-(1.0 : R))
  let v3 : R := (v1 * (5.0 : R))
  let v4 : Coord := (next3D Coord.Y)
  let v5 : Coord := (next3D v4)
  let v6 : AABB3 R := (⟨(⟨(-v1), (-v1), (-v1)⟩ : Vec3 R), (⟨v1, v1, v1⟩ : Vec3 R)⟩ : AABB3 R)
  let v7 : R := (0.4 : R)
  let v8 : R := (0.6 : R)
  let v9 : Vec3 R := (Vec3.moved (Vec3.zero : Vec3 R) Coord.Y (if (decide (v2 > (0.0 : R))) then (-v3) else v3))
  let v10 : Vec3 R := (Vec3.moved (Vec3.zero : Vec3 R) Coord.Y (if (decide (v2 > (0.0 : R))) then v3 else (-v3)))
  let o11 := (AABB3.intersectsLine (fltMax : R) v6 (⟨(Vec3.moved v9 v5 v3), (Vec3.moved v10 v5 v3)⟩ : Line3 R))
  bad := ck bad 858 (decide (o11.isSome = false))
  let o12 := (AABB3.intersectsLine (fltMax : R) v6 (⟨(Vec3.moved v9 v5 (-v3)), (Vec3.moved v10 v5 (-v3))⟩ : Line3 R))
  bad := ck bad 859 (decide (o12.isSome = false))
  return bad
end Aabb3_266
#guard passes Aabb3_266.run

namespace Aabb3_267
abbrev R := Float32
def run : Res (List Nat) := do
  let mut bad : List Nat := []
  let v1 : R := (1000.0 : R)
  let v2 : R := (1.0 : R)
  let v3 : R := (v1 * (5.0 : R))
  let v4 : Coord := (next3D Coord.X)
  let v5 : Coord := (next3D v4)
  let v6 : AABB3 R := (⟨(⟨(-v1), (-v1), (-v1)⟩ : Vec3 R), (⟨v1, v1, v1⟩ : Vec3 R)⟩ : AABB3 R)
  let v7 : R := (0.4 : R)
  let v8 : R := (0.6 : R)
  let v9 : Vec3 R := (Vec3.moved (Vec3.zero : Vec3 R) Coord.X (if (decide (v2 > (0.0 : R))) then (-v3) else v3))
  let v10 : Vec3 R := (Vec3.moved (Vec3.zero : Vec3 R) Coord.X (if (decide (v2 > (0.0 : R))) then v3 else (-v3)))
  let o11 := (AABB3.intersectsLine (fltMax : R) v6 (⟨(Vec3.moved v9 v5 v3), (Vec3.moved v10 v5 v3)⟩ : Line3 R))
  bad := ck bad 858 (decide (o11.isSome = false))
  let o12 := (AABB3.intersectsLine (fltMax : R) v6 (⟨(Vec3.moved v9 v5 (-v3)), (Vec3.moved v10 v5 (-v3))⟩ : Line3 R))
  bad := ck bad 859 (decide (o12.isSome = false))
  return bad
end Aabb3_267
#guard passes Aabb3_267.run

namespace Aabb3_268
abbrev R := Float32
def run : Res (List Nat) := do
  let mut bad : List Nat := []
  let v1 : R := (1000.0 : R)
  let v2 : R := (-(1.0 : R))
  let v3 : R := (v1 * (5.0 : R))
  let v4 : Coord := (next3D Coord.Y)
  let v5 : Coord := (next3D v4)
  let v6 : AABB3 R := (⟨(⟨(-v1), (-v1), (-v1)⟩ : Vec3 R), (⟨v1, v1, v1⟩ : Vec3 R)⟩ : AABB3 R)
  let v7 : R := (0.4 : R)
  let v8 : R := (0.6 : R)
  let v9 : Vec3 R := (Vec3.moved (Vec3.zero : Vec3 R) Coord.Y (if (decide (v2 > (0.0 : R))) then (-v3) else v3))
  let v10 : Vec3 R := (Vec3.moved (Vec3.zero : Vec3 R) Coord.Y (if (decide (v2 > (0.0 : R))) then v3 else (-v3)))
  let o11 := (AABB3.intersectsLine (fltMax : R) v6 (⟨(Vec3.moved v9 v5 v3), (Vec3.moved v10 v5 v3)⟩ : Line3 R))
  bad := ck bad 858 (decide (o11.isSome = false))
  let o12 := (AABB3.intersectsLine (fltMax : R) v6 (⟨(Vec3.moved v9 v5 (-v3)), (Vec3.moved v10 v5 (-v3))⟩ : Line3 R))
  bad := ck bad 859 (decide (o12.isSome = false))
  return bad
end Aabb3_268
#guard passes Aabb3_268.run

namespace Aabb3_269
abbrev R := Float32
def run : Res (List Nat) := do
  let mut bad : List Nat := []
  let v1 : R := (1.0 : R)
  let v2 : R := (1.0 : R)
  let v3 : R := (v1 * (5.0 : R))
  let v4 : Coord := (next3D Coord.X)
  let v5 : Coord := (next3D v4)
  let v6 : AABB3 R := (⟨(⟨(-v1), (-v1), (-v1)⟩ : Vec3 R), (⟨v1, v1, v1⟩ : Vec3 R)⟩ : AABB3 R)
  let v7 : R := (0.0 : R)
  let v8 : R := (0.2 : R)
  let v9 : Vec3 R := (Vec3.zero : Vec3 R)
  let v10 : Vec3 R := (Vec3.moved (Vec3.zero : Vec3 R) Coord.X (if (decide (v2 > (0.0 : R))) then v3 else (-v3)))
  let o11 := (AABB3.intersectsLine (fltMax : R) v6 (⟨v9, v10⟩ : Line3 R))
  bad := ck bad 872 (decide (o11.isSome = true))
  bad := ck bad 873 (nearRel (0.0001 : R) (o11.getD (0, 0)).1 v7)
  bad := ck bad 874 (nearRel (0.0001 : R) (o11.getD (0, 0)).2 v8)
  return bad
end Aabb3_269
#guard passes Aabb3_269.run

namespace Aabb3_270
abbrev R := Float32
def run : Res (List Nat) := do
  let mut bad : List Nat := []
  let v1 : R := (1.0 : R)
  let v2 : R := (-(1.0 : R))
  let v3 : R := (v1 * (5.0 : R))
  let v4 : Coord := (next3D Coord.Y)
  let v5 : Coord := (next3D v4)
  let v6 : AABB3 R := (⟨(⟨(-v1), (-v1), (-v1)⟩ : Vec3 R), (⟨v1, v1, v1⟩ : Vec3 R)⟩ : AABB3 R)
  let v7 : R := (0.0 : R)
  let v8 : R := (0.2 : R)
  let v9 : Vec3 R := (Vec3.zero : Vec3 R)
  let v10 : Vec3 R := (Vec3.moved (Vec3.zero : Vec3 R) Coord.Y (if (decide (v2 > (0.0 : R))) then v3 else (-v3)))
  let o11 := (AABB3.intersectsLine (fltMax : R) v6 (⟨v9, v10⟩ : Line3 R))
  bad := ck bad 872 (decide (o11.isSome = true))
  bad := ck bad 873 (nearRel (0.0001 : R) (o11.getD (0, 0)).1 v7)
  bad := ck bad 874 (nearRel (0.0001 : R) (o11.getD (0, 0)).2 v8)
  return bad
end Aabb3_270
#guard passes Aabb3_270.run

namespace Aabb3_271
abbrev R := Float32
def run : Res (List Nat) := do
  let mut bad : List Nat := []
  let v1 : R := (0.001 : R)
  let v2 : R := (1.0 : R)
  let v3 : R := (v1 * (5.0 : R))
  let v4 : Coord := (next3D Coord.X)
  let v5 : Coord := (next3D v4)
  let v6 : AABB3 R := (⟨(⟨(-v1), (-v1), (-v1)⟩ : Vec3 R), (⟨v1, v1, v1⟩ : Vec3 R)⟩ : AABB3 R)
  let v7 : R := (0.0 : R)
  let v8 : R := (0.2 : R)
  let v9 : Vec3 R := (Vec3.zero : Vec3 R)
  let v10 : Vec3 R := (Vec3.moved (Vec3.zero : Vec3 R) Coord.X (if (decide (v2 > (0.0 : R))) then v3 else (-v3)))
  let o11 := (AABB3.intersectsLine (fltMax : R) v6 (⟨v9, v10⟩ : Line3 R))
  bad := ck bad 872 (decide (o11.isSome = true))
  bad := ck bad 873 (nearRel (0.0001 : R) (o11.getD (0, 0)).1 v7)
  bad := ck bad 874 (nearRel (0.0001 : R) (o11.getD (0, 0)).2 v8)
  return bad
end Aabb3_271
#guard passes Aabb3_271.run

namespace Aabb3_272
abbrev R := Float32
def run : Res (List Nat) := do
  let mut bad : List Nat := []
  let v1 : R := (0.001 : R)
  let v2 : R := (-(1.0 : R))
  let v3 : R := (v1 * (5.0 : R))
  let v4 : Coord := (next3D Coord.Y)
  let v5 : Coord := (next3D v4)
  let v6 : AABB3 R := (⟨(⟨(-v1), (-v1), (-v1)⟩ : Vec3 R), (⟨v1, v1, v1⟩ : Vec3 R)⟩ : AABB3 R)
  let v7 : R := (0.0 : R)
  let v8 : R := (0.2 : R)
  let v9 : Vec3 R := (Vec3.zero : Vec3 R)
  let v10 : Vec3 R := (Vec3.moved (Vec3.zero : Vec3 R) Coord.Y (if (decide (v2 > (0.0 : R))) then v3 else (-v3)))
  let o11 := (AABB3.intersectsLine (fltMax : R) v6 (⟨v9, v10⟩ : Line3 R))
  bad := ck bad 872 (decide (o11.isSome = true))
  bad := ck bad 873 (nearRel (0.0001 : R) (o11.getD (0, 0)).1 v7)
  bad := ck bad 874 (nearRel (0.0001 : R) (o11.getD (0, 0)).2 v8)
  return bad
end Aabb3_272
#guard passes Aabb3_272.run

namespace Aabb3_273
abbrev R := Float32
def run : Res (List Nat) := do
  let mut bad : List Nat := []
  let v1 : R := (1000.0 : R)
  let v2 : R := (1.0 : R)
  let v3 : R := (v1 * (5.0 : R))
  let v4 : Coord := (next3D Coord.X)
  let v5 : Coord := (next3D v4)
  let v6 : AABB3 R := (⟨(⟨(-v1), (-v1), (-v1)⟩ : Vec3 R), (⟨v1, v1, v1⟩ : Vec3 R)⟩ : AABB3 R)
  let v7 : R := (0.0 : R)
  let v8 : R := (0.2 : R)
  let v9 : Vec3 R := (Vec3.zero : Vec3 R)
  let v10 : Vec3 R := (Vec3.moved (Vec3.zero : Vec3 R) Coord.X (if (decide (v2 > (0.0 : R))) then v3 else (-v3)))
  let o11 := (AABB3.intersectsLine (fltMax : R) v6 (⟨v9, v10⟩ : Line3 R))
  bad := ck bad 872 (decide (o11.isSome = true))
  bad := ck bad 873 (nearRel (0.0001 : R) (o11.getD (0, 0)).1 v7)
  bad := ck bad 874 (nearRel (0.0001 : R) (o11.getD (0, 0)).2 v8)
  return bad
end Aabb3_273
#guard passes Aabb3_273.run

namespace Aabb3_274
abbrev R := Float32
def run : Res (List Nat) := do
  let mut bad : List Nat := []
  let v1 : R := (1000.0 : R)
  let v2 : R := (-(1.0 : R))
  let v3 : R := (v1 * (5.0 : R))
  let v4 : Coord := (next3D Coord.Y)
  let v5 : Coord := (next3D v4)
  let v6 : AABB3 R := (⟨(⟨(-v1), (-v1), (-v1)⟩ : Vec3 R), (⟨v1, v1, v1⟩ : Vec3 R)⟩ : AABB3 R)
  let v7 : R := (0.0 : R)
  let v8 : R := (0.2 : R)
  let v9 : Vec3 R := (Vec3.zero : Vec3 R)
  let v10 : Vec3 R := (Vec3.moved (Vec3.zero : Vec3 R) Coord.Y (if (decide (v2 > (0.0 : R))) then v3 else (-v3)))
  let o11 := (AABB3.intersectsLine (fltMax : R) v6 (⟨v9, v10⟩ : Line3 R))
  bad := ck bad 872 (decide (o11.isSome = true))
  bad := ck bad 873 (nearRel (0.0001 : R) (o11.getD (0, 0)).1 v7)
  bad := ck bad 874 (nearRel (0.0001 : R) (o11.getD (0, 0)).2 v8)
  return bad
end Aabb3_274
#guard passes Aabb3_274.run

namespace Aabb3_275
abbrev R := Float32
def run : Res (List Nat) := do
  let mut bad : List Nat := []
  let v1 : R := (1.0 : R)
  let v2 : R := (1.0 : R)
  let v3 : R := (v1 * (5.0 : R))
  let v4 : Coord := (next3D Coord.X)
  let v5 : Coord := (next3D v4)
  let v6 : AABB3 R := (⟨(⟨(-v1), (-v1), (-v1)⟩ : Vec3 R), (⟨v1, v1, v1⟩ : Vec3 R)⟩ : AABB3 R)
  let v7 : R := (0.0 : R)
  let v8 : R := (0.2 : R)
  let v9 : Vec3 R := (Vec3.zero : Vec3 R)
  let v10 : Vec3 R := (Vec3.moved (Vec3.zero : Vec3 R) Coord.X (if (decide (v2 > (0.0 : R))) then v3 else (-v3)))
  let o11 := (AABB3.intersectsLine (fltMax : R) v6 (⟨(Vec3.moved v9 v4 v3), (Vec3.moved v10 v4 v3)⟩ : Line3 R))
  bad := ck bad 878 (decide (o11.isSome = false))
  let o12 := (AABB3.intersectsLine (fltMax : R) v6 (⟨(Vec3.moved v9 v4 (-v3)), (Vec3.moved v10 v4 (-v3))⟩ : Line3 R))
  bad := ck bad 879 (decide (o12.isSome = false))
  return bad
end Aabb3_275
#guard passes Aabb3_275.run

namespace Aabb3_276
abbrev R := Float32
def run : Res (List Nat) := do
  let mut bad : List Nat := []
  let v1 : R := (1.0 : R)
  let v2 : R := (-(1.0 : R))
  let v3 : R := (v1 * (5.0 : R))
  let v4 : Coord := (next3D Coord.Y)
  let v5 : Coord := (next3D v4)
  let v6 : AABB3 R := (⟨(⟨(-v1), (-v1), (-v1)⟩ : Vec3 R), (⟨v1, v1, v1⟩ : Vec3 R)⟩ : AABB3 R)
  let v7 : R := (0.0 : R)
  let v8 : R := (0.2 : R)
  let v9 : Vec3 R := (Vec3.zero : Vec3 R)
  let v10 : Vec3 R := (Vec3.moved (Vec3.zero : Vec3 R) Coord.Y (if (decide (v2 > (0.0 : R))) then v3 else (-v3)))
  let o11 := (AABB3.intersectsLine (fltMax : R) v6 (⟨(Vec3.moved v9 v4 v3), (Vec3.moved v10 v4 v3)⟩ : Line3 R))
  bad := ck bad 878 (decide (o11.isSome = false))
  let o12 := (AABB3.intersectsLine (fltMax : R) v6 (⟨(Vec3.moved v9 v4 (-v3)), (Vec3.moved v10 v4 (-v3))⟩ : Line3 R))
  bad := ck bad 879 (decide (o12.isSome = false))
  return bad
end Aabb3_276
#guard passes Aabb3_276.run

namespace Aabb3_277
abbrev R := Float32
def run : Res (List Nat) := do
  let mut bad : List Nat := []
  let v1 : R := (0.001 : R)
  let v2 : R := (1.0 : R)
  let v3 : R := (v1 * (5.0 : R))
  let v4 : Coord := (next3D Coord.X)
  let v5 : Coord := (next3D v4)
  let v6 : AABB3 R := (⟨(⟨(-v1), (-v1), (-v1)⟩ : Vec3 R), (⟨v1, v1, v1⟩ : Vec3 R)⟩ : AABB3 R)
  let v7 : R := (0.0 : R)
  let v8 : R := (0.2 : R)
  let v9 : Vec3 R := (Vec3.zero : Vec3 R)
  let v10 : Vec3 R := (Vec3.moved (Vec3.zero : Vec3 R) Coord.X (if (decide (v2 > (0.0 : R))) then v3 else (-v3)))
  let o11 := (AABB3.intersectsLine (fltMax : R) v6 (⟨(Vec3.moved v9 v4 v3), (Vec3.moved v10 v4 v3)⟩ : Line3 R))
  bad := ck bad 878 (decide (o11.isSome = false))
  let o12 := (AABB3.intersectsLine (fltMax : R) v6 (⟨(Vec3.moved v9 v4 (-v3)), (Vec3.moved v10 v4 (-v3))⟩ : Line3 R))
  bad := ck bad 879 (decide (o12.isSome = false))
  return bad
end Aabb3_277
#guard passes Aabb3_277.run

namespace Aabb3_278
abbrev R := Float32
def run : Res (List Nat) := do
  let mut bad : List Nat := []
  let v1 : R := (0.001 : R)
  let v2 : R := (-(1.0 : R))
  let v3 : R := (v1 * (5.0 : R))
  let v4 : Coord := (next3D Coord.Y)
  let v5 : Coord := (next3D v4)
  let v6 : AABB3 R := (⟨(⟨(-v1), (-v1), (-v1)⟩ : Vec3 R), (⟨v1, v1, v1⟩ : Vec3 R)⟩ : AABB3 R)
  let v7 : R := (0.0 : R)
  let v8 : R := (0.2 : R)
  let v9 : Vec3 R := (Vec3.zero : Vec3 R)
  let v10 : Vec3 R := (Vec3.moved (Vec3.zero : Vec3 R) Coord.Y (if (decide (v2 > (0.0 : R))) then v3 else (-v3)))
  let o11 := (AABB3.intersectsLine (fltMax : R) v6 (⟨(Vec3.moved v9 v4 v3), (Vec3.moved v10 v4 v3)⟩ : Line3 R))
  bad := ck bad 878 (decide (o11.isSome = false))
  let o12 := (AABB3.intersectsLine (fltMax : R) v6 (⟨(Vec3.moved v9 v4 (-v3)), (Vec3.moved v10 v4 (-v3))⟩ : Line3 R))
  bad := ck bad 879 (decide (o12.isSome = false))
  return bad
end Aabb3_278
#guard passes Aabb3_278.run

namespace Aabb3_279
abbrev R := Float32
def run : Res (List Nat) := do
  let mut bad : List Nat := []
  let v1 : R := (1000.0 : R)
  let v2 : R := (1.0 : R)
  let v3 : R := (v1 * (5.0 : R))
  let v4 : Coord := (next3D Coord.X)
  let v5 : Coord := (next3D v4)
  let v6 : AABB3 R := (⟨(⟨(-v1), (-v1), (-v1)⟩ : Vec3 R), (⟨v1, v1, v1⟩ : Vec3 R)⟩ : AABB3 R)
  let v7 : R := (0.0 : R)
  let v8 : R := (0.2 : R)
  let v9 : Vec3 R := (Vec3.zero : Vec3 R)
  let v10 : Vec3 R := (Vec3.moved (Vec3.zero : Vec3 R) Coord.X (if (decide (v2 > (0.0 : R))) then v3 else (-v3)))
  let o11 := (AABB3.intersectsLine (fltMax : R) v6 (⟨(Vec3.moved v9 v4 v3), (Vec3.moved v10 v4 v3)⟩ : Line3 R))
  bad := ck bad 878 (decide (o11.isSome = false))
  let o12 := (AABB3.intersectsLine (fltMax : R) v6 (⟨(Vec3.moved v9 v4 (-v3)), (Vec3.moved v10 v4 (-v3))⟩ : Line3 R))
  bad := ck bad 879 (decide (o12.isSome = false))
  return bad
end Aabb3_279
#guard passes Aabb3_279.run

namespace Aabb3_280
abbrev R := Float32
def run : Res (List Nat) := do
  let mut bad : List Nat := []
  let v1 : R := (1000.0 : R)
  let v2 : R := (-(1.0 : R))
  let v3 : R := (v1 * (5.0 : R))
  let v4 : Coord := (next3D Coord.Y)
  let v5 : Coord := (next3D v4)
  let v6 : AABB3 R := (⟨(⟨(-v1), (-v1), (-v1)⟩ : Vec3 R), (⟨v1, v1, v1⟩ : Vec3 R)⟩ : AABB3 R)
  let v7 : R := (0.0 : R)
  let v8 : R := (0.2 : R)
  let v9 : Vec3 R := (Vec3.zero : Vec3 R)
  let v10 : Vec3 R := (Vec3.moved (Vec3.zero : Vec3 R) Coord.Y (if (decide (v2 > (0.0 : R))) then v3 else (-v3)))
  let o11 := (AABB3.intersectsLine (fltMax : R) v6 (⟨(Vec3.moved v9 v4 v3), (Vec3.moved v10 v4 v3)⟩ : Line3 R))
  bad := ck bad 878 (decide (o11.isSome = false))
  let o12 := (AABB3.intersectsLine (fltMax : R) v6 (⟨(Vec3.moved v9 v4 (-v3)), (Vec3.moved v10 v4 (-v3))⟩ : Line3 R))
  bad := ck bad 879 (decide (o12.isSome = false))
  return bad
end Aabb3_280
#guard passes Aabb3_280.run

namespace Aabb3_281
abbrev R := Float32
def run : Res (List Nat) := do
  let mut bad : List Nat := []
  let v1 : R := (1.0 : R)
  let v2 : R := (1.0 : R)
  let v3 : R := (v1 * (5.0 : R))
  let v4 : Coord := (next3D Coord.X)
  let v5 : Coord := (next3D v4)
  let v6 : AABB3 R := (⟨(⟨(-v1), (-v1), (-v1)⟩ : Vec3 R), (⟨v1, v1, v1⟩ : Vec3 R)⟩ : AABB3 R)
  let v7 : R := (0.0 : R)
  let v8 : R := (0.2 : R)
  let v9 : Vec3 R := (Vec3.zero : Vec3 R)
  let v10 : Vec3 R := (Vec3.moved (Vec3.zero : Vec3 R) Coord.X (if (decide (v2 > (0.0 : R))) then v3 else (-v3)))
  let o11 := (AABB3.intersectsLine (fltMax : R) v6 (⟨(Vec3.moved v9 v5 v3), (Vec3.moved v10 v5 v3)⟩ : Line3 R))
  bad := ck bad 883 (decide (o11.isSome = false))
  let o12 := (AABB3.intersectsLine (fltMax : R) v6 (⟨(Vec3.moved v9 v5 (-v3)), (Vec3.moved v10 v5 (-v3))⟩ : Line3 R))
  bad := ck bad 884 (decide (o12.isSome = false))
  return bad
end Aabb3_281
#guard passes Aabb3_281.run

namespace Aabb3_282
abbrev R := Float32
def run : Res (List Nat) := do
  let mut bad : List Nat := []
  let v1 : R := (1.0 : R)
  let v2 : R := (-(1.0 : R))
  let v3 : R := (v1 * (5.0 : R))
  let v4 : Coord := (next3D Coord.Y)
  let v5 : Coord := (next3D v4)
  let v6 : AABB3 R := (⟨(⟨(-v1), (-v1), (-v1)⟩ : Vec3 R), (⟨v1, v1, v1⟩ : Vec3 R)⟩ : AABB3 R)
  let v7 : R := (0.0 : R)
  let v8 : R := (0.2 : R)
  let v9 : Vec3 R := (Vec3.zero : Vec3 R)
  let v10 : Vec3 R := (Vec3.moved (Vec3.zero : Vec3 R) Coord.Y (if (decide (v2 > (0.0 : R))) then v3 else (-v3)))
  let o11 := (AABB3.intersectsLine (fltMax : R) v6 (⟨(Vec3.moved v9 v5 v3), (Vec3.moved v10 v5 v3)⟩ : Line3 R))
  bad := ck bad 883 (decide (o11.isSome = false))
  let o12 := (AABB3.intersectsLine (fltMax : R) v6 (⟨(Vec3.moved v9 v5 (-v3)), (Vec3.moved v10 v5 (-v3))⟩ : Line3 R))
  bad := ck bad 884 (decide (o12.isSome = false))
  return bad
end Aabb3_282
#guard passes Aabb3_282.run

namespace Aabb3_283
abbrev R := Float32
def run : Res (List Nat) := do
  let mut bad : List Nat := []
  let v1 : R := (0.001 : R)
  let v2 : R := (1.0 : R)
  let v3 : R := (v1 * (5.0 : R))
  let v4 : Coord := (next3D Coord.X)
  let v5 : Coord := (next3D v4)
  let v6 : AABB3 R := (⟨(⟨(-v1), (-v1), (-v1)⟩ : Vec3 R), (⟨v1, v1, v1⟩ : Vec3 R)⟩ : AABB3 R)
  let v7 : R := (0.0 : R)
  let v8 : R := (0.2 : R)
  let v9 : Vec3 R := (Vec3.zero : Vec3 R)
  let v10 : Vec3 R := (Vec3.moved (Vec3.zero : Vec3 R) Coord.X (if (decide (v2 > (0.0 : R))) then v3 else (-v3)))
  let o11 := (AABB3.intersectsLine (fltMax : R) v6 (⟨(Vec3.moved v9 v5 v3), (Vec3.moved v10 v5 v3)⟩ : Line3 R))
  bad := ck bad 883 (decide (o11.isSome = false))
  let o12 := (AABB3.intersectsLine (fltMax : R) v6 (⟨(Vec3.moved v9 v5 (-v3)), (Vec3.moved v10 v5 (-v3))⟩ : Line3 R))
  bad := ck bad 884 (decide (o12.isSome = false))
  return bad
end Aabb3_283
#guard passes Aabb3_283.run

namespace Aabb3_284
abbrev R := Float32
def run : Res (List Nat) := do
  let mut bad : List Nat := []
  let v1 : R := (0.001 : R)
  let v2 : R := (-(1.0 : R))
  let v3 : R := (v1 * (5.0 : R))
  let v4 : Coord := (next3D Coord.Y)
  let v5 : Coord := (next3D v4)
  let v6 : AABB3 R := (⟨(⟨(-v1), (-v1), (-v1)⟩ : Vec3 R), (⟨v1, v1, v1⟩ : Vec3 R)⟩ : AABB3 R)
  let v7 : R := (0.0 : R)
  let v8 : R := (0.2 : R)
  let v9 : Vec3 R := (Vec3.zero : Vec3 R)
  let v10 : Vec3 R := (Vec3.moved (Vec3.zero : Vec3 R) Coord.Y (if (decide (v2 > (0.0 : R))) then v3 else (-v3)))
  let o11 := (AABB3.intersectsLine (fltMax : R) v6 (⟨(Vec3.moved v9 v5 v3), (Vec3.moved v10 v5 v3)⟩ : Line3 R))
  bad := ck bad 883 (decide (o11.isSome = false))
  let o12 := (AABB3.intersectsLine (fltMax : R) v6 (⟨(Vec3.moved v9 v5 (-v3)), (Vec3.moved v10 v5 (-v3))⟩ : Line3 R))
  bad := ck bad 884 (decide (o12.isSome = false))
  return bad
end Aabb3_284
#guard passes Aabb3_284.run

namespace Aabb3_285
abbrev R := Float32
def run : Res (List Nat) := do
  let mut bad : List Nat := []
  let v1 : R := (1000.0 : R)
  let v2 : R := (1.0 : R)
  let v3 : R := (v1 * (5.0 : R))
  let v4 : Coord := (next3D Coord.X)
  let v5 : Coord := (next3D v4)
  let v6 : AABB3 R := (⟨(⟨(-v1), (-v1), (-v1)⟩ : Vec3 R), (⟨v1, v1, v1⟩ : Vec3 R)⟩ : AABB3 R)
  let v7 : R := (0.0 : R)
  let v8 : R := (0.2 : R)
  let v9 : Vec3 R := (Vec3.zero : Vec3 R)
  let v10 : Vec3 R := (Vec3.moved (Vec3.zero : Vec3 R) Coord.X (if (decide (v2 > (0.0 : R))) then v3 else (-v3)))
  let o11 := (AABB3.intersectsLine (fltMax : R) v6 (⟨(Vec3.moved v9 v5 v3), (Vec3.moved v10 v5 v3)⟩ : Line3 R))
  bad := ck bad 883 (decide (o11.isSome = false))
  let o12 := (AABB3.intersectsLine (fltMax : R) v6 (⟨(Vec3.moved v9 v5 (-v3)), (Vec3.moved v10 v5 (-v3))⟩ : Line3 R))
  bad := ck bad 884 (decide (o12.isSome = false))
  return bad
end Aabb3_285
#guard passes Aabb3_285.run

namespace Aabb3_286
abbrev R := Float32
def run : Res (List Nat) := do
  let mut bad : List Nat := []
  let v1 : R := (1000.0 : R)
  let v2 : R := (-(1.0 : R))
  let v3 : R := (v1 * (5.0 : R))
  let v4 : Coord := (next3D Coord.Y)
  let v5 : Coord := (next3D v4)
  let v6 : AABB3 R := (⟨(⟨(-v1), (-v1), (-v1)⟩ : Vec3 R), (⟨v1, v1, v1⟩ : Vec3 R)⟩ : AABB3 R)
  let v7 : R := (0.0 : R)
  let v8 : R := (0.2 : R)
  let v9 : Vec3 R := (Vec3.zero : Vec3 R)
  let v10 : Vec3 R := (Vec3.moved (Vec3.zero : Vec3 R) Coord.Y (if (decide (v2 > (0.0 : R))) then v3 else (-v3)))
  let o11 := (AABB3.intersectsLine (fltMax : R) v6 (⟨(Vec3.moved v9 v5 v3), (Vec3.moved v10 v5 v3)⟩ : Line3 R))
  bad := ck bad 883 (decide (o11.isSome = false))
  let o12 := (AABB3.intersectsLine (fltMax : R) v6 (⟨(Vec3.moved v9 v5 (-v3)), (Vec3.moved v10 v5 (-v3))⟩ : Line3 R))
  bad := ck bad 884 (decide (o12.isSome = false))
  return bad
end Aabb3_286
#guard passes Aabb3_286.run

namespace Aabb3_287
abbrev R := Float32
def run : Res (List Nat) := do
  let mut bad : List Nat := []
  let v1 : R := (1.0 : R)
  let v2 : R := (1.0 : R)
  let v3 : R := (v1 * (5.0 : R))
  let v4 : Coord := (next3D Coord.X)
  let v5 : Coord := (next3D v4)
  let v6 : AABB3 R := (⟨(⟨(-v1), (-v1), (-v1)⟩ : Vec3 R), (⟨v1, v1, v1⟩ : Vec3 R)⟩ : AABB3 R)
  let v7 : R := (0.8 : R)
  let v8 : R := (1.0 : R)
  let v9 : Vec3 R := (Vec3.moved (Vec3.zero : Vec3 R) Coord.X (if (decide (v2 > (0.0 : R))) then (-v3) else v3))
  let v10 : Vec3 R := (Vec3.zero : Vec3 R)
  let o11 := (AABB3.intersectsLine (fltMax : R) v6 (⟨v9, v10⟩ : Line3 R))
  bad := ck bad 897 (decide (o11.isSome = true))
  bad := ck bad 898 (nearRel (0.0001 : R) (o11.getD (0, 0)).1 v7)
  bad := ck bad 899 (nearRel (0.0001 : R) (o11.getD (0, 0)).2 v8)
  return bad
end Aabb3_287
#guard passes Aabb3_287.run

namespace Aabb3_288
abbrev R := Float32
def run : Res (List Nat) := do
  let mut bad : List Nat := []
  let v1 : R := (1.0 : R)
  let v2 : R := (-(1.0 : R))
  let v3 : R := (v1 * (5.0 : R))
  let v4 : Coord := (next3D Coord.Y)
  let v5 : Coord := (next3D v4)
  let v6 : AABB3 R := (⟨(⟨(-v1), (-v1), (-v1)⟩ : Vec3 R), (⟨v1, v1, v1⟩ : Vec3 R)⟩ : AABB3 R)
  let v7 : R := (0.8 : R)
  let v8 : R := (1.0 : R)
  let v9 : Vec3 R := (Vec3.moved (Vec3.zero : Vec3 R) Coord.Y (if (decide (v2 > (0.0 : R))) then (-v3) else v3))
  let v10 : Vec3 R := (Vec3.zero : Vec3 R)
  let o11 := (AABB3.intersectsLine (fltMax : R) v6 (⟨v9, v10⟩ : Line3 R))
  bad := ck bad 897 (decide (o11.isSome = true))
  bad := ck bad 898 (nearRel (0.0001 : R) (o11.getD (0, 0)).1 v7)
  bad := ck bad 899 (nearRel (0.0001 : R) (o11.getD (0, 0)).2 v8)
  return bad
end Aabb3_288
#guard passes Aabb3_288.run

namespace Aabb3_289
abbrev R := Float32
def run : Res (List Nat) := do
  let mut bad : List Nat := []
  let v1 : R := (0.001 : R)
  let v2 : R := (1.0 : R)
  let v3 : R := (v1 * (5.0 : R))
  let v4 : Coord := (next3D Coord.X)
  let v5 : Coord := (next3D v4)
  let v6 : AABB3 R := (⟨(⟨(-v1), (-v1), (-v1)⟩ : Vec3 R), (⟨v1, v1, v1⟩ : Vec3 R)⟩ : AABB3 R)
  let v7 : R := (0.8 : R)
  let v8 : R := (1.0 : R)
  let v9 : Vec3 R := (Vec3.moved (Vec3.zero : Vec3 R) Coord.X (if (decide (v2 > (0.0 : R))) then (-v3) else v3))
  let v10 : Vec3 R := (Vec3.zero : Vec3 R)
  let o11 := (AABB3.intersectsLine (fltMax : R) v6 (⟨v9, v10⟩ : Line3 R))
  bad := ck bad 897 (decide (o11.isSome = true))
  bad := ck bad 898 (nearRel (0.0001 : R) (o11.getD (0, 0)).1 v7)
  bad := ck bad 899 (nearRel (0.0001 : R) (o11.getD (0, 0)).2 v8)
  return bad
end Aabb3_289
#guard passes Aabb3_289.run

namespace Aabb3_290
abbrev R := Float32
def run : Res (List Nat) := do
  let mut bad : List Nat := []
  let v1 : R := (0.001 : R)
  let v2 : R := (-(1.0 : R))
  let v3 : R := (v1 * (5.0 : R))
  let v4 : Coord := (next3D Coord.Y)
  let v5 : Coord := (next3D v4)
  let v6 : AABB3 R := (⟨(⟨(-v1), (-v1), (-v1)⟩ : Vec3 R), (⟨v1, v1, v1⟩ : Vec3 R)⟩ : AABB3 R)
  let v7 : R := (0.8 : R)
  let v8 : R := (1.0 : R)
  let v9 : Vec3 R := (Vec3.moved (Vec3.zero : Vec3 R) Coord.Y (if (decide (v2 > (0.0 : R))) then (-v3) else v3))
  let v10 : Vec3 R := (Vec3.zero : Vec3 R)
  let o11 := (AABB3.intersectsLine (fltMax : R) v6 (⟨v9, v10⟩ : Line3 R))
  bad := ck bad 897 (decide (o11.isSome = true))
  bad := ck bad 898 (nearRel (0.0001 : R) (o11.getD (0, 0)).1 v7)
  bad := ck bad 899 (nearRel (0.0001 : R) (o11.getD (0, 0)).2 v8)
  return bad
end Aabb3_290
#guard passes Aabb3_290.run

namespace Aabb3_291
abbrev R := Float32
def run : Res (List Nat) := do
  let mut bad : List Nat := []
  let v1 : R := (1000.0 : R)
  let v2 : R := (1.0 : R)
  let v3 : R := (v1 * (5.0 : R))
  let v4 : Coord := (next3D Coord.X)
  let v5 : Coord := (next3D v4)
  let v6 : AABB3 R := (⟨(⟨(-v1), (-v1), (-v1)⟩ : Vec3 R), (⟨v1, v1, v1⟩ : Vec3 R)⟩ : AABB3 R)
  let v7 : R := (0.8 : R)
  let v8 : R := (1.0 : R)
  let v9 : Vec3 R := (Vec3.moved (Vec3.zero : Vec3 R) Coord.X (if (decide (v2 > (0.0 : R))) then (-v3) else v3))
  let v10 : Vec3 R := (Vec3.zero : Vec3 R)
  let o11 := (AABB3.intersectsLine (fltMax : R) v6 (⟨v9, v10⟩ : Line3 R))
  bad := ck bad 897 (decide (o11.isSome = true))
  bad := ck bad 898 (nearRel (0.0001 : R) (o11.getD (0, 0)).1 v7)
  bad := ck bad 899 (nearRel (0.0001 : R) (o11.getD (0, 0)).2 v8)
  return bad
end Aabb3_291
#guard passes Aabb3_291.run

namespace Aabb3_292
abbrev R := Float32
def run : Res (List Nat) := do
  let mut bad : List Nat := []
  let v1 : R := (1000.0 : R)
  let v2 : R := (-(1.0 : R))
  let v3 : R := (v1 * (5.0 : R))
  let v4 : Coord := (next3D Coord.Y)
  let v5 : Coord := (next3D v4)
  let v6 : AABB3 R := (⟨(⟨(-v1), (-v1), (-v1)⟩ : Vec3 R), (⟨v1, v1, v1⟩ : Vec3 R)⟩ : AABB3 R)
  let v7 : R := (0.8 : R)
  let v8 : R := (1.0 : R)
  let v9 : Vec3 R := (Vec3.moved (Vec3.zero : Vec3 R) Coord.Y (if (decide (v2 > (0.0 : R))) then (-v3) else v3))
  let v10 : Vec3 R := (Vec3.zero : Vec3 R)
  let o11 := (AABB3.intersectsLine (fltMax : R) v6 (⟨v9, v10⟩ : Line3 R))
  bad := ck bad 897 (decide (o11.isSome = true))
  bad := ck bad 898 (nearRel (0.0001 : R) (o11.getD (0, 0)).1 v7)
  bad := ck bad 899 (nearRel (0.0001 : R) (o11.getD (0, 0)).2 v8)
  return bad
end Aabb3_292
#guard passes Aabb3_292.run

namespace Aabb3_293
abbrev R := Float32
def run : Res (List Nat) := do
  let mut bad : List Nat := []
  let v1 : R := (1.0 : R)
  let v2 : R := (1.0 : R)
  let v3 : R := (v1 * (5.0 : R))
  let v4 : Coord := (next3D Coord.X)
  let v5 : Coord := (next3D v4)
  let v6 : AABB3 R := (⟨(⟨(-v1), (-v1), (-v1)⟩ : Vec3 R), (⟨v1, v1, v1⟩ : Vec3 R)⟩ : AABB3 R)
  let v7 : R := (0.8 : R)
  let v8 : R := (1.0 : R)
  let v9 : Vec3 R := (Vec3.moved (Vec3.zero : Vec3 R) Coord.X (if (decide (v2 > (0.0 : R))) then (-v3) else v3))
  let v10 : Vec3 R := (Vec3.zero : Vec3 R)
  let o11 := (AABB3.intersectsLine (fltMax : R) v6 (⟨(Vec3.moved v9 v4 v3), (Vec3.moved v10 v4 v3)⟩ : Line3 R))
  bad := ck bad 903 (decide (o11.isSome = false))
  let o12 := (AABB3.intersectsLine (fltMax : R) v6 (⟨(Vec3.moved v9 v4 (-v3)), (Vec3.moved v10 v4 (-v3))⟩ : Line3 R))
  bad := ck bad 904 (decide (o12.isSome = false))
  return bad
end Aabb3_293
#guard passes Aabb3_293.run

namespace Aabb3_294
abbrev R := Float32
def run : Res (List Nat) := do
  let mut bad : List Nat := []
  let v1 : R := (1.0 : R)
  let v2 : R := (-(1.0 : R))
  let v3 : R := (v1 * (5.0 : R))
  let v4 : Coord := (next3D Coord.Y)
  let v5 : Coord := (next3D v4)
  let v6 : AABB3 R := (⟨(⟨(-v1), (-v1), (-v1)⟩ : Vec3 R), (⟨v1, v1, v1⟩ : Vec3 R)⟩ : AABB3 R)
  let v7 : R := (0.8 : R)
  let v8 : R := (1.0 : R)
  let v9 : Vec3 R := (Vec3.moved (Vec3.zero : Vec3 R) Coord.Y (if (decide (v2 > (0.0 : R))) then (-v3) else v3))
  let v10 : Vec3 R := (Vec3.zero : Vec3 R)
  let o11 := (AABB3.intersectsLine (fltMax : R) v6 (⟨(Vec3.moved v9 v4 v3), (Vec3.moved v10 v4 v3)⟩ : Line3 R))
  bad := ck bad 903 (decide (o11.isSome = false))
  let o12 := (AABB3.intersectsLine (fltMax : R) v6 (⟨(Vec3.moved v9 v4 (-v3)), (Vec3.moved v10 v4 (-v3))⟩ : Line3 R))
  bad := ck bad 904 (decide (o12.isSome = false))
  return bad
end Aabb3_294
#guard passes Aabb3_294.run

namespace Aabb3_295
abbrev R := Float32
def run : Res (List Nat) := do
  let mut bad : List Nat := []
  let v1 : R := (0.001 : R)
  let v2 : R := (1.0 : R)
  let v3 : R := (v1 * (5.0 : R))
  let v4 : Coord := (next3D Coord.X)
  let v5 : Coord := (next3D v4)
  let v6 : AABB3 R := (⟨(⟨(-v1), (-v1), (-v1)⟩ : Vec3 R), (⟨v1, v1, v1⟩ : Vec3 R)⟩ : AABB3 R)
  let v7 : R := (0.8 : R)
  let v8 : R := (1.0 : R)
  let v9 : Vec3 R := (Vec3.moved (Vec3.zero : Vec3 R) Coord.X (if (decide (v2 > (0.0 : R))) then (-v3) else v3))
  let v10 : Vec3 R := (Vec3.zero : Vec3 R)
  let o11 := (AABB3.intersectsLine (fltMax : R) v6 (⟨(Vec3.moved v9 v4 v3), (Vec3.moved v10 v4 v3)⟩ : Line3 R))
  bad := ck bad 903 (decide (o11.isSome = false))
  let o12 := (AABB3.intersectsLine (fltMax : R) v6 (⟨(Vec3.moved v9 v4 (-v3)), (Vec3.moved v10 v4 (-v3))⟩ : Line3 R))
  bad := ck bad 904 (decide (o12.isSome = false))
  return bad
end Aabb3_295
#guard passes Aabb3_295.run

namespace Aabb3_296
abbrev R := Float32
def run : Res (List Nat) := do
  let mut bad : List Nat := []
  let v1 : R := (0.001 : R)
  let v2 : R := (-(1.0 : R))
  let v3 : R := (v1 * (5.0 : R))
  let v4 : Coord := (next3D Coord.Y)
  let v5 : Coord := (next3D v4)
  let v6 : AABB3 R := (⟨(⟨(-v1), (-v1), (-v1)⟩ : Vec3 R), (⟨v1, v1, v1⟩ : Vec3 R)⟩ : AABB3 R)
  let v7 : R := (0.8 : R)
  let v8 : R := (1.0 : R)
  let v9 : Vec3 R := (Vec3.moved (Vec3.zero : Vec3 R) Coord.Y (if (decide (v2 > (0.0 : R))) then (-v3) else v3))
  let v10 : Vec3 R := (Vec3.zero : Vec3 R)
  let o11 := (AABB3.intersectsLine (fltMax : R) v6 (⟨(Vec3.moved v9 v4 v3), (Vec3.moved v10 v4 v3)⟩ : Line3 R))
  bad := ck bad 903 (decide (o11.isSome = false))
  let o12 := (AABB3.intersectsLine (fltMax : R) v6 (⟨(Vec3.moved v9 v4 (-v3)), (Vec3.moved v10 v4 (-v3))⟩ : Line3 R))
  bad := ck bad 904 (decide (o12.isSome = false))
  return bad
end Aabb3_296
#guard passes Aabb3_296.run

namespace Aabb3_297
abbrev R := Float32
def run : Res (List Nat) := do
  let mut bad : List Nat := []
  let v1 : R := (1000.0 : R)
  let v2 : R := (1.0 : R)
  let v3 : R := (v1 * (5.0 : R))
  let v4 : Coord := (next3D Coord.X)
  let v5 : Coord := (next3D v4)
  let v6 : AABB3 R := (⟨(⟨(-v1), (-v1), (-v1)⟩ : Vec3 R), (⟨v1, v1, v1⟩ : Vec3 R)⟩ : AABB3 R)
  let v7 : R := (0.8 : R)
  let v8 : R := (1.0 : R)
  let v9 : Vec3 R := (Vec3.moved (Vec3.zero : Vec3 R) Coord.X (if (decide (v2 > (0.0 : R))) then (-v3) else v3))
  let v10 : Vec3 R := (Vec3.zero : Vec3 R)
  let o11 := (AABB3.intersectsLine (fltMax : R) v6 (⟨(Vec3.moved v9 v4 v3), (Vec3.moved v10 v4 v3)⟩ : Line3 R))
  bad := ck bad 903 (decide (o11.isSome = false))
  let o12 := (AABB3.intersectsLine (fltMax : R) v6 (⟨(Vec3.moved v9 v4 (-v3)), (Vec3.moved v10 v4 (-v3))⟩ : Line3 R))
  bad := ck bad 904 (decide (o12.isSome = false))
  return bad
end Aabb3_297
#guard passes Aabb3_297.run

namespace Aabb3_298
abbrev R := Float32
def run : Res (List Nat) := do
  let mut bad : List Nat := []
  let v1 : R := (1000.0 : R)
  let v2 : R := (-(1.0 : R))
  let v3 : R := (v1 * (5.0 : R))
  let v4 : Coord := (next3D Coord.Y)
  let v5 : Coord := (next3D v4)
  let v6 : AABB3 R := (⟨(⟨(-v1), (-v1), (-v1)⟩ : Vec3 R), (⟨v1, v1, v1⟩ : Vec3 R)⟩ : AABB3 R)
  let v7 : R := (0.8 : R)
  let v8 : R := (1.0 : R)
  let v9 : Vec3 R := (Vec3.moved (Vec3.zero : Vec3 R) Coord.Y (if (decide (v2 > (0.0 : R))) then (-v3) else v3))
  let v10 : Vec3 R := (Vec3.zero : Vec3 R)
  let o11 := (AABB3.intersectsLine (fltMax : R) v6 (⟨(Vec3.moved v9 v4 v3), (Vec3.moved v10 v4 v3)⟩ : Line3 R))
  bad := ck bad 903 (decide (o11.isSome = false))
  let o12 := (AABB3.intersectsLine (fltMax : R) v6 (⟨(Vec3.moved v9 v4 (-v3)), (Vec3.moved v10 v4 (-v3))⟩ : Line3 R))
  bad := ck bad 904 (decide (o12.isSome = false))
  return bad
end Aabb3_298
#guard passes Aabb3_298.run

namespace Aabb3_299
abbrev R := Float32
def run : Res (List Nat) := do
  let mut bad : List Nat := []
  let v1 : R := (1.0 : R)
  let v2 : R := (1.0 : R)
  let v3 : R := (v1 * (5.0 : R))
  let v4 : Coord := (next3D Coord.X)
  let v5 : Coord := (next3D v4)
  let v6 : AABB3 R := (⟨(⟨(-v1), (-v1), (-v1)⟩ : Vec3 R), (⟨v1, v1, v1⟩ : Vec3 R)⟩ : AABB3 R)
  let v7 : R := (0.8 : R)
  let v8 : R := (1.0 : R)
  let v9 : Vec3 R := (Vec3.moved (Vec3.zero : Vec3 R) Coord.X (if (decide (v2 > (0.0 : R))) then (-v3) else v3))
  let v10 : Vec3 R := (Vec3.zero : Vec3 R)
  let o11 := (AABB3.intersectsLine (fltMax : R) v6 (⟨(Vec3.moved v9 v5 v3), (Vec3.moved v10 v5 v3)⟩ : Line3 R))
  bad := ck bad 908 (decide (o11.isSome = false))
  let o12 := (AABB3.intersectsLine (fltMax : R) v6 (⟨(Vec3.moved v9 v5 (-v3)), (Vec3.moved v10 v5 (-v3))⟩ : Line3 R))
  bad := ck bad 909 (decide (o12.isSome = false))
  return bad
end Aabb3_299
#guard passes Aabb3_299.run

namespace Aabb3_300
abbrev R := Float32
def run : Res (List Nat) := do
  let mut bad : List Nat := []
  let v1 : R := (1.0 : R)
  let v2 : R := (-(1.0 : R))
  let v3 : R := (v1 * (5.0 : R))
  let v4 : Coord := (next3D Coord.Y)
  let v5 : Coord := (next3D v4)
  let v6 : AABB3 R := (⟨(⟨(-v1), (-v1), (-v1)⟩ : Vec3 R), (⟨v1, v1, v1⟩ : Vec3 R)⟩ : AABB3 R)
  let v7 : R := (0.8 : R)
  let v8 : R := (1.0 : R)
  let v9 : Vec3 R := (Vec3.moved (Vec3.zero : Vec3 R) Coord.Y (if (decide (v2 > (0.0 : R))) then (-v3) else v3))
  let v10 : Vec3 R := (Vec3.zero : Vec3 R)
  let o11 := (AABB3.intersectsLine (fltMax : R) v6 (⟨(Vec3.moved v9 v5 v3), (Vec3.moved v10 v5 v3)⟩ : Line3 R))
  bad := ck bad 908 (decide (o11.isSome = false))
  let o12 := (AABB3.intersectsLine (fltMax : R) v6 (⟨(Vec3.moved v9 v5 (-v3)), (Vec3.moved v10 v5 (-v3))⟩ : Line3 R))
  bad := ck bad 909 (decide (o12.isSome = false))
  return bad
end Aabb3_300
#guard passes Aabb3_300.run

namespace Aabb3_301
abbrev R := Float32
def run : Res (List Nat) := do
  let mut bad : List Nat := []
  let v1 : R := (0.001 : R)
  let v2 : R := (1.0 : R)
  let v3 : R := (v1 * (5.0 : R))
  let v4 : Coord := (next3D Coord.X)
  let v5 : Coord := (next3D v4)
  let v6 : AABB3 R := (⟨(⟨(-v1), (-v1), (-v1)⟩ : Vec3 R), (⟨v1, v1, v1⟩ : Vec3 R)⟩ : AABB3 R)
  let v7 : R := (0.8 : R)
  let v8 : R := (1.0 : R)
  let v9 : Vec3 R := (Vec3.moved (Vec3.zero : Vec3 R) Coord.X (if (decide (v2 > (0.0 : R))) then (-v3) else v3))
  let v10 : Vec3 R := (Vec3.zero : Vec3 R)
  let o11 := (AABB3.intersectsLine (fltMax : R) v6 (⟨(Vec3.moved v9 v5 v3), (Vec3.moved v10 v5 v3)⟩ : Line3 R))
  bad := ck bad 908 (decide (o11.isSome = false))
  let o12 := (AABB3.intersectsLine (fltMax : R) v6 (⟨(Vec3.moved v9 v5 (-v3)), (Vec3.moved v10 v5 (-v3))⟩ : Line3 R))
  bad := ck bad 909 (decide (o12.isSome = false))
  return bad
end Aabb3_301
#guard passes Aabb3_301.run

namespace Aabb3_302
abbrev R := Float32
def run : Res (List Nat) := do
  let mut bad : List Nat := []
  let v1 : R := (0.001 : R)
  let v2 : R := (-(1.0 : R))
  let v3 : R := (v1 * (5.0 : R))
  let v4 : Coord := (next3D Coord.Y)
  let v5 : Coord := (next3D v4)
  let v6 : AABB3 R := (⟨(⟨(-v1), (-v1), (-v1)⟩ : Vec3 R), (⟨v1, v1, v1⟩ : Vec3 R)⟩ : AABB3 R)
  let v7 : R := (0.8 : R)
  let v8 : R := (1.0 : R)
  let v9 : Vec3 R := (Vec3.moved (Vec3.zero : Vec3 R) Coord.Y (if (decide (v2 > (0.0 : R))) then (-v3) else v3))
  let v10 : Vec3 R := (Vec3.zero : Vec3 R)
  let o11 := (AABB3.intersectsLine (fltMax : R) v6 (⟨(Vec3.moved v9 v5 v3), (Vec3.moved v10 v5 v3)⟩ : Line3 R))
  bad := ck bad 908 (decide (o11.isSome = false))
  let o12 := (AABB3.intersectsLine (fltMax : R) v6 (⟨(Vec3.moved v9 v5 (-v3)), (Vec3.moved v10 v5 (-v3))⟩ : Line3 R))
  bad := ck bad 909 (decide (o12.isSome = false))
  return bad
end Aabb3_302
#guard passes Aabb3_302.run

namespace Aabb3_303
abbrev R := Float32
def run : Res (List Nat) := do
  let mut bad : List Nat := []
  let v1 : R := (1000.0 : R)
  let v2 : R := (1.0 : R)
  let v3 : R := (v1 * (5.0 : R))
  let v4 : Coord := (next3D Coord.X)
  let v5 : Coord := (next3D v4)
  let v6 : AABB3 R := (⟨(⟨(-v1), (-v1), (-v1)⟩ : Vec3 R), (⟨v1, v1, v1⟩ : Vec3 R)⟩ : AABB3 R)
  let v7 : R := (0.8 : R)
  let v8 : R := (1.0 : R)
  let v9 : Vec3 R := (Vec3.moved (Vec3.zero : Vec3 R) Coord.X (if (decide (v2 > (0.0 : R))) then (-v3) else v3))
  let v10 : Vec3 R := (Vec3.zero : Vec3 R)
  let o11 := (AABB3.intersectsLine (fltMax : R) v6 (⟨(Vec3.moved v9 v5 v3), (Vec3.moved v10 v5 v3)⟩ : Line3 R))
  bad := ck bad 908 (decide (o11.isSome = false))
  let o12 := (AABB3.intersectsLine (fltMax : R) v6 (⟨(Vec3.moved v9 v5 (-v3)), (Vec3.moved v10 v5 (-v3))⟩ : Line3 R))
  bad := ck bad 909 (decide (o12.isSome = false))
  return bad
end Aabb3_303
#guard passes Aabb3_303.run

namespace Aabb3_304
abbrev R := Float32
def run : Res (List Nat) := do
  let mut bad : List Nat := []
  let v1 : R := (1000.0 : R)
  let v2 : R := (-(1.0 : R))
  let v3 : R := (v1 * (5.0 : R))
  let v4 : Coord := (next3D Coord.Y)
  let v5 : Coord := (next3D v4)
  let v6 : AABB3 R := (⟨(⟨(-v1), (-v1), (-v1)⟩ : Vec3 R), (⟨v1, v1, v1⟩ : Vec3 R)⟩ : AABB3 R)
  let v7 : R := (0.8 : R)
  let v8 : R := (1.0 : R)
  let v9 : Vec3 R := (Vec3.moved (Vec3.zero : Vec3 R) Coord.Y (if (decide (v2 > (0.0 : R))) then (-v3) else v3))
  let v10 : Vec3 R := (Vec3.zero : Vec3 R)
  let o11 := (AABB3.intersectsLine (fltMax : R) v6 (⟨(Vec3.moved v9 v5 v3), (Vec3.moved v10 v5 v3)⟩ : Line3 R))
  bad := ck bad 908 (decide (o11.isSome = false))
  let o12 := (AABB3.intersectsLine (fltMax : R) v6 (⟨(Vec3.moved v9 v5 (-v3)), (Vec3.moved v10 v5 (-v3))⟩ : Line3 R))
  bad := ck bad 909 (decide (o12.isSome = false))
  return bad
end Aabb3_304
#guard passes Aabb3_304.run

namespace Aabb3_305
abbrev R := Float32
def run : Res (List Nat) := do
  let mut bad : List Nat := []
  let v1 : R := (1.0 : R)
  let v2 : R := (1.0 : R)
  let v3 : R := (v1 * (5.0 : R))
  let v4 : Coord := (next3D Coord.X)
  let v5 : Coord := (next3D v4)
  let v6 : AABB3 R := (⟨(⟨(-v1), (-v1), (-v1)⟩ : Vec3 R), (⟨v1, v1, v1⟩ : Vec3 R)⟩ : AABB3 R)
  let v7 : Vec3 R := (Vec3.moved (Vec3.zero : Vec3 R) Coord.X (if (decide (v2 > (0.0 : R))) then v3 else (-v3)))
  let v8 : Vec3 R := (Vec3.moved v7 Coord.X v1)
  let o9 := (AABB3.intersectsLine (fltMax : R) v6 (⟨v7, v8⟩ : Line3 R))
  let v10 : Bool := o9.isSome
  bad := ck bad 920 (decide (v10 = false))
  return bad
end Aabb3_305
#guard passes Aabb3_305.run

namespace Aabb3_306
abbrev R := Float32
def run : Res (List Nat) := do
  let mut bad : List Nat := []
  let v1 : R := (1.0 : R)
  let v2 : R := (-(1.0 : R))
  let v3 : R := (v1 * (5.0 : R))
  let v4 : Coord := (next3D Coord.Y)
  let v5 : Coord := (next3D v4)
  let v6 : AABB3 R := (⟨(⟨(-v1), (-v1), (-v1)⟩ : Vec3 R), (⟨v1, v1, v1⟩ : Vec3 R)⟩ : AABB3 R)
  let v7 : Vec3 R := (Vec3.moved (Vec3.zero : Vec3 R) Coord.Y (if (decide (v2 > (0.0 : R))) then v3 else (-v3)))
  let v8 : Vec3 R := (Vec3.moved v7 Coord.Y v1)
  let o9 := (AABB3.intersectsLine (fltMax : R) v6 (⟨v7, v8⟩ : Line3 R))
  let v10 : Bool := o9.isSome
  bad := ck bad 920 (decide (v10 = false))
  return bad
end Aabb3_306
#guard passes Aabb3_306.run

namespace Aabb3_307
abbrev R := Float32
def run : Res (List Nat) := do
  let mut bad : List Nat := []
  let v1 : R := (0.001 : R)
  let v2 : R := (1.0 : R)
  let v3 : R := (v1 * (5.0 : R))
  let v4 : Coord := (next3D Coord.X)
  let v5 : Coord := (next3D v4)
  let v6 : AABB3 R := (⟨(⟨(-v1), (-v1), (-v1)⟩ : Vec3 R), (⟨v1, v1, v1⟩ : Vec3 R)⟩ : AABB3 R)
  let v7 : Vec3 R := (Vec3.moved (Vec3.zero : Vec3 R) Coord.X (if (decide (v2 > (0.0 : R))) then v3 else (-v3)))
  let v8 : Vec3 R := (Vec3.moved v7 Coord.X v1)
  let o9 := (AABB3.intersectsLine (fltMax : R) v6 (⟨v7, v8⟩ : Line3 R))
  let v10 : Bool := o9.isSome
  bad := ck bad 920 (decide (v10 = false))
  return bad
end Aabb3_307
#guard passes Aabb3_307.run

namespace Aabb3_308
abbrev R := Float32
def run : Res (List Nat) := do
  let mut bad : List Nat := []
  let v1 : R := (0.001 : R)
  let v2 : R := (-(1.0 : R))
  let v3 : R := (v1 * (5.0 : R))
  let v4 : Coord := (next3D Coord.Y)
  let v5 : Coord := (next3D v4)
  let v6 : AABB3 R := (⟨(⟨(-v1), (-v1), (-v1)⟩ : Vec3 R), (⟨v1, v1, v1⟩ : Vec3 R)⟩ : AABB3 R)
  let v7 : Vec3 R := (Vec3.moved (Vec3.zero : Vec3 R) Coord.Y (if (decide (v2 > (0.0 : R))) then v3 else (-v3)))
  let v8 : Vec3 R := (Vec3.moved v7 Coord.Y v1)
  let o9 := (AABB3.intersectsLine (fltMax : R) v6 (⟨v7, v8⟩ : Line3 R))
  let v10 : Bool := o9.isSome
  bad := ck bad 920 (decide (v10 = false))
  return bad
end Aabb3_308
#guard passes Aabb3_308.run

namespace Aabb3_309
abbrev R := Float32
def run : Res (List Nat) := do
  let mut bad : List Nat := []
  let v1 : R := (1000.0 : R)
  let v2 : R := (1.0 : R)
  let v3 : R := (v1 * (5.0 : R))
  let v4 : Coord := (next3D Coord.X)
  let v5 : Coord := (next3D v4)
  let v6 : AABB3 R := (⟨(⟨(-v1), (-v1), (-v1)⟩ : Vec3 R), (⟨v1, v1, v1⟩ : Vec3 R)⟩ : AABB3 R)
  let v7 : Vec3 R := (Vec3.moved (Vec3.zero : Vec3 R) Coord.X (if (decide (v2 > (0.0 : R))) then v3 else (-v3)))
  let v8 : Vec3 R := (Vec3.moved v7 Coord.X v1)
  let o9 := (AABB3.intersectsLine (fltMax : R) v6 (⟨v7, v8⟩ : Line3 R))
  let v10 : Bool := o9.isSome
  bad := ck bad 920 (decide (v10 = false))
  return bad
end Aabb3_309
#guard passes Aabb3_309.run

namespace Aabb3_310
abbrev R := Float32
def run : Res (List Nat) := do
  let mut bad : List Nat := []
  let v1 : R := (1000.0 : R)
  let v2 : R := (-(1.0 : R))
  let v3 : R := (v1 * (5.0 : R))
  let v4 : Coord := (next3D Coord.Y)
  let v5 : Coord := (next3D v4)
  let v6 : AABB3 R := (⟨(⟨(-v1), (-v1), (-v1)⟩ : Vec3 R), (⟨v1, v1, v1⟩ : Vec3 R)⟩ : AABB3 R)
  let v7 : Vec3 R := (Vec3.moved (Vec3.zero : Vec3 R) Coord.Y (if (decide (v2 > (0.0 : R))) then v3 else (-v3)))
  let v8 : Vec3 R := (Vec3.moved v7 Coord.Y v1)
  let o9 := (AABB3.intersectsLine (fltMax : R) v6 (⟨v7, v8⟩ : Line3 R))
  let v10 : Bool := o9.isSome
  bad := ck bad 920 (decide (v10 = false))
  return bad
end Aabb3_310
#guard passes Aabb3_310.run

namespace Aabb3_311
abbrev R := Float32
def run : Res (List Nat) := do
  let mut bad : List Nat := []
  let v1 : R := (1.0 : R)
  let v2 : R := (1.0 : R)
  let v3 : R := (v1 * (5.0 : R))
  let v4 : Coord := (next3D Coord.X)
  let v5 : Coord := (next3D v4)
  let v6 : AABB3 R := (⟨(⟨(-v1), (-v1), (-v1)⟩ : Vec3 R), (⟨v1, v1, v1⟩ : Vec3 R)⟩ : AABB3 R)
  let v7 : Vec3 R := (Vec3.moved (Vec3.zero : Vec3 R) Coord.X (if (decide (v2 > (0.0 : R))) then v3 else (-v3)))
  let v8 : Vec3 R := (Vec3.moved v7 Coord.X v1)
  let o9 := (AABB3.intersectsLine (fltMax : R) v6 (⟨(Vec3.moved v7 v4 v3), (Vec3.moved v8 v4 v3)⟩ : Line3 R))
  bad := ck bad 924 (decide (o9.isSome = false))
  let o10 := (AABB3.intersectsLine (fltMax : R) v6 (⟨(Vec3.moved v7 v4 (-v3)), (Vec3.moved v8 v4 (-v3))⟩ : Line3 R))
  bad := ck bad 925 (decide (o10.isSome = false))
  return bad
end Aabb3_311
#guard passes Aabb3_311.run

namespace Aabb3_312
abbrev R := Float32
def run : Res (List Nat) := do
  let mut bad : List Nat := []
  let v1 : R := (1.0 : R)
  let v2 : R := (-(1.0 : R))
  let v3 : R := (v1 * (5.0 : R))
  let v4 : Coord := (next3D Coord.Y)
  let v5 : Coord := (next3D v4)
  let v6 : AABB3 R := (⟨(⟨(-v1), (-v1), (-v1)⟩ : Vec3 R), (⟨v1, v1, v1⟩ : Vec3 R)⟩ : AABB3 R)
  let v7 : Vec3 R := (Vec3.moved (Vec3.zero : Vec3 R) Coord.Y (if (decide (v2 > (0.0 : R))) then v3 else (-v3)))
  let v8 : Vec3 R := (Vec3.moved v7 Coord.Y v1)
  let o9 := (AABB3.intersectsLine (fltMax : R) v6 (⟨(Vec3.moved v7 v4 v3), (Vec3.moved v8 v4 v3)⟩ : Line3 R))
  bad := ck bad 924 (decide (o9.isSome = false))
  let o10 := (AABB3.intersectsLine (fltMax : R) v6 (⟨(Vec3.moved v7 v4 (-v3)), (Vec3.moved v8 v4 (-v3))⟩ : Line3 R))
  bad := ck bad 925 (decide (o10.isSome = false))
  return bad
end Aabb3_312
#guard passes Aabb3_312.run

namespace Aabb3_313
abbrev R := Float32
def run : Res (List Nat) := do
  let mut bad : List Nat := []
  let v1 : R := (0.001 : R)
  let v2 : R := (1.0 : R)
  let v3 : R := (v1 * (5.0 : R))
  let v4 : Coord := (next3D Coord.X)
  let v5 : Coord := (next3D v4)
  let v6 : AABB3 R := (⟨(⟨(-v1), (-v1), (-v1)⟩ : Vec3 R), (⟨v1, v1, v1⟩ : Vec3 R)⟩ : AABB3 R)
  let v7 : Vec3 R := (Vec3.moved (Vec3.zero : Vec3 R) Coord.X (if (decide (v2 > (0.0 : R))) then v3 else (-v3)))
  let v8 : Vec3 R := (Vec3.moved v7 Coord.X v1)
  let o9 := (AABB3.intersectsLine (fltMax : R) v6 (⟨(Vec3.moved v7 v4 v3), (Vec3.moved v8 v4 v3)⟩ : Line3 R))
  bad := ck bad 924 (decide (o9.isSome = false))
  let o10 := (AABB3.intersectsLine (fltMax : R) v6 (⟨(Vec3.moved v7 v4 (-v3)), (Vec3.moved v8 v4 (-v3))⟩ : Line3 R))
  bad := ck bad 925 (decide (o10.isSome = false))
  return bad
end Aabb3_313
#guard passes Aabb3_313.run

namespace Aabb3_314
abbrev R := Float32
def run : Res (List Nat) := do
  let mut bad : List Nat := []
  let v1 : R := (0.001 : R)
  let v2 : R := (-(1.0 : R))
  let v3 : R := (v1 * (5.0 : R))
  let v4 : Coord := (next3D Coord.Y)
  let v5 : Coord := (next3D v4)
  let v6 : AABB3 R := (⟨(⟨(-v1), (-v1), (-v1)⟩ : Vec3 R), (⟨v1, v1, v1⟩ : Vec3 R)⟩ : AABB3 R)
  let v7 : Vec3 R := (Vec3.moved (Vec3.zero : Vec3 R) Coord.Y (if (decide (v2 > (0.0 : R))) then v3 else (-v3)))
  let v8 : Vec3 R := (Vec3.moved v7 Coord.Y v1)
  let o9 := (AABB3.intersectsLine (fltMax : R) v6 (⟨(Vec3.moved v7 v4 v3), (Vec3.moved v8 v4 v3)⟩ : Line3 R))
  bad := ck bad 924 (decide (o9.isSome = false))
  let o10 := (AABB3.intersectsLine (fltMax : R) v6 (⟨(Vec3.moved v7 v4 (-v3)), (Vec3.moved v8 v4 (-v3))⟩ : Line3 R))
  bad := ck bad 925 (decide (o10.isSome = false))
  return bad
end Aabb3_314
#guard passes Aabb3_314.run

namespace Aabb3_315
abbrev R := Float32
def run : Res (List Nat) := do
  let mut bad : List Nat := []
  let v1 : R := (1000.0 : R)
  let v2 : R := (1.0 : R)
  let v3 : R := (v1 * (5.0 : R))
  let v4 : Coord := (next3D Coord.X)
  let v5 : Coord := (next3D v4)
  let v6 : AABB3 R := (⟨(⟨(-v1), (-v1), (-v1)⟩ : Vec3 R), (⟨v1, v1, v1⟩ : Vec3 R)⟩ : AABB3 R)
  let v7 : Vec3 R := (Vec3.moved (Vec3.zero : Vec3 R) Coord.X (if (decide (v2 > (0.0 : R))) then v3 else (-v3)))
  let v8 : Vec3 R := (Vec3.moved v7 Coord.X v1)
  let o9 := (AABB3.intersectsLine (fltMax : R) v6 (⟨(Vec3.moved v7 v4 v3), (Vec3.moved v8 v4 v3)⟩ : Line3 R))
  bad := ck bad 924 (decide (o9.isSome = false))
  let o10 := (AABB3.intersectsLine (fltMax : R) v6 (⟨(Vec3.moved v7 v4 (-v3)), (Vec3.moved v8 v4 (-v3))⟩ : Line3 R))
  bad := ck bad 925 (decide (o10.isSome = false))
  return bad
end Aabb3_315
#guard passes Aabb3_315.run

namespace Aabb3_316
abbrev R := Float32
def run : Res (List Nat) := do
  let mut bad : List Nat := []
  let v1 : R := (1000.0 : R)
  let v2 : R := (-(1.0 : R))
  let v3 : R := (v1 * (5.0 : R))
  let v4 : Coord := (next3D Coord.Y)
  let v5 : Coord := (next3D v4)
  let v6 : AABB3 R := (⟨(⟨(-v1), (-v1), (-v1)⟩ : Vec3 R), (⟨v1, v1, v1⟩ : Vec3 R)⟩ : AABB3 R)
  let v7 : Vec3 R := (Vec3.moved (Vec3.zero : Vec3 R) Coord.Y (if (decide (v2 > (0.0 : R))) then v3 else (-v3)))
  let v8 : Vec3 R := (Vec3.moved v7 Coord.Y v1)
  let o9 := (AABB3.intersectsLine (fltMax : R) v6 (⟨(Vec3.moved v7 v4 v3), (Vec3.moved v8 v4 v3)⟩ : Line3 R))
  bad := ck bad 924 (decide (o9.isSome = false))
  let o10 := (AABB3.intersectsLine (fltMax : R) v6 (⟨(Vec3.moved v7 v4 (-v3)), (Vec3.moved v8 v4 (-v3))⟩ : Line3 R))
  bad := ck bad 925 (decide (o10.isSome = false))
  return bad
end Aabb3_316
#guard passes Aabb3_316.run

namespace Aabb3_317
abbrev R := Float32
def run : Res (List Nat) := do
  let mut bad : List Nat := []
  let v1 : R := (1.0 : R)
  let v2 : R := (1.0 : R)
  let v3 : R := (v1 * (5.0 : R))
  let v4 : Coord := (next3D Coord.X)
  let v5 : Coord := (next3D v4)
  let v6 : AABB3 R := (⟨(⟨(-v1), (-v1), (-v1)⟩ : Vec3 R), (⟨v1, v1, v1⟩ : Vec3 R)⟩ : AABB3 R)
  let v7 : Vec3 R := (Vec3.moved (Vec3.zero : Vec3 R) Coord.X (if (decide (v2 > (0.0 : R))) then v3 else (-v3)))
  let v8 : Vec3 R := (Vec3.moved v7 Coord.X v1)
  let o9 := (AABB3.intersectsLine (fltMax : R) v6 (⟨(Vec3.moved v7 v5 v3), (Vec3.moved v8 v5 v3)⟩ : Line3 R))
  bad := ck bad 929 (decide (o9.isSome = false))
  let o10 := (AABB3.intersectsLine (fltMax : R) v6 (⟨(Vec3.moved v7 v5 (-v3)), (Vec3.moved v8 v5 (-v3))⟩ : Line3 R))
  bad := ck bad 930 (decide (o10.isSome = false))
  return bad
end Aabb3_317
#guard passes Aabb3_317.run

namespace Aabb3_318
abbrev R := Float32
def run : Res (List Nat) := do
  let mut bad : List Nat := []
  let v1 : R := (1.0 : R)
  let v2 : R := (-(1.0 : R))
  let v3 : R := (v1 * (5.0 : R))
  let v4 : Coord := (next3D Coord.Y)
  let v5 : Coord := (next3D v4)
  let v6 : AABB3 R := (⟨(⟨(-v1), (-v1), (-v1)⟩ : Vec3 R), (⟨v1, v1, v1⟩ : Vec3 R)⟩ : AABB3 R)
  let v7 : Vec3 R := (Vec3.moved (Vec3.zero : Vec3 R) Coord.Y (if (decide (v2 > (0.0 : R))) then v3 else (-v3)))
  let v8 : Vec3 R := (Vec3.moved v7 Coord.Y v1)
  let o9 := (AABB3.intersectsLine (fltMax : R) v6 (⟨(Vec3.moved v7 v5 v3), (Vec3.moved v8 v5 v3)⟩ : Line3 R))
  bad := ck bad 929 (decide (o9.isSome = false))
  let o10 := (AABB3.intersectsLine (fltMax : R) v6 (⟨(Vec3.moved v7 v5 (-v3)), (Vec3.moved v8 v5 (-v3))⟩ : Line3 R))
  bad := ck bad 930 (decide (o10.isSome = false))
  return bad
end Aabb3_318
#guard passes Aabb3_318.run

namespace Aabb3_319
abbrev R := Float32
def run : Res (List Nat) := do
  let mut bad : List Nat := []
  let v1 : R := (0.001 : R)
  let v2 : R := (1.0 : R)
  let v3 : R := (v1 * (5.0 : R))
  let v4 : Coord := (next3D Coord.X)
  let v5 : Coord := (next3D v4)
  let v6 : AABB3 R := (⟨(⟨(-v1), (-v1), (-v1)⟩ : Vec3 R), (⟨v1, v1, v1⟩ : Vec3 R)⟩ : AABB3 R)
  let v7 : Vec3 R := (Vec3.moved (Vec3.zero : Vec3 R) Coord.X (if (decide (v2 > (0.0 : R))) then v3 else (-v3)))
  let v8 : Vec3 R := (Vec3.moved v7 Coord.X v1)
  let o9 := (AABB3.intersectsLine (fltMax : R) v6 (⟨(Vec3.moved v7 v5 v3), (Vec3.moved v8 v5 v3)⟩ : Line3 R))
  bad := ck bad 929 (decide (o9.isSome = false))
  let o10 := (AABB3.intersectsLine (fltMax : R) v6 (⟨(Vec3.moved v7 v5 (-v3)), (Vec3.moved v8 v5 (-v3))⟩ : Line3 R))
  bad := ck bad 930 (decide (o10.isSome = false))
  return bad
end Aabb3_319
#guard passes Aabb3_319.run

namespace Aabb3_320
abbrev R := Float32
def run : Res (List Nat) := do
  let mut bad : List Nat := []
  let v1 : R := (0.001 : R)
  let v2 : R := (-(1.0 : R))
  let v3 : R := (v1 * (5.0 : R))
  let v4 : Coord := (next3D Coord.Y)
  let v5 : Coord := (next3D v4)
  let v6 : AABB3 R := (⟨(⟨(-v1), (-v1), (-v1)⟩ : Vec3 R), (⟨v1, v1, v1⟩ : Vec3 R)⟩ : AABB3 R)
  let v7 : Vec3 R := (Vec3.moved (Vec3.zero : Vec3 R) Coord.Y (if (decide (v2 > (0.0 : R))) then v3 else (-v3)))
  let v8 : Vec3 R := (Vec3.moved v7 Coord.Y v1)
  let o9 := (AABB3.intersectsLine (fltMax : R) v6 (⟨(Vec3.moved v7 v5 v3), (Vec3.moved v8 v5 v3)⟩ : Line3 R))
  bad := ck bad 929 (decide (o9.isSome = false))
  let o10 := (AABB3.intersectsLine (fltMax : R) v6 (⟨(Vec3.moved v7 v5 (-v3)), (Vec3.moved v8 v5 (-v3))⟩ : Line3 R))
  bad := ck bad 930 (decide (o10.isSome = false))
  return bad
end Aabb3_320
#guard passes Aabb3_320.run

namespace Aabb3_321
abbrev R := Float32
def run : Res (List Nat) := do
  let mut bad : List Nat := []
  let v1 : R := (1000.0 : R)
  let v2 : R := (1.0 : R)
  let v3 : R := (v1 * (5.0 : R))
  let v4 : Coord := (next3D Coord.X)
  let v5 : Coord := (next3D v4)
  let v6 : AABB3 R := (⟨(⟨(-v1), (-v1), (-v1)⟩ : Vec3 R), (⟨v1, v1, v1⟩ : Vec3 R)⟩ : AABB3 R)
  let v7 : Vec3 R := (Vec3.moved (Vec3.zero : Vec3 R) Coord.X (if (decide (v2 > (0.0 : R))) then v3 else (-v3)))
  let v8 : Vec3 R := (Vec3.moved v7 Coord.X v1)
  let o9 := (AABB3.intersectsLine (fltMax : R) v6 (⟨(Vec3.moved v7 v5 v3), (Vec3.moved v8 v5 v3)⟩ : Line3 R))
  bad := ck bad 929 (decide (o9.isSome = false))
  let o10 := (AABB3.intersectsLine (fltMax : R) v6 (⟨(Vec3.moved v7 v5 (-v3)), (Vec3.moved v8 v5 (-v3))⟩ : Line3 R))
  bad := ck bad 930 (decide (o10.isSome = false))
  return bad
end Aabb3_321
#guard passes Aabb3_321.run

namespace Aabb3_322
abbrev R := Float32
def run : Res (List Nat) := do
  let mut bad : List Nat := []
  let v1 : R := (1000.0 : R)
  let v2 : R := (-(1.0 : R))
  let v3 : R := (v1 * (5.0 : R))
  let v4 : Coord := (next3D Coord.Y)
  let v5 : Coord := (next3D v4)
  let v6 : AABB3 R := (⟨(⟨(-v1), (-v1), (-v1)⟩ : Vec3 R), (⟨v1, v1, v1⟩ : Vec3 R)⟩ : AABB3 R)
  let v7 : Vec3 R := (Vec3.moved (Vec3.zero : Vec3 R) Coord.Y (if (decide (v2 > (0.0 : R))) then v3 else (-v3)))
  let v8 : Vec3 R := (Vec3.moved v7 Coord.Y v1)
  let o9 := (AABB3.intersectsLine (fltMax : R) v6 (⟨(Vec3.moved v7 v5 v3), (Vec3.moved v8 v5 v3)⟩ : Line3 R))
  bad := ck bad 929 (decide (o9.isSome = false))
  let o10 := (AABB3.intersectsLine (fltMax : R) v6 (⟨(Vec3.moved v7 v5 (-v3)), (Vec3.moved v8 v5 (-v3))⟩ : Line3 R))
  bad := ck bad 930 (decide (o10.isSome = false))
  return bad
end Aabb3_322
#guard passes Aabb3_322.run

namespace Aabb3_323
abbrev R := Float32
def run : Res (List Nat) := do
  let mut bad : List Nat := []
  let v1 : R := (1.0 : R)
  let v2 : R := (1.0 : R)
  let v3 : R := (v1 * (5.0 : R))
  let v4 : Coord := (next3D Coord.X)
  let v5 : Coord := (next3D v4)
  let v6 : AABB3 R := (⟨(⟨(-v1), (-v1), (-v1)⟩ : Vec3 R), (⟨v1, v1, v1⟩ : Vec3 R)⟩ : AABB3 R)
  let v7 : Vec3 R := (Vec3.moved (Vec3.moved (Vec3.zero : Vec3 R) Coord.X (if (decide (v2 > (0.0 : R))) then (-v3) else v3)) v4 (if (decide (v2 > (0.0 : R))) then (-v3) else v3))
  let v8 : Vec3 R := v7
  let v9 : Vec3 R := (Vec3.moved v7 Coord.X (v2 * v1))
  let v10 : Vec3 R := (Vec3.moved v7 Coord.X ((v2 * v1) * (2 : R)))
  let v11 : Vec3 R := (Vec3.moved v7 v4 (v2 * v1))
  let v12 : Vec3 R := (Vec3.moved v7 v4 ((v2 * v1) * (2 : R)))
  let v13 : R := (0.6 : R)
  let v14 : R := (0.5 : R)
  let v15 : R := (0.4 : R)
  let v16 : R := (0.5 : R)
  let v17 : R := (0.4 : R)
  let v18 : Vec3 R := v8
  let v19 : Vec3 R := (Vec3.moved (Vec3.moved v18 Coord.X ((v2 * v3) * (2.0 : R))) v4 ((v2 * v3) * (2.0 : R)))
  let v20 : R := (0.4 : R)
  let v21 : R := v13
  let o22 := (AABB3.intersectsLine (fltMax : R) v6 (⟨v18, v19⟩ : Line3 R))
  let v23 : Bool := o22.isSome
  bad := ck bad 963 (decide (v23 = true))
  bad := ck bad 964 (Near.near (0.0001 : R) (o22.getD (0, 0)).1 v20)
  bad := ck bad 965 (Near.near (0.0001 : R) (o22.getD (0, 0)).2 v21)
  return bad
end Aabb3_323
#guard passes Aabb3_323.run

namespace Aabb3_324
abbrev R := Float32
def run : Res (List Nat) := do
  let mut bad : List Nat := []
  let v1 : R := (1.0 : R)
  let v2 : R := (1.0 : R)
  let v3 : R := (v1 * (5.0 : R))
  let v4 : Coord := (next3D Coord.Y)
  let v5 : Coord := (next3D v4)
  let v6 : AABB3 R := (⟨(⟨(-v1), (-v1), (-v1)⟩ : Vec3 R), (⟨v1, v1, v1⟩ : Vec3 R)⟩ : AABB3 R)
  let v7 : Vec3 R := (Vec3.moved (Vec3.moved (Vec3.zero : Vec3 R) Coord.Y (if (decide (v2 > (0.0 : R))) then (-v3) else v3)) v4 (if (decide (v2 > (0.0 : R))) then (-v3) else v3))
  let v8 : Vec3 R := v7
  let v9 : Vec3 R := (Vec3.moved v7 Coord.Y (v2 * v1))
  let v10 : Vec3 R := (Vec3.moved v7 Coord.Y ((v2 * v1) * (2 : R)))
  let v11 : Vec3 R := (Vec3.moved v7 v4 (v2 * v1))
  let v12 : Vec3 R := (Vec3.moved v7 v4 ((v2 * v1) * (2 : R)))
  let v13 : R := (0.6 : R)
  let v14 : R := (0.5 : R)
  let v15 : R := (0.4 : R)
  let v16 : R := (0.5 : R)
  let v17 : R := (0.4 : R)
  let v18 : Vec3 R := v11
  let v19 : Vec3 R := (Vec3.moved (Vec3.moved v18 Coord.Y ((v2 * v3) * (2.0 : R))) v4 ((v2 * v3) * (2.0 : R)))
  let v20 : R := (0.4 : R)
  let v21 : R := v16
  let o22 := (AABB3.intersectsLine (fltMax : R) v6 (⟨v18, v19⟩ : Line3 R))
  let v23 : Bool := o22.isSome
  bad := ck bad 963 (decide (v23 = true))
  bad := ck bad 964 (Near.near (0.0001 : R) (o22.getD (0, 0)).1 v20)
  bad := ck bad 965 (Near.near (0.0001 : R) (o22.getD (0, 0)).2 v21)
  return bad
end Aabb3_324
#guard passes Aabb3_324.run

namespace Aabb3_325
abbrev R := Float32
def run : Res (List Nat) := do
  let mut bad : List Nat := []
  let v1 : R := (1.0 : R)
  let v2 : R := (-(1.0 : R))
  let v3 : R := (v1 * (5.0 : R))
  let v4 : Coord := (next3D Coord.Z)
  let v5 : Coord := (next3D v4)
  let v6 : AABB3 R := (⟨(⟨(-v1), (-v1), (-v1)⟩ : Vec3 R), (⟨v1, v1, v1⟩ : Vec3 R)⟩ : AABB3 R)
  let v7 : Vec3 R := (Vec3.moved (Vec3.moved (Vec3.zero : Vec3 R) Coord.Z (if (decide (v2 > (0.0 : R))) then (-v3) else v3)) v4 (if (decide (v2 > (0.0 : R))) then (-v3) else v3))
  let v8 : Vec3 R := v7
  let v9 : Vec3 R := (Vec3.moved v7 Coord.Z (v2 * v1))
  let v10 : Vec3 R := (Vec3.moved v7 Coord.Z ((v2 * v1) * (2 : R)))
  let v11 : Vec3 R := (Vec3.moved v7 v4 (v2 * v1))
  let v12 : Vec3 R := (Vec3.moved v7 v4 ((v2 * v1) * (2 : R)))
  let v13 : R := (0.6 : R)
  let v14 : R := (0.5 : R)
  let v15 : R := (0.4 : R)
  let v16 : R := (0.5 : R)
  let v17 : R := (0.4 : R)
  let v18 : Vec3 R := v9
  let v19 : Vec3 R := (Vec3.moved (Vec3.moved v18 Coord.Z ((v2 * v3) * (2.0 : R))) v4 ((v2 * v3) * (2.0 : R)))
  let v20 : R := (0.4 : R)
  let v21 : R := v14
  let o22 := (AABB3.intersectsLine (fltMax : R) v6 (⟨v18, v19⟩ : Line3 R))
  let v23 : Bool := o22.isSome
  bad := ck bad 963 (decide (v23 = true))
  bad := ck bad 964 (Near.near (0.0001 : R) (o22.getD (0, 0)).1 v20)
  bad := ck bad 965 (Near.near (0.0001 : R) (o22.getD (0, 0)).2 v21)
  return bad
end Aabb3_325
#guard passes Aabb3_325.run

namespace Aabb3_326
abbrev R := Float32
def run : Res (List Nat) := do
  let mut bad : List Nat := []
  let v1 : R := (0.001 : R)
  let v2 : R := (-(1.0 : R))
  let v3 : R := (v1 * (5.0 : R))
  let v4 : Coord := (next3D Coord.X)
  let v5 : Coord := (next3D v4)
  let v6 : AABB3 R := (⟨(⟨(-v1), (-v1), (-v1)⟩ : Vec3 R), (⟨v1, v1, v1⟩ : Vec3 R)⟩ : AABB3 R)
  let v7 : Vec3 R := (Vec3.moved (Vec3.moved (Vec3.zero : Vec3 R) Coord.X (if (decide (v2 > (0.0 : R))) then (-v3) else v3)) v4 (if (decide (v2 > (0.0 : R))) then (-v3) else v3))
  let v8 : Vec3 R := v7
  let v9 : Vec3 R := (Vec3.moved v7 Coord.X (v2 * v1))
  let v10 : Vec3 R := (Vec3.moved v7 Coord.X ((v2 * v1) * (2 : R)))
  let v11 : Vec3 R := (Vec3.moved v7 v4 (v2 * v1))
  let v12 : Vec3 R := (Vec3.moved v7 v4 ((v2 * v1) * (2 : R)))
  let v13 : R := (0.6 : R)
  let v14 : R := (0.5 : R)
  let v15 : R := (0.4 : R)
  let v16 : R := (0.5 : R)
  let v17 : R := (0.4 : R)
  let v18 : Vec3 R := v12
  let v19 : Vec3 R := (Vec3.moved (Vec3.moved v18 Coord.X ((v2 * v3) * (2.0 : R))) v4 ((v2 * v3) * (2.0 : R)))
  let v20 : R := (0.4 : R)
  let v21 : R := v17
  let o22 := (AABB3.intersectsLine (fltMax : R) v6 (⟨v18, v19⟩ : Line3 R))
  let v23 : Bool := o22.isSome
  bad := ck bad 963 (decide (v23 = true))
  bad := ck bad 964 (Near.near (0.0001 : R) (o22.getD (0, 0)).1 v20)
  bad := ck bad 965 (Near.near (0.0001 : R) (o22.getD (0, 0)).2 v21)
  return bad
end Aabb3_326
#guard passes Aabb3_326.run

namespace Aabb3_327
abbrev R := Float32
def run : Res (List Nat) := do
  let mut bad : List Nat := []
  let v1 : R := (0.001 : R)
  let v2 : R := (1.0 : R)
  let v3 : R := (v1 * (5.0 : R))
  let v4 : Coord := (next3D Coord.Z)
  let v5 : Coord := (next3D v4)
  let v6 : AABB3 R := (⟨(⟨(-v1), (-v1), (-v1)⟩ : Vec3 R), (⟨v1, v1, v1⟩ : Vec3 R)⟩ : AABB3 R)
  let v7 : Vec3 R := (Vec3.moved (Vec3.moved (Vec3.zero : Vec3 R) Coord.Z (if (decide (v2 > (0.0 : R))) then (-v3) else v3)) v4 (if (decide (v2 > (0.0 : R))) then (-v3) else v3))
  let v8 : Vec3 R := v7
  let v9 : Vec3 R := (Vec3.moved v7 Coord.Z (v2 * v1))
  let v10 : Vec3 R := (Vec3.moved v7 Coord.Z ((v2 * v1) * (2 : R)))
  let v11 : Vec3 R := (Vec3.moved v7 v4 (v2 * v1))
  let v12 : Vec3 R := (Vec3.moved v7 v4 ((v2 * v1) * (2 : R)))
  let v13 : R := (0.6 : R)
  let v14 : R := (0.5 : R)
  let v15 : R := (0.4 : R)
  let v16 : R := (0.5 : R)
  let v17 : R := (0.4 : R)
  let v18 : Vec3 R := v10
  let v19 : Vec3 R := (Vec3.moved (Vec3.moved v18 Coord.Z ((v2 * v3) * (2.0 : R))) v4 ((v2 * v3) * (2.0 : R)))
  let v20 : R := (0.4 : R)
  let v21 : R := v15
  let o22 := (AABB3.intersectsLine (fltMax : R) v6 (⟨v18, v19⟩ : Line3 R))
  let v23 : Bool := o22.isSome
  bad := ck bad 963 (decide (v23 = true))
  bad := ck bad 964 (Near.near (0.0001 : R) (o22.getD (0, 0)).1 v20)
  bad := ck bad 965 (Near.near (0.0001 : R) (o22.getD (0, 0)).2 v21)
  return bad
end Aabb3_327
#guard passes Aabb3_327.run

namespace Aabb3_328
abbrev R := Float32
def run : Res (List Nat) := do
  let mut bad : List Nat := []
  let v1 : R := (1000.0 : R)
  let v2 : R := (-(1.0 : R))
  let v3 : R := (v1 * (5.0 : R))
  let v4 : Coord := (next3D Coord.X)
  let v5 : Coord := (next3D v4)
  let v6 : AABB3 R := (⟨(⟨(-v1), (-v1), (-v1)⟩ : Vec3 R), (⟨v1, v1, v1⟩ : Vec3 R)⟩ : AABB3 R)
  let v7 : Vec3 R := (Vec3.moved (Vec3.moved (Vec3.zero : Vec3 R) Coord.X (if (decide (v2 > (0.0 : R))) then (-v3) else v3)) v4 (if (decide (v2 > (0.0 : R))) then (-v3) else v3))
  let v8 : Vec3 R := v7
  let v9 : Vec3 R := (Vec3.moved v7 Coord.X (v2 * v1))
  let v10 : Vec3 R := (Vec3.moved v7 Coord.X ((v2 * v1) * (2 : R)))
  let v11 : Vec3 R := (Vec3.moved v7 v4 (v2 * v1))
  let v12 : Vec3 R := (Vec3.moved v7 v4 ((v2 * v1) * (2 : R)))
  let v13 : R := (0.6 : R)
  let v14 : R := (0.5 : R)
  let v15 : R := (0.4 : R)
  let v16 : R := (0.5 : R)
  let v17 : R := (0.4 : R)
  let v18 : Vec3 R := v8
  let v19 : Vec3 R := (Vec3.moved (Vec3.moved v18 Coord.X ((v2 * v3) * (2.0 : R))) v4 ((v2 * v3) * (2.0 : R)))
  let v20 : R := (0.4 : R)
  let v21 : R := v13
  let o22 := (AABB3.intersectsLine (fltMax : R) v6 (⟨v18, v19⟩ : Line3 R))
  let v23 : Bool := o22.isSome
  bad := ck bad 963 (decide (v23 = true))
  bad := ck bad 964 (Near.near (0.0001 : R) (o22.getD (0, 0)).1 v20)
  bad := ck bad 965 (Near.near (0.0001 : R) (o22.getD (0, 0)).2 v21)
  return bad
end Aabb3_328
#guard passes Aabb3_328.run

namespace Aabb3_329
abbrev R := Float32
def run : Res (List Nat) := do
  let mut bad : List Nat := []
  let v1 : R := (1000.0 : R)
  let v2 : R := (-(1.0 : R))
  let v3 : R := (v1 * (5.0 : R))
  let v4 : Coord := (next3D Coord.Y)
  let v5 : Coord := (next3D v4)
  let v6 : AABB3 R := (⟨(⟨(-v1), (-v1), (-v1)⟩ : Vec3 R), (⟨v1, v1, v1⟩ : Vec3 R)⟩ : AABB3 R)
  let v7 : Vec3 R := (Vec3.moved (Vec3.moved (Vec3.zero : Vec3 R) Coord.Y (if (decide (v2 > (0.0 : R))) then (-v3) else v3)) v4 (if (decide (v2 > (0.0 : R))) then (-v3) else v3))
  let v8 : Vec3 R := v7
  let v9 : Vec3 R := (Vec3.moved v7 Coord.Y (v2 * v1))
  let v10 : Vec3 R := (Vec3.moved v7 Coord.Y ((v2 * v1) * (2 : R)))
  let v11 : Vec3 R := (Vec3.moved v7 v4 (v2 * v1))
  let v12 : Vec3 R := (Vec3.moved v7 v4 ((v2 * v1) * (2 : R)))
  let v13 : R := (0.6 : R)
  let v14 : R := (0.5 : R)
  let v15 : R := (0.4 : R)
  let v16 : R := (0.5 : R)
  let v17 : R := (0.4 : R)
  let v18 : Vec3 R := v11
  let v19 : Vec3 R := (Vec3.moved (Vec3.moved v18 Coord.Y ((v2 * v3) * (2.0 : R))) v4 ((v2 * v3) * (2.0 : R)))
  let v20 : R := (0.4 : R)
  let v21 : R := v16
  let o22 := (AABB3.intersectsLine (fltMax : R) v6 (⟨v18, v19⟩ : Line3 R))
  let v23 : Bool := o22.isSome
  bad := ck bad 963 (decide (v23 = true))
  bad := ck bad 964 (Near.near (0.0001 : R) (o22.getD (0, 0)).1 v20)
  bad := ck bad 965 (Near.near (0.0001 : R) (o22.getD (0, 0)).2 v21)
  return bad
end Aabb3_329
#guard passes Aabb3_329.run

namespace Aabb3_330
abbrev R := Float32
def run : Res (List Nat) := do
  let mut bad : List Nat := []
  let v1 : R := (1.0 : R)
  let v2 : R := (1.0 : R)
  let v3 : R := (v1 * (5.0 : R))
  let v4 : Coord := (next3D Coord.X)
  let v5 : Coord := (next3D v4)
  let v6 : AABB3 R := (⟨(⟨(-v1), (-v1), (-v1)⟩ : Vec3 R), (⟨v1, v1, v1⟩ : Vec3 R)⟩ : AABB3 R)
  let v7 : Vec3 R := (Vec3.moved (Vec3.moved (Vec3.zero : Vec3 R) Coord.X (if (decide (v2 > (0.0 : R))) then (-v3) else v3)) v4 (if (decide (v2 > (0.0 : R))) then (-v3) else v3))
  let v8 : Vec3 R := v7
  let v9 : Vec3 R := (Vec3.moved v7 Coord.X (v2 * v1))
  let v10 : Vec3 R := (Vec3.moved v7 Coord.X ((v2 * v1) * (2 : R)))
  let v11 : Vec3 R := (Vec3.moved v7 v4 (v2 * v1))
  let v12 : Vec3 R := (Vec3.moved v7 v4 ((v2 * v1) * (2 : R)))
  let v13 : R := (0.6 : R)
  let v14 : R := (0.5 : R)
  let v15 : R := (0.4 : R)
  let v16 : R := (0.5 : R)
  let v17 : R := (0.4 : R)
  let v18 : Vec3 R := v8
  let v19 : Vec3 R := (Vec3.moved (Vec3.moved v18 Coord.X ((v2 * v3) * (2.0 : R))) v4 ((v2 * v3) * (2.0 : R)))
  let v20 : R := (0.4 : R)
  let v21 : R := v13
  let o22 := (AABB3.intersectsLine (fltMax : R) v6 (⟨(Vec3.moved v18 v5 v3), (Vec3.moved v19 v5 v3)⟩ : Line3 R))
  bad := ck bad 969 (decide (o22.isSome = false))
  let o23 := (AABB3.intersectsLine (fltMax : R) v6 (⟨(Vec3.moved v18 v5 (-v3)), (Vec3.moved v19 v5 (-v3))⟩ : Line3 R))
  bad := ck bad 970 (decide (o23.isSome = false))
  return bad
end Aabb3_330
#guard passes Aabb3_330.run

namespace Aabb3_331
abbrev R := Float32
def run : Res (List Nat) := do
  let mut bad : List Nat := []
  let v1 : R := (1.0 : R)
  let v2 : R := (1.0 : R)
  let v3 : R := (v1 * (5.0 : R))
  let v4 : Coord := (next3D Coord.Y)
  let v5 : Coord := (next3D v4)
  let v6 : AABB3 R := (⟨(⟨(-v1), (-v1), (-v1)⟩ : Vec3 R), (⟨v1, v1, v1⟩ : Vec3 R)⟩ : AABB3 R)
  let v7 : Vec3 R := (Vec3.moved (Vec3.moved (Vec3.zero : Vec3 R) Coord.Y (if (decide (v2 > (0.0 : R))) then (-v3) else v3)) v4 (if (decide (v2 > (0.0 : R))) then (-v3) else v3))
  let v8 : Vec3 R := v7
  let v9 : Vec3 R := (Vec3.moved v7 Coord.Y (v2 * v1))
  let v10 : Vec3 R := (Vec3.moved v7 Coord.Y ((v2 * v1) * (2 : R)))
  let v11 : Vec3 R := (Vec3.moved v7 v4 (v2 * v1))
  let v12 : Vec3 R := (Vec3.moved v7 v4 ((v2 * v1) * (2 : R)))
  let v13 : R := (0.6 : R)
  let v14 : R := (0.5 : R)
  let v15 : R := (0.4 : R)
  let v16 : R := (0.5 : R)
  let v17 : R := (0.4 : R)
  let v18 : Vec3 R := v11
  let v19 : Vec3 R := (Vec3.moved (Vec3.moved v18 Coord.Y ((v2 * v3) * (2.0 : R))) v4 ((v2 * v3) * (2.0 : R)))
  let v20 : R := (0.4 : R)
  let v21 : R := v16
  let o22 := (AABB3.intersectsLine (fltMax : R) v6 (⟨(Vec3.moved v18 v5 v3), (Vec3.moved v19 v5 v3)⟩ : Line3 R))
  bad := ck bad 969 (decide (o22.isSome = false))
  let o23 := (AABB3.intersectsLine (fltMax : R) v6 (⟨(Vec3.moved v18 v5 (-v3)), (Vec3.moved v19 v5 (-v3))⟩ : Line3 R))
  bad := ck bad 970 (decide (o23.isSome = false))
  return bad
end Aabb3_331
#guard passes Aabb3_331.run

namespace Aabb3_332
abbrev R := Float32
def run : Res (List Nat) := do
  let mut bad : List Nat := []
  let v1 : R := (1.0 : R)
  let v2 : R := (-(1.0 : R))
  let v3 : R := (v1 * (5.0 : R))
  let v4 : Coord := (next3D Coord.Z)
  let v5 : Coord := (next3D v4)
  let v6 : AABB3 R := (⟨(⟨(-v1), (-v1), (-v1)⟩ : Vec3 R), (⟨v1, v1, v1⟩ : Vec3 R)⟩ : AABB3 R)
  let v7 : Vec3 R := (Vec3.moved (Vec3.moved (Vec3.zero : Vec3 R) Coord.Z (if (decide (v2 > (0.0 : R))) then (-v3) else v3)) v4 (if (decide (v2 > (0.0 : R))) then (-v3) else v3))
  let v8 : Vec3 R := v7
  let v9 : Vec3 R := (Vec3.moved v7 Coord.Z (v2 * v1))
  let v10 : Vec3 R := (Vec3.moved v7 Coord.Z ((v2 * v1) * (2 : R)))
  let v11 : Vec3 R := (Vec3.moved v7 v4 (v2 * v1))
  let v12 : Vec3 R := (Vec3.moved v7 v4 ((v2 * v1) * (2 : R)))
  let v13 : R := (0.6 : R)
  let v14 : R := (0.5 : R)
  let v15 : R := (0.4 : R)
  let v16 : R := (0.5 : R)
  let v17 : R := (0.4 : R)
  let v18 : Vec3 R := v9
  let v19 : Vec3 R := (Vec3.moved (Vec3.moved v18 Coord.Z ((v2 * v3) * (2.0 : R))) v4 ((v2 * v3) * (2.0 : R)))
  let v20 : R := (0.4 : R)
  let v21 : R := v14
  let o22 := (AABB3.intersectsLine (fltMax : R) v6 (⟨(Vec3.moved v18 v5 v3), (Vec3.moved v19 v5 v3)⟩ : Line3 R))
  bad := ck bad 969 (decide (o22.isSome = false))
  let o23 := (AABB3.intersectsLine (fltMax : R) v6 (⟨(Vec3.moved v18 v5 (-v3)), (Vec3.moved v19 v5 (-v3))⟩ : Line3 R))
  bad := ck bad 970 (decide (o23.isSome = false))
  return bad
end Aabb3_332
#guard passes Aabb3_332.run

namespace Aabb3_333
abbrev R := Float32
def run : Res (List Nat) := do
  let mut bad : List Nat := []
  let v1 : R := (0.001 : R)
  let v2 : R := (-(1.0 : R))
  let v3 : R := (v1 * (5.0 : R))
  let v4 : Coord := (next3D Coord.X)
  let v5 : Coord := (next3D v4)
  let v6 : AABB3 R := (⟨(⟨(-v1), (-v1), (-v1)⟩ : Vec3 R), (⟨v1, v1, v1⟩ : Vec3 R)⟩ : AABB3 R)
  let v7 : Vec3 R := (Vec3.moved (Vec3.moved (Vec3.zero : Vec3 R) Coord.X (if (decide (v2 > (0.0 : R))) then (-v3) else v3)) v4 (if (decide (v2 > (0.0 : R))) then (-v3) else v3))
  let v8 : Vec3 R := v7
  let v9 : Vec3 R := (Vec3.moved v7 Coord.X (v2 * v1))
  let v10 : Vec3 R := (Vec3.moved v7 Coord.X ((v2 * v1) * (2 : R)))
  let v11 : Vec3 R := (Vec3.moved v7 v4 (v2 * v1))
  let v12 : Vec3 R := (Vec3.moved v7 v4 ((v2 * v1) * (2 : R)))
  let v13 : R := (0.6 : R)
  let v14 : R := (0.5 : R)
  let v15 : R := (0.4 : R)
  let v16 : R := (0.5 : R)
  let v17 : R := (0.4 : R)
  let v18 : Vec3 R := v12
  let v19 : Vec3 R := (Vec3.moved (Vec3.moved v18 Coord.X ((v2 * v3) * (2.0 : R))) v4 ((v2 * v3) * (2.0 : R)))
  let v20 : R := (0.4 : R)
  let v21 : R := v17
  let o22 := (AABB3.intersectsLine (fltMax : R) v6 (⟨(Vec3.moved v18 v5 v3), (Vec3.moved v19 v5 v3)⟩ : Line3 R))
  bad := ck bad 969 (decide (o22.isSome = false))
  let o23 := (AABB3.intersectsLine (fltMax : R) v6 (⟨(Vec3.moved v18 v5 (-v3)), (Vec3.moved v19 v5 (-v3))⟩ : Line3 R))
  bad := ck bad 970 (decide (o23.isSome = false))
  return bad
end Aabb3_333
#guard passes Aabb3_333.run

namespace Aabb3_334
abbrev R := Float32
def run : Res (List Nat) := do
  let mut bad : List Nat := []
  let v1 : R := (0.001 : R)
  let v2 : R := (1.0 : R)
  let v3 : R := (v1 * (5.0 : R))
  let v4 : Coord := (next3D Coord.Z)
  let v5 : Coord := (next3D v4)
  let v6 : AABB3 R := (⟨(⟨(-v1), (-v1), (-v1)⟩ : Vec3 R), (⟨v1, v1, v1⟩ : Vec3 R)⟩ : AABB3 R)
  let v7 : Vec3 R := (Vec3.moved (Vec3.moved (Vec3.zero : Vec3 R) Coord.Z (if (decide (v2 > (0.0 : R))) then (-v3) else v3)) v4 (if (decide (v2 > (0.0 : R))) then (-v3) else v3))
  let v8 : Vec3 R := v7
  let v9 : Vec3 R := (Vec3.moved v7 Coord.Z (v2 * v1))
  let v10 : Vec3 R := (Vec3.moved v7 Coord.Z ((v2 * v1) * (2 : R)))
  let v11 : Vec3 R := (Vec3.moved v7 v4 (v2 * v1))
  let v12 : Vec3 R := (Vec3.moved v7 v4 ((v2 * v1) * (2 : R)))
  let v13 : R := (0.6 : R)
  let v14 : R := (0.5 : R)
  let v15 : R := (0.4 : R)
  let v16 : R := (0.5 : R)
  let v17 : R := (0.4 : R)
  let v18 : Vec3 R := v10
  let v19 : Vec3 R := (Vec3.moved (Vec3.moved v18 Coord.Z ((v2 * v3) * (2.0 : R))) v4 ((v2 * v3) * (2.0 : R)))
  let v20 : R := (0.4 : R)
  let v21 : R := v15
  let o22 := (AABB3.intersectsLine (fltMax : R) v6 (⟨(Vec3.moved v18 v5 v3), (Vec3.moved v19 v5 v3)⟩ : Line3 R))
  bad := ck bad 969 (decide (o22.isSome = false))
  let o23 := (AABB3.intersectsLine (fltMax : R) v6 (⟨(Vec3.moved v18 v5 (-v3)), (Vec3.moved v19 v5 (-v3))⟩ : Line3 R))
  bad := ck bad 970 (decide (o23.isSome = false))
  return bad
end Aabb3_334
#guard passes Aabb3_334.run

namespace Aabb3_335
abbrev R := Float32
def run : Res (List Nat) := do
  let mut bad : List Nat := []
  let v1 : R := (1000.0 : R)
  let v2 : R := (-(1.0 : R))
  let v3 : R := (v1 * (5.0 : R))
  let v4 : Coord := (next3D Coord.X)
  let v5 : Coord := (next3D v4)
  let v6 : AABB3 R := (⟨(⟨(-v1), (-v1), (-v1)⟩ : Vec3 R), (⟨v1, v1, v1⟩ : Vec3 R)⟩ : AABB3 R)
  let v7 : Vec3 R := (Vec3.moved (Vec3.moved (Vec3.zero : Vec3 R) Coord.X (if (decide (v2 > (0.0 : R))) then (-v3) else v3)) v4 (if (decide (v2 > (0.0 : R))) then (-v3) else v3))
  let v8 : Vec3 R := v7
  let v9 : Vec3 R := (Vec3.moved v7 Coord.X (v2 * v1))
  let v10 : Vec3 R := (Vec3.moved v7 Coord.X ((v2 * v1) * (2 : R)))
  let v11 : Vec3 R := (Vec3.moved v7 v4 (v2 * v1))
  let v12 : Vec3 R := (Vec3.moved v7 v4 ((v2 * v1) * (2 : R)))
  let v13 : R := (0.6 : R)
  let v14 : R := (0.5 : R)
  let v15 : R := (0.4 : R)
  let v16 : R := (0.5 : R)
  let v17 : R := (0.4 : R)
  let v18 : Vec3 R := v8
  let v19 : Vec3 R := (Vec3.moved (Vec3.moved v18 Coord.X ((v2 * v3) * (2.0 : R))) v4 ((v2 * v3) * (2.0 : R)))
  let v20 : R := (0.4 : R)
  let v21 : R := v13
  let o22 := (AABB3.intersectsLine (fltMax : R) v6 (⟨(Vec3.moved v18 v5 v3), (Vec3.moved v19 v5 v3)⟩ : Line3 R))
  bad := ck bad 969 (decide (o22.isSome = false))
  let o23 := (AABB3.intersectsLine (fltMax : R) v6 (⟨(Vec3.moved v18 v5 (-v3)), (Vec3.moved v19 v5 (-v3))⟩ : Line3 R))
  bad := ck bad 970 (decide (o23.isSome = false))
  return bad
end Aabb3_335
#guard passes Aabb3_335.run

namespace Aabb3_336
abbrev R := Float32
def run : Res (List Nat) := do
  let mut bad : List Nat := []
  let v1 : R := (1000.0 : R)
  let v2 : R := (-(1.0 : R))
  let v3 : R := (v1 * (5.0 : R))
  let v4 : Coord := (next3D Coord.Y)
  let v5 : Coord := (next3D v4)
  let v6 : AABB3 R := (⟨(⟨(-v1), (-v1), (-v1)⟩ : Vec3 R), (⟨v1, v1, v1⟩ : Vec3 R)⟩ : AABB3 R)
  let v7 : Vec3 R := (Vec3.moved (Vec3.moved (Vec3.zero : Vec3 R) Coord.Y (if (decide (v2 > (0.0 : R))) then (-v3) else v3)) v4 (if (decide (v2 > (0.0 : R))) then (-v3) else v3))
  let v8 : Vec3 R := v7
  let v9 : Vec3 R := (Vec3.moved v7 Coord.Y (v2 * v1))
  let v10 : Vec3 R := (Vec3.moved v7 Coord.Y ((v2 * v1) * (2 : R)))
  let v11 : Vec3 R := (Vec3.moved v7 v4 (v2 * v1))
  let v12 : Vec3 R := (Vec3.moved v7 v4 ((v2 * v1) * (2 : R)))
  let v13 : R := (0.6 : R)
  let v14 : R := (0.5 : R)
  let v15 : R := (0.4 : R)
  let v16 : R := (0.5 : R)
  let v17 : R := (0.4 : R)
  let v18 : Vec3 R := v11
  let v19 : Vec3 R := (Vec3.moved (Vec3.moved v18 Coord.Y ((v2 * v3) * (2.0 : R))) v4 ((v2 * v3) * (2.0 : R)))
  let v20 : R := (0.4 : R)
  let v21 : R := v16
  let o22 := (AABB3.intersectsLine (fltMax : R) v6 (⟨(Vec3.moved v18 v5 v3), (Vec3.moved v19 v5 v3)⟩ : Line3 R))
  bad := ck bad 969 (decide (o22.isSome = false))
  let o23 := (AABB3.intersectsLine (fltMax : R) v6 (⟨(Vec3.moved v18 v5 (-v3)), (Vec3.moved v19 v5 (-v3))⟩ : Line3 R))
  bad := ck bad 970 (decide (o23.isSome = false))
  return bad
end Aabb3_336
#guard passes Aabb3_336.run

namespace Aabb3_337
abbrev R := Float32
def run : Res (List Nat) := do
  let mut bad : List Nat := []
  bad := ck bad 984 (Near.near (0.001 : R) (constAABB3One : AABB3 R) (constAABB3One : AABB3 R))
  return bad
end Aabb3_337
#guard passes Aabb3_337.run

end MathLib.Conformance
