import Verif.Conformance.Base

/-!
# Unit tests of `tests/tests/src/test_aabb2.cpp`, replayed on the model

Generated by `tools/conform.py`; the numbers are the source lines of the checks.  194 checks;
20 checks of that file are not translated (casts, random draws, `sizeof`, `data()`, and
functions outside the model).
-/

namespace MathLib.Conformance
set_option linter.all false

namespace Aabb2_0
abbrev R := Float32
def run : Res (List Nat) := do
  let mut bad : List Nat := []
  bad := ck bad 19 ((Vec2.zero : Vec2 R).x == (0.0 : R))
  bad := ck bad 20 ((Vec2.zero : Vec2 R).y == (0.0 : R))
  return bad
end Aabb2_0
#guard passes Aabb2_0.run

namespace Aabb2_1
abbrev R := Float32
def run : Res (List Nat) := do
  let mut bad : List Nat := []
  bad := ck bad 25 ((constAABB2One : AABB2 R).inf.x == (-(0.5 : R)))
  bad := ck bad 26 ((constAABB2One : AABB2 R).inf.y == (-(0.5 : R)))
  bad := ck bad 27 ((constAABB2One : AABB2 R).sup.x == (0.5 : R))
  bad := ck bad 28 ((constAABB2One : AABB2 R).sup.y == (0.5 : R))
  return bad
end Aabb2_1
#guard passes Aabb2_1.run

namespace Aabb2_2
abbrev R := Float32
def run : Res (List Nat) := do
  let mut bad : List Nat := []
  let v1 : AABB2 R := (⟨(Vec2.zero : Vec2 R), (⟨(1 : R), (2 : R)⟩ : Vec2 R)⟩ : AABB2 R)
  bad := ck bad 42 (Vec2.eq v1.inf (Vec2.zero : Vec2 R))
  bad := ck bad 43 (Vec2.eq v1.sup (⟨(1 : R), (2 : R)⟩ : Vec2 R))
  return bad
end Aabb2_2
#guard passes Aabb2_2.run

namespace Aabb2_3
abbrev R := Float32
def run : Res (List Nat) := do
  let mut bad : List Nat := []
  let v1 : AABB2 R := (AABB2.ofPoint (⟨(1 : R), (2 : R)⟩ : Vec2 R))
  bad := ck bad 52 (Vec2.eq v1.inf (⟨(1 : R), (2 : R)⟩ : Vec2 R))
  bad := ck bad 53 (Vec2.eq v1.sup (⟨(1 : R), (2 : R)⟩ : Vec2 R))
  return bad
end Aabb2_3
#guard passes Aabb2_3.run

namespace Aabb2_4
abbrev R := Float32
def run : Res (List Nat) := do
  let mut bad : List Nat := []
  let v1 : AABB2 R := (⟨(Vec2.zero : Vec2 R), (⟨(1 : R), (2 : R)⟩ : Vec2 R)⟩ : AABB2 R)
  bad := ck bad 60 (Vec2.eq v1.inf (Vec2.zero : Vec2 R))
  bad := ck bad 61 (Vec2.eq v1.sup (⟨(1 : R), (2 : R)⟩ : Vec2 R))
  return bad
end Aabb2_4
#guard passes Aabb2_4.run

namespace Aabb2_5
abbrev R := Float32
def run : Res (List Nat) := do
  let mut bad : List Nat := []
  let v1 : AABB2 R := (AABB2.ofCBox (CAABB2.ofCenterSize (Vec2.zero : Vec2 R) (⟨(1 : R), (2 : R)⟩ : Vec2 R)))
  bad := ck bad 68 (Vec2.eq v1.inf (⟨(-(0.5 : R)), (-(1.0 : R))⟩ : Vec2 R))
  bad := ck bad 69 (Vec2.eq v1.sup (⟨(0.5 : R), (1.0 : R)⟩ : Vec2 R))
  return bad
end Aabb2_5
#guard passes Aabb2_5.run

namespace Aabb2_6
abbrev R := Float32
def run : Res (List Nat) := do
  let mut bad : List Nat := []
  let v1 : AABB2 R := (AABB2.ofPoint (Vec2.zero : Vec2 R))
  let v2 : AABB2 R := (AABB2.add v1 (⟨(1 : R), (1 : R)⟩ : Vec2 R))
  let v3 : AABB2 R := (AABB2.add v2 (⟨(-1 : R), (-1 : R)⟩ : Vec2 R))
  let v4 : AABB2 R := (AABB2.add v3 (Vec2.zero : Vec2 R))
  bad := ck bad 114 (Vec2.eq v4.inf (⟨(-1 : R), (-1 : R)⟩ : Vec2 R))
  bad := ck bad 115 (Vec2.eq v4.sup (⟨(1 : R), (1 : R)⟩ : Vec2 R))
  return bad
end Aabb2_6
#guard passes Aabb2_6.run

namespace Aabb2_7
abbrev R := Float32
def run : Res (List Nat) := do
  let mut bad : List Nat := []
  let v1 : AABB2 R := (AABB2.ofPoint (⟨(1 : R), (2 : R)⟩ : Vec2 R))
  bad := ck bad 123 (Vec2.eq v1.inf (⟨(1 : R), (2 : R)⟩ : Vec2 R))
  bad := ck bad 124 (Vec2.eq v1.sup (⟨(1 : R), (2 : R)⟩ : Vec2 R))
  return bad
end Aabb2_7
#guard passes Aabb2_7.run

namespace Aabb2_8
abbrev R := Float32
def run : Res (List Nat) := do
  let mut bad : List Nat := []
  let v1 : AABB2 R := (⟨(Vec2.zero : Vec2 R), (⟨(1 : R), (2 : R)⟩ : Vec2 R)⟩ : AABB2 R)
  bad := ck bad 130 (Vec2.eq v1.inf (Vec2.zero : Vec2 R))
  bad := ck bad 131 (Vec2.eq v1.sup (⟨(1 : R), (2 : R)⟩ : Vec2 R))
  return bad
end Aabb2_8
#guard passes Aabb2_8.run

namespace Aabb2_9
abbrev R := Float32
def run : Res (List Nat) := do
  let mut bad : List Nat := []
  let v1 : AABB2 R := (AABB2.ofCBox (CAABB2.ofCenterSize (Vec2.zero : Vec2 R) (⟨(1 : R), (2 : R)⟩ : Vec2 R)))
  bad := ck bad 137 (Vec2.eq v1.inf (⟨(-(0.5 : R)), (-(1.0 : R))⟩ : Vec2 R))
  bad := ck bad 138 (Vec2.eq v1.sup (⟨(0.5 : R), (1.0 : R)⟩ : Vec2 R))
  return bad
end Aabb2_9
#guard passes Aabb2_9.run

namespace Aabb2_10
abbrev R := Float32
def run : Res (List Nat) := do
  let mut bad : List Nat := []
  bad := ck bad 176 (AABB2.eq (AABB2.fromIntersection (constAABB2Zero : AABB2 R) (constAABB2Zero : AABB2 R)) (constAABB2Zero : AABB2 R))
  bad := ck bad 177 (AABB2.eq (AABB2.fromIntersection (constAABB2One : AABB2 R) (constAABB2One : AABB2 R)) (constAABB2One : AABB2 R))
  bad := ck bad 178 (AABB2.eq (AABB2.fromIntersection (AABB2.scaleCentered (constAABB2One : AABB2 R) (2.0 : R)) (constAABB2One : AABB2 R)) (constAABB2One : AABB2 R))
  bad := ck bad 179 (AABB2.eq (AABB2.fromIntersection (constAABB2One : AABB2 R) (AABB2.scaleCentered (constAABB2One : AABB2 R) (2.0 : R))) (constAABB2One : AABB2 R))
  bad := ck bad 181 (AABB2.eq (AABB2.fromIntersection (constAABB2One : AABB2 R) (AABB2.translate (constAABB2One : AABB2 R) (⟨(0.5 : R), (0.5 : R)⟩ : Vec2 R))) (⟨(⟨(0.0 : R), (0.0 : R)⟩ : Vec2 R), (⟨(0.5 : R), (0.5 : R)⟩ : Vec2 R)⟩ : AABB2 R))
  bad := ck bad 184 (AABB2.eq (AABB2.fromIntersection (constAABB2One : AABB2 R) (AABB2.translate (constAABB2One : AABB2 R) (⟨(1.0 : R), (1.0 : R)⟩ : Vec2 R))) (⟨(⟨(0.5 : R), (0.5 : R)⟩ : Vec2 R), (⟨(0.5 : R), (0.5 : R)⟩ : Vec2 R)⟩ : AABB2 R))
  let v1 : AABB2 R := (constAABB2One : AABB2 R)
  let v2 : AABB2 R := (AABB2.scaleCentered (constAABB2One : AABB2 R) (0.1 : R))
  bad := ck bad 190 (AABB2.eq (AABB2.fromIntersection v1 (AABB2.translate v2 (⟨(0.56 : R), (0.56 : R)⟩ : Vec2 R))) (constAABB2Zero : AABB2 R))
  bad := ck bad 191 (AABB2.eq (AABB2.fromIntersection v1 (AABB2.translate v2 (⟨(0.56 : R), (-(0.56 : R))⟩ : Vec2 R))) (constAABB2Zero : AABB2 R))
  bad := ck bad 192 (AABB2.eq (AABB2.fromIntersection v1 (AABB2.translate v2 (⟨(-(0.56 : R)), (-(0.56 : R))⟩ : Vec2 R))) (constAABB2Zero : AABB2 R))
  bad := ck bad 193 (AABB2.eq (AABB2.fromIntersection v1 (AABB2.translate v2 (⟨(-(0.56 : R)), (0.56 : R)⟩ : Vec2 R))) (constAABB2Zero : AABB2 R))
  bad := ck bad 194 (AABB2.eq (AABB2.fromIntersection v1 (AABB2.translate v2 (⟨(0.56 : R), (0.56 : R)⟩ : Vec2 R))) (constAABB2Zero : AABB2 R))
  bad := ck bad 195 (AABB2.eq (AABB2.fromIntersection v1 (AABB2.translate v2 (⟨(0.56 : R), (-(0.56 : R))⟩ : Vec2 R))) (constAABB2Zero : AABB2 R))
  bad := ck bad 196 (AABB2.eq (AABB2.fromIntersection v1 (AABB2.translate v2 (⟨(-(0.56 : R)), (-(0.56 : R))⟩ : Vec2 R))) (constAABB2Zero : AABB2 R))
  bad := ck bad 197 (AABB2.eq (AABB2.fromIntersection v1 (AABB2.translate v2 (⟨(-(0.56 : R)), (0.56 : R)⟩ : Vec2 R))) (constAABB2Zero : AABB2 R))
  return bad
end Aabb2_10
#guard passes Aabb2_10.run

namespace Aabb2_11
abbrev R := Float32
def run : Res (List Nat) := do
  let mut bad : List Nat := []
  bad := ck bad 202 (AABB2.eq (AABB2.fromUnion (constAABB2Zero : AABB2 R) (constAABB2Zero : AABB2 R)) (constAABB2Zero : AABB2 R))
  bad := ck bad 203 (AABB2.eq (AABB2.fromUnion (constAABB2One : AABB2 R) (constAABB2One : AABB2 R)) (constAABB2One : AABB2 R))
  bad := ck bad 204 (AABB2.eq (AABB2.fromUnion (AABB2.scaleCentered (constAABB2One : AABB2 R) (2.0 : R)) (constAABB2One : AABB2 R)) (AABB2.scaleCentered (constAABB2One : AABB2 R) (2.0 : R)))
  bad := ck bad 205 (AABB2.eq (AABB2.fromUnion (constAABB2One : AABB2 R) (AABB2.scaleCentered (constAABB2One : AABB2 R) (2.0 : R))) (AABB2.scaleCentered (constAABB2One : AABB2 R) (2.0 : R)))
  return bad
end Aabb2_11
#guard passes Aabb2_11.run

namespace Aabb2_12
abbrev R := Float32
def run : Res (List Nat) := do
  let mut bad : List Nat := []
  let v1 : AABB2 R := (constAABB2One : AABB2 R)
  let v2 : AABB2 R := (AABB2.translate v1 (⟨(1 : R), (2 : R)⟩ : Vec2 R))
  bad := ck bad 214 (Vec2.eq v2.inf (⟨(0.5 : R), (1.5 : R)⟩ : Vec2 R))
  bad := ck bad 215 (Vec2.eq v2.sup (⟨(1.5 : R), (2.5 : R)⟩ : Vec2 R))
  return bad
end Aabb2_12
#guard passes Aabb2_12.run

namespace Aabb2_13
abbrev R := Float32
def run : Res (List Nat) := do
  let mut bad : List Nat := []
  let v1 : AABB2 R := (constAABB2One : AABB2 R)
  let v2 : AABB2 R := (AABB2.translateNeg v1 (⟨(1 : R), (2 : R)⟩ : Vec2 R))
  bad := ck bad 222 (Vec2.eq v2.inf (⟨(-(1.5 : R)), (-(2.5 : R))⟩ : Vec2 R))
  bad := ck bad 223 (Vec2.eq v2.sup (⟨(-(0.5 : R)), (-(1.5 : R))⟩ : Vec2 R))
  return bad
end Aabb2_13
#guard passes Aabb2_13.run

namespace Aabb2_14
abbrev R := Float32
def run : Res (List Nat) := do
  let mut bad : List Nat := []
  let v1 : AABB2 R := (constAABB2One : AABB2 R)
  let v2 : AABB2 R := (AABB2.scaleCentered v1 (2.0 : R))
  bad := ck bad 230 (Vec2.eq v2.inf (⟨(-1 : R), (-1 : R)⟩ : Vec2 R))
  bad := ck bad 231 (Vec2.eq v2.sup (⟨(1 : R), (1 : R)⟩ : Vec2 R))
  return bad
end Aabb2_14
#guard passes Aabb2_14.run

namespace Aabb2_15
abbrev R := Float32
def run : Res (List Nat) := do
  let mut bad : List Nat := []
  let v1 : AABB2 R := (constAABB2One : AABB2 R)
  let v2 : AABB2 R := (← AABB2.unscale v1 (2.0 : R))
  bad := ck bad 238 (Vec2.eq v2.inf (⟨(-(0.25 : R)), (-(0.25 : R))⟩ : Vec2 R))
  bad := ck bad 239 (Vec2.eq v2.sup (⟨(0.25 : R), (0.25 : R)⟩ : Vec2 R))
  return bad
end Aabb2_15
#guard passes Aabb2_15.run

namespace Aabb2_16
abbrev R := Float32
def run : Res (List Nat) := do
  let mut bad : List Nat := []
  let v1 : AABB2 R := (⟨(Vec2.zero : Vec2 R), (⟨(1 : R), (2 : R)⟩ : Vec2 R)⟩ : AABB2 R)
  bad := ck bad 247 (AABB2.eq v1 v1)
  bad := ck bad 248 (AABB2.eq v1 (⟨(Vec2.zero : Vec2 R), (⟨(1 : R), (2 : R)⟩ : Vec2 R)⟩ : AABB2 R))
  bad := ck bad 249 (!(AABB2.eq v1 (constAABB2One : AABB2 R)))
  return bad
end Aabb2_16
#guard passes Aabb2_16.run

namespace Aabb2_17
abbrev R := Float32
def run : Res (List Nat) := do
  let mut bad : List Nat := []
  let v1 : AABB2 R := (⟨(Vec2.zero : Vec2 R), (⟨(1 : R), (2 : R)⟩ : Vec2 R)⟩ : AABB2 R)
  bad := ck bad 255 (!(AABB2.ne v1 v1))
  bad := ck bad 256 (AABB2.ne v1 (⟨(Vec2.oneX : Vec2 R), (⟨(1 : R), (2 : R)⟩ : Vec2 R)⟩ : AABB2 R))
  bad := ck bad 257 (AABB2.ne v1 (⟨(Vec2.zero : Vec2 R), (⟨(3 : R), (2 : R)⟩ : Vec2 R)⟩ : AABB2 R))
  return bad
end Aabb2_17
#guard passes Aabb2_17.run

namespace Aabb2_18
abbrev R := Float32
def run : Res (List Nat) := do
  let mut bad : List Nat := []
  let v1 : AABB2 R := (constAABB2One : AABB2 R)
  let v2 : AABB2 R := (AABB2.scaleCentered v1 (2.0 : R))
  bad := ck bad 268 (Vec2.eq v2.inf (⟨(-1 : R), (-1 : R)⟩ : Vec2 R))
  bad := ck bad 269 (Vec2.eq v2.sup (⟨(1 : R), (1 : R)⟩ : Vec2 R))
  return bad
end Aabb2_18
#guard passes Aabb2_18.run

namespace Aabb2_19
abbrev R := Float32
def run : Res (List Nat) := do
  let mut bad : List Nat := []
  let v1 : AABB2 R := (constAABB2One : AABB2 R)
  let v2 : AABB2 R := (AABB2.scaleCentered v1 (0.5 : R))
  bad := ck bad 276 (Vec2.eq v2.inf (⟨(-(0.25 : R)), (-(0.25 : R))⟩ : Vec2 R))
  bad := ck bad 277 (Vec2.eq v2.sup (⟨(0.25 : R), (0.25 : R)⟩ : Vec2 R))
  return bad
end Aabb2_19
#guard passes Aabb2_19.run

namespace Aabb2_20
abbrev R := Float32
def run : Res (List Nat) := do
  let mut bad : List Nat := []
  let v1 : AABB2 R := (constAABB2One : AABB2 R)
  bad := ck bad 288 (Near.near (1e-10 : R) (AABB2.center v1) (Vec2.zero : Vec2 R))
  return bad
end Aabb2_20
#guard passes Aabb2_20.run

namespace Aabb2_21
abbrev R := Float32
def run : Res (List Nat) := do
  let mut bad : List Nat := []
  let v1 : AABB2 R := (constAABB2One : AABB2 R)
  bad := ck bad 296 (Near.near (1e-10 : R) (AABB2.extents v1) (⟨(0.5 : R), (0.5 : R)⟩ : Vec2 R))
  return bad
end Aabb2_21
#guard passes Aabb2_21.run

namespace Aabb2_22
abbrev R := Float32
def run : Res (List Nat) := do
  let mut bad : List Nat := []
  let v1 : AABB2 R := (constAABB2One : AABB2 R)
  bad := ck bad 304 (Near.near (1e-10 : R) (AABB2.size v1) (⟨(1.0 : R), (1.0 : R)⟩ : Vec2 R))
  return bad
end Aabb2_22
#guard passes Aabb2_22.run

namespace Aabb2_23
abbrev R := Float32
def run : Res (List Nat) := do
  let mut bad : List Nat := []
  let v1 : AABB2 R := (constAABB2One : AABB2 R)
  bad := ck bad 312 (Near.near (1e-10 : R) (← AABB2.innerCircle v1) (⟨(Vec2.zero : Vec2 R), (0.5 : R)⟩ : Circle R))
  return bad
end Aabb2_23
#guard passes Aabb2_23.run

namespace Aabb2_24
abbrev R := Float32
def run : Res (List Nat) := do
  let mut bad : List Nat := []
  let v1 : AABB2 R := (constAABB2One : AABB2 R)
  bad := ck bad 320 (Near.near (1e-6 : R) (AABB2.outerCircle v1) (⟨(Vec2.zero : Vec2 R), (0.70710676908493042 : R)⟩ : Circle R))
  return bad
end Aabb2_24
#guard passes Aabb2_24.run

namespace Aabb2_25
abbrev R := Float32
def run : Res (List Nat) := do
  let mut bad : List Nat := []
  let v1 : AABB2 R := (constAABB2One : AABB2 R)
  bad := ck bad 328 (Near.near (1e-10 : R) (AABB2.area v1) (1.0 : R))
  let v2 : AABB2 R := (⟨(Vec2.zero : Vec2 R), (⟨(2 : R), (2 : R)⟩ : Vec2 R)⟩ : AABB2 R)
  bad := ck bad 330 (Near.near (1e-10 : R) (AABB2.area v2) (4.0 : R))
  let v3 : AABB2 R := (⟨(Vec2.zero : Vec2 R), (⟨(1 : R), (2 : R)⟩ : Vec2 R)⟩ : AABB2 R)
  bad := ck bad 332 (Near.near (1e-10 : R) (AABB2.area v3) (2.0 : R))
  return bad
end Aabb2_25
#guard passes Aabb2_25.run

namespace Aabb2_26
abbrev R := Float32
def run : Res (List Nat) := do
  let mut bad : List Nat := []
  let v1 : AABB2 R := (constAABB2One : AABB2 R)
  bad := ck bad 340 (!(AABB2.isNull v1))
  let v2 : AABB2 R := (⟨(Vec2.zero : Vec2 R), (Vec2.zero : Vec2 R)⟩ : AABB2 R)
  bad := ck bad 342 (AABB2.isNull v2)
  return bad
end Aabb2_26
#guard passes Aabb2_26.run

namespace Aabb2_27
abbrev R := Float32
def run : Res (List Nat) := do
  let mut bad : List Nat := []
  let v1 : AABB2 R := (constAABB2One : AABB2 R)
  bad := ck bad 351 (Near.near (1e-10 : R) (AABB2.pointAt v1 (⟨(0.5 : R), (0.5 : R)⟩ : Vec2 R)) (Vec2.zero : Vec2 R))
  bad := ck bad 353 (Near.near (1e-10 : R) (AABB2.pointAt v1 (⟨(1 : R), (1 : R)⟩ : Vec2 R)) (⟨(0.5 : R), (0.5 : R)⟩ : Vec2 R))
  bad := ck bad 354 (Near.near (1e-10 : R) (AABB2.pointAt v1 (⟨(1 : R), (0 : R)⟩ : Vec2 R)) (⟨(0.5 : R), (-(0.5 : R))⟩ : Vec2 R))
  bad := ck bad 355 (Near.near (1e-10 : R) (AABB2.pointAt v1 (⟨(0 : R), (0 : R)⟩ : Vec2 R)) (⟨(-(0.5 : R)), (-(0.5 : R))⟩ : Vec2 R))
  bad := ck bad 356 (Near.near (1e-10 : R) (AABB2.pointAt v1 (⟨(0 : R), (1 : R)⟩ : Vec2 R)) (⟨(-(0.5 : R)), (0.5 : R)⟩ : Vec2 R))
  bad := ck bad 357 (Near.near (1e-10 : R) (AABB2.pointAt v1 (⟨(1 : R), (1 : R)⟩ : Vec2 R)) (⟨(0.5 : R), (0.5 : R)⟩ : Vec2 R))
  bad := ck bad 358 (Near.near (1e-10 : R) (AABB2.pointAt v1 (⟨(1 : R), (0 : R)⟩ : Vec2 R)) (⟨(0.5 : R), (-(0.5 : R))⟩ : Vec2 R))
  bad := ck bad 359 (Near.near (1e-10 : R) (AABB2.pointAt v1 (⟨(0 : R), (0 : R)⟩ : Vec2 R)) (⟨(-(0.5 : R)), (-(0.5 : R))⟩ : Vec2 R))
  bad := ck bad 360 (Near.near (1e-10 : R) (AABB2.pointAt v1 (⟨(0 : R), (1 : R)⟩ : Vec2 R)) (⟨(-(0.5 : R)), (0.5 : R)⟩ : Vec2 R))
  return bad
end Aabb2_27
#guard passes Aabb2_27.run

namespace Aabb2_28
abbrev R := Float32
def run : Res (List Nat) := do
  let mut bad : List Nat := []
  let v1 : AABB2 R := (constAABB2One : AABB2 R)
  bad := ck bad 367 (AABB2.contains v1 (Vec2.zero : Vec2 R))
  bad := ck bad 369 (AABB2.contains v1 (⟨(0.5 : R), (0.5 : R)⟩ : Vec2 R))
  bad := ck bad 370 (AABB2.contains v1 (⟨(0.5 : R), (-(0.5 : R))⟩ : Vec2 R))
  bad := ck bad 371 (AABB2.contains v1 (⟨(-(0.5 : R)), (-(0.5 : R))⟩ : Vec2 R))
  bad := ck bad 372 (AABB2.contains v1 (⟨(-(0.5 : R)), (0.5 : R)⟩ : Vec2 R))
  bad := ck bad 373 (AABB2.contains v1 (⟨(0.5 : R), (0.5 : R)⟩ : Vec2 R))
  bad := ck bad 374 (AABB2.contains v1 (⟨(0.5 : R), (-(0.5 : R))⟩ : Vec2 R))
  bad := ck bad 375 (AABB2.contains v1 (⟨(-(0.5 : R)), (-(0.5 : R))⟩ : Vec2 R))
  bad := ck bad 376 (AABB2.contains v1 (⟨(-(0.5 : R)), (0.5 : R)⟩ : Vec2 R))
  bad := ck bad 378 (!(AABB2.contains v1 (⟨(0.51 : R), (0.51 : R)⟩ : Vec2 R)))
  bad := ck bad 379 (!(AABB2.contains v1 (⟨(0.51 : R), (-(0.51 : R))⟩ : Vec2 R)))
  bad := ck bad 380 (!(AABB2.contains v1 (⟨(-(0.51 : R)), (-(0.51 : R))⟩ : Vec2 R)))
  bad := ck bad 381 (!(AABB2.contains v1 (⟨(-(0.51 : R)), (0.51 : R)⟩ : Vec2 R)))
  bad := ck bad 382 (!(AABB2.contains v1 (⟨(0.51 : R), (0.51 : R)⟩ : Vec2 R)))
  bad := ck bad 383 (!(AABB2.contains v1 (⟨(0.51 : R), (-(0.51 : R))⟩ : Vec2 R)))
  bad := ck bad 384 (!(AABB2.contains v1 (⟨(-(0.51 : R)), (-(0.51 : R))⟩ : Vec2 R)))
  bad := ck bad 385 (!(AABB2.contains v1 (⟨(-(0.51 : R)), (0.51 : R)⟩ : Vec2 R)))
  return bad
end Aabb2_28
#guard passes Aabb2_28.run

namespace Aabb2_29
abbrev R := Float32
def run : Res (List Nat) := do
  let mut bad : List Nat := []
  let v1 : AABB2 R := (constAABB2One : AABB2 R)
  let v2 : AABB2 R := (AABB2.scaleCentered (constAABB2One : AABB2 R) (0.1 : R))
  bad := ck bad 393 (AABB2.containsBox v1 v2)
  bad := ck bad 395 (AABB2.containsBox v1 (AABB2.translate v2 (⟨(0.45 : R), (0.45 : R)⟩ : Vec2 R)))
  bad := ck bad 396 (AABB2.containsBox v1 (AABB2.translate v2 (⟨(0.45 : R), (-(0.45 : R))⟩ : Vec2 R)))
  bad := ck bad 397 (AABB2.containsBox v1 (AABB2.translate v2 (⟨(-(0.45 : R)), (-(0.45 : R))⟩ : Vec2 R)))
  bad := ck bad 398 (AABB2.containsBox v1 (AABB2.translate v2 (⟨(-(0.45 : R)), (0.45 : R)⟩ : Vec2 R)))
  bad := ck bad 399 (AABB2.containsBox v1 (AABB2.translate v2 (⟨(0.45 : R), (0.45 : R)⟩ : Vec2 R)))
  bad := ck bad 400 (AABB2.containsBox v1 (AABB2.translate v2 (⟨(0.45 : R), (-(0.45 : R))⟩ : Vec2 R)))
  bad := ck bad 401 (AABB2.containsBox v1 (AABB2.translate v2 (⟨(-(0.45 : R)), (-(0.45 : R))⟩ : Vec2 R)))
  bad := ck bad 402 (AABB2.containsBox v1 (AABB2.translate v2 (⟨(-(0.45 : R)), (0.45 : R)⟩ : Vec2 R)))
  bad := ck bad 404 (!(AABB2.containsBox v1 (AABB2.translate v2 (⟨(0.46 : R), (0.46 : R)⟩ : Vec2 R))))
  bad := ck bad 405 (!(AABB2.containsBox v1 (AABB2.translate v2 (⟨(0.46 : R), (-(0.46 : R))⟩ : Vec2 R))))
  bad := ck bad 406 (!(AABB2.containsBox v1 (AABB2.translate v2 (⟨(-(0.46 : R)), (-(0.46 : R))⟩ : Vec2 R))))
  bad := ck bad 407 (!(AABB2.containsBox v1 (AABB2.translate v2 (⟨(-(0.46 : R)), (0.46 : R)⟩ : Vec2 R))))
  bad := ck bad 408 (!(AABB2.containsBox v1 (AABB2.translate v2 (⟨(0.46 : R), (0.46 : R)⟩ : Vec2 R))))
  bad := ck bad 409 (!(AABB2.containsBox v1 (AABB2.translate v2 (⟨(0.46 : R), (-(0.46 : R))⟩ : Vec2 R))))
  bad := ck bad 410 (!(AABB2.containsBox v1 (AABB2.translate v2 (⟨(-(0.46 : R)), (-(0.46 : R))⟩ : Vec2 R))))
  bad := ck bad 411 (!(AABB2.containsBox v1 (AABB2.translate v2 (⟨(-(0.46 : R)), (0.46 : R)⟩ : Vec2 R))))
  return bad
end Aabb2_29
#guard passes Aabb2_29.run

namespace Aabb2_30
abbrev R := Float32
def run : Res (List Nat) := do
  let mut bad : List Nat := []
  let v1 : R := (1.0 : R)
  let v2 : R := (1.0 : R)
  let v3 : R := (v1 * (5.0 : R))
  let v4 : Coord := (next2D Coord.X)
  let v5 : AABB2 R := (⟨(⟨(-v1), (-v1)⟩ : Vec2 R), (⟨v1, v1⟩ : Vec2 R)⟩ : AABB2 R)
  let v6 : R := (v3 - v1)
  let v7 : Vec2 R := (Vec2.moved (Vec2.zero : Vec2 R) Coord.X (if (decide (v2 > (0.0 : R))) then (-v3) else v3))
  let v8 : Vec2 R := (Vec2.moved (Vec2.zero : Vec2 R) Coord.X v2)
  let o9 := (AABB2.hitsRay v5 (Ray2.from v7 v8))
  bad := ck bad 435 (decide (o9.isSome = true))
  bad := ck bad 436 ((o9.getD (0)) == v6)
  return bad
end Aabb2_30
#guard passes Aabb2_30.run

namespace Aabb2_31
abbrev R := Float32
def run : Res (List Nat) := do
  let mut bad : List Nat := []
  let v1 : R := (1.0 : R)
  let v2 : R := (1.0 : R)
  let v3 : R := (v1 * (5.0 : R))
  let v4 : Coord := (next2D Coord.Y)
  let v5 : AABB2 R := (⟨(⟨(-v1), (-v1)⟩ : Vec2 R), (⟨v1, v1⟩ : Vec2 R)⟩ : AABB2 R)
  let v6 : R := (v3 - v1)
  let v7 : Vec2 R := (Vec2.moved (Vec2.zero : Vec2 R) Coord.Y (if (decide (v2 > (0.0 : R))) then (-v3) else v3))
  let v8 : Vec2 R := (Vec2.moved (Vec2.zero : Vec2 R) Coord.Y v2)
  let o9 := (AABB2.hitsRay v5 (Ray2.from v7 v8))
  bad := ck bad 435 (decide (o9.isSome = true))
  bad := ck bad 436 ((o9.getD (0)) == v6)
  return bad
end Aabb2_31
#guard passes Aabb2_31.run

namespace Aabb2_32
abbrev R := Float32
def run : Res (List Nat) := do
  let mut bad : List Nat := []
  let v1 : R := (0.001 : R)
  let v2 : R := (1.0 : R)
  let v3 : R := (v1 * (5.0 : R))
  let v4 : Coord := (next2D Coord.X)
  let v5 : AABB2 R := (⟨(⟨(-v1), (-v1)⟩ : Vec2 R), (⟨v1, v1⟩ : Vec2 R)⟩ : AABB2 R)
  let v6 : R := (v3 - v1)
  let v7 : Vec2 R := (Vec2.moved (Vec2.zero : Vec2 R) Coord.X (if (decide (v2 > (0.0 : R))) then (-v3) else v3))
  let v8 : Vec2 R := (Vec2.moved (Vec2.zero : Vec2 R) Coord.X v2)
  let o9 := (AABB2.hitsRay v5 (Ray2.from v7 v8))
  bad := ck bad 435 (decide (o9.isSome = true))
  bad := ck bad 436 ((o9.getD (0)) == v6)
  return bad
end Aabb2_32
#guard passes Aabb2_32.run

namespace Aabb2_33
abbrev R := Float32
def run : Res (List Nat) := do
  let mut bad : List Nat := []
  let v1 : R := (0.001 : R)
  let v2 : R := (1.0 : R)
  let v3 : R := (v1 * (5.0 : R))
  let v4 : Coord := (next2D Coord.Y)
  let v5 : AABB2 R := (⟨(⟨(-v1), (-v1)⟩ : Vec2 R), (⟨v1, v1⟩ : Vec2 R)⟩ : AABB2 R)
  let v6 : R := (v3 - v1)
  let v7 : Vec2 R := (Vec2.moved (Vec2.zero : Vec2 R) Coord.Y (if (decide (v2 > (0.0 : R))) then (-v3) else v3))
  let v8 : Vec2 R := (Vec2.moved (Vec2.zero : Vec2 R) Coord.Y v2)
  let o9 := (AABB2.hitsRay v5 (Ray2.from v7 v8))
  bad := ck bad 435 (decide (o9.isSome = true))
  bad := ck bad 436 ((o9.getD (0)) == v6)
  return bad
end Aabb2_33
#guard passes Aabb2_33.run

namespace Aabb2_34
abbrev R := Float32
def run : Res (List Nat) := do
  let mut bad : List Nat := []
  let v1 : R := (1000.0 : R)
  let v2 : R := (1.0 : R)
  let v3 : R := (v1 * (5.0 : R))
  let v4 : Coord := (next2D Coord.X)
  let v5 : AABB2 R := (⟨(⟨(-v1), (-v1)⟩ : Vec2 R), (⟨v1, v1⟩ : Vec2 R)⟩ : AABB2 R)
  let v6 : R := (v3 - v1)
  let v7 : Vec2 R := (Vec2.moved (Vec2.zero : Vec2 R) Coord.X (if (decide (v2 > (0.0 : R))) then (-v3) else v3))
  let v8 : Vec2 R := (Vec2.moved (Vec2.zero : Vec2 R) Coord.X v2)
  let o9 := (AABB2.hitsRay v5 (Ray2.from v7 v8))
  bad := ck bad 435 (decide (o9.isSome = true))
  bad := ck bad 436 ((o9.getD (0)) == v6)
  return bad
end Aabb2_34
#guard passes Aabb2_34.run

namespace Aabb2_35
abbrev R := Float32
def run : Res (List Nat) := do
  let mut bad : List Nat := []
  let v1 : R := (1000.0 : R)
  let v2 : R := (1.0 : R)
  let v3 : R := (v1 * (5.0 : R))
  let v4 : Coord := (next2D Coord.Y)
  let v5 : AABB2 R := (⟨(⟨(-v1), (-v1)⟩ : Vec2 R), (⟨v1, v1⟩ : Vec2 R)⟩ : AABB2 R)
  let v6 : R := (v3 - v1)
  let v7 : Vec2 R := (Vec2.moved (Vec2.zero : Vec2 R) Coord.Y (if (decide (v2 > (0.0 : R))) then (-v3) else v3))
  let v8 : Vec2 R := (Vec2.moved (Vec2.zero : Vec2 R) Coord.Y v2)
  let o9 := (AABB2.hitsRay v5 (Ray2.from v7 v8))
  bad := ck bad 435 (decide (o9.isSome = true))
  bad := ck bad 436 ((o9.getD (0)) == v6)
  return bad
end Aabb2_35
#guard passes Aabb2_35.run

namespace Aabb2_36
abbrev R := Float32
def run : Res (List Nat) := do
  let mut bad : List Nat := []
  let v1 : R := (1.0 : R)
  let v2 : R := (1.0 : R)
  let v3 : R := (v1 * (5.0 : R))
  let v4 : Coord := (next2D Coord.X)
  let v5 : AABB2 R := (⟨(⟨(-v1), (-v1)⟩ : Vec2 R), (⟨v1, v1⟩ : Vec2 R)⟩ : AABB2 R)
  let v6 : R := (v3 - v1)
  let v7 : Vec2 R := (Vec2.moved (Vec2.zero : Vec2 R) Coord.X (if (decide (v2 > (0.0 : R))) then (-v3) else v3))
  let v8 : Vec2 R := (Vec2.moved (Vec2.zero : Vec2 R) Coord.X v2)
  let o9 := (AABB2.hitsRay v5 (Ray2.from (Vec2.moved v7 v4 v3) v8))
  bad := ck bad 440 (decide (o9.isSome = false))
  let o10 := (AABB2.hitsRay v5 (Ray2.from (Vec2.moved v7 v4 (-v3)) v8))
  bad := ck bad 441 (decide (o10.isSome = false))
  return bad
end Aabb2_36
#guard passes Aabb2_36.run

namespace Aabb2_37
abbrev R := Float32
def run : Res (List Nat) := do
  let mut bad : List Nat := []
  let v1 : R := (1.0 : R)
  let v2 : R := (1.0 : R)
  let v3 : R := (v1 * (5.0 : R))
  let v4 : Coord := (next2D Coord.Y)
  let v5 : AABB2 R := (⟨(⟨(-v1), (-v1)⟩ : Vec2 R), (⟨v1, v1⟩ : Vec2 R)⟩ : AABB2 R)
  let v6 : R := (v3 - v1)
  let v7 : Vec2 R := (Vec2.moved (Vec2.zero : Vec2 R) Coord.Y (if (decide (v2 > (0.0 : R))) then (-v3) else v3))
  let v8 : Vec2 R := (Vec2.moved (Vec2.zero : Vec2 R) Coord.Y v2)
  let o9 := (AABB2.hitsRay v5 (Ray2.from (Vec2.moved v7 v4 v3) v8))
  bad := ck bad 440 (decide (o9.isSome = false))
  let o10 := (AABB2.hitsRay v5 (Ray2.from (Vec2.moved v7 v4 (-v3)) v8))
  bad := ck bad 441 (decide (o10.isSome = false))
  return bad
end Aabb2_37
#guard passes Aabb2_37.run

namespace Aabb2_38
abbrev R := Float32
def run : Res (List Nat) := do
  let mut bad : List Nat := []
  let v1 : R := (0.001 : R)
  let v2 : R := (1.0 : R)
  let v3 : R := (v1 * (5.0 : R))
  let v4 : Coord := (next2D Coord.X)
  let v5 : AABB2 R := (⟨(⟨(-v1), (-v1)⟩ : Vec2 R), (⟨v1, v1⟩ : Vec2 R)⟩ : AABB2 R)
  let v6 : R := (v3 - v1)
  let v7 : Vec2 R := (Vec2.moved (Vec2.zero : Vec2 R) Coord.X (if (decide (v2 > (0.0 : R))) then (-v3) else v3))
  let v8 : Vec2 R := (Vec2.moved (Vec2.zero : Vec2 R) Coord.X v2)
  let o9 := (AABB2.hitsRay v5 (Ray2.from (Vec2.moved v7 v4 v3) v8))
  bad := ck bad 440 (decide (o9.isSome = false))
  let o10 := (AABB2.hitsRay v5 (Ray2.from (Vec2.moved v7 v4 (-v3)) v8))
  bad := ck bad 441 (decide (o10.isSome = false))
  return bad
end Aabb2_38
#guard passes Aabb2_38.run

namespace Aabb2_39
abbrev R := Float32
def run : Res (List Nat) := do
  let mut bad : List Nat := []
  let v1 : R := (0.001 : R)
  let v2 : R := (1.0 : R)
  let v3 : R := (v1 * (5.0 : R))
  let v4 : Coord := (next2D Coord.Y)
  let v5 : AABB2 R := (⟨(⟨(-v1), (-v1)⟩ : Vec2 R), (⟨v1, v1⟩ : Vec2 R)⟩ : AABB2 R)
  let v6 : R := (v3 - v1)
  let v7 : Vec2 R := (Vec2.moved (Vec2.zero : Vec2 R) Coord.Y (if (decide (v2 > (0.0 : R))) then (-v3) else v3))
  let v8 : Vec2 R := (Vec2.moved (Vec2.zero : Vec2 R) Coord.Y v2)
  let o9 := (AABB2.hitsRay v5 (Ray2.from (Vec2.moved v7 v4 v3) v8))
  bad := ck bad 440 (decide (o9.isSome = false))
  let o10 := (AABB2.hitsRay v5 (Ray2.from (Vec2.moved v7 v4 (-v3)) v8))
  bad := ck bad 441 (decide (o10.isSome = false))
  return bad
end Aabb2_39
#guard passes Aabb2_39.run

namespace Aabb2_40
abbrev R := Float32
def run : Res (List Nat) := do
  let mut bad : List Nat := []
  let v1 : R := (1000.0 : R)
  let v2 : R := (1.0 : R)
  let v3 : R := (v1 * (5.0 : R))
  let v4 : Coord := (next2D Coord.X)
  let v5 : AABB2 R := (⟨(⟨(-v1), (-v1)⟩ : Vec2 R), (⟨v1, v1⟩ : Vec2 R)⟩ : AABB2 R)
  let v6 : R := (v3 - v1)
  let v7 : Vec2 R := (Vec2.moved (Vec2.zero : Vec2 R) Coord.X (if (decide (v2 > (0.0 : R))) then (-v3) else v3))
  let v8 : Vec2 R := (Vec2.moved (Vec2.zero : Vec2 R) Coord.X v2)
  let o9 := (AABB2.hitsRay v5 (Ray2.from (Vec2.moved v7 v4 v3) v8))
  bad := ck bad 440 (decide (o9.isSome = false))
  let o10 := (AABB2.hitsRay v5 (Ray2.from (Vec2.moved v7 v4 (-v3)) v8))
  bad := ck bad 441 (decide (o10.isSome = false))
  return bad
end Aabb2_40
#guard passes Aabb2_40.run

namespace Aabb2_41
abbrev R := Float32
def run : Res (List Nat) := do
  let mut bad : List Nat := []
  let v1 : R := (1000.0 : R)
  let v2 : R := (1.0 : R)
  let v3 : R := (v1 * (5.0 : R))
  let v4 : Coord := (next2D Coord.Y)
  let v5 : AABB2 R := (⟨(⟨(-v1), (-v1)⟩ : Vec2 R), (⟨v1, v1⟩ : Vec2 R)⟩ : AABB2 R)
  let v6 : R := (v3 - v1)
  let v7 : Vec2 R := (Vec2.moved (Vec2.zero : Vec2 R) Coord.Y (if (decide (v2 > (0.0 : R))) then (-v3) else v3))
  let v8 : Vec2 R := (Vec2.moved (Vec2.zero : Vec2 R) Coord.Y v2)
  let o9 := (AABB2.hitsRay v5 (Ray2.from (Vec2.moved v7 v4 v3) v8))
  bad := ck bad 440 (decide (o9.isSome = false))
  let o10 := (AABB2.hitsRay v5 (Ray2.from (Vec2.moved v7 v4 (-v3)) v8))
  bad := ck bad 441 (decide (o10.isSome = false))
  return bad
end Aabb2_41
#guard passes Aabb2_41.run

namespace Aabb2_42
abbrev R := Float32
def run : Res (List Nat) := do
  let mut bad : List Nat := []
  let v1 : R := (1.0 : R)
  let v2 : R := (1.0 : R)
  let v3 : R := (v1 * (5.0 : R))
  let v4 : Coord := (next2D Coord.X)
  let v5 : AABB2 R := (⟨(⟨(-v1), (-v1)⟩ : Vec2 R), (⟨v1, v1⟩ : Vec2 R)⟩ : AABB2 R)
  let v6 : Vec2 R := (Vec2.zero : Vec2 R)
  let v7 : Vec2 R := (Vec2.moved (Vec2.zero : Vec2 R) Coord.X v2)
  let o8 := (AABB2.hitsRay v5 (Ray2.from v6 v7))
  bad := ck bad 451 (decide (o8.isSome = false))
  return bad
end Aabb2_42
#guard passes Aabb2_42.run

namespace Aabb2_43
abbrev R := Float32
def run : Res (List Nat) := do
  let mut bad : List Nat := []
  let v1 : R := (1.0 : R)
  let v2 : R := (1.0 : R)
  let v3 : R := (v1 * (5.0 : R))
  let v4 : Coord := (next2D Coord.Y)
  let v5 : AABB2 R := (⟨(⟨(-v1), (-v1)⟩ : Vec2 R), (⟨v1, v1⟩ : Vec2 R)⟩ : AABB2 R)
  let v6 : Vec2 R := (Vec2.zero : Vec2 R)
  let v7 : Vec2 R := (Vec2.moved (Vec2.zero : Vec2 R) Coord.Y v2)
  let o8 := (AABB2.hitsRay v5 (Ray2.from v6 v7))
  bad := ck bad 451 (decide (o8.isSome = false))
  return bad
end Aabb2_43
#guard passes Aabb2_43.run

namespace Aabb2_44
abbrev R := Float32
def run : Res (List Nat) := do
  let mut bad : List Nat := []
  let v1 : R := (0.001 : R)
  let v2 : R := (1.0 : R)
  let v3 : R := (v1 * (5.0 : R))
  let v4 : Coord := (next2D Coord.X)
  let v5 : AABB2 R := (⟨(⟨(-v1), (-v1)⟩ : Vec2 R), (⟨v1, v1⟩ : Vec2 R)⟩ : AABB2 R)
  let v6 : Vec2 R := (Vec2.zero : Vec2 R)
  let v7 : Vec2 R := (Vec2.moved (Vec2.zero : Vec2 R) Coord.X v2)
  let o8 := (AABB2.hitsRay v5 (Ray2.from v6 v7))
  bad := ck bad 451 (decide (o8.isSome = false))
  return bad
end Aabb2_44
#guard passes Aabb2_44.run

namespace Aabb2_45
abbrev R := Float32
def run : Res (List Nat) := do
  let mut bad : List Nat := []
  let v1 : R := (0.001 : R)
  let v2 : R := (1.0 : R)
  let v3 : R := (v1 * (5.0 : R))
  let v4 : Coord := (next2D Coord.Y)
  let v5 : AABB2 R := (⟨(⟨(-v1), (-v1)⟩ : Vec2 R), (⟨v1, v1⟩ : Vec2 R)⟩ : AABB2 R)
  let v6 : Vec2 R := (Vec2.zero : Vec2 R)
  let v7 : Vec2 R := (Vec2.moved (Vec2.zero : Vec2 R) Coord.Y v2)
  let o8 := (AABB2.hitsRay v5 (Ray2.from v6 v7))
  bad := ck bad 451 (decide (o8.isSome = false))
  return bad
end Aabb2_45
#guard passes Aabb2_45.run

namespace Aabb2_46
abbrev R := Float32
def run : Res (List Nat) := do
  let mut bad : List Nat := []
  let v1 : R := (1000.0 : R)
  let v2 : R := (1.0 : R)
  let v3 : R := (v1 * (5.0 : R))
  let v4 : Coord := (next2D Coord.X)
  let v5 : AABB2 R := (⟨(⟨(-v1), (-v1)⟩ : Vec2 R), (⟨v1, v1⟩ : Vec2 R)⟩ : AABB2 R)
  let v6 : Vec2 R := (Vec2.zero : Vec2 R)
  let v7 : Vec2 R := (Vec2.moved (Vec2.zero : Vec2 R) Coord.X v2)
  let o8 := (AABB2.hitsRay v5 (Ray2.from v6 v7))
  bad := ck bad 451 (decide (o8.isSome = false))
  return bad
end Aabb2_46
#guard passes Aabb2_46.run

namespace Aabb2_47
abbrev R := Float32
def run : Res (List Nat) := do
  let mut bad : List Nat := []
  let v1 : R := (1000.0 : R)
  let v2 : R := (1.0 : R)
  let v3 : R := (v1 * (5.0 : R))
  let v4 : Coord := (next2D Coord.Y)
  let v5 : AABB2 R := (⟨(⟨(-v1), (-v1)⟩ : Vec2 R), (⟨v1, v1⟩ : Vec2 R)⟩ : AABB2 R)
  let v6 : Vec2 R := (Vec2.zero : Vec2 R)
  let v7 : Vec2 R := (Vec2.moved (Vec2.zero : Vec2 R) Coord.Y v2)
  let o8 := (AABB2.hitsRay v5 (Ray2.from v6 v7))
  bad := ck bad 451 (decide (o8.isSome = false))
  return bad
end Aabb2_47
#guard passes Aabb2_47.run

namespace Aabb2_48
abbrev R := Float32
def run : Res (List Nat) := do
  let mut bad : List Nat := []
  let v1 : R := (1.0 : R)
  let v2 : R := (1.0 : R)
  let v3 : R := (v1 * (5.0 : R))
  let v4 : Coord := (next2D Coord.X)
  let v5 : AABB2 R := (⟨(⟨(-v1), (-v1)⟩ : Vec2 R), (⟨v1, v1⟩ : Vec2 R)⟩ : AABB2 R)
  let v6 : Vec2 R := (Vec2.zero : Vec2 R)
  let v7 : Vec2 R := (Vec2.moved (Vec2.zero : Vec2 R) Coord.X v2)
  let o8 := (AABB2.hitsRay v5 (Ray2.from (Vec2.moved v6 v4 v3) v7))
  bad := ck bad 455 (decide (o8.isSome = false))
  let o9 := (AABB2.hitsRay v5 (Ray2.from (Vec2.moved v6 v4 (-v3)) v7))
  bad := ck bad 456 (decide (o9.isSome = false))
  return bad
end Aabb2_48
#guard passes Aabb2_48.run

namespace Aabb2_49
abbrev R := Float32
def run : Res (List Nat) := do
  let mut bad : List Nat := []
  let v1 : R := (1.0 : R)
  let v2 : R := (1.0 : R)
  let v3 : R := (v1 * (5.0 : R))
  let v4 : Coord := (next2D Coord.Y)
  let v5 : AABB2 R := (⟨(⟨(-v1), (-v1)⟩ : Vec2 R), (⟨v1, v1⟩ : Vec2 R)⟩ : AABB2 R)
  let v6 : Vec2 R := (Vec2.zero : Vec2 R)
  let v7 : Vec2 R := (Vec2.moved (Vec2.zero : Vec2 R) Coord.Y v2)
  let o8 := (AABB2.hitsRay v5 (Ray2.from (Vec2.moved v6 v4 v3) v7))
  bad := ck bad 455 (decide (o8.isSome = false))
  let o9 := (AABB2.hitsRay v5 (Ray2.from (Vec2.moved v6 v4 (-v3)) v7))
  bad := ck bad 456 (decide (o9.isSome = false))
  return bad
end Aabb2_49
#guard passes Aabb2_49.run

namespace Aabb2_50
abbrev R := Float32
def run : Res (List Nat) := do
  let mut bad : List Nat := []
  let v1 : R := (0.001 : R)
  let v2 : R := (1.0 : R)
  let v3 : R := (v1 * (5.0 : R))
  let v4 : Coord := (next2D Coord.X)
  let v5 : AABB2 R := (⟨(⟨(-v1), (-v1)⟩ : Vec2 R), (⟨v1, v1⟩ : Vec2 R)⟩ : AABB2 R)
  let v6 : Vec2 R := (Vec2.zero : Vec2 R)
  let v7 : Vec2 R := (Vec2.moved (Vec2.zero : Vec2 R) Coord.X v2)
  let o8 := (AABB2.hitsRay v5 (Ray2.from (Vec2.moved v6 v4 v3) v7))
  bad := ck bad 455 (decide (o8.isSome = false))
  let o9 := (AABB2.hitsRay v5 (Ray2.from (Vec2.moved v6 v4 (-v3)) v7))
  bad := ck bad 456 (decide (o9.isSome = false))
  return bad
end Aabb2_50
#guard passes Aabb2_50.run

namespace Aabb2_51
abbrev R := Float32
def run : Res (List Nat) := do
  let mut bad : List Nat := []
  let v1 : R := (0.001 : R)
  let v2 : R := (1.0 : R)
  let v3 : R := (v1 * (5.0 : R))
  let v4 : Coord := (next2D Coord.Y)
  let v5 : AABB2 R := (⟨(⟨(-v1), (-v1)⟩ : Vec2 R), (⟨v1, v1⟩ : Vec2 R)⟩ : AABB2 R)
  let v6 : Vec2 R := (Vec2.zero : Vec2 R)
  let v7 : Vec2 R := (Vec2.moved (Vec2.zero : Vec2 R) Coord.Y v2)
  let o8 := (AABB2.hitsRay v5 (Ray2.from (Vec2.moved v6 v4 v3) v7))
  bad := ck bad 455 (decide (o8.isSome = false))
  let o9 := (AABB2.hitsRay v5 (Ray2.from (Vec2.moved v6 v4 (-v3)) v7))
  bad := ck bad 456 (decide (o9.isSome = false))
  return bad
end Aabb2_51
#guard passes Aabb2_51.run

namespace Aabb2_52
abbrev R := Float32
def run : Res (List Nat) := do
  let mut bad : List Nat := []
  let v1 : R := (1000.0 : R)
  let v2 : R := (1.0 : R)
  let v3 : R := (v1 * (5.0 : R))
  let v4 : Coord := (next2D Coord.X)
  let v5 : AABB2 R := (⟨(⟨(-v1), (-v1)⟩ : Vec2 R), (⟨v1, v1⟩ : Vec2 R)⟩ : AABB2 R)
  let v6 : Vec2 R := (Vec2.zero : Vec2 R)
  let v7 : Vec2 R := (Vec2.moved (Vec2.zero : Vec2 R) Coord.X v2)
  let o8 := (AABB2.hitsRay v5 (Ray2.from (Vec2.moved v6 v4 v3) v7))
  bad := ck bad 455 (decide (o8.isSome = false))
  let o9 := (AABB2.hitsRay v5 (Ray2.from (Vec2.moved v6 v4 (-v3)) v7))
  bad := ck bad 456 (decide (o9.isSome = false))
  return bad
end Aabb2_52
#guard passes Aabb2_52.run

namespace Aabb2_53
abbrev R := Float32
def run : Res (List Nat) := do
  let mut bad : List Nat := []
  let v1 : R := (1000.0 : R)
  let v2 : R := (1.0 : R)
  let v3 : R := (v1 * (5.0 : R))
  let v4 : Coord := (next2D Coord.Y)
  let v5 : AABB2 R := (⟨(⟨(-v1), (-v1)⟩ : Vec2 R), (⟨v1, v1⟩ : Vec2 R)⟩ : AABB2 R)
  let v6 : Vec2 R := (Vec2.zero : Vec2 R)
  let v7 : Vec2 R := (Vec2.moved (Vec2.zero : Vec2 R) Coord.Y v2)
  let o8 := (AABB2.hitsRay v5 (Ray2.from (Vec2.moved v6 v4 v3) v7))
  bad := ck bad 455 (decide (o8.isSome = false))
  let o9 := (AABB2.hitsRay v5 (Ray2.from (Vec2.moved v6 v4 (-v3)) v7))
  bad := ck bad 456 (decide (o9.isSome = false))
  return bad
end Aabb2_53
#guard passes Aabb2_53.run

namespace Aabb2_54
abbrev R := Float32
def run : Res (List Nat) := do
  let mut bad : List Nat := []
  let v1 : R := (1.0 : R)
  let v2 : R := (1.0 : R)
  let v3 : R := (v1 * (5.0 : R))
  let v4 : Coord := (next2D Coord.X)
  let v5 : AABB2 R := (⟨(⟨(-v1), (-v1)⟩ : Vec2 R), (⟨v1, v1⟩ : Vec2 R)⟩ : AABB2 R)
  let v6 : Vec2 R := (Vec2.moved (Vec2.zero : Vec2 R) Coord.X (if (decide (v2 > (0.0 : R))) then v3 else (-v3)))
  let v7 : Vec2 R := (Vec2.moved (Vec2.zero : Vec2 R) Coord.X v2)
  let o8 := (AABB2.hitsRay v5 (Ray2.from v6 v7))
  bad := ck bad 466 (decide (o8.isSome = false))
  return bad
end Aabb2_54
#guard passes Aabb2_54.run

namespace Aabb2_55
abbrev R := Float32
def run : Res (List Nat) := do
  let mut bad : List Nat := []
  let v1 : R := (1.0 : R)
  let v2 : R := (1.0 : R)
  let v3 : R := (v1 * (5.0 : R))
  let v4 : Coord := (next2D Coord.Y)
  let v5 : AABB2 R := (⟨(⟨(-v1), (-v1)⟩ : Vec2 R), (⟨v1, v1⟩ : Vec2 R)⟩ : AABB2 R)
  let v6 : Vec2 R := (Vec2.moved (Vec2.zero : Vec2 R) Coord.Y (if (decide (v2 > (0.0 : R))) then v3 else (-v3)))
  let v7 : Vec2 R := (Vec2.moved (Vec2.zero : Vec2 R) Coord.Y v2)
  let o8 := (AABB2.hitsRay v5 (Ray2.from v6 v7))
  bad := ck bad 466 (decide (o8.isSome = false))
  return bad
end Aabb2_55
#guard passes Aabb2_55.run

namespace Aabb2_56
abbrev R := Float32
def run : Res (List Nat) := do
  let mut bad : List Nat := []
  let v1 : R := (0.001 : R)
  let v2 : R := (1.0 : R)
  let v3 : R := (v1 * (5.0 : R))
  let v4 : Coord := (next2D Coord.X)
  let v5 : AABB2 R := (⟨(⟨(-v1), (-v1)⟩ : Vec2 R), (⟨v1, v1⟩ : Vec2 R)⟩ : AABB2 R)
  let v6 : Vec2 R := (Vec2.moved (Vec2.zero : Vec2 R) Coord.X (if (decide (v2 > (0.0 : R))) then v3 else (-v3)))
  let v7 : Vec2 R := (Vec2.moved (Vec2.zero : Vec2 R) Coord.X v2)
  let o8 := (AABB2.hitsRay v5 (Ray2.from v6 v7))
  bad := ck bad 466 (decide (o8.isSome = false))
  return bad
end Aabb2_56
#guard passes Aabb2_56.run

namespace Aabb2_57
abbrev R := Float32
def run : Res (List Nat) := do
  let mut bad : List Nat := []
  let v1 : R := (0.001 : R)
  let v2 : R := (1.0 : R)
  let v3 : R := (v1 * (5.0 : R))
  let v4 : Coord := (next2D Coord.Y)
  let v5 : AABB2 R := (⟨(⟨(-v1), (-v1)⟩ : Vec2 R), (⟨v1, v1⟩ : Vec2 R)⟩ : AABB2 R)
  let v6 : Vec2 R := (Vec2.moved (Vec2.zero : Vec2 R) Coord.Y (if (decide (v2 > (0.0 : R))) then v3 else (-v3)))
  let v7 : Vec2 R := (Vec2.moved (Vec2.zero : Vec2 R) Coord.Y v2)
  let o8 := (AABB2.hitsRay v5 (Ray2.from v6 v7))
  bad := ck bad 466 (decide (o8.isSome = false))
  return bad
end Aabb2_57
#guard passes Aabb2_57.run

namespace Aabb2_58
abbrev R := Float32
def run : Res (List Nat) := do
  let mut bad : List Nat := []
  let v1 : R := (1000.0 : R)
  let v2 : R := (1.0 : R)
  let v3 : R := (v1 * (5.0 : R))
  let v4 : Coord := (next2D Coord.X)
  let v5 : AABB2 R := (⟨(⟨(-v1), (-v1)⟩ : Vec2 R), (⟨v1, v1⟩ : Vec2 R)⟩ : AABB2 R)
  let v6 : Vec2 R := (Vec2.moved (Vec2.zero : Vec2 R) Coord.X (if (decide (v2 > (0.0 : R))) then v3 else (-v3)))
  let v7 : Vec2 R := (Vec2.moved (Vec2.zero : Vec2 R) Coord.X v2)
  let o8 := (AABB2.hitsRay v5 (Ray2.from v6 v7))
  bad := ck bad 466 (decide (o8.isSome = false))
  return bad
end Aabb2_58
#guard passes Aabb2_58.run

namespace Aabb2_59
abbrev R := Float32
def run : Res (List Nat) := do
  let mut bad : List Nat := []
  let v1 : R := (1000.0 : R)
  let v2 : R := (1.0 : R)
  let v3 : R := (v1 * (5.0 : R))
  let v4 : Coord := (next2D Coord.Y)
  let v5 : AABB2 R := (⟨(⟨(-v1), (-v1)⟩ : Vec2 R), (⟨v1, v1⟩ : Vec2 R)⟩ : AABB2 R)
  let v6 : Vec2 R := (Vec2.moved (Vec2.zero : Vec2 R) Coord.Y (if (decide (v2 > (0.0 : R))) then v3 else (-v3)))
  let v7 : Vec2 R := (Vec2.moved (Vec2.zero : Vec2 R) Coord.Y v2)
  let o8 := (AABB2.hitsRay v5 (Ray2.from v6 v7))
  bad := ck bad 466 (decide (o8.isSome = false))
  return bad
end Aabb2_59
#guard passes Aabb2_59.run

namespace Aabb2_60
abbrev R := Float32
def run : Res (List Nat) := do
  let mut bad : List Nat := []
  let v1 : R := (1.0 : R)
  let v2 : R := (1.0 : R)
  let v3 : R := (v1 * (5.0 : R))
  let v4 : Coord := (next2D Coord.X)
  let v5 : AABB2 R := (⟨(⟨(-v1), (-v1)⟩ : Vec2 R), (⟨v1, v1⟩ : Vec2 R)⟩ : AABB2 R)
  let v6 : Vec2 R := (Vec2.moved (Vec2.zero : Vec2 R) Coord.X (if (decide (v2 > (0.0 : R))) then v3 else (-v3)))
  let v7 : Vec2 R := (Vec2.moved (Vec2.zero : Vec2 R) Coord.X v2)
  let o8 := (AABB2.hitsRay v5 (Ray2.from (Vec2.moved v6 v4 v3) v7))
  bad := ck bad 470 (decide (o8.isSome = false))
  let o9 := (AABB2.hitsRay v5 (Ray2.from (Vec2.moved v6 v4 (-v3)) v7))
  bad := ck bad 471 (decide (o9.isSome = false))
  return bad
end Aabb2_60
#guard passes Aabb2_60.run

namespace Aabb2_61
abbrev R := Float32
def run : Res (List Nat) := do
  let mut bad : List Nat := []
  let v1 : R := (1.0 : R)
  let v2 : R := (1.0 : R)
  let v3 : R := (v1 * (5.0 : R))
  let v4 : Coord := (next2D Coord.Y)
  let v5 : AABB2 R := (⟨(⟨(-v1), (-v1)⟩ : Vec2 R), (⟨v1, v1⟩ : Vec2 R)⟩ : AABB2 R)
  let v6 : Vec2 R := (Vec2.moved (Vec2.zero : Vec2 R) Coord.Y (if (decide (v2 > (0.0 : R))) then v3 else (-v3)))
  let v7 : Vec2 R := (Vec2.moved (Vec2.zero : Vec2 R) Coord.Y v2)
  let o8 := (AABB2.hitsRay v5 (Ray2.from (Vec2.moved v6 v4 v3) v7))
  bad := ck bad 470 (decide (o8.isSome = false))
  let o9 := (AABB2.hitsRay v5 (Ray2.from (Vec2.moved v6 v4 (-v3)) v7))
  bad := ck bad 471 (decide (o9.isSome = false))
  return bad
end Aabb2_61
#guard passes Aabb2_61.run

namespace Aabb2_62
abbrev R := Float32
def run : Res (List Nat) := do
  let mut bad : List Nat := []
  let v1 : R := (0.001 : R)
  let v2 : R := (1.0 : R)
  let v3 : R := (v1 * (5.0 : R))
  let v4 : Coord := (next2D Coord.X)
  let v5 : AABB2 R := (⟨(⟨(-v1), (-v1)⟩ : Vec2 R), (⟨v1, v1⟩ : Vec2 R)⟩ : AABB2 R)
  let v6 : Vec2 R := (Vec2.moved (Vec2.zero : Vec2 R) Coord.X (if (decide (v2 > (0.0 : R))) then v3 else (-v3)))
  let v7 : Vec2 R := (Vec2.moved (Vec2.zero : Vec2 R) Coord.X v2)
  let o8 := (AABB2.hitsRay v5 (Ray2.from (Vec2.moved v6 v4 v3) v7))
  bad := ck bad 470 (decide (o8.isSome = false))
  let o9 := (AABB2.hitsRay v5 (Ray2.from (Vec2.moved v6 v4 (-v3)) v7))
  bad := ck bad 471 (decide (o9.isSome = false))
  return bad
end Aabb2_62
#guard passes Aabb2_62.run

namespace Aabb2_63
abbrev R := Float32
def run : Res (List Nat) := do
  let mut bad : List Nat := []
  let v1 : R := (0.001 : R)
  let v2 : R := (1.0 : R)
  let v3 : R := (v1 * (5.0 : R))
  let v4 : Coord := (next2D Coord.Y)
  let v5 : AABB2 R := (⟨(⟨(-v1), (-v1)⟩ : Vec2 R), (⟨v1, v1⟩ : Vec2 R)⟩ : AABB2 R)
  let v6 : Vec2 R := (Vec2.moved (Vec2.zero : Vec2 R) Coord.Y (if (decide (v2 > (0.0 : R))) then v3 else (-v3)))
  let v7 : Vec2 R := (Vec2.moved (Vec2.zero : Vec2 R) Coord.Y v2)
  let o8 := (AABB2.hitsRay v5 (Ray2.from (Vec2.moved v6 v4 v3) v7))
  bad := ck bad 470 (decide (o8.isSome = false))
  let o9 := (AABB2.hitsRay v5 (Ray2.from (Vec2.moved v6 v4 (-v3)) v7))
  bad := ck bad 471 (decide (o9.isSome = false))
  return bad
end Aabb2_63
#guard passes Aabb2_63.run

namespace Aabb2_64
abbrev R := Float32
def run : Res (List Nat) := do
  let mut bad : List Nat := []
  let v1 : R := (1000.0 : R)
  let v2 : R := (1.0 : R)
  let v3 : R := (v1 * (5.0 : R))
  let v4 : Coord := (next2D Coord.X)
  let v5 : AABB2 R := (⟨(⟨(-v1), (-v1)⟩ : Vec2 R), (⟨v1, v1⟩ : Vec2 R)⟩ : AABB2 R)
  let v6 : Vec2 R := (Vec2.moved (Vec2.zero : Vec2 R) Coord.X (if (decide (v2 > (0.0 : R))) then v3 else (-v3)))
  let v7 : Vec2 R := (Vec2.moved (Vec2.zero : Vec2 R) Coord.X v2)
  let o8 := (AABB2.hitsRay v5 (Ray2.from (Vec2.moved v6 v4 v3) v7))
  bad := ck bad 470 (decide (o8.isSome = false))
  let o9 := (AABB2.hitsRay v5 (Ray2.from (Vec2.moved v6 v4 (-v3)) v7))
  bad := ck bad 471 (decide (o9.isSome = false))
  return bad
end Aabb2_64
#guard passes Aabb2_64.run

namespace Aabb2_65
abbrev R := Float32
def run : Res (List Nat) := do
  let mut bad : List Nat := []
  let v1 : R := (1000.0 : R)
  let v2 : R := (1.0 : R)
  let v3 : R := (v1 * (5.0 : R))
  let v4 : Coord := (next2D Coord.Y)
  let v5 : AABB2 R := (⟨(⟨(-v1), (-v1)⟩ : Vec2 R), (⟨v1, v1⟩ : Vec2 R)⟩ : AABB2 R)
  let v6 : Vec2 R := (Vec2.moved (Vec2.zero : Vec2 R) Coord.Y (if (decide (v2 > (0.0 : R))) then v3 else (-v3)))
  let v7 : Vec2 R := (Vec2.moved (Vec2.zero : Vec2 R) Coord.Y v2)
  let o8 := (AABB2.hitsRay v5 (Ray2.from (Vec2.moved v6 v4 v3) v7))
  bad := ck bad 470 (decide (o8.isSome = false))
  let o9 := (AABB2.hitsRay v5 (Ray2.from (Vec2.moved v6 v4 (-v3)) v7))
  bad := ck bad 471 (decide (o9.isSome = false))
  return bad
end Aabb2_65
#guard passes Aabb2_65.run

namespace Aabb2_66
abbrev R := Float32
def run : Res (List Nat) := do
  let mut bad : List Nat := []
  let v1 : R := (1.0 : R)
  let v2 : R := (1.0 : R)
  let v3 : R := (v1 * (5.0 : R))
  let v4 : Coord := (next2D Coord.X)
  let v5 : AABB2 R := (⟨(⟨(-v1), (-v1)⟩ : Vec2 R), (⟨v1, v1⟩ : Vec2 R)⟩ : AABB2 R)
  let v6 : Vec2 R := (Vec2.moved (Vec2.moved (Vec2.zero : Vec2 R) Coord.X (if (decide (v2 > (0.0 : R))) then (-v3) else v3)) v4 (if (decide (v2 > (0.0 : R))) then (-v3) else v3))
  let v7 : Vec2 R := (Vec2.normalized (Vec2.moved (Vec2.moved (Vec2.zero : Vec2 R) Coord.X v2) v4 v2) (1 : R))
  let v8 : Vec2 R := v6
  let v9 : Vec2 R := (Vec2.moved v6 Coord.X (v2 * v1))
  let v10 : Vec2 R := (Vec2.moved v6 Coord.X ((v2 * v1) * (2 : R)))
  let v11 : Vec2 R := (Vec2.moved v6 v4 (v2 * v1))
  let v12 : Vec2 R := (Vec2.moved v6 v4 ((v2 * v1) * (2 : R)))
  let v13 : Vec2 R := v8
  let v14 : R := ((MathFns.sqrt (((4.0 : R) * (4.0 : R)) * (2.0 : R))) * v1)
  let o15 := (AABB2.hitsRay v5 (Ray2.from v13 v7))
  bad := ck bad 494 (decide (o15.isSome = true))
  bad := ck bad 495 (Near.near (v1 / (1000.0 : R)) (o15.getD (0)) v14)
  return bad
end Aabb2_66
#guard passes Aabb2_66.run

namespace Aabb2_67
abbrev R := Float32
def run : Res (List Nat) := do
  let mut bad : List Nat := []
  let v1 : R := (1.0 : R)
  let v2 : R := (-(1.0 : R))
  let v3 : R := (v1 * (5.0 : R))
  let v4 : Coord := (next2D Coord.X)
  let v5 : AABB2 R := (⟨(⟨(-v1), (-v1)⟩ : Vec2 R), (⟨v1, v1⟩ : Vec2 R)⟩ : AABB2 R)
  let v6 : Vec2 R := (Vec2.moved (Vec2.moved (Vec2.zero : Vec2 R) Coord.X (if (decide (v2 > (0.0 : R))) then (-v3) else v3)) v4 (if (decide (v2 > (0.0 : R))) then (-v3) else v3))
  let v7 : Vec2 R := (Vec2.normalized (Vec2.moved (Vec2.moved (Vec2.zero : Vec2 R) Coord.X v2) v4 v2) (1 : R))
  let v8 : Vec2 R := v6
  let v9 : Vec2 R := (Vec2.moved v6 Coord.X (v2 * v1))
  let v10 : Vec2 R := (Vec2.moved v6 Coord.X ((v2 * v1) * (2 : R)))
  let v11 : Vec2 R := (Vec2.moved v6 v4 (v2 * v1))
  let v12 : Vec2 R := (Vec2.moved v6 v4 ((v2 * v1) * (2 : R)))
  let v13 : Vec2 R := v12
  let v14 : R := ((MathFns.sqrt (((4.0 : R) * (4.0 : R)) * (2.0 : R))) * v1)
  let o15 := (AABB2.hitsRay v5 (Ray2.from v13 v7))
  bad := ck bad 494 (decide (o15.isSome = true))
  bad := ck bad 495 (Near.near (v1 / (1000.0 : R)) (o15.getD (0)) v14)
  return bad
end Aabb2_67
#guard passes Aabb2_67.run

namespace Aabb2_68
abbrev R := Float32
def run : Res (List Nat) := do
  let mut bad : List Nat := []
  let v1 : R := (1.0 : R)
  let v2 : R := (-(1.0 : R))
  let v3 : R := (v1 * (5.0 : R))
  let v4 : Coord := (next2D Coord.Y)
  let v5 : AABB2 R := (⟨(⟨(-v1), (-v1)⟩ : Vec2 R), (⟨v1, v1⟩ : Vec2 R)⟩ : AABB2 R)
  let v6 : Vec2 R := (Vec2.moved (Vec2.moved (Vec2.zero : Vec2 R) Coord.Y (if (decide (v2 > (0.0 : R))) then (-v3) else v3)) v4 (if (decide (v2 > (0.0 : R))) then (-v3) else v3))
  let v7 : Vec2 R := (Vec2.normalized (Vec2.moved (Vec2.moved (Vec2.zero : Vec2 R) Coord.Y v2) v4 v2) (1 : R))
  let v8 : Vec2 R := v6
  let v9 : Vec2 R := (Vec2.moved v6 Coord.Y (v2 * v1))
  let v10 : Vec2 R := (Vec2.moved v6 Coord.Y ((v2 * v1) * (2 : R)))
  let v11 : Vec2 R := (Vec2.moved v6 v4 (v2 * v1))
  let v12 : Vec2 R := (Vec2.moved v6 v4 ((v2 * v1) * (2 : R)))
  let v13 : Vec2 R := v11
  let v14 : R := ((MathFns.sqrt (((4.0 : R) * (4.0 : R)) * (2.0 : R))) * v1)
  let o15 := (AABB2.hitsRay v5 (Ray2.from v13 v7))
  bad := ck bad 494 (decide (o15.isSome = true))
  bad := ck bad 495 (Near.near (v1 / (1000.0 : R)) (o15.getD (0)) v14)
  return bad
end Aabb2_68
#guard passes Aabb2_68.run

namespace Aabb2_69
abbrev R := Float32
def run : Res (List Nat) := do
  let mut bad : List Nat := []
  let v1 : R := (0.001 : R)
  let v2 : R := (-(1.0 : R))
  let v3 : R := (v1 * (5.0 : R))
  let v4 : Coord := (next2D Coord.X)
  let v5 : AABB2 R := (⟨(⟨(-v1), (-v1)⟩ : Vec2 R), (⟨v1, v1⟩ : Vec2 R)⟩ : AABB2 R)
  let v6 : Vec2 R := (Vec2.moved (Vec2.moved (Vec2.zero : Vec2 R) Coord.X (if (decide (v2 > (0.0 : R))) then (-v3) else v3)) v4 (if (decide (v2 > (0.0 : R))) then (-v3) else v3))
  let v7 : Vec2 R := (Vec2.normalized (Vec2.moved (Vec2.moved (Vec2.zero : Vec2 R) Coord.X v2) v4 v2) (1 : R))
  let v8 : Vec2 R := v6
  let v9 : Vec2 R := (Vec2.moved v6 Coord.X (v2 * v1))
  let v10 : Vec2 R := (Vec2.moved v6 Coord.X ((v2 * v1) * (2 : R)))
  let v11 : Vec2 R := (Vec2.moved v6 v4 (v2 * v1))
  let v12 : Vec2 R := (Vec2.moved v6 v4 ((v2 * v1) * (2 : R)))
  let v13 : Vec2 R := v10
  let v14 : R := ((MathFns.sqrt (((4.0 : R) * (4.0 : R)) * (2.0 : R))) * v1)
  let o15 := (AABB2.hitsRay v5 (Ray2.from v13 v7))
  bad := ck bad 494 (decide (o15.isSome = true))
  bad := ck bad 495 (Near.near (v1 / (1000.0 : R)) (o15.getD (0)) v14)
  return bad
end Aabb2_69
#guard passes Aabb2_69.run

namespace Aabb2_70
abbrev R := Float32
def run : Res (List Nat) := do
  let mut bad : List Nat := []
  let v1 : R := (0.001 : R)
  let v2 : R := (-(1.0 : R))
  let v3 : R := (v1 * (5.0 : R))
  let v4 : Coord := (next2D Coord.Y)
  let v5 : AABB2 R := (⟨(⟨(-v1), (-v1)⟩ : Vec2 R), (⟨v1, v1⟩ : Vec2 R)⟩ : AABB2 R)
  let v6 : Vec2 R := (Vec2.moved (Vec2.moved (Vec2.zero : Vec2 R) Coord.Y (if (decide (v2 > (0.0 : R))) then (-v3) else v3)) v4 (if (decide (v2 > (0.0 : R))) then (-v3) else v3))
  let v7 : Vec2 R := (Vec2.normalized (Vec2.moved (Vec2.moved (Vec2.zero : Vec2 R) Coord.Y v2) v4 v2) (1 : R))
  let v8 : Vec2 R := v6
  let v9 : Vec2 R := (Vec2.moved v6 Coord.Y (v2 * v1))
  let v10 : Vec2 R := (Vec2.moved v6 Coord.Y ((v2 * v1) * (2 : R)))
  let v11 : Vec2 R := (Vec2.moved v6 v4 (v2 * v1))
  let v12 : Vec2 R := (Vec2.moved v6 v4 ((v2 * v1) * (2 : R)))
  let v13 : Vec2 R := v9
  let v14 : R := ((MathFns.sqrt (((4.0 : R) * (4.0 : R)) * (2.0 : R))) * v1)
  let o15 := (AABB2.hitsRay v5 (Ray2.from v13 v7))
  bad := ck bad 494 (decide (o15.isSome = true))
  bad := ck bad 495 (Near.near (v1 / (1000.0 : R)) (o15.getD (0)) v14)
  return bad
end Aabb2_70
#guard passes Aabb2_70.run

namespace Aabb2_71
abbrev R := Float32
def run : Res (List Nat) := do
  let mut bad : List Nat := []
  let v1 : R := (1000.0 : R)
  let v2 : R := (-(1.0 : R))
  let v3 : R := (v1 * (5.0 : R))
  let v4 : Coord := (next2D Coord.X)
  let v5 : AABB2 R := (⟨(⟨(-v1), (-v1)⟩ : Vec2 R), (⟨v1, v1⟩ : Vec2 R)⟩ : AABB2 R)
  let v6 : Vec2 R := (Vec2.moved (Vec2.moved (Vec2.zero : Vec2 R) Coord.X (if (decide (v2 > (0.0 : R))) then (-v3) else v3)) v4 (if (decide (v2 > (0.0 : R))) then (-v3) else v3))
  let v7 : Vec2 R := (Vec2.normalized (Vec2.moved (Vec2.moved (Vec2.zero : Vec2 R) Coord.X v2) v4 v2) (1 : R))
  let v8 : Vec2 R := v6
  let v9 : Vec2 R := (Vec2.moved v6 Coord.X (v2 * v1))
  let v10 : Vec2 R := (Vec2.moved v6 Coord.X ((v2 * v1) * (2 : R)))
  let v11 : Vec2 R := (Vec2.moved v6 v4 (v2 * v1))
  let v12 : Vec2 R := (Vec2.moved v6 v4 ((v2 * v1) * (2 : R)))
  let v13 : Vec2 R := v8
  let v14 : R := ((MathFns.sqrt (((4.0 : R) * (4.0 : R)) * (2.0 : R))) * v1)
  let o15 := (AABB2.hitsRay v5 (Ray2.from v13 v7))
  bad := ck bad 494 (decide (o15.isSome = true))
  bad := ck bad 495 (Near.near (v1 / (1000.0 : R)) (o15.getD (0)) v14)
  return bad
end Aabb2_71
#guard passes Aabb2_71.run

namespace Aabb2_72
abbrev R := Float32
def run : Res (List Nat) := do
  let mut bad : List Nat := []
  let v1 : R := (1000.0 : R)
  let v2 : R := (1.0 : R)
  let v3 : R := (v1 * (5.0 : R))
  let v4 : Coord := (next2D Coord.Y)
  let v5 : AABB2 R := (⟨(⟨(-v1), (-v1)⟩ : Vec2 R), (⟨v1, v1⟩ : Vec2 R)⟩ : AABB2 R)
  let v6 : Vec2 R := (Vec2.moved (Vec2.moved (Vec2.zero : Vec2 R) Coord.Y (if (decide (v2 > (0.0 : R))) then (-v3) else v3)) v4 (if (decide (v2 > (0.0 : R))) then (-v3) else v3))
  let v7 : Vec2 R := (Vec2.normalized (Vec2.moved (Vec2.moved (Vec2.zero : Vec2 R) Coord.Y v2) v4 v2) (1 : R))
  let v8 : Vec2 R := v6
  let v9 : Vec2 R := (Vec2.moved v6 Coord.Y (v2 * v1))
  let v10 : Vec2 R := (Vec2.moved v6 Coord.Y ((v2 * v1) * (2 : R)))
  let v11 : Vec2 R := (Vec2.moved v6 v4 (v2 * v1))
  let v12 : Vec2 R := (Vec2.moved v6 v4 ((v2 * v1) * (2 : R)))
  let v13 : Vec2 R := v12
  let v14 : R := ((MathFns.sqrt (((4.0 : R) * (4.0 : R)) * (2.0 : R))) * v1)
  let o15 := (AABB2.hitsRay v5 (Ray2.from v13 v7))
  bad := ck bad 494 (decide (o15.isSome = true))
  bad := ck bad 495 (Near.near (v1 / (1000.0 : R)) (o15.getD (0)) v14)
  return bad
end Aabb2_72
#guard passes Aabb2_72.run

namespace Aabb2_73
abbrev R := Float32
def run : Res (List Nat) := do
  let mut bad : List Nat := []
  let v1 : R := (1.0 : R)
  let v2 : R := (1.0 : R)
  let v3 : R := (v1 * (5.0 : R))
  let v4 : Coord := (next2D Coord.X)
  let v5 : AABB2 R := (⟨(⟨(-v1), (-v1)⟩ : Vec2 R), (⟨v1, v1⟩ : Vec2 R)⟩ : AABB2 R)
  let v6 : R := (0.4 : R)
  let v7 : Vec2 R := (Vec2.moved (Vec2.zero : Vec2 R) Coord.X (if (decide (v2 > (0.0 : R))) then (-v3) else v3))
  let v8 : Vec2 R := (Vec2.moved (Vec2.zero : Vec2 R) Coord.X (if (decide (v2 > (0.0 : R))) then v3 else (-v3)))
  let o9 := (AABB2.hitsLine v5 (⟨v7, v8⟩ : Line2 R))
  bad := ck bad 521 (decide (o9.isSome = true))
  bad := ck bad 522 (nearRel (0.0001 : R) (o9.getD (0)) v6)
  return bad
end Aabb2_73
#guard passes Aabb2_73.run

namespace Aabb2_74
abbrev R := Float32
def run : Res (List Nat) := do
  let mut bad : List Nat := []
  let v1 : R := (1.0 : R)
  let v2 : R := (1.0 : R)
  let v3 : R := (v1 * (5.0 : R))
  let v4 : Coord := (next2D Coord.Y)
  let v5 : AABB2 R := (⟨(⟨(-v1), (-v1)⟩ : Vec2 R), (⟨v1, v1⟩ : Vec2 R)⟩ : AABB2 R)
  let v6 : R := (0.4 : R)
  let v7 : Vec2 R := (Vec2.moved (Vec2.zero : Vec2 R) Coord.Y (if (decide (v2 > (0.0 : R))) then (-v3) else v3))
  let v8 : Vec2 R := (Vec2.moved (Vec2.zero : Vec2 R) Coord.Y (if (decide (v2 > (0.0 : R))) then v3 else (-v3)))
  let o9 := (AABB2.hitsLine v5 (⟨v7, v8⟩ : Line2 R))
  bad := ck bad 521 (decide (o9.isSome = true))
  bad := ck bad 522 (nearRel (0.0001 : R) (o9.getD (0)) v6)
  return bad
end Aabb2_74
#guard passes Aabb2_74.run

namespace Aabb2_75
abbrev R := Float32
def run : Res (List Nat) := do
  let mut bad : List Nat := []
  let v1 : R := (0.001 : R)
  let v2 : R := (1.0 : R)
  let v3 : R := (v1 * (5.0 : R))
  let v4 : Coord := (next2D Coord.X)
  let v5 : AABB2 R := (⟨(⟨(-v1), (-v1)⟩ : Vec2 R), (⟨v1, v1⟩ : Vec2 R)⟩ : AABB2 R)
  let v6 : R := (0.4 : R)
  let v7 : Vec2 R := (Vec2.moved (Vec2.zero : Vec2 R) Coord.X (if (decide (v2 > (0.0 : R))) then (-v3) else v3))
  let v8 : Vec2 R := (Vec2.moved (Vec2.zero : Vec2 R) Coord.X (if (decide (v2 > (0.0 : R))) then v3 else (-v3)))
  let o9 := (AABB2.hitsLine v5 (⟨v7, v8⟩ : Line2 R))
  bad := ck bad 521 (decide (o9.isSome = true))
  bad := ck bad 522 (nearRel (0.0001 : R) (o9.getD (0)) v6)
  return bad
end Aabb2_75
#guard passes Aabb2_75.run

namespace Aabb2_76
abbrev R := Float32
def run : Res (List Nat) := do
  let mut bad : List Nat := []
  let v1 : R := (0.001 : R)
  let v2 : R := (1.0 : R)
  let v3 : R := (v1 * (5.0 : R))
  let v4 : Coord := (next2D Coord.Y)
  let v5 : AABB2 R := (⟨(⟨(-v1), (-v1)⟩ : Vec2 R), (⟨v1, v1⟩ : Vec2 R)⟩ : AABB2 R)
  let v6 : R := (0.4 : R)
  let v7 : Vec2 R := (Vec2.moved (Vec2.zero : Vec2 R) Coord.Y (if (decide (v2 > (0.0 : R))) then (-v3) else v3))
  let v8 : Vec2 R := (Vec2.moved (Vec2.zero : Vec2 R) Coord.Y (if (decide (v2 > (0.0 : R))) then v3 else (-v3)))
  let o9 := (AABB2.hitsLine v5 (⟨v7, v8⟩ : Line2 R))
  bad := ck bad 521 (decide (o9.isSome = true))
  bad := ck bad 522 (nearRel (0.0001 : R) (o9.getD (0)) v6)
  return bad
end Aabb2_76
#guard passes Aabb2_76.run

namespace Aabb2_77
abbrev R := Float32
def run : Res (List Nat) := do
  let mut bad : List Nat := []
  let v1 : R := (1000.0 : R)
  let v2 : R := (1.0 : R)
  let v3 : R := (v1 * (5.0 : R))
  let v4 : Coord := (next2D Coord.X)
  let v5 : AABB2 R := (⟨(⟨(-v1), (-v1)⟩ : Vec2 R), (⟨v1, v1⟩ : Vec2 R)⟩ : AABB2 R)
  let v6 : R := (0.4 : R)
  let v7 : Vec2 R := (Vec2.moved (Vec2.zero : Vec2 R) Coord.X (if (decide (v2 > (0.0 : R))) then (-v3) else v3))
  let v8 : Vec2 R := (Vec2.moved (Vec2.zero : Vec2 R) Coord.X (if (decide (v2 > (0.0 : R))) then v3 else (-v3)))
  let o9 := (AABB2.hitsLine v5 (⟨v7, v8⟩ : Line2 R))
  bad := ck bad 521 (decide (o9.isSome = true))
  bad := ck bad 522 (nearRel (0.0001 : R) (o9.getD (0)) v6)
  return bad
end Aabb2_77
#guard passes Aabb2_77.run

namespace Aabb2_78
abbrev R := Float32
def run : Res (List Nat) := do
  let mut bad : List Nat := []
  let v1 : R := (1000.0 : R)
  let v2 : R := (1.0 : R)
  let v3 : R := (v1 * (5.0 : R))
  let v4 : Coord := (next2D Coord.Y)
  let v5 : AABB2 R := (⟨(⟨(-v1), (-v1)⟩ : Vec2 R), (⟨v1, v1⟩ : Vec2 R)⟩ : AABB2 R)
  let v6 : R := (0.4 : R)
  let v7 : Vec2 R := (Vec2.moved (Vec2.zero : Vec2 R) Coord.Y (if (decide (v2 > (0.0 : R))) then (-v3) else v3))
  let v8 : Vec2 R := (Vec2.moved (Vec2.zero : Vec2 R) Coord.Y (if (decide (v2 > (0.0 : R))) then v3 else (-v3)))
  let o9 := (AABB2.hitsLine v5 (⟨v7, v8⟩ : Line2 R))
  bad := ck bad 521 (decide (o9.isSome = true))
  bad := ck bad 522 (nearRel (0.0001 : R) (o9.getD (0)) v6)
  return bad
end Aabb2_78
#guard passes Aabb2_78.run

namespace Aabb2_79
abbrev R := Float32
def run : Res (List Nat) := do
  let mut bad : List Nat := []
  let v1 : R := (1.0 : R)
  let v2 : R := (1.0 : R)
  let v3 : R := (v1 * (5.0 : R))
  let v4 : Coord := (next2D Coord.X)
  let v5 : AABB2 R := (⟨(⟨(-v1), (-v1)⟩ : Vec2 R), (⟨v1, v1⟩ : Vec2 R)⟩ : AABB2 R)
  let v6 : R := (0.4 : R)
  let v7 : Vec2 R := (Vec2.moved (Vec2.zero : Vec2 R) Coord.X (if (decide (v2 > (0.0 : R))) then (-v3) else v3))
  let v8 : Vec2 R := (Vec2.moved (Vec2.zero : Vec2 R) Coord.X (if (decide (v2 > (0.0 : R))) then v3 else (-v3)))
  let o9 := (AABB2.hitsLine v5 (⟨(Vec2.moved v7 v4 v3), (Vec2.moved v8 v4 v3)⟩ : Line2 R))
  bad := ck bad 526 (decide (o9.isSome = false))
  let o10 := (AABB2.hitsLine v5 (⟨(Vec2.moved v7 v4 (-v3)), (Vec2.moved v8 v4 (-v3))⟩ : Line2 R))
  bad := ck bad 527 (decide (o10.isSome = false))
  return bad
end Aabb2_79
#guard passes Aabb2_79.run

namespace Aabb2_80
abbrev R := Float32
def run : Res (List Nat) := do
  let mut bad : List Nat := []
  let v1 : R := (1.0 : R)
  let v2 : R := (1.0 : R)
  let v3 : R := (v1 * (5.0 : R))
  let v4 : Coord := (next2D Coord.Y)
  let v5 : AABB2 R := (⟨(⟨(-v1), (-v1)⟩ : Vec2 R), (⟨v1, v1⟩ : Vec2 R)⟩ : AABB2 R)
  let v6 : R := (0.4 : R)
  let v7 : Vec2 R := (Vec2.moved (Vec2.zero : Vec2 R) Coord.Y (if (decide (v2 > (0.0 : R))) then (-v3) else v3))
  let v8 : Vec2 R := (Vec2.moved (Vec2.zero : Vec2 R) Coord.Y (if (decide (v2 > (0.0 : R))) then v3 else (-v3)))
  let o9 := (AABB2.hitsLine v5 (⟨(Vec2.moved v7 v4 v3), (Vec2.moved v8 v4 v3)⟩ : Line2 R))
  bad := ck bad 526 (decide (o9.isSome = false))
  let o10 := (AABB2.hitsLine v5 (⟨(Vec2.moved v7 v4 (-v3)), (Vec2.moved v8 v4 (-v3))⟩ : Line2 R))
  bad := ck bad 527 (decide (o10.isSome = false))
  return bad
end Aabb2_80
#guard passes Aabb2_80.run

namespace Aabb2_81
abbrev R := Float32
def run : Res (List Nat) := do
  let mut bad : List Nat := []
  let v1 : R := (0.001 : R)
  let v2 : R := (1.0 : R)
  let v3 : R := (v1 * (5.0 : R))
  let v4 : Coord := (next2D Coord.X)
  let v5 : AABB2 R := (⟨(⟨(-v1), (-v1)⟩ : Vec2 R), (⟨v1, v1⟩ : Vec2 R)⟩ : AABB2 R)
  let v6 : R := (0.4 : R)
  let v7 : Vec2 R := (Vec2.moved (Vec2.zero : Vec2 R) Coord.X (if (decide (v2 > (0.0 : R))) then (-v3) else v3))
  let v8 : Vec2 R := (Vec2.moved (Vec2.zero : Vec2 R) Coord.X (if (decide (v2 > (0.0 : R))) then v3 else (-v3)))
  let o9 := (AABB2.hitsLine v5 (⟨(Vec2.moved v7 v4 v3), (Vec2.moved v8 v4 v3)⟩ : Line2 R))
  bad := ck bad 526 (decide (o9.isSome = false))
  let o10 := (AABB2.hitsLine v5 (⟨(Vec2.moved v7 v4 (-v3)), (Vec2.moved v8 v4 (-v3))⟩ : Line2 R))
  bad := ck bad 527 (decide (o10.isSome = false))
  return bad
end Aabb2_81
#guard passes Aabb2_81.run

namespace Aabb2_82
abbrev R := Float32
def run : Res (List Nat) := do
  let mut bad : List Nat := []
  let v1 : R := (0.001 : R)
  let v2 : R := (1.0 : R)
  let v3 : R := (v1 * (5.0 : R))
  let v4 : Coord := (next2D Coord.Y)
  let v5 : AABB2 R := (⟨(⟨(-v1), (-v1)⟩ : Vec2 R), (⟨v1, v1⟩ : Vec2 R)⟩ : AABB2 R)
  let v6 : R := (0.4 : R)
  let v7 : Vec2 R := (Vec2.moved (Vec2.zero : Vec2 R) Coord.Y (if (decide (v2 > (0.0 : R))) then (-v3) else v3))
  let v8 : Vec2 R := (Vec2.moved (Vec2.zero : Vec2 R) Coord.Y (if (decide (v2 > (0.0 : R))) then v3 else (-v3)))
  let o9 := (AABB2.hitsLine v5 (⟨(Vec2.moved v7 v4 v3), (Vec2.moved v8 v4 v3)⟩ : Line2 R))
  bad := ck bad 526 (decide (o9.isSome = false))
  let o10 := (AABB2.hitsLine v5 (⟨(Vec2.moved v7 v4 (-v3)), (Vec2.moved v8 v4 (-v3))⟩ : Line2 R))
  bad := ck bad 527 (decide (o10.isSome = false))
  return bad
end Aabb2_82
#guard passes Aabb2_82.run

namespace Aabb2_83
abbrev R := Float32
def run : Res (List Nat) := do
  let mut bad : List Nat := []
  let v1 : R := (1000.0 : R)
  let v2 : R := (1.0 : R)
  let v3 : R := (v1 * (5.0 : R))
  let v4 : Coord := (next2D Coord.X)
  let v5 : AABB2 R := (⟨(⟨(-v1), (-v1)⟩ : Vec2 R), (⟨v1, v1⟩ : Vec2 R)⟩ : AABB2 R)
  let v6 : R := (0.4 : R)
  let v7 : Vec2 R := (Vec2.moved (Vec2.zero : Vec2 R) Coord.X (if (decide (v2 > (0.0 : R))) then (-v3) else v3))
  let v8 : Vec2 R := (Vec2.moved (Vec2.zero : Vec2 R) Coord.X (if (decide (v2 > (0.0 : R))) then v3 else (-v3)))
  let o9 := (AABB2.hitsLine v5 (⟨(Vec2.moved v7 v4 v3), (Vec2.moved v8 v4 v3)⟩ : Line2 R))
  bad := ck bad 526 (decide (o9.isSome = false))
  let o10 := (AABB2.hitsLine v5 (⟨(Vec2.moved v7 v4 (-v3)), (Vec2.moved v8 v4 (-v3))⟩ : Line2 R))
  bad := ck bad 527 (decide (o10.isSome = false))
  return bad
end Aabb2_83
#guard passes Aabb2_83.run

namespace Aabb2_84
abbrev R := Float32
def run : Res (List Nat) := do
  let mut bad : List Nat := []
  let v1 : R := (1000.0 : R)
  let v2 : R := (1.0 : R)
  let v3 : R := (v1 * (5.0 : R))
  let v4 : Coord := (next2D Coord.Y)
  let v5 : AABB2 R := (⟨(⟨(-v1), (-v1)⟩ : Vec2 R), (⟨v1, v1⟩ : Vec2 R)⟩ : AABB2 R)
  let v6 : R := (0.4 : R)
  let v7 : Vec2 R := (Vec2.moved (Vec2.zero : Vec2 R) Coord.Y (if (decide (v2 > (0.0 : R))) then (-v3) else v3))
  let v8 : Vec2 R := (Vec2.moved (Vec2.zero : Vec2 R) Coord.Y (if (decide (v2 > (0.0 : R))) then v3 else (-v3)))
  let o9 := (AABB2.hitsLine v5 (⟨(Vec2.moved v7 v4 v3), (Vec2.moved v8 v4 v3)⟩ : Line2 R))
  bad := ck bad 526 (decide (o9.isSome = false))
  let o10 := (AABB2.hitsLine v5 (⟨(Vec2.moved v7 v4 (-v3)), (Vec2.moved v8 v4 (-v3))⟩ : Line2 R))
  bad := ck bad 527 (decide (o10.isSome = false))
  return bad
end Aabb2_84
#guard passes Aabb2_84.run

namespace Aabb2_85
abbrev R := Float32
def run : Res (List Nat) := do
  let mut bad : List Nat := []
  let v1 : R := (1.0 : R)
  let v2 : R := (1.0 : R)
  let v3 : R := (v1 * (5.0 : R))
  let v4 : Coord := (next2D Coord.X)
  let v5 : AABB2 R := (⟨(⟨(-v1), (-v1)⟩ : Vec2 R), (⟨v1, v1⟩ : Vec2 R)⟩ : AABB2 R)
  let v6 : Vec2 R := (Vec2.zero : Vec2 R)
  let v7 : Vec2 R := (Vec2.moved (Vec2.zero : Vec2 R) Coord.X (if (decide (v2 > (0.0 : R))) then v3 else (-v3)))
  let o8 := (AABB2.hitsLine v5 (⟨v6, v7⟩ : Line2 R))
  bad := ck bad 537 (decide (o8.isSome = false))
  return bad
end Aabb2_85
#guard passes Aabb2_85.run

namespace Aabb2_86
abbrev R := Float32
def run : Res (List Nat) := do
  let mut bad : List Nat := []
  let v1 : R := (1.0 : R)
  let v2 : R := (1.0 : R)
  let v3 : R := (v1 * (5.0 : R))
  let v4 : Coord := (next2D Coord.Y)
  let v5 : AABB2 R := (⟨(⟨(-v1), (-v1)⟩ : Vec2 R), (⟨v1, v1⟩ : Vec2 R)⟩ : AABB2 R)
  let v6 : Vec2 R := (Vec2.zero : Vec2 R)
  let v7 : Vec2 R := (Vec2.moved (Vec2.zero : Vec2 R) Coord.Y (if (decide (v2 > (0.0 : R))) then v3 else (-v3)))
  let o8 := (AABB2.hitsLine v5 (⟨v6, v7⟩ : Line2 R))
  bad := ck bad 537 (decide (o8.isSome = false))
  return bad
end Aabb2_86
#guard passes Aabb2_86.run

namespace Aabb2_87
abbrev R := Float32
def run : Res (List Nat) := do
  let mut bad : List Nat := []
  let v1 : R := (0.001 : R)
  let v2 : R := (1.0 : R)
  let v3 : R := (v1 * (5.0 : R))
  let v4 : Coord := (next2D Coord.X)
  let v5 : AABB2 R := (⟨(⟨(-v1), (-v1)⟩ : Vec2 R), (⟨v1, v1⟩ : Vec2 R)⟩ : AABB2 R)
  let v6 : Vec2 R := (Vec2.zero : Vec2 R)
  let v7 : Vec2 R := (Vec2.moved (Vec2.zero : Vec2 R) Coord.X (if (decide (v2 > (0.0 : R))) then v3 else (-v3)))
  let o8 := (AABB2.hitsLine v5 (⟨v6, v7⟩ : Line2 R))
  bad := ck bad 537 (decide (o8.isSome = false))
  return bad
end Aabb2_87
#guard passes Aabb2_87.run

namespace Aabb2_88
abbrev R := Float32
def run : Res (List Nat) := do
  let mut bad : List Nat := []
  let v1 : R := (0.001 : R)
  let v2 : R := (1.0 : R)
  let v3 : R := (v1 * (5.0 : R))
  let v4 : Coord := (next2D Coord.Y)
  let v5 : AABB2 R := (⟨(⟨(-v1), (-v1)⟩ : Vec2 R), (⟨v1, v1⟩ : Vec2 R)⟩ : AABB2 R)
  let v6 : Vec2 R := (Vec2.zero : Vec2 R)
  let v7 : Vec2 R := (Vec2.moved (Vec2.zero : Vec2 R) Coord.Y (if (decide (v2 > (0.0 : R))) then v3 else (-v3)))
  let o8 := (AABB2.hitsLine v5 (⟨v6, v7⟩ : Line2 R))
  bad := ck bad 537 (decide (o8.isSome = false))
  return bad
end Aabb2_88
#guard passes Aabb2_88.run

namespace Aabb2_89
abbrev R := Float32
def run : Res (List Nat) := do
  let mut bad : List Nat := []
  let v1 : R := (1000.0 : R)
  let v2 : R := (1.0 : R)
  let v3 : R := (v1 * (5.0 : R))
  let v4 : Coord := (next2D Coord.X)
  let v5 : AABB2 R := (⟨(⟨(-v1), (-v1)⟩ : Vec2 R), (⟨v1, v1⟩ : Vec2 R)⟩ : AABB2 R)
  let v6 : Vec2 R := (Vec2.zero : Vec2 R)
  let v7 : Vec2 R := (Vec2.moved (Vec2.zero : Vec2 R) Coord.X (if (decide (v2 > (0.0 : R))) then v3 else (-v3)))
  let o8 := (AABB2.hitsLine v5 (⟨v6, v7⟩ : Line2 R))
  bad := ck bad 537 (decide (o8.isSome = false))
  return bad
end Aabb2_89
#guard passes Aabb2_89.run

namespace Aabb2_90
abbrev R := Float32
def run : Res (List Nat) := do
  let mut bad : List Nat := []
  let v1 : R := (1000.0 : R)
  let v2 : R := (1.0 : R)
  let v3 : R := (v1 * (5.0 : R))
  let v4 : Coord := (next2D Coord.Y)
  let v5 : AABB2 R := (⟨(⟨(-v1), (-v1)⟩ : Vec2 R), (⟨v1, v1⟩ : Vec2 R)⟩ : AABB2 R)
  let v6 : Vec2 R := (Vec2.zero : Vec2 R)
  let v7 : Vec2 R := (Vec2.moved (Vec2.zero : Vec2 R) Coord.Y (if (decide (v2 > (0.0 : R))) then v3 else (-v3)))
  let o8 := (AABB2.hitsLine v5 (⟨v6, v7⟩ : Line2 R))
  bad := ck bad 537 (decide (o8.isSome = false))
  return bad
end Aabb2_90
#guard passes Aabb2_90.run

namespace Aabb2_91
abbrev R := Float32
def run : Res (List Nat) := do
  let mut bad : List Nat := []
  let v1 : R := (1.0 : R)
  let v2 : R := (1.0 : R)
  let v3 : R := (v1 * (5.0 : R))
  let v4 : Coord := (next2D Coord.X)
  let v5 : AABB2 R := (⟨(⟨(-v1), (-v1)⟩ : Vec2 R), (⟨v1, v1⟩ : Vec2 R)⟩ : AABB2 R)
  let v6 : Vec2 R := (Vec2.zero : Vec2 R)
  let v7 : Vec2 R := (Vec2.moved (Vec2.zero : Vec2 R) Coord.X (if (decide (v2 > (0.0 : R))) then v3 else (-v3)))
  let o8 := (AABB2.hitsLine v5 (⟨(Vec2.moved v6 v4 v3), (Vec2.moved v7 v4 v3)⟩ : Line2 R))
  bad := ck bad 541 (decide (o8.isSome = false))
  let o9 := (AABB2.hitsLine v5 (⟨(Vec2.moved v6 v4 (-v3)), (Vec2.moved v7 v4 (-v3))⟩ : Line2 R))
  bad := ck bad 542 (decide (o9.isSome = false))
  return bad
end Aabb2_91
#guard passes Aabb2_91.run

namespace Aabb2_92
abbrev R := Float32
def run : Res (List Nat) := do
  let mut bad : List Nat := []
  let v1 : R := (1.0 : R)
  let v2 : R := (1.0 : R)
  let v3 : R := (v1 * (5.0 : R))
  let v4 : Coord := (next2D Coord.Y)
  let v5 : AABB2 R := (⟨(⟨(-v1), (-v1)⟩ : Vec2 R), (⟨v1, v1⟩ : Vec2 R)⟩ : AABB2 R)
  let v6 : Vec2 R := (Vec2.zero : Vec2 R)
  let v7 : Vec2 R := (Vec2.moved (Vec2.zero : Vec2 R) Coord.Y (if (decide (v2 > (0.0 : R))) then v3 else (-v3)))
  let o8 := (AABB2.hitsLine v5 (⟨(Vec2.moved v6 v4 v3), (Vec2.moved v7 v4 v3)⟩ : Line2 R))
  bad := ck bad 541 (decide (o8.isSome = false))
  let o9 := (AABB2.hitsLine v5 (⟨(Vec2.moved v6 v4 (-v3)), (Vec2.moved v7 v4 (-v3))⟩ : Line2 R))
  bad := ck bad 542 (decide (o9.isSome = false))
  return bad
end Aabb2_92
#guard passes Aabb2_92.run

namespace Aabb2_93
abbrev R := Float32
def run : Res (List Nat) := do
  let mut bad : List Nat := []
  let v1 : R := (0.001 : R)
  let v2 : R := (1.0 : R)
  let v3 : R := (v1 * (5.0 : R))
  let v4 : Coord := (next2D Coord.X)
  let v5 : AABB2 R := (⟨(⟨(-v1), (-v1)⟩ : Vec2 R), (⟨v1, v1⟩ : Vec2 R)⟩ : AABB2 R)
  let v6 : Vec2 R := (Vec2.zero : Vec2 R)
  let v7 : Vec2 R := (Vec2.moved (Vec2.zero : Vec2 R) Coord.X (if (decide (v2 > (0.0 : R))) then v3 else (-v3)))
  let o8 := (AABB2.hitsLine v5 (⟨(Vec2.moved v6 v4 v3), (Vec2.moved v7 v4 v3)⟩ : Line2 R))
  bad := ck bad 541 (decide (o8.isSome = false))
  let o9 := (AABB2.hitsLine v5 (⟨(Vec2.moved v6 v4 (-v3)), (Vec2.moved v7 v4 (-v3))⟩ : Line2 R))
  bad := ck bad 542 (decide (o9.isSome = false))
  return bad
end Aabb2_93
#guard passes Aabb2_93.run

namespace Aabb2_94
abbrev R := Float32
def run : Res (List Nat) := do
  let mut bad : List Nat := []
  let v1 : R := (0.001 : R)
  let v2 : R := (1.0 : R)
  let v3 : R := (v1 * (5.0 : R))
  let v4 : Coord := (next2D Coord.Y)
  let v5 : AABB2 R := (⟨(⟨(-v1), (-v1)⟩ : Vec2 R), (⟨v1, v1⟩ : Vec2 R)⟩ : AABB2 R)
  let v6 : Vec2 R := (Vec2.zero : Vec2 R)
  let v7 : Vec2 R := (Vec2.moved (Vec2.zero : Vec2 R) Coord.Y (if (decide (v2 > (0.0 : R))) then v3 else (-v3)))
  let o8 := (AABB2.hitsLine v5 (⟨(Vec2.moved v6 v4 v3), (Vec2.moved v7 v4 v3)⟩ : Line2 R))
  bad := ck bad 541 (decide (o8.isSome = false))
  let o9 := (AABB2.hitsLine v5 (⟨(Vec2.moved v6 v4 (-v3)), (Vec2.moved v7 v4 (-v3))⟩ : Line2 R))
  bad := ck bad 542 (decide (o9.isSome = false))
  return bad
end Aabb2_94
#guard passes Aabb2_94.run

namespace Aabb2_95
abbrev R := Float32
def run : Res (List Nat) := do
  let mut bad : List Nat := []
  let v1 : R := (1000.0 : R)
  let v2 : R := (1.0 : R)
  let v3 : R := (v1 * (5.0 : R))
  let v4 : Coord := (next2D Coord.X)
  let v5 : AABB2 R := (⟨(⟨(-v1), (-v1)⟩ : Vec2 R), (⟨v1, v1⟩ : Vec2 R)⟩ : AABB2 R)
  let v6 : Vec2 R := (Vec2.zero : Vec2 R)
  let v7 : Vec2 R := (Vec2.moved (Vec2.zero : Vec2 R) Coord.X (if (decide (v2 > (0.0 : R))) then v3 else (-v3)))
  let o8 := (AABB2.hitsLine v5 (⟨(Vec2.moved v6 v4 v3), (Vec2.moved v7 v4 v3)⟩ : Line2 R))
  bad := ck bad 541 (decide (o8.isSome = false))
  let o9 := (AABB2.hitsLine v5 (⟨(Vec2.moved v6 v4 (-v3)), (Vec2.moved v7 v4 (-v3))⟩ : Line2 R))
  bad := ck bad 542 (decide (o9.isSome = false))
  return bad
end Aabb2_95
#guard passes Aabb2_95.run

namespace Aabb2_96
abbrev R := Float32
def run : Res (List Nat) := do
  let mut bad : List Nat := []
  let v1 : R := (1000.0 : R)
  let v2 : R := (1.0 : R)
  let v3 : R := (v1 * (5.0 : R))
  let v4 : Coord := (next2D Coord.Y)
  let v5 : AABB2 R := (⟨(⟨(-v1), (-v1)⟩ : Vec2 R), (⟨v1, v1⟩ : Vec2 R)⟩ : AABB2 R)
  let v6 : Vec2 R := (Vec2.zero : Vec2 R)
  let v7 : Vec2 R := (Vec2.moved (Vec2.zero : Vec2 R) Coord.Y (if (decide (v2 > (0.0 : R))) then v3 else (-v3)))
  let o8 := (AABB2.hitsLine v5 (⟨(Vec2.moved v6 v4 v3), (Vec2.moved v7 v4 v3)⟩ : Line2 R))
  bad := ck bad 541 (decide (o8.isSome = false))
  let o9 := (AABB2.hitsLine v5 (⟨(Vec2.moved v6 v4 (-v3)), (Vec2.moved v7 v4 (-v3))⟩ : Line2 R))
  bad := ck bad 542 (decide (o9.isSome = false))
  return bad
end Aabb2_96
#guard passes Aabb2_96.run

namespace Aabb2_97
abbrev R := Float32
def run : Res (List Nat) := do
  let mut bad : List Nat := []
  let v1 : R := (1.0 : R)
  let v2 : R := (1.0 : R)
  let v3 : R := (v1 * (5.0 : R))
  let v4 : Coord := (next2D Coord.X)
  let v5 : AABB2 R := (⟨(⟨(-v1), (-v1)⟩ : Vec2 R), (⟨v1, v1⟩ : Vec2 R)⟩ : AABB2 R)
  let v6 : R := (0.8 : R)
  let v7 : Vec2 R := (Vec2.moved (Vec2.zero : Vec2 R) Coord.X (if (decide (v2 > (0.0 : R))) then (-v3) else v3))
  let v8 : Vec2 R := (Vec2.zero : Vec2 R)
  let o9 := (AABB2.hitsLine v5 (⟨v7, v8⟩ : Line2 R))
  bad := ck bad 554 (decide (o9.isSome = true))
  bad := ck bad 555 (nearRel (0.0001 : R) (o9.getD (0)) v6)
  return bad
end Aabb2_97
#guard passes Aabb2_97.run

namespace Aabb2_98
abbrev R := Float32
def run : Res (List Nat) := do
  let mut bad : List Nat := []
  let v1 : R := (1.0 : R)
  let v2 : R := (1.0 : R)
  let v3 : R := (v1 * (5.0 : R))
  let v4 : Coord := (next2D Coord.Y)
  let v5 : AABB2 R := (⟨(⟨(-v1), (-v1)⟩ : Vec2 R), (⟨v1, v1⟩ : Vec2 R)⟩ : AABB2 R)
  let v6 : R := (0.8 : R)
  let v7 : Vec2 R := (Vec2.moved (Vec2.zero : Vec2 R) Coord.Y (if (decide (v2 > (0.0 : R))) then (-v3) else v3))
  let v8 : Vec2 R := (Vec2.zero : Vec2 R)
  let o9 := (AABB2.hitsLine v5 (⟨v7, v8⟩ : Line2 R))
  bad := ck bad 554 (decide (o9.isSome = true))
  bad := ck bad 555 (nearRel (0.0001 : R) (o9.getD (0)) v6)
  return bad
end Aabb2_98
#guard passes Aabb2_98.run

namespace Aabb2_99
abbrev R := Float32
def run : Res (List Nat) := do
  let mut bad : List Nat := []
  let v1 : R := (0.001 : R)
  let v2 : R := (1.0 : R)
  let v3 : R := (v1 * (5.0 : R))
  let v4 : Coord := (next2D Coord.X)
  let v5 : AABB2 R := (⟨(⟨(-v1), (-v1)⟩ : Vec2 R), (⟨v1, v1⟩ : Vec2 R)⟩ : AABB2 R)
  let v6 : R := (0.8 : R)
  let v7 : Vec2 R := (Vec2.moved (Vec2.zero : Vec2 R) Coord.X (if (decide (v2 > (0.0 : R))) then (-v3) else v3))
  let v8 : Vec2 R := (Vec2.zero : Vec2 R)
  let o9 := (AABB2.hitsLine v5 (⟨v7, v8⟩ : Line2 R))
  bad := ck bad 554 (decide (o9.isSome = true))
  bad := ck bad 555 (nearRel (0.0001 : R) (o9.getD (0)) v6)
  return bad
end Aabb2_99
#guard passes Aabb2_99.run

namespace Aabb2_100
abbrev R := Float32
def run : Res (List Nat) := do
  let mut bad : List Nat := []
  let v1 : R := (0.001 : R)
  let v2 : R := (1.0 : R)
  let v3 : R := (v1 * (5.0 : R))
  let v4 : Coord := (next2D Coord.Y)
  let v5 : AABB2 R := (⟨(⟨(-v1), (-v1)⟩ : Vec2 R), (⟨v1, v1⟩ : Vec2 R)⟩ : AABB2 R)
  let v6 : R := (0.8 : R)
  let v7 : Vec2 R := (Vec2.moved (Vec2.zero : Vec2 R) Coord.Y (if (decide (v2 > (0.0 : R))) then (-v3) else v3))
  let v8 : Vec2 R := (Vec2.zero : Vec2 R)
  let o9 := (AABB2.hitsLine v5 (⟨v7, v8⟩ : Line2 R))
  bad := ck bad 554 (decide (o9.isSome = true))
  bad := ck bad 555 (nearRel (0.0001 : R) (o9.getD (0)) v6)
  return bad
end Aabb2_100
#guard passes Aabb2_100.run

namespace Aabb2_101
abbrev R := Float32
def run : Res (List Nat) := do
  let mut bad : List Nat := []
  let v1 : R := (1000.0 : R)
  let v2 : R := (1.0 : R)
  let v3 : R := (v1 * (5.0 : R))
  let v4 : Coord := (next2D Coord.X)
  let v5 : AABB2 R := (⟨(⟨(-v1), (-v1)⟩ : Vec2 R), (⟨v1, v1⟩ : Vec2 R)⟩ : AABB2 R)
  let v6 : R := (0.8 : R)
  let v7 : Vec2 R := (Vec2.moved (Vec2.zero : Vec2 R) Coord.X (if (decide (v2 > (0.0 : R))) then (-v3) else v3))
  let v8 : Vec2 R := (Vec2.zero : Vec2 R)
  let o9 := (AABB2.hitsLine v5 (⟨v7, v8⟩ : Line2 R))
  bad := ck bad 554 (decide (o9.isSome = true))
  bad := ck bad 555 (nearRel (0.0001 : R) (o9.getD (0)) v6)
  return bad
end Aabb2_101
#guard passes Aabb2_101.run

namespace Aabb2_102
abbrev R := Float32
def run : Res (List Nat) := do
  let mut bad : List Nat := []
  let v1 : R := (1000.0 : R)
  let v2 : R := (1.0 : R)
  let v3 : R := (v1 * (5.0 : R))
  let v4 : Coord := (next2D Coord.Y)
  let v5 : AABB2 R := (⟨(⟨(-v1), (-v1)⟩ : Vec2 R), (⟨v1, v1⟩ : Vec2 R)⟩ : AABB2 R)
  let v6 : R := (0.8 : R)
  let v7 : Vec2 R := (Vec2.moved (Vec2.zero : Vec2 R) Coord.Y (if (decide (v2 > (0.0 : R))) then (-v3) else v3))
  let v8 : Vec2 R := (Vec2.zero : Vec2 R)
  let o9 := (AABB2.hitsLine v5 (⟨v7, v8⟩ : Line2 R))
  bad := ck bad 554 (decide (o9.isSome = true))
  bad := ck bad 555 (nearRel (0.0001 : R) (o9.getD (0)) v6)
  return bad
end Aabb2_102
#guard passes Aabb2_102.run

namespace Aabb2_103
abbrev R := Float32
def run : Res (List Nat) := do
  let mut bad : List Nat := []
  let v1 : R := (1.0 : R)
  let v2 : R := (1.0 : R)
  let v3 : R := (v1 * (5.0 : R))
  let v4 : Coord := (next2D Coord.X)
  let v5 : AABB2 R := (⟨(⟨(-v1), (-v1)⟩ : Vec2 R), (⟨v1, v1⟩ : Vec2 R)⟩ : AABB2 R)
  let v6 : R := (0.8 : R)
  let v7 : Vec2 R := (Vec2.moved (Vec2.zero : Vec2 R) Coord.X (if (decide (v2 > (0.0 : R))) then (-v3) else v3))
  let v8 : Vec2 R := (Vec2.zero : Vec2 R)
  let o9 := (AABB2.hitsLine v5 (⟨(Vec2.moved v7 v4 v3), (Vec2.moved v8 v4 v3)⟩ : Line2 R))
  bad := ck bad 559 (decide (o9.isSome = false))
  let o10 := (AABB2.hitsLine v5 (⟨(Vec2.moved v7 v4 (-v3)), (Vec2.moved v8 v4 (-v3))⟩ : Line2 R))
  bad := ck bad 560 (decide (o10.isSome = false))
  return bad
end Aabb2_103
#guard passes Aabb2_103.run

namespace Aabb2_104
abbrev R := Float32
def run : Res (List Nat) := do
  let mut bad : List Nat := []
  let v1 : R := (1.0 : R)
  let v2 : R := (1.0 : R)
  let v3 : R := (v1 * (5.0 : R))
  let v4 : Coord := (next2D Coord.Y)
  let v5 : AABB2 R := (⟨(⟨(-v1), (-v1)⟩ : Vec2 R), (⟨v1, v1⟩ : Vec2 R)⟩ : AABB2 R)
  let v6 : R := (0.8 : R)
  let v7 : Vec2 R := (Vec2.moved (Vec2.zero : Vec2 R) Coord.Y (if (decide (v2 > (0.0 : R))) then (-v3) else v3))
  let v8 : Vec2 R := (Vec2.zero : Vec2 R)
  let o9 := (AABB2.hitsLine v5 (⟨(Vec2.moved v7 v4 v3), (Vec2.moved v8 v4 v3)⟩ : Line2 R))
  bad := ck bad 559 (decide (o9.isSome = false))
  let o10 := (AABB2.hitsLine v5 (⟨(Vec2.moved v7 v4 (-v3)), (Vec2.moved v8 v4 (-v3))⟩ : Line2 R))
  bad := ck bad 560 (decide (o10.isSome = false))
  return bad
end Aabb2_104
#guard passes Aabb2_104.run

namespace Aabb2_105
abbrev R := Float32
def run : Res (List Nat) := do
  let mut bad : List Nat := []
  let v1 : R := (0.001 : R)
  let v2 : R := (1.0 : R)
  let v3 : R := (v1 * (5.0 : R))
  let v4 : Coord := (next2D Coord.X)
  let v5 : AABB2 R := (⟨(⟨(-v1), (-v1)⟩ : Vec2 R), (⟨v1, v1⟩ : Vec2 R)⟩ : AABB2 R)
  let v6 : R := (0.8 : R)
  let v7 : Vec2 R := (Vec2.moved (Vec2.zero : Vec2 R) Coord.X (if (decide (v2 > (0.0 : R))) then (-v3) else v3))
  let v8 : Vec2 R := (Vec2.zero : Vec2 R)
  let o9 := (AABB2.hitsLine v5 (⟨(Vec2.moved v7 v4 v3), (Vec2.moved v8 v4 v3)⟩ : Line2 R))
  bad := ck bad 559 (decide (o9.isSome = false))
  let o10 := (AABB2.hitsLine v5 (⟨(Vec2.moved v7 v4 (-v3)), (Vec2.moved v8 v4 (-v3))⟩ : Line2 R))
  bad := ck bad 560 (decide (o10.isSome = false))
  return bad
end Aabb2_105
#guard passes Aabb2_105.run

namespace Aabb2_106
abbrev R := Float32
def run : Res (List Nat) := do
  let mut bad : List Nat := []
  let v1 : R := (0.001 : R)
  let v2 : R := (1.0 : R)
  let v3 : R := (v1 * (5.0 : R))
  let v4 : Coord := (next2D Coord.Y)
  let v5 : AABB2 R := (⟨(⟨(-v1), (-v1)⟩ : Vec2 R), (⟨v1, v1⟩ : Vec2 R)⟩ : AABB2 R)
  let v6 : R := (0.8 : R)
  let v7 : Vec2 R := (Vec2.moved (Vec2.zero : Vec2 R) Coord.Y (if (decide (v2 > (0.0 : R))) then (-v3) else v3))
  let v8 : Vec2 R := (Vec2.zero : Vec2 R)
  let o9 := (AABB2.hitsLine v5 (⟨(Vec2.moved v7 v4 v3), (Vec2.moved v8 v4 v3)⟩ : Line2 R))
  bad := ck bad 559 (decide (o9.isSome = false))
  let o10 := (AABB2.hitsLine v5 (⟨(Vec2.moved v7 v4 (-v3)), (Vec2.moved v8 v4 (-v3))⟩ : Line2 R))
  bad := ck bad 560 (decide (o10.isSome = false))
  return bad
end Aabb2_106
#guard passes Aabb2_106.run

namespace Aabb2_107
abbrev R := Float32
def run : Res (List Nat) := do
  let mut bad : List Nat := []
  let v1 : R := (1000.0 : R)
  let v2 : R := (1.0 : R)
  let v3 : R := (v1 * (5.0 : R))
  let v4 : Coord := (next2D Coord.X)
  let v5 : AABB2 R := (⟨(⟨(-v1), (-v1)⟩ : Vec2 R), (⟨v1, v1⟩ : Vec2 R)⟩ : AABB2 R)
  let v6 : R := (0.8 : R)
  let v7 : Vec2 R := (Vec2.moved (Vec2.zero : Vec2 R) Coord.X (if (decide (v2 > (0.0 : R))) then (-v3) else v3))
  let v8 : Vec2 R := (Vec2.zero : Vec2 R)
  let o9 := (AABB2.hitsLine v5 (⟨(Vec2.moved v7 v4 v3), (Vec2.moved v8 v4 v3)⟩ : Line2 R))
  bad := ck bad 559 (decide (o9.isSome = false))
  let o10 := (AABB2.hitsLine v5 (⟨(Vec2.moved v7 v4 (-v3)), (Vec2.moved v8 v4 (-v3))⟩ : Line2 R))
  bad := ck bad 560 (decide (o10.isSome = false))
  return bad
end Aabb2_107
#guard passes Aabb2_107.run

namespace Aabb2_108
abbrev R := Float32
def run : Res (List Nat) := do
  let mut bad : List Nat := []
  let v1 : R := (1000.0 : R)
  let v2 : R := (1.0 : R)
  let v3 : R := (v1 * (5.0 : R))
  let v4 : Coord := (next2D Coord.Y)
  let v5 : AABB2 R := (⟨(⟨(-v1), (-v1)⟩ : Vec2 R), (⟨v1, v1⟩ : Vec2 R)⟩ : AABB2 R)
  let v6 : R := (0.8 : R)
  let v7 : Vec2 R := (Vec2.moved (Vec2.zero : Vec2 R) Coord.Y (if (decide (v2 > (0.0 : R))) then (-v3) else v3))
  let v8 : Vec2 R := (Vec2.zero : Vec2 R)
  let o9 := (AABB2.hitsLine v5 (⟨(Vec2.moved v7 v4 v3), (Vec2.moved v8 v4 v3)⟩ : Line2 R))
  bad := ck bad 559 (decide (o9.isSome = false))
  let o10 := (AABB2.hitsLine v5 (⟨(Vec2.moved v7 v4 (-v3)), (Vec2.moved v8 v4 (-v3))⟩ : Line2 R))
  bad := ck bad 560 (decide (o10.isSome = false))
  return bad
end Aabb2_108
#guard passes Aabb2_108.run

namespace Aabb2_109
abbrev R := Float32
def run : Res (List Nat) := do
  let mut bad : List Nat := []
  let v1 : R := (1.0 : R)
  let v2 : R := (1.0 : R)
  let v3 : R := (v1 * (5.0 : R))
  let v4 : Coord := (next2D Coord.X)
  let v5 : AABB2 R := (⟨(⟨(-v1), (-v1)⟩ : Vec2 R), (⟨v1, v1⟩ : Vec2 R)⟩ : AABB2 R)
  let v6 : Vec2 R := (Vec2.moved (Vec2.zero : Vec2 R) Coord.X (if (decide (v2 > (0.0 : R))) then v3 else (-v3)))
  let v7 : Vec2 R := (Vec2.moved v6 Coord.X v1)
  let o8 := (AABB2.hitsLine v5 (⟨v6, v7⟩ : Line2 R))
  let v9 : Bool := o8.isSome
  bad := ck bad 571 (decide (v9 = false))
  return bad
end Aabb2_109
#guard passes Aabb2_109.run

namespace Aabb2_110
abbrev R := Float32
def run : Res (List Nat) := do
  let mut bad : List Nat := []
  let v1 : R := (1.0 : R)
  let v2 : R := (1.0 : R)
  let v3 : R := (v1 * (5.0 : R))
  let v4 : Coord := (next2D Coord.Y)
  let v5 : AABB2 R := (⟨(⟨(-v1), (-v1)⟩ : Vec2 R), (⟨v1, v1⟩ : Vec2 R)⟩ : AABB2 R)
  let v6 : Vec2 R := (Vec2.moved (Vec2.zero : Vec2 R) Coord.Y (if (decide (v2 > (0.0 : R))) then v3 else (-v3)))
  let v7 : Vec2 R := (Vec2.moved v6 Coord.Y v1)
  let o8 := (AABB2.hitsLine v5 (⟨v6, v7⟩ : Line2 R))
  let v9 : Bool := o8.isSome
  bad := ck bad 571 (decide (v9 = false))
  return bad
end Aabb2_110
#guard passes Aabb2_110.run

namespace Aabb2_111
abbrev R := Float32
def run : Res (List Nat) := do
  let mut bad : List Nat := []
  let v1 : R := (0.001 : R)
  let v2 : R := (1.0 : R)
  let v3 : R := (v1 * (5.0 : R))
  let v4 : Coord := (next2D Coord.X)
  let v5 : AABB2 R := (⟨(⟨(-v1), (-v1)⟩ : Vec2 R), (⟨v1, v1⟩ : Vec2 R)⟩ : AABB2 R)
  let v6 : Vec2 R := (Vec2.moved (Vec2.zero : Vec2 R) Coord.X (if (decide (v2 > (0.0 : R))) then v3 else (-v3)))
  let v7 : Vec2 R := (Vec2.moved v6 Coord.X v1)
  let o8 := (AABB2.hitsLine v5 (⟨v6, v7⟩ : Line2 R))
  let v9 : Bool := o8.isSome
  bad := ck bad 571 (decide (v9 = false))
  return bad
end Aabb2_111
#guard passes Aabb2_111.run

namespace Aabb2_112
abbrev R := Float32
def run : Res (List Nat) := do
  let mut bad : List Nat := []
  let v1 : R := (0.001 : R)
  let v2 : R := (1.0 : R)
  let v3 : R := (v1 * (5.0 : R))
  let v4 : Coord := (next2D Coord.Y)
  let v5 : AABB2 R := (⟨(⟨(-v1), (-v1)⟩ : Vec2 R), (⟨v1, v1⟩ : Vec2 R)⟩ : AABB2 R)
  let v6 : Vec2 R := (Vec2.moved (Vec2.zero : Vec2 R) Coord.Y (if (decide (v2 > (0.0 : R))) then v3 else (-v3)))
  let v7 : Vec2 R := (Vec2.moved v6 Coord.Y v1)
  let o8 := (AABB2.hitsLine v5 (⟨v6, v7⟩ : Line2 R))
  let v9 : Bool := o8.isSome
  bad := ck bad 571 (decide (v9 = false))
  return bad
end Aabb2_112
#guard passes Aabb2_112.run

namespace Aabb2_113
abbrev R := Float32
def run : Res (List Nat) := do
  let mut bad : List Nat := []
  let v1 : R := (1000.0 : R)
  let v2 : R := (1.0 : R)
  let v3 : R := (v1 * (5.0 : R))
  let v4 : Coord := (next2D Coord.X)
  let v5 : AABB2 R := (⟨(⟨(-v1), (-v1)⟩ : Vec2 R), (⟨v1, v1⟩ : Vec2 R)⟩ : AABB2 R)
  let v6 : Vec2 R := (Vec2.moved (Vec2.zero : Vec2 R) Coord.X (if (decide (v2 > (0.0 : R))) then v3 else (-v3)))
  let v7 : Vec2 R := (Vec2.moved v6 Coord.X v1)
  let o8 := (AABB2.hitsLine v5 (⟨v6, v7⟩ : Line2 R))
  let v9 : Bool := o8.isSome
  bad := ck bad 571 (decide (v9 = false))
  return bad
end Aabb2_113
#guard passes Aabb2_113.run

namespace Aabb2_114
abbrev R := Float32
def run : Res (List Nat) := do
  let mut bad : List Nat := []
  let v1 : R := (1000.0 : R)
  let v2 : R := (1.0 : R)
  let v3 : R := (v1 * (5.0 : R))
  let v4 : Coord := (next2D Coord.Y)
  let v5 : AABB2 R := (⟨(⟨(-v1), (-v1)⟩ : Vec2 R), (⟨v1, v1⟩ : Vec2 R)⟩ : AABB2 R)
  let v6 : Vec2 R := (Vec2.moved (Vec2.zero : Vec2 R) Coord.Y (if (decide (v2 > (0.0 : R))) then v3 else (-v3)))
  let v7 : Vec2 R := (Vec2.moved v6 Coord.Y v1)
  let o8 := (AABB2.hitsLine v5 (⟨v6, v7⟩ : Line2 R))
  let v9 : Bool := o8.isSome
  bad := ck bad 571 (decide (v9 = false))
  return bad
end Aabb2_114
#guard passes Aabb2_114.run

namespace Aabb2_115
abbrev R := Float32
def run : Res (List Nat) := do
  let mut bad : List Nat := []
  let v1 : R := (1.0 : R)
  let v2 : R := (1.0 : R)
  let v3 : R := (v1 * (5.0 : R))
  let v4 : Coord := (next2D Coord.X)
  let v5 : AABB2 R := (⟨(⟨(-v1), (-v1)⟩ : Vec2 R), (⟨v1, v1⟩ : Vec2 R)⟩ : AABB2 R)
  let v6 : Vec2 R := (Vec2.moved (Vec2.zero : Vec2 R) Coord.X (if (decide (v2 > (0.0 : R))) then v3 else (-v3)))
  let v7 : Vec2 R := (Vec2.moved v6 Coord.X v1)
  let o8 := (AABB2.hitsLine v5 (⟨(Vec2.moved v6 v4 v3), (Vec2.moved v7 v4 v3)⟩ : Line2 R))
  bad := ck bad 575 (decide (o8.isSome = false))
  let o9 := (AABB2.hitsLine v5 (⟨(Vec2.moved v6 v4 (-v3)), (Vec2.moved v7 v4 (-v3))⟩ : Line2 R))
  bad := ck bad 576 (decide (o9.isSome = false))
  return bad
end Aabb2_115
#guard passes Aabb2_115.run

namespace Aabb2_116
abbrev R := Float32
def run : Res (List Nat) := do
  let mut bad : List Nat := []
  let v1 : R := (1.0 : R)
  let v2 : R := (1.0 : R)
  let v3 : R := (v1 * (5.0 : R))
  let v4 : Coord := (next2D Coord.Y)
  let v5 : AABB2 R := (⟨(⟨(-v1), (-v1)⟩ : Vec2 R), (⟨v1, v1⟩ : Vec2 R)⟩ : AABB2 R)
  let v6 : Vec2 R := (Vec2.moved (Vec2.zero : Vec2 R) Coord.Y (if (decide (v2 > (0.0 : R))) then v3 else (-v3)))
  let v7 : Vec2 R := (Vec2.moved v6 Coord.Y v1)
  let o8 := (AABB2.hitsLine v5 (⟨(Vec2.moved v6 v4 v3), (Vec2.moved v7 v4 v3)⟩ : Line2 R))
  bad := ck bad 575 (decide (o8.isSome = false))
  let o9 := (AABB2.hitsLine v5 (⟨(Vec2.moved v6 v4 (-v3)), (Vec2.moved v7 v4 (-v3))⟩ : Line2 R))
  bad := ck bad 576 (decide (o9.isSome = false))
  return bad
end Aabb2_116
#guard passes Aabb2_116.run

namespace Aabb2_117
abbrev R := Float32
def run : Res (List Nat) := do
  let mut bad : List Nat := []
  let v1 : R := (0.001 : R)
  let v2 : R := (1.0 : R)
  let v3 : R := (v1 * (5.0 : R))
  let v4 : Coord := (next2D Coord.X)
  let v5 : AABB2 R := (⟨(⟨(-v1), (-v1)⟩ : Vec2 R), (⟨v1, v1⟩ : Vec2 R)⟩ : AABB2 R)
  let v6 : Vec2 R := (Vec2.moved (Vec2.zero : Vec2 R) Coord.X (if (decide (v2 > (0.0 : R))) then v3 else (-v3)))
  let v7 : Vec2 R := (Vec2.moved v6 Coord.X v1)
  let o8 := (AABB2.hitsLine v5 (⟨(Vec2.moved v6 v4 v3), (Vec2.moved v7 v4 v3)⟩ : Line2 R))
  bad := ck bad 575 (decide (o8.isSome = false))
  let o9 := (AABB2.hitsLine v5 (⟨(Vec2.moved v6 v4 (-v3)), (Vec2.moved v7 v4 (-v3))⟩ : Line2 R))
  bad := ck bad 576 (decide (o9.isSome = false))
  return bad
end Aabb2_117
#guard passes Aabb2_117.run

namespace Aabb2_118
abbrev R := Float32
def run : Res (List Nat) := do
  let mut bad : List Nat := []
  let v1 : R := (0.001 : R)
  let v2 : R := (1.0 : R)
  let v3 : R := (v1 * (5.0 : R))
  let v4 : Coord := (next2D Coord.Y)
  let v5 : AABB2 R := (⟨(⟨(-v1), (-v1)⟩ : Vec2 R), (⟨v1, v1⟩ : Vec2 R)⟩ : AABB2 R)
  let v6 : Vec2 R := (Vec2.moved (Vec2.zero : Vec2 R) Coord.Y (if (decide (v2 > (0.0 : R))) then v3 else (-v3)))
  let v7 : Vec2 R := (Vec2.moved v6 Coord.Y v1)
  let o8 := (AABB2.hitsLine v5 (⟨(Vec2.moved v6 v4 v3), (Vec2.moved v7 v4 v3)⟩ : Line2 R))
  bad := ck bad 575 (decide (o8.isSome = false))
  let o9 := (AABB2.hitsLine v5 (⟨(Vec2.moved v6 v4 (-v3)), (Vec2.moved v7 v4 (-v3))⟩ : Line2 R))
  bad := ck bad 576 (decide (o9.isSome = false))
  return bad
end Aabb2_118
#guard passes Aabb2_118.run

namespace Aabb2_119
abbrev R := Float32
def run : Res (List Nat) := do
  let mut bad : List Nat := []
  let v1 : R := (1000.0 : R)
  let v2 : R := (1.0 : R)
  let v3 : R := (v1 * (5.0 : R))
  let v4 : Coord := (next2D Coord.X)
  let v5 : AABB2 R := (⟨(⟨(-v1), (-v1)⟩ : Vec2 R), (⟨v1, v1⟩ : Vec2 R)⟩ : AABB2 R)
  let v6 : Vec2 R := (Vec2.moved (Vec2.zero : Vec2 R) Coord.X (if (decide (v2 > (0.0 : R))) then v3 else (-v3)))
  let v7 : Vec2 R := (Vec2.moved v6 Coord.X v1)
  let o8 := (AABB2.hitsLine v5 (⟨(Vec2.moved v6 v4 v3), (Vec2.moved v7 v4 v3)⟩ : Line2 R))
  bad := ck bad 575 (decide (o8.isSome = false))
  let o9 := (AABB2.hitsLine v5 (⟨(Vec2.moved v6 v4 (-v3)), (Vec2.moved v7 v4 (-v3))⟩ : Line2 R))
  bad := ck bad 576 (decide (o9.isSome = false))
  return bad
end Aabb2_119
#guard passes Aabb2_119.run

namespace Aabb2_120
abbrev R := Float32
def run : Res (List Nat) := do
  let mut bad : List Nat := []
  let v1 : R := (1000.0 : R)
  let v2 : R := (1.0 : R)
  let v3 : R := (v1 * (5.0 : R))
  let v4 : Coord := (next2D Coord.Y)
  let v5 : AABB2 R := (⟨(⟨(-v1), (-v1)⟩ : Vec2 R), (⟨v1, v1⟩ : Vec2 R)⟩ : AABB2 R)
  let v6 : Vec2 R := (Vec2.moved (Vec2.zero : Vec2 R) Coord.Y (if (decide (v2 > (0.0 : R))) then v3 else (-v3)))
  let v7 : Vec2 R := (Vec2.moved v6 Coord.Y v1)
  let o8 := (AABB2.hitsLine v5 (⟨(Vec2.moved v6 v4 v3), (Vec2.moved v7 v4 v3)⟩ : Line2 R))
  bad := ck bad 575 (decide (o8.isSome = false))
  let o9 := (AABB2.hitsLine v5 (⟨(Vec2.moved v6 v4 (-v3)), (Vec2.moved v7 v4 (-v3))⟩ : Line2 R))
  bad := ck bad 576 (decide (o9.isSome = false))
  return bad
end Aabb2_120
#guard passes Aabb2_120.run

namespace Aabb2_121
abbrev R := Float32
def run : Res (List Nat) := do
  let mut bad : List Nat := []
  let v1 : R := (1.0 : R)
  let v2 : R := (1.0 : R)
  let v3 : R := (v1 * (5.0 : R))
  let v4 : Coord := (next2D Coord.X)
  let v5 : AABB2 R := (⟨(⟨(-v1), (-v1)⟩ : Vec2 R), (⟨v1, v1⟩ : Vec2 R)⟩ : AABB2 R)
  let v6 : Vec2 R := (Vec2.moved (Vec2.moved (Vec2.zero : Vec2 R) Coord.X (if (decide (v2 > (0.0 : R))) then (-v3) else v3)) v4 (if (decide (v2 > (0.0 : R))) then (-v3) else v3))
  let v7 : Vec2 R := v6
  let v8 : Vec2 R := (Vec2.moved v6 Coord.X (v2 * v1))
  let v9 : Vec2 R := (Vec2.moved v6 Coord.X ((v2 * v1) * (2 : R)))
  let v10 : Vec2 R := (Vec2.moved v6 v4 (v2 * v1))
  let v11 : Vec2 R := (Vec2.moved v6 v4 ((v2 * v1) * (2 : R)))
  let v12 : R := (0.6 : R)
  let v13 : R := (0.5 : R)
  let v14 : R := (0.4 : R)
  let v15 : R := (0.5 : R)
  let v16 : R := (0.4 : R)
  let v17 : Vec2 R := v7
  let v18 : Vec2 R := (Vec2.moved (Vec2.moved v17 Coord.X ((v2 * v3) * (2.0 : R))) v4 ((v2 * v3) * (2.0 : R)))
  let v19 : R := (0.4 : R)
  let o20 := (AABB2.hitsLine v5 (⟨v17, v18⟩ : Line2 R))
  let v21 : Bool := o20.isSome
  bad := ck bad 608 (decide (v21 = true))
  bad := ck bad 609 (Near.near (0.0001 : R) (o20.getD (0)) v19)
  return bad
end Aabb2_121
#guard passes Aabb2_121.run

namespace Aabb2_122
abbrev R := Float32
def run : Res (List Nat) := do
  let mut bad : List Nat := []
  let v1 : R := (1.0 : R)
  let v2 : R := (-(1.0 : R))
  let v3 : R := (v1 * (5.0 : R))
  let v4 : Coord := (next2D Coord.X)
  let v5 : AABB2 R := (⟨(⟨(-v1), (-v1)⟩ : Vec2 R), (⟨v1, v1⟩ : Vec2 R)⟩ : AABB2 R)
  let v6 : Vec2 R := (Vec2.moved (Vec2.moved (Vec2.zero : Vec2 R) Coord.X (if (decide (v2 > (0.0 : R))) then (-v3) else v3)) v4 (if (decide (v2 > (0.0 : R))) then (-v3) else v3))
  let v7 : Vec2 R := v6
  let v8 : Vec2 R := (Vec2.moved v6 Coord.X (v2 * v1))
  let v9 : Vec2 R := (Vec2.moved v6 Coord.X ((v2 * v1) * (2 : R)))
  let v10 : Vec2 R := (Vec2.moved v6 v4 (v2 * v1))
  let v11 : Vec2 R := (Vec2.moved v6 v4 ((v2 * v1) * (2 : R)))
  let v12 : R := (0.6 : R)
  let v13 : R := (0.5 : R)
  let v14 : R := (0.4 : R)
  let v15 : R := (0.5 : R)
  let v16 : R := (0.4 : R)
  let v17 : Vec2 R := v11
  let v18 : Vec2 R := (Vec2.moved (Vec2.moved v17 Coord.X ((v2 * v3) * (2.0 : R))) v4 ((v2 * v3) * (2.0 : R)))
  let v19 : R := (0.4 : R)
  let o20 := (AABB2.hitsLine v5 (⟨v17, v18⟩ : Line2 R))
  let v21 : Bool := o20.isSome
  bad := ck bad 608 (decide (v21 = true))
  bad := ck bad 609 (Near.near (0.0001 : R) (o20.getD (0)) v19)
  return bad
end Aabb2_122
#guard passes Aabb2_122.run

namespace Aabb2_123
abbrev R := Float32
def run : Res (List Nat) := do
  let mut bad : List Nat := []
  let v1 : R := (1.0 : R)
  let v2 : R := (-(1.0 : R))
  let v3 : R := (v1 * (5.0 : R))
  let v4 : Coord := (next2D Coord.Y)
  let v5 : AABB2 R := (⟨(⟨(-v1), (-v1)⟩ : Vec2 R), (⟨v1, v1⟩ : Vec2 R)⟩ : AABB2 R)
  let v6 : Vec2 R := (Vec2.moved (Vec2.moved (Vec2.zero : Vec2 R) Coord.Y (if (decide (v2 > (0.0 : R))) then (-v3) else v3)) v4 (if (decide (v2 > (0.0 : R))) then (-v3) else v3))
  let v7 : Vec2 R := v6
  let v8 : Vec2 R := (Vec2.moved v6 Coord.Y (v2 * v1))
  let v9 : Vec2 R := (Vec2.moved v6 Coord.Y ((v2 * v1) * (2 : R)))
  let v10 : Vec2 R := (Vec2.moved v6 v4 (v2 * v1))
  let v11 : Vec2 R := (Vec2.moved v6 v4 ((v2 * v1) * (2 : R)))
  let v12 : R := (0.6 : R)
  let v13 : R := (0.5 : R)
  let v14 : R := (0.4 : R)
  let v15 : R := (0.5 : R)
  let v16 : R := (0.4 : R)
  let v17 : Vec2 R := v10
  let v18 : Vec2 R := (Vec2.moved (Vec2.moved v17 Coord.Y ((v2 * v3) * (2.0 : R))) v4 ((v2 * v3) * (2.0 : R)))
  let v19 : R := (0.4 : R)
  let o20 := (AABB2.hitsLine v5 (⟨v17, v18⟩ : Line2 R))
  let v21 : Bool := o20.isSome
  bad := ck bad 608 (decide (v21 = true))
  bad := ck bad 609 (Near.near (0.0001 : R) (o20.getD (0)) v19)
  return bad
end Aabb2_123
#guard passes Aabb2_123.run

namespace Aabb2_124
abbrev R := Float32
def run : Res (List Nat) := do
  let mut bad : List Nat := []
  let v1 : R := (0.001 : R)
  let v2 : R := (-(1.0 : R))
  let v3 : R := (v1 * (5.0 : R))
  let v4 : Coord := (next2D Coord.X)
  let v5 : AABB2 R := (⟨(⟨(-v1), (-v1)⟩ : Vec2 R), (⟨v1, v1⟩ : Vec2 R)⟩ : AABB2 R)
  let v6 : Vec2 R := (Vec2.moved (Vec2.moved (Vec2.zero : Vec2 R) Coord.X (if (decide (v2 > (0.0 : R))) then (-v3) else v3)) v4 (if (decide (v2 > (0.0 : R))) then (-v3) else v3))
  let v7 : Vec2 R := v6
  let v8 : Vec2 R := (Vec2.moved v6 Coord.X (v2 * v1))
  let v9 : Vec2 R := (Vec2.moved v6 Coord.X ((v2 * v1) * (2 : R)))
  let v10 : Vec2 R := (Vec2.moved v6 v4 (v2 * v1))
  let v11 : Vec2 R := (Vec2.moved v6 v4 ((v2 * v1) * (2 : R)))
  let v12 : R := (0.6 : R)
  let v13 : R := (0.5 : R)
  let v14 : R := (0.4 : R)
  let v15 : R := (0.5 : R)
  let v16 : R := (0.4 : R)
  let v17 : Vec2 R := v9
  let v18 : Vec2 R := (Vec2.moved (Vec2.moved v17 Coord.X ((v2 * v3) * (2.0 : R))) v4 ((v2 * v3) * (2.0 : R)))
  let v19 : R := (0.4 : R)
  let o20 := (AABB2.hitsLine v5 (⟨v17, v18⟩ : Line2 R))
  let v21 : Bool := o20.isSome
  bad := ck bad 608 (decide (v21 = true))
  bad := ck bad 609 (Near.near (0.0001 : R) (o20.getD (0)) v19)
  return bad
end Aabb2_124
#guard passes Aabb2_124.run

namespace Aabb2_125
abbrev R := Float32
def run : Res (List Nat) := do
  let mut bad : List Nat := []
  let v1 : R := (0.001 : R)
  let v2 : R := (-(1.0 : R))
  let v3 : R := (v1 * (5.0 : R))
  let v4 : Coord := (next2D Coord.Y)
  let v5 : AABB2 R := (⟨(⟨(-v1), (-v1)⟩ : Vec2 R), (⟨v1, v1⟩ : Vec2 R)⟩ : AABB2 R)
  let v6 : Vec2 R := (Vec2.moved (Vec2.moved (Vec2.zero : Vec2 R) Coord.Y (if (decide (v2 > (0.0 : R))) then (-v3) else v3)) v4 (if (decide (v2 > (0.0 : R))) then (-v3) else v3))
  let v7 : Vec2 R := v6
  let v8 : Vec2 R := (Vec2.moved v6 Coord.Y (v2 * v1))
  let v9 : Vec2 R := (Vec2.moved v6 Coord.Y ((v2 * v1) * (2 : R)))
  let v10 : Vec2 R := (Vec2.moved v6 v4 (v2 * v1))
  let v11 : Vec2 R := (Vec2.moved v6 v4 ((v2 * v1) * (2 : R)))
  let v12 : R := (0.6 : R)
  let v13 : R := (0.5 : R)
  let v14 : R := (0.4 : R)
  let v15 : R := (0.5 : R)
  let v16 : R := (0.4 : R)
  let v17 : Vec2 R := v8
  let v18 : Vec2 R := (Vec2.moved (Vec2.moved v17 Coord.Y ((v2 * v3) * (2.0 : R))) v4 ((v2 * v3) * (2.0 : R)))
  let v19 : R := (0.4 : R)
  let o20 := (AABB2.hitsLine v5 (⟨v17, v18⟩ : Line2 R))
  let v21 : Bool := o20.isSome
  bad := ck bad 608 (decide (v21 = true))
  bad := ck bad 609 (Near.near (0.0001 : R) (o20.getD (0)) v19)
  return bad
end Aabb2_125
#guard passes Aabb2_125.run

namespace Aabb2_126
abbrev R := Float32
def run : Res (List Nat) := do
  let mut bad : List Nat := []
  let v1 : R := (1000.0 : R)
  let v2 : R := (-(1.0 : R))
  let v3 : R := (v1 * (5.0 : R))
  let v4 : Coord := (next2D Coord.X)
  let v5 : AABB2 R := (⟨(⟨(-v1), (-v1)⟩ : Vec2 R), (⟨v1, v1⟩ : Vec2 R)⟩ : AABB2 R)
  let v6 : Vec2 R := (Vec2.moved (Vec2.moved (Vec2.zero : Vec2 R) Coord.X (if (decide (v2 > (0.0 : R))) then (-v3) else v3)) v4 (if (decide (v2 > (0.0 : R))) then (-v3) else v3))
  let v7 : Vec2 R := v6
  let v8 : Vec2 R := (Vec2.moved v6 Coord.X (v2 * v1))
  let v9 : Vec2 R := (Vec2.moved v6 Coord.X ((v2 * v1) * (2 : R)))
  let v10 : Vec2 R := (Vec2.moved v6 v4 (v2 * v1))
  let v11 : Vec2 R := (Vec2.moved v6 v4 ((v2 * v1) * (2 : R)))
  let v12 : R := (0.6 : R)
  let v13 : R := (0.5 : R)
  let v14 : R := (0.4 : R)
  let v15 : R := (0.5 : R)
  let v16 : R := (0.4 : R)
  let v17 : Vec2 R := v7
  let v18 : Vec2 R := (Vec2.moved (Vec2.moved v17 Coord.X ((v2 * v3) * (2.0 : R))) v4 ((v2 * v3) * (2.0 : R)))
  let v19 : R := (0.4 : R)
  let o20 := (AABB2.hitsLine v5 (⟨v17, v18⟩ : Line2 R))
  let v21 : Bool := o20.isSome
  bad := ck bad 608 (decide (v21 = true))
  bad := ck bad 609 (Near.near (0.0001 : R) (o20.getD (0)) v19)
  return bad
end Aabb2_126
#guard passes Aabb2_126.run

namespace Aabb2_127
abbrev R := Float32
def run : Res (List Nat) := do
  let mut bad : List Nat := []
  let v1 : R := (1000.0 : R)
  let v2 : R := (1.0 : R)
  let v3 : R := (v1 * (5.0 : R))
  let v4 : Coord := (next2D Coord.Y)
  let v5 : AABB2 R := (⟨(⟨(-v1), (-v1)⟩ : Vec2 R), (⟨v1, v1⟩ : Vec2 R)⟩ : AABB2 R)
  let v6 : Vec2 R := (Vec2.moved (Vec2.moved (Vec2.zero : Vec2 R) Coord.Y (if (decide (v2 > (0.0 : R))) then (-v3) else v3)) v4 (if (decide (v2 > (0.0 : R))) then (-v3) else v3))
  let v7 : Vec2 R := v6
  let v8 : Vec2 R := (Vec2.moved v6 Coord.Y (v2 * v1))
  let v9 : Vec2 R := (Vec2.moved v6 Coord.Y ((v2 * v1) * (2 : R)))
  let v10 : Vec2 R := (Vec2.moved v6 v4 (v2 * v1))
  let v11 : Vec2 R := (Vec2.moved v6 v4 ((v2 * v1) * (2 : R)))
  let v12 : R := (0.6 : R)
  let v13 : R := (0.5 : R)
  let v14 : R := (0.4 : R)
  let v15 : R := (0.5 : R)
  let v16 : R := (0.4 : R)
  let v17 : Vec2 R := v11
  let v18 : Vec2 R := (Vec2.moved (Vec2.moved v17 Coord.Y ((v2 * v3) * (2.0 : R))) v4 ((v2 * v3) * (2.0 : R)))
  let v19 : R := (0.4 : R)
  let o20 := (AABB2.hitsLine v5 (⟨v17, v18⟩ : Line2 R))
  let v21 : Bool := o20.isSome
  bad := ck bad 608 (decide (v21 = true))
  bad := ck bad 609 (Near.near (0.0001 : R) (o20.getD (0)) v19)
  return bad
end Aabb2_127
#guard passes Aabb2_127.run

namespace Aabb2_128
abbrev R := Float32
def run : Res (List Nat) := do
  let mut bad : List Nat := []
  let v1 : AABB2 R := (constAABB2One : AABB2 R)
  let v2 : AABB2 R := (AABB2.scaleCentered (constAABB2One : AABB2 R) (0.1 : R))
  bad := ck bad 619 (AABB2.intersects v1 v2)
  bad := ck bad 621 (AABB2.intersects v1 (AABB2.translate v2 (⟨(0.45 : R), (0.45 : R)⟩ : Vec2 R)))
  bad := ck bad 622 (AABB2.intersects v1 (AABB2.translate v2 (⟨(0.45 : R), (-(0.45 : R))⟩ : Vec2 R)))
  bad := ck bad 623 (AABB2.intersects v1 (AABB2.translate v2 (⟨(-(0.45 : R)), (-(0.45 : R))⟩ : Vec2 R)))
  bad := ck bad 624 (AABB2.intersects v1 (AABB2.translate v2 (⟨(-(0.45 : R)), (0.45 : R)⟩ : Vec2 R)))
  bad := ck bad 625 (AABB2.intersects v1 (AABB2.translate v2 (⟨(0.45 : R), (0.45 : R)⟩ : Vec2 R)))
  bad := ck bad 626 (AABB2.intersects v1 (AABB2.translate v2 (⟨(0.45 : R), (-(0.45 : R))⟩ : Vec2 R)))
  bad := ck bad 627 (AABB2.intersects v1 (AABB2.translate v2 (⟨(-(0.45 : R)), (-(0.45 : R))⟩ : Vec2 R)))
  bad := ck bad 628 (AABB2.intersects v1 (AABB2.translate v2 (⟨(-(0.45 : R)), (0.45 : R)⟩ : Vec2 R)))
  bad := ck bad 630 (AABB2.intersects v1 (AABB2.translate v2 (⟨(0.46 : R), (0.46 : R)⟩ : Vec2 R)))
  bad := ck bad 631 (AABB2.intersects v1 (AABB2.translate v2 (⟨(0.46 : R), (-(0.46 : R))⟩ : Vec2 R)))
  bad := ck bad 632 (AABB2.intersects v1 (AABB2.translate v2 (⟨(-(0.46 : R)), (-(0.46 : R))⟩ : Vec2 R)))
  bad := ck bad 633 (AABB2.intersects v1 (AABB2.translate v2 (⟨(-(0.46 : R)), (0.46 : R)⟩ : Vec2 R)))
  bad := ck bad 634 (AABB2.intersects v1 (AABB2.translate v2 (⟨(0.46 : R), (0.46 : R)⟩ : Vec2 R)))
  bad := ck bad 635 (AABB2.intersects v1 (AABB2.translate v2 (⟨(0.46 : R), (-(0.46 : R))⟩ : Vec2 R)))
  bad := ck bad 636 (AABB2.intersects v1 (AABB2.translate v2 (⟨(-(0.46 : R)), (-(0.46 : R))⟩ : Vec2 R)))
  bad := ck bad 637 (AABB2.intersects v1 (AABB2.translate v2 (⟨(-(0.46 : R)), (0.46 : R)⟩ : Vec2 R)))
  bad := ck bad 639 (!(AABB2.intersects v1 (AABB2.translate v2 (⟨(0.56 : R), (0.56 : R)⟩ : Vec2 R))))
  bad := ck bad 640 (!(AABB2.intersects v1 (AABB2.translate v2 (⟨(0.56 : R), (-(0.56 : R))⟩ : Vec2 R))))
  bad := ck bad 641 (!(AABB2.intersects v1 (AABB2.translate v2 (⟨(-(0.56 : R)), (-(0.56 : R))⟩ : Vec2 R))))
  bad := ck bad 642 (!(AABB2.intersects v1 (AABB2.translate v2 (⟨(-(0.56 : R)), (0.56 : R)⟩ : Vec2 R))))
  bad := ck bad 643 (!(AABB2.intersects v1 (AABB2.translate v2 (⟨(0.56 : R), (0.56 : R)⟩ : Vec2 R))))
  bad := ck bad 644 (!(AABB2.intersects v1 (AABB2.translate v2 (⟨(0.56 : R), (-(0.56 : R))⟩ : Vec2 R))))
  bad := ck bad 645 (!(AABB2.intersects v1 (AABB2.translate v2 (⟨(-(0.56 : R)), (-(0.56 : R))⟩ : Vec2 R))))
  bad := ck bad 646 (!(AABB2.intersects v1 (AABB2.translate v2 (⟨(-(0.56 : R)), (0.56 : R)⟩ : Vec2 R))))
  return bad
end Aabb2_128
#guard passes Aabb2_128.run

namespace Aabb2_129
abbrev R := Float32
def run : Res (List Nat) := do
  let mut bad : List Nat := []
  let v1 : R := (1.0 : R)
  let v2 : R := (1.0 : R)
  let v3 : R := (v1 * (5.0 : R))
  let v4 : Coord := (next2D Coord.X)
  let v5 : AABB2 R := (⟨(⟨(-v1), (-v1)⟩ : Vec2 R), (⟨v1, v1⟩ : Vec2 R)⟩ : AABB2 R)
  let v6 : R := (v3 - v1)
  let v7 : R := (v3 + v1)
  let v8 : Vec2 R := (Vec2.moved (Vec2.zero : Vec2 R) Coord.X (if (decide (v2 > (0.0 : R))) then (-v3) else v3))
  let v9 : Vec2 R := (Vec2.moved (Vec2.zero : Vec2 R) Coord.X v2)
  let o10 := (AABB2.intersectsRay (fltMax : R) v5 (Ray2.from v8 v9))
  bad := ck bad 671 (decide (o10.isSome = true))
  bad := ck bad 672 ((o10.getD (0, 0)).1 == v6)
  bad := ck bad 673 ((o10.getD (0, 0)).2 == v7)
  return bad
end Aabb2_129
#guard passes Aabb2_129.run

namespace Aabb2_130
abbrev R := Float32
def run : Res (List Nat) := do
  let mut bad : List Nat := []
  let v1 : R := (1.0 : R)
  let v2 : R := (1.0 : R)
  let v3 : R := (v1 * (5.0 : R))
  let v4 : Coord := (next2D Coord.Y)
  let v5 : AABB2 R := (⟨(⟨(-v1), (-v1)⟩ : Vec2 R), (⟨v1, v1⟩ : Vec2 R)⟩ : AABB2 R)
  let v6 : R := (v3 - v1)
  let v7 : R := (v3 + v1)
  let v8 : Vec2 R := (Vec2.moved (Vec2.zero : Vec2 R) Coord.Y (if (decide (v2 > (0.0 : R))) then (-v3) else v3))
  let v9 : Vec2 R := (Vec2.moved (Vec2.zero : Vec2 R) Coord.Y v2)
  let o10 := (AABB2.intersectsRay (fltMax : R) v5 (Ray2.from v8 v9))
  bad := ck bad 671 (decide (o10.isSome = true))
  bad := ck bad 672 ((o10.getD (0, 0)).1 == v6)
  bad := ck bad 673 ((o10.getD (0, 0)).2 == v7)
  return bad
end Aabb2_130
#guard passes Aabb2_130.run

namespace Aabb2_131
abbrev R := Float32
def run : Res (List Nat) := do
  let mut bad : List Nat := []
  let v1 : R := (0.001 : R)
  let v2 : R := (1.0 : R)
  let v3 : R := (v1 * (5.0 : R))
  let v4 : Coord := (next2D Coord.X)
  let v5 : AABB2 R := (⟨(⟨(-v1), (-v1)⟩ : Vec2 R), (⟨v1, v1⟩ : Vec2 R)⟩ : AABB2 R)
  let v6 : R := (v3 - v1)
  let v7 : R := (v3 + v1)
  let v8 : Vec2 R := (Vec2.moved (Vec2.zero : Vec2 R) Coord.X (if (decide (v2 > (0.0 : R))) then (-v3) else v3))
  let v9 : Vec2 R := (Vec2.moved (Vec2.zero : Vec2 R) Coord.X v2)
  let o10 := (AABB2.intersectsRay (fltMax : R) v5 (Ray2.from v8 v9))
  bad := ck bad 671 (decide (o10.isSome = true))
  bad := ck bad 672 ((o10.getD (0, 0)).1 == v6)
  bad := ck bad 673 ((o10.getD (0, 0)).2 == v7)
  return bad
end Aabb2_131
#guard passes Aabb2_131.run

namespace Aabb2_132
abbrev R := Float32
def run : Res (List Nat) := do
  let mut bad : List Nat := []
  let v1 : R := (0.001 : R)
  let v2 : R := (1.0 : R)
  let v3 : R := (v1 * (5.0 : R))
  let v4 : Coord := (next2D Coord.Y)
  let v5 : AABB2 R := (⟨(⟨(-v1), (-v1)⟩ : Vec2 R), (⟨v1, v1⟩ : Vec2 R)⟩ : AABB2 R)
  let v6 : R := (v3 - v1)
  let v7 : R := (v3 + v1)
  let v8 : Vec2 R := (Vec2.moved (Vec2.zero : Vec2 R) Coord.Y (if (decide (v2 > (0.0 : R))) then (-v3) else v3))
  let v9 : Vec2 R := (Vec2.moved (Vec2.zero : Vec2 R) Coord.Y v2)
  let o10 := (AABB2.intersectsRay (fltMax : R) v5 (Ray2.from v8 v9))
  bad := ck bad 671 (decide (o10.isSome = true))
  bad := ck bad 672 ((o10.getD (0, 0)).1 == v6)
  bad := ck bad 673 ((o10.getD (0, 0)).2 == v7)
  return bad
end Aabb2_132
#guard passes Aabb2_132.run

namespace Aabb2_133
abbrev R := Float32
def run : Res (List Nat) := do
  let mut bad : List Nat := []
  let v1 : R := (1000.0 : R)
  let v2 : R := (1.0 : R)
  let v3 : R := (v1 * (5.0 : R))
  let v4 : Coord := (next2D Coord.X)
  let v5 : AABB2 R := (⟨(⟨(-v1), (-v1)⟩ : Vec2 R), (⟨v1, v1⟩ : Vec2 R)⟩ : AABB2 R)
  let v6 : R := (v3 - v1)
  let v7 : R := (v3 + v1)
  let v8 : Vec2 R := (Vec2.moved (Vec2.zero : Vec2 R) Coord.X (if (decide (v2 > (0.0 : R))) then (-v3) else v3))
  let v9 : Vec2 R := (Vec2.moved (Vec2.zero : Vec2 R) Coord.X v2)
  let o10 := (AABB2.intersectsRay (fltMax : R) v5 (Ray2.from v8 v9))
  bad := ck bad 671 (decide (o10.isSome = true))
  bad := ck bad 672 ((o10.getD (0, 0)).1 == v6)
  bad := ck bad 673 ((o10.getD (0, 0)).2 == v7)
  return bad
end Aabb2_133
#guard passes Aabb2_133.run

namespace Aabb2_134
abbrev R := Float32
def run : Res (List Nat) := do
  let mut bad : List Nat := []
  let v1 : R := (1000.0 : R)
  let v2 : R := (1.0 : R)
  let v3 : R := (v1 * (5.0 : R))
  let v4 : Coord := (next2D Coord.Y)
  let v5 : AABB2 R := (⟨(⟨(-v1), (-v1)⟩ : Vec2 R), (⟨v1, v1⟩ : Vec2 R)⟩ : AABB2 R)
  let v6 : R := (v3 - v1)
  let v7 : R := (v3 + v1)
  let v8 : Vec2 R := (Vec2.moved (Vec2.zero : Vec2 R) Coord.Y (if (decide (v2 > (0.0 : R))) then (-v3) else v3))
  let v9 : Vec2 R := (Vec2.moved (Vec2.zero : Vec2 R) Coord.Y v2)
  let o10 := (AABB2.intersectsRay (fltMax : R) v5 (Ray2.from v8 v9))
  bad := ck bad 671 (decide (o10.isSome = true))
  bad := ck bad 672 ((o10.getD (0, 0)).1 == v6)
  bad := ck bad 673 ((o10.getD (0, 0)).2 == v7)
  return bad
end Aabb2_134
#guard passes Aabb2_134.run

namespace Aabb2_135
abbrev R := Float32
def run : Res (List Nat) := do
  let mut bad : List Nat := []
  let v1 : R := (1.0 : R)
  let v2 : R := (1.0 : R)
  let v3 : R := (v1 * (5.0 : R))
  let v4 : Coord := (next2D Coord.X)
  let v5 : AABB2 R := (⟨(⟨(-v1), (-v1)⟩ : Vec2 R), (⟨v1, v1⟩ : Vec2 R)⟩ : AABB2 R)
  let v6 : R := (v3 - v1)
  let v7 : R := (v3 + v1)
  let v8 : Vec2 R := (Vec2.moved (Vec2.zero : Vec2 R) Coord.X (if (decide (v2 > (0.0 : R))) then (-v3) else v3))
  let v9 : Vec2 R := (Vec2.moved (Vec2.zero : Vec2 R) Coord.X v2)
  let o10 := (AABB2.intersectsRay (fltMax : R) v5 (Ray2.from (Vec2.moved v8 v4 v3) v9))
  bad := ck bad 677 (decide (o10.isSome = false))
  let o11 := (AABB2.intersectsRay (fltMax : R) v5 (Ray2.from (Vec2.moved v8 v4 (-v3)) v9))
  bad := ck bad 678 (decide (o11.isSome = false))
  return bad
end Aabb2_135
#guard passes Aabb2_135.run

namespace Aabb2_136
abbrev R := Float32
def run : Res (List Nat) := do
  let mut bad : List Nat := []
  let v1 : R := (1.0 : R)
  let v2 : R := (1.0 : R)
  let v3 : R := (v1 * (5.0 : R))
  let v4 : Coord := (next2D Coord.Y)
  let v5 : AABB2 R := (⟨(⟨(-v1), (-v1)⟩ : Vec2 R), (⟨v1, v1⟩ : Vec2 R)⟩ : AABB2 R)
  let v6 : R := (v3 - v1)
  let v7 : R := (v3 + v1)
  let v8 : Vec2 R := (Vec2.moved (Vec2.zero : Vec2 R) Coord.Y (if (decide (v2 > (0.0 : R))) then (-v3) else v3))
  let v9 : Vec2 R := (Vec2.moved (Vec2.zero : Vec2 R) Coord.Y v2)
  let o10 := (AABB2.intersectsRay (fltMax : R) v5 (Ray2.from (Vec2.moved v8 v4 v3) v9))
  bad := ck bad 677 (decide (o10.isSome = false))
  let o11 := (AABB2.intersectsRay (fltMax : R) v5 (Ray2.from (Vec2.moved v8 v4 (-v3)) v9))
  bad := ck bad 678 (decide (o11.isSome = false))
  return bad
end Aabb2_136
#guard passes Aabb2_136.run

namespace Aabb2_137
abbrev R := Float32
def run : Res (List Nat) := do
  let mut bad : List Nat := []
  let v1 : R := (0.001 : R)
  let v2 : R := (1.0 : R)
  let v3 : R := (v1 * (5.0 : R))
  let v4 : Coord := (next2D Coord.X)
  let v5 : AABB2 R := (⟨(⟨(-v1), (-v1)⟩ : Vec2 R), (⟨v1, v1⟩ : Vec2 R)⟩ : AABB2 R)
  let v6 : R := (v3 - v1)
  let v7 : R := (v3 + v1)
  let v8 : Vec2 R := (Vec2.moved (Vec2.zero : Vec2 R) Coord.X (if (decide (v2 > (0.0 : R))) then (-v3) else v3))
  let v9 : Vec2 R := (Vec2.moved (Vec2.zero : Vec2 R) Coord.X v2)
  let o10 := (AABB2.intersectsRay (fltMax : R) v5 (Ray2.from (Vec2.moved v8 v4 v3) v9))
  bad := ck bad 677 (decide (o10.isSome = false))
  let o11 := (AABB2.intersectsRay (fltMax : R) v5 (Ray2.from (Vec2.moved v8 v4 (-v3)) v9))
  bad := ck bad 678 (decide (o11.isSome = false))
  return bad
end Aabb2_137
#guard passes Aabb2_137.run

namespace Aabb2_138
abbrev R := Float32
def run : Res (List Nat) := do
  let mut bad : List Nat := []
  let v1 : R := (0.001 : R)
  let v2 : R := (1.0 : R)
  let v3 : R := (v1 * (5.0 : R))
  let v4 : Coord := (next2D Coord.Y)
  let v5 : AABB2 R := (⟨(⟨(-v1), (-v1)⟩ : Vec2 R), (⟨v1, v1⟩ : Vec2 R)⟩ : AABB2 R)
  let v6 : R := (v3 - v1)
  let v7 : R := (v3 + v1)
  let v8 : Vec2 R := (Vec2.moved (Vec2.zero : Vec2 R) Coord.Y (if (decide (v2 > (0.0 : R))) then (-v3) else v3))
  let v9 : Vec2 R := (Vec2.moved (Vec2.zero : Vec2 R) Coord.Y v2)
  let o10 := (AABB2.intersectsRay (fltMax : R) v5 (Ray2.from (Vec2.moved v8 v4 v3) v9))
  bad := ck bad 677 (decide (o10.isSome = false))
  let o11 := (AABB2.intersectsRay (fltMax : R) v5 (Ray2.from (Vec2.moved v8 v4 (-v3)) v9))
  bad := ck bad 678 (decide (o11.isSome = false))
  return bad
end Aabb2_138
#guard passes Aabb2_138.run

namespace Aabb2_139
abbrev R := Float32
def run : Res (List Nat) := do
  let mut bad : List Nat := []
  let v1 : R := (1000.0 : R)
  let v2 : R := (1.0 : R)
  let v3 : R := (v1 * (5.0 : R))
  let v4 : Coord := (next2D Coord.X)
  let v5 : AABB2 R := (⟨(⟨(-v1), (-v1)⟩ : Vec2 R), (⟨v1, v1⟩ : Vec2 R)⟩ : AABB2 R)
  let v6 : R := (v3 - v1)
  let v7 : R := (v3 + v1)
  let v8 : Vec2 R := (Vec2.moved (Vec2.zero : Vec2 R) Coord.X (if (decide (v2 > (0.0 : R))) then (-v3) else v3))
  let v9 : Vec2 R := (Vec2.moved (Vec2.zero : Vec2 R) Coord.X v2)
  let o10 := (AABB2.intersectsRay (fltMax : R) v5 (Ray2.from (Vec2.moved v8 v4 v3) v9))
  bad := ck bad 677 (decide (o10.isSome = false))
  let o11 := (AABB2.intersectsRay (fltMax : R) v5 (Ray2.from (Vec2.moved v8 v4 (-v3)) v9))
  bad := ck bad 678 (decide (o11.isSome = false))
  return bad
end Aabb2_139
#guard passes Aabb2_139.run

namespace Aabb2_140
abbrev R := Float32
def run : Res (List Nat) := do
  let mut bad : List Nat := []
  let v1 : R := (1000.0 : R)
  let v2 : R := (1.0 : R)
  let v3 : R := (v1 * (5.0 : R))
  let v4 : Coord := (next2D Coord.Y)
  let v5 : AABB2 R := (⟨(⟨(-v1), (-v1)⟩ : Vec2 R), (⟨v1, v1⟩ : Vec2 R)⟩ : AABB2 R)
  let v6 : R := (v3 - v1)
  let v7 : R := (v3 + v1)
  let v8 : Vec2 R := (Vec2.moved (Vec2.zero : Vec2 R) Coord.Y (if (decide (v2 > (0.0 : R))) then (-v3) else v3))
  let v9 : Vec2 R := (Vec2.moved (Vec2.zero : Vec2 R) Coord.Y v2)
  let o10 := (AABB2.intersectsRay (fltMax : R) v5 (Ray2.from (Vec2.moved v8 v4 v3) v9))
  bad := ck bad 677 (decide (o10.isSome = false))
  let o11 := (AABB2.intersectsRay (fltMax : R) v5 (Ray2.from (Vec2.moved v8 v4 (-v3)) v9))
  bad := ck bad 678 (decide (o11.isSome = false))
  return bad
end Aabb2_140
#guard passes Aabb2_140.run

namespace Aabb2_141
abbrev R := Float32
def run : Res (List Nat) := do
  let mut bad : List Nat := []
  let v1 : R := (1.0 : R)
  let v2 : R := (1.0 : R)
  let v3 : R := (v1 * (5.0 : R))
  let v4 : Coord := (next2D Coord.X)
  let v5 : AABB2 R := (⟨(⟨(-v1), (-v1)⟩ : Vec2 R), (⟨v1, v1⟩ : Vec2 R)⟩ : AABB2 R)
  let v6 : Vec2 R := (Vec2.moved (Vec2.zero : Vec2 R) Coord.X (if (decide (v2 > (0.0 : R))) then v3 else (-v3)))
  let v7 : Vec2 R := (Vec2.moved (Vec2.zero : Vec2 R) Coord.X v2)
  let o8 := (AABB2.intersectsRay (fltMax : R) v5 (Ray2.from v6 v7))
  bad := ck bad 708 (decide (o8.isSome = false))
  return bad
end Aabb2_141
#guard passes Aabb2_141.run

namespace Aabb2_142
abbrev R := Float32
def run : Res (List Nat) := do
  let mut bad : List Nat := []
  let v1 : R := (1.0 : R)
  let v2 : R := (1.0 : R)
  let v3 : R := (v1 * (5.0 : R))
  let v4 : Coord := (next2D Coord.Y)
  let v5 : AABB2 R := (⟨(⟨(-v1), (-v1)⟩ : Vec2 R), (⟨v1, v1⟩ : Vec2 R)⟩ : AABB2 R)
  let v6 : Vec2 R := (Vec2.moved (Vec2.zero : Vec2 R) Coord.Y (if (decide (v2 > (0.0 : R))) then v3 else (-v3)))
  let v7 : Vec2 R := (Vec2.moved (Vec2.zero : Vec2 R) Coord.Y v2)
  let o8 := (AABB2.intersectsRay (fltMax : R) v5 (Ray2.from v6 v7))
  bad := ck bad 708 (decide (o8.isSome = false))
  return bad
end Aabb2_142
#guard passes Aabb2_142.run

namespace Aabb2_143
abbrev R := Float32
def run : Res (List Nat) := do
  let mut bad : List Nat := []
  let v1 : R := (0.001 : R)
  let v2 : R := (1.0 : R)
  let v3 : R := (v1 * (5.0 : R))
  let v4 : Coord := (next2D Coord.X)
  let v5 : AABB2 R := (⟨(⟨(-v1), (-v1)⟩ : Vec2 R), (⟨v1, v1⟩ : Vec2 R)⟩ : AABB2 R)
  let v6 : Vec2 R := (Vec2.moved (Vec2.zero : Vec2 R) Coord.X (if (decide (v2 > (0.0 : R))) then v3 else (-v3)))
  let v7 : Vec2 R := (Vec2.moved (Vec2.zero : Vec2 R) Coord.X v2)
  let o8 := (AABB2.intersectsRay (fltMax : R) v5 (Ray2.from v6 v7))
  bad := ck bad 708 (decide (o8.isSome = false))
  return bad
end Aabb2_143
#guard passes Aabb2_143.run

namespace Aabb2_144
abbrev R := Float32
def run : Res (List Nat) := do
  let mut bad : List Nat := []
  let v1 : R := (0.001 : R)
  let v2 : R := (1.0 : R)
  let v3 : R := (v1 * (5.0 : R))
  let v4 : Coord := (next2D Coord.Y)
  let v5 : AABB2 R := (⟨(⟨(-v1), (-v1)⟩ : Vec2 R), (⟨v1, v1⟩ : Vec2 R)⟩ : AABB2 R)
  let v6 : Vec2 R := (Vec2.moved (Vec2.zero : Vec2 R) Coord.Y (if (decide (v2 > (0.0 : R))) then v3 else (-v3)))
  let v7 : Vec2 R := (Vec2.moved (Vec2.zero : Vec2 R) Coord.Y v2)
  let o8 := (AABB2.intersectsRay (fltMax : R) v5 (Ray2.from v6 v7))
  bad := ck bad 708 (decide (o8.isSome = false))
  return bad
end Aabb2_144
#guard passes Aabb2_144.run

namespace Aabb2_145
abbrev R := Float32
def run : Res (List Nat) := do
  let mut bad : List Nat := []
  let v1 : R := (1000.0 : R)
  let v2 : R := (1.0 : R)
  let v3 : R := (v1 * (5.0 : R))
  let v4 : Coord := (next2D Coord.X)
  let v5 : AABB2 R := (⟨(⟨(-v1), (-v1)⟩ : Vec2 R), (⟨v1, v1⟩ : Vec2 R)⟩ : AABB2 R)
  let v6 : Vec2 R := (Vec2.moved (Vec2.zero : Vec2 R) Coord.X (if (decide (v2 > (0.0 : R))) then v3 else (-v3)))
  let v7 : Vec2 R := (Vec2.moved (Vec2.zero : Vec2 R) Coord.X v2)
  let o8 := (AABB2.intersectsRay (fltMax : R) v5 (Ray2.from v6 v7))
  bad := ck bad 708 (decide (o8.isSome = false))
  return bad
end Aabb2_145
#guard passes Aabb2_145.run

namespace Aabb2_146
abbrev R := Float32
def run : Res (List Nat) := do
  let mut bad : List Nat := []
  let v1 : R := (1000.0 : R)
  let v2 : R := (1.0 : R)
  let v3 : R := (v1 * (5.0 : R))
  let v4 : Coord := (next2D Coord.Y)
  let v5 : AABB2 R := (⟨(⟨(-v1), (-v1)⟩ : Vec2 R), (⟨v1, v1⟩ : Vec2 R)⟩ : AABB2 R)
  let v6 : Vec2 R := (Vec2.moved (Vec2.zero : Vec2 R) Coord.Y (if (decide (v2 > (0.0 : R))) then v3 else (-v3)))
  let v7 : Vec2 R := (Vec2.moved (Vec2.zero : Vec2 R) Coord.Y v2)
  let o8 := (AABB2.intersectsRay (fltMax : R) v5 (Ray2.from v6 v7))
  bad := ck bad 708 (decide (o8.isSome = false))
  return bad
end Aabb2_146
#guard passes Aabb2_146.run

namespace Aabb2_147
abbrev R := Float32
def run : Res (List Nat) := do
  let mut bad : List Nat := []
  let v1 : R := (1.0 : R)
  let v2 : R := (1.0 : R)
  let v3 : R := (v1 * (5.0 : R))
  let v4 : Coord := (next2D Coord.X)
  let v5 : AABB2 R := (⟨(⟨(-v1), (-v1)⟩ : Vec2 R), (⟨v1, v1⟩ : Vec2 R)⟩ : AABB2 R)
  let v6 : Vec2 R := (Vec2.moved (Vec2.zero : Vec2 R) Coord.X (if (decide (v2 > (0.0 : R))) then v3 else (-v3)))
  let v7 : Vec2 R := (Vec2.moved (Vec2.zero : Vec2 R) Coord.X v2)
  let o8 := (AABB2.intersectsRay (fltMax : R) v5 (Ray2.from (Vec2.moved v6 v4 v3) v7))
  bad := ck bad 712 (decide (o8.isSome = false))
  let o9 := (AABB2.intersectsRay (fltMax : R) v5 (Ray2.from (Vec2.moved v6 v4 (-v3)) v7))
  bad := ck bad 713 (decide (o9.isSome = false))
  return bad
end Aabb2_147
#guard passes Aabb2_147.run

namespace Aabb2_148
abbrev R := Float32
def run : Res (List Nat) := do
  let mut bad : List Nat := []
  let v1 : R := (1.0 : R)
  let v2 : R := (1.0 : R)
  let v3 : R := (v1 * (5.0 : R))
  let v4 : Coord := (next2D Coord.Y)
  let v5 : AABB2 R := (⟨(⟨(-v1), (-v1)⟩ : Vec2 R), (⟨v1, v1⟩ : Vec2 R)⟩ : AABB2 R)
  let v6 : Vec2 R := (Vec2.moved (Vec2.zero : Vec2 R) Coord.Y (if (decide (v2 > (0.0 : R))) then v3 else (-v3)))
  let v7 : Vec2 R := (Vec2.moved (Vec2.zero : Vec2 R) Coord.Y v2)
  let o8 := (AABB2.intersectsRay (fltMax : R) v5 (Ray2.from (Vec2.moved v6 v4 v3) v7))
  bad := ck bad 712 (decide (o8.isSome = false))
  let o9 := (AABB2.intersectsRay (fltMax : R) v5 (Ray2.from (Vec2.moved v6 v4 (-v3)) v7))
  bad := ck bad 713 (decide (o9.isSome = false))
  return bad
end Aabb2_148
#guard passes Aabb2_148.run

namespace Aabb2_149
abbrev R := Float32
def run : Res (List Nat) := do
  let mut bad : List Nat := []
  let v1 : R := (0.001 : R)
  let v2 : R := (1.0 : R)
  let v3 : R := (v1 * (5.0 : R))
  let v4 : Coord := (next2D Coord.X)
  let v5 : AABB2 R := (⟨(⟨(-v1), (-v1)⟩ : Vec2 R), (⟨v1, v1⟩ : Vec2 R)⟩ : AABB2 R)
  let v6 : Vec2 R := (Vec2.moved (Vec2.zero : Vec2 R) Coord.X (if (decide (v2 > (0.0 : R))) then v3 else (-v3)))
  let v7 : Vec2 R := (Vec2.moved (Vec2.zero : Vec2 R) Coord.X v2)
  let o8 := (AABB2.intersectsRay (fltMax : R) v5 (Ray2.from (Vec2.moved v6 v4 v3) v7))
  bad := ck bad 712 (decide (o8.isSome = false))
  let o9 := (AABB2.intersectsRay (fltMax : R) v5 (Ray2.from (Vec2.moved v6 v4 (-v3)) v7))
  bad := ck bad 713 (decide (o9.isSome = false))
  return bad
end Aabb2_149
#guard passes Aabb2_149.run

namespace Aabb2_150
abbrev R := Float32
def run : Res (List Nat) := do
  let mut bad : List Nat := []
  let v1 : R := (0.001 : R)
  let v2 : R := (1.0 : R)
  let v3 : R := (v1 * (5.0 : R))
  let v4 : Coord := (next2D Coord.Y)
  let v5 : AABB2 R := (⟨(⟨(-v1), (-v1)⟩ : Vec2 R), (⟨v1, v1⟩ : Vec2 R)⟩ : AABB2 R)
  let v6 : Vec2 R := (Vec2.moved (Vec2.zero : Vec2 R) Coord.Y (if (decide (v2 > (0.0 : R))) then v3 else (-v3)))
  let v7 : Vec2 R := (Vec2.moved (Vec2.zero : Vec2 R) Coord.Y v2)
  let o8 := (AABB2.intersectsRay (fltMax : R) v5 (Ray2.from (Vec2.moved v6 v4 v3) v7))
  bad := ck bad 712 (decide (o8.isSome = false))
  let o9 := (AABB2.intersectsRay (fltMax : R) v5 (Ray2.from (Vec2.moved v6 v4 (-v3)) v7))
  bad := ck bad 713 (decide (o9.isSome = false))
  return bad
end Aabb2_150
#guard passes Aabb2_150.run

namespace Aabb2_151
abbrev R := Float32
def run : Res (List Nat) := do
  let mut bad : List Nat := []
  let v1 : R := (1000.0 : R)
  let v2 : R := (1.0 : R)
  let v3 : R := (v1 * (5.0 : R))
  let v4 : Coord := (next2D Coord.X)
  let v5 : AABB2 R := (⟨(⟨(-v1), (-v1)⟩ : Vec2 R), (⟨v1, v1⟩ : Vec2 R)⟩ : AABB2 R)
  let v6 : Vec2 R := (Vec2.moved (Vec2.zero : Vec2 R) Coord.X (if (decide (v2 > (0.0 : R))) then v3 else (-v3)))
  let v7 : Vec2 R := (Vec2.moved (Vec2.zero : Vec2 R) Coord.X v2)
  let o8 := (AABB2.intersectsRay (fltMax : R) v5 (Ray2.from (Vec2.moved v6 v4 v3) v7))
  bad := ck bad 712 (decide (o8.isSome = false))
  let o9 := (AABB2.intersectsRay (fltMax : R) v5 (Ray2.from (Vec2.moved v6 v4 (-v3)) v7))
  bad := ck bad 713 (decide (o9.isSome = false))
  return bad
end Aabb2_151
#guard passes Aabb2_151.run

namespace Aabb2_152
abbrev R := Float32
def run : Res (List Nat) := do
  let mut bad : List Nat := []
  let v1 : R := (1000.0 : R)
  let v2 : R := (1.0 : R)
  let v3 : R := (v1 * (5.0 : R))
  let v4 : Coord := (next2D Coord.Y)
  let v5 : AABB2 R := (⟨(⟨(-v1), (-v1)⟩ : Vec2 R), (⟨v1, v1⟩ : Vec2 R)⟩ : AABB2 R)
  let v6 : Vec2 R := (Vec2.moved (Vec2.zero : Vec2 R) Coord.Y (if (decide (v2 > (0.0 : R))) then v3 else (-v3)))
  let v7 : Vec2 R := (Vec2.moved (Vec2.zero : Vec2 R) Coord.Y v2)
  let o8 := (AABB2.intersectsRay (fltMax : R) v5 (Ray2.from (Vec2.moved v6 v4 v3) v7))
  bad := ck bad 712 (decide (o8.isSome = false))
  let o9 := (AABB2.intersectsRay (fltMax : R) v5 (Ray2.from (Vec2.moved v6 v4 (-v3)) v7))
  bad := ck bad 713 (decide (o9.isSome = false))
  return bad
end Aabb2_152
#guard passes Aabb2_152.run

namespace Aabb2_153
abbrev R := Float32
def run : Res (List Nat) := do
  let mut bad : List Nat := []
  let v1 : R := (1.0 : R)
  let v2 : R := (1.0 : R)
  let v3 : R := (v1 * (5.0 : R))
  let v4 : Coord := (next2D Coord.X)
  let v5 : AABB2 R := (⟨(⟨(-v1), (-v1)⟩ : Vec2 R), (⟨v1, v1⟩ : Vec2 R)⟩ : AABB2 R)
  let v6 : Vec2 R := (Vec2.moved (Vec2.moved (Vec2.zero : Vec2 R) Coord.X (if (decide (v2 > (0.0 : R))) then (-v3) else v3)) v4 (if (decide (v2 > (0.0 : R))) then (-v3) else v3))
  let v7 : Vec2 R := (Vec2.normalized (Vec2.moved (Vec2.moved (Vec2.zero : Vec2 R) Coord.X v2) v4 v2) (1 : R))
  let v8 : Vec2 R := v6
  let v9 : Vec2 R := (Vec2.moved v6 Coord.X (v2 * v1))
  let v10 : Vec2 R := (Vec2.moved v6 Coord.X ((v2 * v1) * (2 : R)))
  let v11 : Vec2 R := (Vec2.moved v6 v4 (v2 * v1))
  let v12 : Vec2 R := (Vec2.moved v6 v4 ((v2 * v1) * (2 : R)))
  let v13 : R := (MathFns.sqrt (((6.0 : R) * (6.0 : R)) * (2.0 : R)))
  let v14 : R := (MathFns.sqrt (((5.0 : R) * (5.0 : R)) * (2.0 : R)))
  let v15 : R := (MathFns.sqrt (((4.0 : R) * (4.0 : R)) * (2.0 : R)))
  let v16 : R := (MathFns.sqrt (((5.0 : R) * (5.0 : R)) * (2.0 : R)))
  let v17 : R := (MathFns.sqrt (((4.0 : R) * (4.0 : R)) * (2.0 : R)))
  let v18 : Vec2 R := v8
  let v19 : R := ((MathFns.sqrt (((4.0 : R) * (4.0 : R)) * (2.0 : R))) * v1)
  let v20 : R := (v13 * v1)
  let o21 := (AABB2.intersectsRay (fltMax : R) v5 (Ray2.from v18 v7))
  bad := ck bad 745 (decide (o21.isSome = true))
  bad := ck bad 746 (Near.near (v1 / (1000.0 : R)) (o21.getD (0, 0)).1 v19)
  bad := ck bad 747 (Near.near (v1 / (1000.0 : R)) (o21.getD (0, 0)).2 v20)
  return bad
end Aabb2_153
#guard passes Aabb2_153.run

namespace Aabb2_154
abbrev R := Float32
def run : Res (List Nat) := do
  let mut bad : List Nat := []
  let v1 : R := (1.0 : R)
  let v2 : R := (-(1.0 : R))
  let v3 : R := (v1 * (5.0 : R))
  let v4 : Coord := (next2D Coord.X)
  let v5 : AABB2 R := (⟨(⟨(-v1), (-v1)⟩ : Vec2 R), (⟨v1, v1⟩ : Vec2 R)⟩ : AABB2 R)
  let v6 : Vec2 R := (Vec2.moved (Vec2.moved (Vec2.zero : Vec2 R) Coord.X (if (decide (v2 > (0.0 : R))) then (-v3) else v3)) v4 (if (decide (v2 > (0.0 : R))) then (-v3) else v3))
  let v7 : Vec2 R := (Vec2.normalized (Vec2.moved (Vec2.moved (Vec2.zero : Vec2 R) Coord.X v2) v4 v2) (1 : R))
  let v8 : Vec2 R := v6
  let v9 : Vec2 R := (Vec2.moved v6 Coord.X (v2 * v1))
  let v10 : Vec2 R := (Vec2.moved v6 Coord.X ((v2 * v1) * (2 : R)))
  let v11 : Vec2 R := (Vec2.moved v6 v4 (v2 * v1))
  let v12 : Vec2 R := (Vec2.moved v6 v4 ((v2 * v1) * (2 : R)))
  let v13 : R := (MathFns.sqrt (((6.0 : R) * (6.0 : R)) * (2.0 : R)))
  let v14 : R := (MathFns.sqrt (((5.0 : R) * (5.0 : R)) * (2.0 : R)))
  let v15 : R := (MathFns.sqrt (((4.0 : R) * (4.0 : R)) * (2.0 : R)))
  let v16 : R := (MathFns.sqrt (((5.0 : R) * (5.0 : R)) * (2.0 : R)))
  let v17 : R := (MathFns.sqrt (((4.0 : R) * (4.0 : R)) * (2.0 : R)))
  let v18 : Vec2 R := v12
  let v19 : R := ((MathFns.sqrt (((4.0 : R) * (4.0 : R)) * (2.0 : R))) * v1)
  let v20 : R := (v17 * v1)
  let o21 := (AABB2.intersectsRay (fltMax : R) v5 (Ray2.from v18 v7))
  bad := ck bad 745 (decide (o21.isSome = true))
  bad := ck bad 746 (Near.near (v1 / (1000.0 : R)) (o21.getD (0, 0)).1 v19)
  bad := ck bad 747 (Near.near (v1 / (1000.0 : R)) (o21.getD (0, 0)).2 v20)
  return bad
end Aabb2_154
#guard passes Aabb2_154.run

namespace Aabb2_155
abbrev R := Float32
def run : Res (List Nat) := do
  let mut bad : List Nat := []
  let v1 : R := (1.0 : R)
  let v2 : R := (-(1.0 : R))
  let v3 : R := (v1 * (5.0 : R))
  let v4 : Coord := (next2D Coord.Y)
  let v5 : AABB2 R := (⟨(⟨(-v1), (-v1)⟩ : Vec2 R), (⟨v1, v1⟩ : Vec2 R)⟩ : AABB2 R)
  let v6 : Vec2 R := (Vec2.moved (Vec2.moved (Vec2.zero : Vec2 R) Coord.Y (if (decide (v2 > (0.0 : R))) then (-v3) else v3)) v4 (if (decide (v2 > (0.0 : R))) then (-v3) else v3))
  let v7 : Vec2 R := (Vec2.normalized (Vec2.moved (Vec2.moved (Vec2.zero : Vec2 R) Coord.Y v2) v4 v2) (1 : R))
  let v8 : Vec2 R := v6
  let v9 : Vec2 R := (Vec2.moved v6 Coord.Y (v2 * v1))
  let v10 : Vec2 R := (Vec2.moved v6 Coord.Y ((v2 * v1) * (2 : R)))
  let v11 : Vec2 R := (Vec2.moved v6 v4 (v2 * v1))
  let v12 : Vec2 R := (Vec2.moved v6 v4 ((v2 * v1) * (2 : R)))
  let v13 : R := (MathFns.sqrt (((6.0 : R) * (6.0 : R)) * (2.0 : R)))
  let v14 : R := (MathFns.sqrt (((5.0 : R) * (5.0 : R)) * (2.0 : R)))
  let v15 : R := (MathFns.sqrt (((4.0 : R) * (4.0 : R)) * (2.0 : R)))
  let v16 : R := (MathFns.sqrt (((5.0 : R) * (5.0 : R)) * (2.0 : R)))
  let v17 : R := (MathFns.sqrt (((4.0 : R) * (4.0 : R)) * (2.0 : R)))
  let v18 : Vec2 R := v11
  let v19 : R := ((MathFns.sqrt (((4.0 : R) * (4.0 : R)) * (2.0 : R))) * v1)
  let v20 : R := (v16 * v1)
  let o21 := (AABB2.intersectsRay (fltMax : R) v5 (Ray2.from v18 v7))
  bad := ck bad 745 (decide (o21.isSome = true))
  bad := ck bad 746 (Near.near (v1 / (1000.0 : R)) (o21.getD (0, 0)).1 v19)
  bad := ck bad 747 (Near.near (v1 / (1000.0 : R)) (o21.getD (0, 0)).2 v20)
  return bad
end Aabb2_155
#guard passes Aabb2_155.run

namespace Aabb2_156
abbrev R := Float32
def run : Res (List Nat) := do
  let mut bad : List Nat := []
  let v1 : R := (0.001 : R)
  let v2 : R := (-(1.0 : R))
  let v3 : R := (v1 * (5.0 : R))
  let v4 : Coord := (next2D Coord.X)
  let v5 : AABB2 R := (⟨(⟨(-v1), (-v1)⟩ : Vec2 R), (⟨v1, v1⟩ : Vec2 R)⟩ : AABB2 R)
  let v6 : Vec2 R := (Vec2.moved (Vec2.moved (Vec2.zero : Vec2 R) Coord.X (if (decide (v2 > (0.0 : R))) then (-v3) else v3)) v4 (if (decide (v2 > (0.0 : R))) then (-v3) else v3))
  let v7 : Vec2 R := (Vec2.normalized (Vec2.moved (Vec2.moved (Vec2.zero : Vec2 R) Coord.X v2) v4 v2) (1 : R))
  let v8 : Vec2 R := v6
  let v9 : Vec2 R := (Vec2.moved v6 Coord.X (v2 * v1))
  let v10 : Vec2 R := (Vec2.moved v6 Coord.X ((v2 * v1) * (2 : R)))
  let v11 : Vec2 R := (Vec2.moved v6 v4 (v2 * v1))
  let v12 : Vec2 R := (Vec2.moved v6 v4 ((v2 * v1) * (2 : R)))
  let v13 : R := (MathFns.sqrt (((6.0 : R) * (6.0 : R)) * (2.0 : R)))
  let v14 : R := (MathFns.sqrt (((5.0 : R) * (5.0 : R)) * (2.0 : R)))
  let v15 : R := (MathFns.sqrt (((4.0 : R) * (4.0 : R)) * (2.0 : R)))
  let v16 : R := (MathFns.sqrt (((5.0 : R) * (5.0 : R)) * (2.0 : R)))
  let v17 : R := (MathFns.sqrt (((4.0 : R) * (4.0 : R)) * (2.0 : R)))
  let v18 : Vec2 R := v10
  let v19 : R := ((MathFns.sqrt (((4.0 : R) * (4.0 : R)) * (2.0 : R))) * v1)
  let v20 : R := (v15 * v1)
  let o21 := (AABB2.intersectsRay (fltMax : R) v5 (Ray2.from v18 v7))
  bad := ck bad 745 (decide (o21.isSome = true))
  bad := ck bad 746 (Near.near (v1 / (1000.0 : R)) (o21.getD (0, 0)).1 v19)
  bad := ck bad 747 (Near.near (v1 / (1000.0 : R)) (o21.getD (0, 0)).2 v20)
  return bad
end Aabb2_156
#guard passes Aabb2_156.run

namespace Aabb2_157
abbrev R := Float32
def run : Res (List Nat) := do
  let mut bad : List Nat := []
  let v1 : R := (0.001 : R)
  let v2 : R := (-(1.0 : R))
  let v3 : R := (v1 * (5.0 : R))
  let v4 : Coord := (next2D Coord.Y)
  let v5 : AABB2 R := (⟨(⟨(-v1), (-v1)⟩ : Vec2 R), (⟨v1, v1⟩ : Vec2 R)⟩ : AABB2 R)
  let v6 : Vec2 R := (Vec2.moved (Vec2.moved (Vec2.zero : Vec2 R) Coord.Y (if (decide (v2 > (0.0 : R))) then (-v3) else v3)) v4 (if (decide (v2 > (0.0 : R))) then (-v3) else v3))
  let v7 : Vec2 R := (Vec2.normalized (Vec2.moved (Vec2.moved (Vec2.zero : Vec2 R) Coord.Y v2) v4 v2) (1 : R))
  let v8 : Vec2 R := v6
  let v9 : Vec2 R := (Vec2.moved v6 Coord.Y (v2 * v1))
  let v10 : Vec2 R := (Vec2.moved v6 Coord.Y ((v2 * v1) * (2 : R)))
  let v11 : Vec2 R := (Vec2.moved v6 v4 (v2 * v1))
  let v12 : Vec2 R := (Vec2.moved v6 v4 ((v2 * v1) * (2 : R)))
  let v13 : R := (MathFns.sqrt (((6.0 : R) * (6.0 : R)) * (2.0 : R)))
  let v14 : R := (MathFns.sqrt (((5.0 : R) * (5.0 : R)) * (2.0 : R)))
  let v15 : R := (MathFns.sqrt (((4.0 : R) * (4.0 : R)) * (2.0 : R)))
  let v16 : R := (MathFns.sqrt (((5.0 : R) * (5.0 : R)) * (2.0 : R)))
  let v17 : R := (MathFns.sqrt (((4.0 : R) * (4.0 : R)) * (2.0 : R)))
  let v18 : Vec2 R := v9
  let v19 : R := ((MathFns.sqrt (((4.0 : R) * (4.0 : R)) * (2.0 : R))) * v1)
  let v20 : R := (v14 * v1)
  let o21 := (AABB2.intersectsRay (fltMax : R) v5 (Ray2.from v18 v7))
  bad := ck bad 745 (decide (o21.isSome = true))
  bad := ck bad 746 (Near.near (v1 / (1000.0 : R)) (o21.getD (0, 0)).1 v19)
  bad := ck bad 747 (Near.near (v1 / (1000.0 : R)) (o21.getD (0, 0)).2 v20)
  return bad
end Aabb2_157
#guard passes Aabb2_157.run

namespace Aabb2_158
abbrev R := Float32
def run : Res (List Nat) := do
  let mut bad : List Nat := []
  let v1 : R := (1000.0 : R)
  let v2 : R := (-(1.0 : R))
  let v3 : R := (v1 * (5.0 : R))
  let v4 : Coord := (next2D Coord.X)
  let v5 : AABB2 R := (⟨(⟨(-v1), (-v1)⟩ : Vec2 R), (⟨v1, v1⟩ : Vec2 R)⟩ : AABB2 R)
  let v6 : Vec2 R := (Vec2.moved (Vec2.moved (Vec2.zero : Vec2 R) Coord.X (if (decide (v2 > (0.0 : R))) then (-v3) else v3)) v4 (if (decide (v2 > (0.0 : R))) then (-v3) else v3))
  let v7 : Vec2 R := (Vec2.normalized (Vec2.moved (Vec2.moved (Vec2.zero : Vec2 R) Coord.X v2) v4 v2) (1 : R))
  let v8 : Vec2 R := v6
  let v9 : Vec2 R := (Vec2.moved v6 Coord.X (v2 * v1))
  let v10 : Vec2 R := (Vec2.moved v6 Coord.X ((v2 * v1) * (2 : R)))
  let v11 : Vec2 R := (Vec2.moved v6 v4 (v2 * v1))
  let v12 : Vec2 R := (Vec2.moved v6 v4 ((v2 * v1) * (2 : R)))
  let v13 : R := (MathFns.sqrt (((6.0 : R) * (6.0 : R)) * (2.0 : R)))
  let v14 : R := (MathFns.sqrt (((5.0 : R) * (5.0 : R)) * (2.0 : R)))
  let v15 : R := (MathFns.sqrt (((4.0 : R) * (4.0 : R)) * (2.0 : R)))
  let v16 : R := (MathFns.sqrt (((5.0 : R) * (5.0 : R)) * (2.0 : R)))
  let v17 : R := (MathFns.sqrt (((4.0 : R) * (4.0 : R)) * (2.0 : R)))
  let v18 : Vec2 R := v8
  let v19 : R := ((MathFns.sqrt (((4.0 : R) * (4.0 : R)) * (2.0 : R))) * v1)
  let v20 : R := (v13 * v1)
  let o21 := (AABB2.intersectsRay (fltMax : R) v5 (Ray2.from v18 v7))
  bad := ck bad 745 (decide (o21.isSome = true))
  bad := ck bad 746 (Near.near (v1 / (1000.0 : R)) (o21.getD (0, 0)).1 v19)
  bad := ck bad 747 (Near.near (v1 / (1000.0 : R)) (o21.getD (0, 0)).2 v20)
  return bad
end Aabb2_158
#guard passes Aabb2_158.run

namespace Aabb2_159
abbrev R := Float32
def run : Res (List Nat) := do
  let mut bad : List Nat := []
  let v1 : R := (1000.0 : R)
  let v2 : R := (1.0 : R)
  let v3 : R := (v1 * (5.0 : R))
  let v4 : Coord := (next2D Coord.Y)
  let v5 : AABB2 R := (⟨(⟨(-v1), (-v1)⟩ : Vec2 R), (⟨v1, v1⟩ : Vec2 R)⟩ : AABB2 R)
  let v6 : Vec2 R := (Vec2.moved (Vec2.moved (Vec2.zero : Vec2 R) Coord.Y (if (decide (v2 > (0.0 : R))) then (-v3) else v3)) v4 (if (decide (v2 > (0.0 : R))) then (-v3) else v3))
  let v7 : Vec2 R := (Vec2.normalized (Vec2.moved (Vec2.moved (Vec2.zero : Vec2 R) Coord.Y v2) v4 v2) (1 : R))
  let v8 : Vec2 R := v6
  let v9 : Vec2 R := (Vec2.moved v6 Coord.Y (v2 * v1))
  let v10 : Vec2 R := (Vec2.moved v6 Coord.Y ((v2 * v1) * (2 : R)))
  let v11 : Vec2 R := (Vec2.moved v6 v4 (v2 * v1))
  let v12 : Vec2 R := (Vec2.moved v6 v4 ((v2 * v1) * (2 : R)))
  let v13 : R := (MathFns.sqrt (((6.0 : R) * (6.0 : R)) * (2.0 : R)))
  let v14 : R := (MathFns.sqrt (((5.0 : R) * (5.0 : R)) * (2.0 : R)))
  let v15 : R := (MathFns.sqrt (((4.0 : R) * (4.0 : R)) * (2.0 : R)))
  let v16 : R := (MathFns.sqrt (((5.0 : R) * (5.0 : R)) * (2.0 : R)))
  let v17 : R := (MathFns.sqrt (((4.0 : R) * (4.0 : R)) * (2.0 : R)))
  let v18 : Vec2 R := v12
  let v19 : R := ((MathFns.sqrt (((4.0 : R) * (4.0 : R)) * (2.0 : R))) * v1)
  let v20 : R := (v17 * v1)
  let o21 := (AABB2.intersectsRay (fltMax : R) v5 (Ray2.from v18 v7))
  bad := ck bad 745 (decide (o21.isSome = true))
  bad := ck bad 746 (Near.near (v1 / (1000.0 : R)) (o21.getD (0, 0)).1 v19)
  bad := ck bad 747 (Near.near (v1 / (1000.0 : R)) (o21.getD (0, 0)).2 v20)
  return bad
end Aabb2_159
#guard passes Aabb2_159.run

namespace Aabb2_160
abbrev R := Float32
def run : Res (List Nat) := do
  let mut bad : List Nat := []
  let v1 : R := (1.0 : R)
  let v2 : R := (1.0 : R)
  let v3 : R := (v1 * (5.0 : R))
  let v4 : Coord := (next2D Coord.X)
  let v5 : AABB2 R := (⟨(⟨(-v1), (-v1)⟩ : Vec2 R), (⟨v1, v1⟩ : Vec2 R)⟩ : AABB2 R)
  let v6 : R := (0.4 : R)
  let v7 : R := (0.6 : R)
  let v8 : Vec2 R := (Vec2.moved (Vec2.zero : Vec2 R) Coord.X (if (decide (v2 > (0.0 : R))) then (-v3) else v3))
  let v9 : Vec2 R := (Vec2.moved (Vec2.zero : Vec2 R) Coord.X (if (decide (v2 > (0.0 : R))) then v3 else (-v3)))
  let o10 := (AABB2.intersectsLine (fltMax : R) v5 (⟨v8, v9⟩ : Line2 R))
  bad := ck bad 774 (decide (o10.isSome = true))
  bad := ck bad 775 (nearRel (0.0001 : R) (o10.getD (0, 0)).1 v6)
  bad := ck bad 776 (nearRel (0.0001 : R) (o10.getD (0, 0)).2 v7)
  return bad
end Aabb2_160
#guard passes Aabb2_160.run

namespace Aabb2_161
abbrev R := Float32
def run : Res (List Nat) := do
  let mut bad : List Nat := []
  let v1 : R := (1.0 : R)
  let v2 : R := (1.0 : R)
  let v3 : R := (v1 * (5.0 : R))
  let v4 : Coord := (next2D Coord.Y)
  let v5 : AABB2 R := (⟨(⟨(-v1), (-v1)⟩ : Vec2 R), (⟨v1, v1⟩ : Vec2 R)⟩ : AABB2 R)
  let v6 : R := (0.4 : R)
  let v7 : R := (0.6 : R)
  let v8 : Vec2 R := (Vec2.moved (Vec2.zero : Vec2 R) Coord.Y (if (decide (v2 > (0.0 : R))) then (-v3) else v3))
  let v9 : Vec2 R := (Vec2.moved (Vec2.zero : Vec2 R) Coord.Y (if (decide (v2 > (0.0 : R))) then v3 else (-v3)))
  let o10 := (AABB2.intersectsLine (fltMax : R) v5 (⟨v8, v9⟩ : Line2 R))
  bad := ck bad 774 (decide (o10.isSome = true))
  bad := ck bad 775 (nearRel (0.0001 : R) (o10.getD (0, 0)).1 v6)
  bad := ck bad 776 (nearRel (0.0001 : R) (o10.getD (0, 0)).2 v7)
  return bad
end Aabb2_161
#guard passes Aabb2_161.run

namespace Aabb2_162
abbrev R := Float32
def run : Res (List Nat) := do
  let mut bad : List Nat := []
  let v1 : R := (0.001 : R)
  let v2 : R := (1.0 : R)
  let v3 : R := (v1 * (5.0 : R))
  let v4 : Coord := (next2D Coord.X)
  let v5 : AABB2 R := (⟨(⟨(-v1), (-v1)⟩ : Vec2 R), (⟨v1, v1⟩ : Vec2 R)⟩ : AABB2 R)
  let v6 : R := (0.4 : R)
  let v7 : R := (0.6 : R)
  let v8 : Vec2 R := (Vec2.moved (Vec2.zero : Vec2 R) Coord.X (if (decide (v2 > (0.0 : R))) then (-v3) else v3))
  let v9 : Vec2 R := (Vec2.moved (Vec2.zero : Vec2 R) Coord.X (if (decide (v2 > (0.0 : R))) then v3 else (-v3)))
  let o10 := (AABB2.intersectsLine (fltMax : R) v5 (⟨v8, v9⟩ : Line2 R))
  bad := ck bad 774 (decide (o10.isSome = true))
  bad := ck bad 775 (nearRel (0.0001 : R) (o10.getD (0, 0)).1 v6)
  bad := ck bad 776 (nearRel (0.0001 : R) (o10.getD (0, 0)).2 v7)
  return bad
end Aabb2_162
#guard passes Aabb2_162.run

namespace Aabb2_163
abbrev R := Float32
def run : Res (List Nat) := do
  let mut bad : List Nat := []
  let v1 : R := (0.001 : R)
  let v2 : R := (1.0 : R)
  let v3 : R := (v1 * (5.0 : R))
  let v4 : Coord := (next2D Coord.Y)
  let v5 : AABB2 R := (⟨(⟨(-v1), (-v1)⟩ : Vec2 R), (⟨v1, v1⟩ : Vec2 R)⟩ : AABB2 R)
  let v6 : R := (0.4 : R)
  let v7 : R := (0.6 : R)
  let v8 : Vec2 R := (Vec2.moved (Vec2.zero : Vec2 R) Coord.Y (if (decide (v2 > (0.0 : R))) then (-v3) else v3))
  let v9 : Vec2 R := (Vec2.moved (Vec2.zero : Vec2 R) Coord.Y (if (decide (v2 > (0.0 : R))) then v3 else (-v3)))
  let o10 := (AABB2.intersectsLine (fltMax : R) v5 (⟨v8, v9⟩ : Line2 R))
  bad := ck bad 774 (decide (o10.isSome = true))
  bad := ck bad 775 (nearRel (0.0001 : R) (o10.getD (0, 0)).1 v6)
  bad := ck bad 776 (nearRel (0.0001 : R) (o10.getD (0, 0)).2 v7)
  return bad
end Aabb2_163
#guard passes Aabb2_163.run

namespace Aabb2_164
abbrev R := Float32
def run : Res (List Nat) := do
  let mut bad : List Nat := []
  let v1 : R := (1000.0 : R)
  let v2 : R := (1.0 : R)
  let v3 : R := (v1 * (5.0 : R))
  let v4 : Coord := (next2D Coord.X)
  let v5 : AABB2 R := (⟨(⟨(-v1), (-v1)⟩ : Vec2 R), (⟨v1, v1⟩ : Vec2 R)⟩ : AABB2 R)
  let v6 : R := (0.4 : R)
  let v7 : R := (0.6 : R)
  let v8 : Vec2 R := (Vec2.moved (Vec2.zero : Vec2 R) Coord.X (if (decide (v2 > (0.0 : R))) then (-v3) else v3))
  let v9 : Vec2 R := (Vec2.moved (Vec2.zero : Vec2 R) Coord.X (if (decide (v2 > (0.0 : R))) then v3 else (-v3)))
  let o10 := (AABB2.intersectsLine (fltMax : R) v5 (⟨v8, v9⟩ : Line2 R))
  bad := ck bad 774 (decide (o10.isSome = true))
  bad := ck bad 775 (nearRel (0.0001 : R) (o10.getD (0, 0)).1 v6)
  bad := ck bad 776 (nearRel (0.0001 : R) (o10.getD (0, 0)).2 v7)
  return bad
end Aabb2_164
#guard passes Aabb2_164.run

namespace Aabb2_165
abbrev R := Float32
def run : Res (List Nat) := do
  let mut bad : List Nat := []
  let v1 : R := (1000.0 : R)
  let v2 : R := (1.0 : R)
  let v3 : R := (v1 * (5.0 : R))
  let v4 : Coord := (next2D Coord.Y)
  let v5 : AABB2 R := (⟨(⟨(-v1), (-v1)⟩ : Vec2 R), (⟨v1, v1⟩ : Vec2 R)⟩ : AABB2 R)
  let v6 : R := (0.4 : R)
  let v7 : R := (0.6 : R)
  let v8 : Vec2 R := (Vec2.moved (Vec2.zero : Vec2 R) Coord.Y (if (decide (v2 > (0.0 : R))) then (-v3) else v3))
  let v9 : Vec2 R := (Vec2.moved (Vec2.zero : Vec2 R) Coord.Y (if (decide (v2 > (0.0 : R))) then v3 else (-v3)))
  let o10 := (AABB2.intersectsLine (fltMax : R) v5 (⟨v8, v9⟩ : Line2 R))
  bad := ck bad 774 (decide (o10.isSome = true))
  bad := ck bad 775 (nearRel (0.0001 : R) (o10.getD (0, 0)).1 v6)
  bad := ck bad 776 (nearRel (0.0001 : R) (o10.getD (0, 0)).2 v7)
  return bad
end Aabb2_165
#guard passes Aabb2_165.run

namespace Aabb2_166
abbrev R := Float32
def run : Res (List Nat) := do
  let mut bad : List Nat := []
  let v1 : R := (1.0 : R)
  let v2 : R := (1.0 : R)
  let v3 : R := (v1 * (5.0 : R))
  let v4 : Coord := (next2D Coord.X)
  let v5 : AABB2 R := (⟨(⟨(-v1), (-v1)⟩ : Vec2 R), (⟨v1, v1⟩ : Vec2 R)⟩ : AABB2 R)
  let v6 : R := (0.4 : R)
  let v7 : R := (0.6 : R)
  let v8 : Vec2 R := (Vec2.moved (Vec2.zero : Vec2 R) Coord.X (if (decide (v2 > (0.0 : R))) then (-v3) else v3))
  let v9 : Vec2 R := (Vec2.moved (Vec2.zero : Vec2 R) Coord.X (if (decide (v2 > (0.0 : R))) then v3 else (-v3)))
  let o10 := (AABB2.intersectsLine (fltMax : R) v5 (⟨(Vec2.moved v8 v4 v3), (Vec2.moved v9 v4 v3)⟩ : Line2 R))
  bad := ck bad 780 (decide (o10.isSome = false))
  let o11 := (AABB2.intersectsLine (fltMax : R) v5 (⟨(Vec2.moved v8 v4 (-v3)), (Vec2.moved v9 v4 (-v3))⟩ : Line2 R))
  bad := ck bad 781 (decide (o11.isSome = false))
  return bad
end Aabb2_166
#guard passes Aabb2_166.run

namespace Aabb2_167
abbrev R := Float32
def run : Res (List Nat) := do
  let mut bad : List Nat := []
  let v1 : R := (1.0 : R)
  let v2 : R := (1.0 : R)
  let v3 : R := (v1 * (5.0 : R))
  let v4 : Coord := (next2D Coord.Y)
  let v5 : AABB2 R := (⟨(⟨(-v1), (-v1)⟩ : Vec2 R), (⟨v1, v1⟩ : Vec2 R)⟩ : AABB2 R)
  let v6 : R := (0.4 : R)
  let v7 : R := (0.6 : R)
  let v8 : Vec2 R := (Vec2.moved (Vec2.zero : Vec2 R) Coord.Y (if (decide (v2 > (0.0 : R))) then (-v3) else v3))
  let v9 : Vec2 R := (Vec2.moved (Vec2.zero : Vec2 R) Coord.Y (if (decide (v2 > (0.0 : R))) then v3 else (-v3)))
  let o10 := (AABB2.intersectsLine (fltMax : R) v5 (⟨(Vec2.moved v8 v4 v3), (Vec2.moved v9 v4 v3)⟩ : Line2 R))
  bad := ck bad 780 (decide (o10.isSome = false))
  let o11 := (AABB2.intersectsLine (fltMax : R) v5 (⟨(Vec2.moved v8 v4 (-v3)), (Vec2.moved v9 v4 (-v3))⟩ : Line2 R))
  bad := ck bad 781 (decide (o11.isSome = false))
  return bad
end Aabb2_167
#guard passes Aabb2_167.run

namespace Aabb2_168
abbrev R := Float32
def run : Res (List Nat) := do
  let mut bad : List Nat := []
  let v1 : R := (0.001 : R)
  let v2 : R := (1.0 : R)
  let v3 : R := (v1 * (5.0 : R))
  let v4 : Coord := (next2D Coord.X)
  let v5 : AABB2 R := (⟨(⟨(-v1), (-v1)⟩ : Vec2 R), (⟨v1, v1⟩ : Vec2 R)⟩ : AABB2 R)
  let v6 : R := (0.4 : R)
  let v7 : R := (0.6 : R)
  let v8 : Vec2 R := (Vec2.moved (Vec2.zero : Vec2 R) Coord.X (if (decide (v2 > (0.0 : R))) then (-v3) else v3))
  let v9 : Vec2 R := (Vec2.moved (Vec2.zero : Vec2 R) Coord.X (if (decide (v2 > (0.0 : R))) then v3 else (-v3)))
  let o10 := (AABB2.intersectsLine (fltMax : R) v5 (⟨(Vec2.moved v8 v4 v3), (Vec2.moved v9 v4 v3)⟩ : Line2 R))
  bad := ck bad 780 (decide (o10.isSome = false))
  let o11 := (AABB2.intersectsLine (fltMax : R) v5 (⟨(Vec2.moved v8 v4 (-v3)), (Vec2.moved v9 v4 (-v3))⟩ : Line2 R))
  bad := ck bad 781 (decide (o11.isSome = false))
  return bad
end Aabb2_168
#guard passes Aabb2_168.run

namespace Aabb2_169
abbrev R := Float32
def run : Res (List Nat) := do
  let mut bad : List Nat := []
  let v1 : R := (0.001 : R)
  let v2 : R := (1.0 : R)
  let v3 : R := (v1 * (5.0 : R))
  let v4 : Coord := (next2D Coord.Y)
  let v5 : AABB2 R := (⟨(⟨(-v1), (-v1)⟩ : Vec2 R), (⟨v1, v1⟩ : Vec2 R)⟩ : AABB2 R)
  let v6 : R := (0.4 : R)
  let v7 : R := (0.6 : R)
  let v8 : Vec2 R := (Vec2.moved (Vec2.zero : Vec2 R) Coord.Y (if (decide (v2 > (0.0 : R))) then (-v3) else v3))
  let v9 : Vec2 R := (Vec2.moved (Vec2.zero : Vec2 R) Coord.Y (if (decide (v2 > (0.0 : R))) then v3 else (-v3)))
  let o10 := (AABB2.intersectsLine (fltMax : R) v5 (⟨(Vec2.moved v8 v4 v3), (Vec2.moved v9 v4 v3)⟩ : Line2 R))
  bad := ck bad 780 (decide (o10.isSome = false))
  let o11 := (AABB2.intersectsLine (fltMax : R) v5 (⟨(Vec2.moved v8 v4 (-v3)), (Vec2.moved v9 v4 (-v3))⟩ : Line2 R))
  bad := ck bad 781 (decide (o11.isSome = false))
  return bad
end Aabb2_169
#guard passes Aabb2_169.run

namespace Aabb2_170
abbrev R := Float32
def run : Res (List Nat) := do
  let mut bad : List Nat := []
  let v1 : R := (1000.0 : R)
  let v2 : R := (1.0 : R)
  let v3 : R := (v1 * (5.0 : R))
  let v4 : Coord := (next2D Coord.X)
  let v5 : AABB2 R := (⟨(⟨(-v1), (-v1)⟩ : Vec2 R), (⟨v1, v1⟩ : Vec2 R)⟩ : AABB2 R)
  let v6 : R := (0.4 : R)
  let v7 : R := (0.6 : R)
  let v8 : Vec2 R := (Vec2.moved (Vec2.zero : Vec2 R) Coord.X (if (decide (v2 > (0.0 : R))) then (-v3) else v3))
  let v9 : Vec2 R := (Vec2.moved (Vec2.zero : Vec2 R) Coord.X (if (decide (v2 > (0.0 : R))) then v3 else (-v3)))
  let o10 := (AABB2.intersectsLine (fltMax : R) v5 (⟨(Vec2.moved v8 v4 v3), (Vec2.moved v9 v4 v3)⟩ : Line2 R))
  bad := ck bad 780 (decide (o10.isSome = false))
  let o11 := (AABB2.intersectsLine (fltMax : R) v5 (⟨(Vec2.moved v8 v4 (-v3)), (Vec2.moved v9 v4 (-v3))⟩ : Line2 R))
  bad := ck bad 781 (decide (o11.isSome = false))
  return bad
end Aabb2_170
#guard passes Aabb2_170.run

namespace Aabb2_171
abbrev R := Float32
def run : Res (List Nat) := do
  let mut bad : List Nat := []
  let v1 : R := (1000.0 : R)
  let v2 : R := (1.0 : R)
  let v3 : R := (v1 * (5.0 : R))
  let v4 : Coord := (next2D Coord.Y)
  let v5 : AABB2 R := (⟨(⟨(-v1), (-v1)⟩ : Vec2 R), (⟨v1, v1⟩ : Vec2 R)⟩ : AABB2 R)
  let v6 : R := (0.4 : R)
  let v7 : R := (0.6 : R)
  let v8 : Vec2 R := (Vec2.moved (Vec2.zero : Vec2 R) Coord.Y (if (decide (v2 > (0.0 : R))) then (-v3) else v3))
  let v9 : Vec2 R := (Vec2.moved (Vec2.zero : Vec2 R) Coord.Y (if (decide (v2 > (0.0 : R))) then v3 else (-v3)))
  let o10 := (AABB2.intersectsLine (fltMax : R) v5 (⟨(Vec2.moved v8 v4 v3), (Vec2.moved v9 v4 v3)⟩ : Line2 R))
  bad := ck bad 780 (decide (o10.isSome = false))
  let o11 := (AABB2.intersectsLine (fltMax : R) v5 (⟨(Vec2.moved v8 v4 (-v3)), (Vec2.moved v9 v4 (-v3))⟩ : Line2 R))
  bad := ck bad 781 (decide (o11.isSome = false))
  return bad
end Aabb2_171
#guard passes Aabb2_171.run

namespace Aabb2_172
abbrev R := Float32
def run : Res (List Nat) := do
  let mut bad : List Nat := []
  let v1 : R := (1.0 : R)
  let v2 : R := (1.0 : R)
  let v3 : R := (v1 * (5.0 : R))
  let v4 : Coord := (next2D Coord.X)
  let v5 : AABB2 R := (⟨(⟨(-v1), (-v1)⟩ : Vec2 R), (⟨v1, v1⟩ : Vec2 R)⟩ : AABB2 R)
  let v6 : R := (0.0 : R)
  let v7 : R := (0.2 : R)
  let v8 : Vec2 R := (Vec2.zero : Vec2 R)
  let v9 : Vec2 R := (Vec2.moved (Vec2.zero : Vec2 R) Coord.X (if (decide (v2 > (0.0 : R))) then v3 else (-v3)))
  let o10 := (AABB2.intersectsLine (fltMax : R) v5 (⟨v8, v9⟩ : Line2 R))
  bad := ck bad 794 (decide (o10.isSome = true))
  bad := ck bad 795 (nearRel (0.0001 : R) (o10.getD (0, 0)).1 v6)
  bad := ck bad 796 (nearRel (0.0001 : R) (o10.getD (0, 0)).2 v7)
  return bad
end Aabb2_172
#guard passes Aabb2_172.run

namespace Aabb2_173
abbrev R := Float32
def run : Res (List Nat) := do
  let mut bad : List Nat := []
  let v1 : R := (1.0 : R)
  let v2 : R := (1.0 : R)
  let v3 : R := (v1 * (5.0 : R))
  let v4 : Coord := (next2D Coord.Y)
  let v5 : AABB2 R := (⟨(⟨(-v1), (-v1)⟩ : Vec2 R), (⟨v1, v1⟩ : Vec2 R)⟩ : AABB2 R)
  let v6 : R := (0.0 : R)
  let v7 : R := (0.2 : R)
  let v8 : Vec2 R := (Vec2.zero : Vec2 R)
  let v9 : Vec2 R := (Vec2.moved (Vec2.zero : Vec2 R) Coord.Y (if (decide (v2 > (0.0 : R))) then v3 else (-v3)))
  let o10 := (AABB2.intersectsLine (fltMax : R) v5 (⟨v8, v9⟩ : Line2 R))
  bad := ck bad 794 (decide (o10.isSome = true))
  bad := ck bad 795 (nearRel (0.0001 : R) (o10.getD (0, 0)).1 v6)
  bad := ck bad 796 (nearRel (0.0001 : R) (o10.getD (0, 0)).2 v7)
  return bad
end Aabb2_173
#guard passes Aabb2_173.run

namespace Aabb2_174
abbrev R := Float32
def run : Res (List Nat) := do
  let mut bad : List Nat := []
  let v1 : R := (0.001 : R)
  let v2 : R := (1.0 : R)
  let v3 : R := (v1 * (5.0 : R))
  let v4 : Coord := (next2D Coord.X)
  let v5 : AABB2 R := (⟨(⟨(-v1), (-v1)⟩ : Vec2 R), (⟨v1, v1⟩ : Vec2 R)⟩ : AABB2 R)
  let v6 : R := (0.0 : R)
  let v7 : R := (0.2 : R)
  let v8 : Vec2 R := (Vec2.zero : Vec2 R)
  let v9 : Vec2 R := (Vec2.moved (Vec2.zero : Vec2 R) Coord.X (if (decide (v2 > (0.0 : R))) then v3 else (-v3)))
  let o10 := (AABB2.intersectsLine (fltMax : R) v5 (⟨v8, v9⟩ : Line2 R))
  bad := ck bad 794 (decide (o10.isSome = true))
  bad := ck bad 795 (nearRel (0.0001 : R) (o10.getD (0, 0)).1 v6)
  bad := ck bad 796 (nearRel (0.0001 : R) (o10.getD (0, 0)).2 v7)
  return bad
end Aabb2_174
#guard passes Aabb2_174.run

namespace Aabb2_175
abbrev R := Float32
def run : Res (List Nat) := do
  let mut bad : List Nat := []
  let v1 : R := (0.001 : R)
  let v2 : R := (1.0 : R)
  let v3 : R := (v1 * (5.0 : R))
  let v4 : Coord := (next2D Coord.Y)
  let v5 : AABB2 R := (⟨(⟨(-v1), (-v1)⟩ : Vec2 R), (⟨v1, v1⟩ : Vec2 R)⟩ : AABB2 R)
  let v6 : R := (0.0 : R)
  let v7 : R := (0.2 : R)
  let v8 : Vec2 R := (Vec2.zero : Vec2 R)
  let v9 : Vec2 R := (Vec2.moved (Vec2.zero : Vec2 R) Coord.Y (if (decide (v2 > (0.0 : R))) then v3 else (-v3)))
  let o10 := (AABB2.intersectsLine (fltMax : R) v5 (⟨v8, v9⟩ : Line2 R))
  bad := ck bad 794 (decide (o10.isSome = true))
  bad := ck bad 795 (nearRel (0.0001 : R) (o10.getD (0, 0)).1 v6)
  bad := ck bad 796 (nearRel (0.0001 : R) (o10.getD (0, 0)).2 v7)
  return bad
end Aabb2_175
#guard passes Aabb2_175.run

namespace Aabb2_176
abbrev R := Float32
def run : Res (List Nat) := do
  let mut bad : List Nat := []
  let v1 : R := (1000.0 : R)
  let v2 : R := (1.0 : R)
  let v3 : R := (v1 * (5.0 : R))
  let v4 : Coord := (next2D Coord.X)
  let v5 : AABB2 R := (⟨(⟨(-v1), (-v1)⟩ : Vec2 R), (⟨v1, v1⟩ : Vec2 R)⟩ : AABB2 R)
  let v6 : R := (0.0 : R)
  let v7 : R := (0.2 : R)
  let v8 : Vec2 R := (Vec2.zero : Vec2 R)
  let v9 : Vec2 R := (Vec2.moved (Vec2.zero : Vec2 R) Coord.X (if (decide (v2 > (0.0 : R))) then v3 else (-v3)))
  let o10 := (AABB2.intersectsLine (fltMax : R) v5 (⟨v8, v9⟩ : Line2 R))
  bad := ck bad 794 (decide (o10.isSome = true))
  bad := ck bad 795 (nearRel (0.0001 : R) (o10.getD (0, 0)).1 v6)
  bad := ck bad 796 (nearRel (0.0001 : R) (o10.getD (0, 0)).2 v7)
  return bad
end Aabb2_176
#guard passes Aabb2_176.run

namespace Aabb2_177
abbrev R := Float32
def run : Res (List Nat) := do
  let mut bad : List Nat := []
  let v1 : R := (1000.0 : R)
  let v2 : R := (1.0 : R)
  let v3 : R := (v1 * (5.0 : R))
  let v4 : Coord := (next2D Coord.Y)
  let v5 : AABB2 R := (⟨(⟨(-v1), (-v1)⟩ : Vec2 R), (⟨v1, v1⟩ : Vec2 R)⟩ : AABB2 R)
  let v6 : R := (0.0 : R)
  let v7 : R := (0.2 : R)
  let v8 : Vec2 R := (Vec2.zero : Vec2 R)
  let v9 : Vec2 R := (Vec2.moved (Vec2.zero : Vec2 R) Coord.Y (if (decide (v2 > (0.0 : R))) then v3 else (-v3)))
  let o10 := (AABB2.intersectsLine (fltMax : R) v5 (⟨v8, v9⟩ : Line2 R))
  bad := ck bad 794 (decide (o10.isSome = true))
  bad := ck bad 795 (nearRel (0.0001 : R) (o10.getD (0, 0)).1 v6)
  bad := ck bad 796 (nearRel (0.0001 : R) (o10.getD (0, 0)).2 v7)
  return bad
end Aabb2_177
#guard passes Aabb2_177.run

namespace Aabb2_178
abbrev R := Float32
def run : Res (List Nat) := do
  let mut bad : List Nat := []
  let v1 : R := (1.0 : R)
  let v2 : R := (1.0 : R)
  let v3 : R := (v1 * (5.0 : R))
  let v4 : Coord := (next2D Coord.X)
  let v5 : AABB2 R := (⟨(⟨(-v1), (-v1)⟩ : Vec2 R), (⟨v1, v1⟩ : Vec2 R)⟩ : AABB2 R)
  let v6 : R := (0.0 : R)
  let v7 : R := (0.2 : R)
  let v8 : Vec2 R := (Vec2.zero : Vec2 R)
  let v9 : Vec2 R := (Vec2.moved (Vec2.zero : Vec2 R) Coord.X (if (decide (v2 > (0.0 : R))) then v3 else (-v3)))
  let o10 := (AABB2.intersectsLine (fltMax : R) v5 (⟨(Vec2.moved v8 v4 v3), (Vec2.moved v9 v4 v3)⟩ : Line2 R))
  bad := ck bad 800 (decide (o10.isSome = false))
  let o11 := (AABB2.intersectsLine (fltMax : R) v5 (⟨(Vec2.moved v8 v4 (-v3)), (Vec2.moved v9 v4 (-v3))⟩ : Line2 R))
  bad := ck bad 801 (decide (o11.isSome = false))
  return bad
end Aabb2_178
#guard passes Aabb2_178.run

namespace Aabb2_179
abbrev R := Float32
def run : Res (List Nat) := do
  let mut bad : List Nat := []
  let v1 : R := (1.0 : R)
  let v2 : R := (1.0 : R)
  let v3 : R := (v1 * (5.0 : R))
  let v4 : Coord := (next2D Coord.Y)
  let v5 : AABB2 R := (⟨(⟨(-v1), (-v1)⟩ : Vec2 R), (⟨v1, v1⟩ : Vec2 R)⟩ : AABB2 R)
  let v6 : R := (0.0 : R)
  let v7 : R := (0.2 : R)
  let v8 : Vec2 R := (Vec2.zero : Vec2 R)
  let v9 : Vec2 R := (Vec2.moved (Vec2.zero : Vec2 R) Coord.Y (if (decide (v2 > (0.0 : R))) then v3 else (-v3)))
  let o10 := (AABB2.intersectsLine (fltMax : R) v5 (⟨(Vec2.moved v8 v4 v3), (Vec2.moved v9 v4 v3)⟩ : Line2 R))
  bad := ck bad 800 (decide (o10.isSome = false))
  let o11 := (AABB2.intersectsLine (fltMax : R) v5 (⟨(Vec2.moved v8 v4 (-v3)), (Vec2.moved v9 v4 (-v3))⟩ : Line2 R))
  bad := ck bad 801 (decide (o11.isSome = false))
  return bad
end Aabb2_179
#guard passes Aabb2_179.run

namespace Aabb2_180
abbrev R := Float32
def run : Res (List Nat) := do
  let mut bad : List Nat := []
  let v1 : R := (0.001 : R)
  let v2 : R := (1.0 : R)
  let v3 : R := (v1 * (5.0 : R))
  let v4 : Coord := (next2D Coord.X)
  let v5 : AABB2 R := (⟨(⟨(-v1), (-v1)⟩ : Vec2 R), (⟨v1, v1⟩ : Vec2 R)⟩ : AABB2 R)
  let v6 : R := (0.0 : R)
  let v7 : R := (0.2 : R)
  let v8 : Vec2 R := (Vec2.zero : Vec2 R)
  let v9 : Vec2 R := (Vec2.moved (Vec2.zero : Vec2 R) Coord.X (if (decide (v2 > (0.0 : R))) then v3 else (-v3)))
  let o10 := (AABB2.intersectsLine (fltMax : R) v5 (⟨(Vec2.moved v8 v4 v3), (Vec2.moved v9 v4 v3)⟩ : Line2 R))
  bad := ck bad 800 (decide (o10.isSome = false))
  let o11 := (AABB2.intersectsLine (fltMax : R) v5 (⟨(Vec2.moved v8 v4 (-v3)), (Vec2.moved v9 v4 (-v3))⟩ : Line2 R))
  bad := ck bad 801 (decide (o11.isSome = false))
  return bad
end Aabb2_180
#guard passes Aabb2_180.run

namespace Aabb2_181
abbrev R := Float32
def run : Res (List Nat) := do
  let mut bad : List Nat := []
  let v1 : R := (0.001 : R)
  let v2 : R := (1.0 : R)
  let v3 : R := (v1 * (5.0 : R))
  let v4 : Coord := (next2D Coord.Y)
  let v5 : AABB2 R := (⟨(⟨(-v1), (-v1)⟩ : Vec2 R), (⟨v1, v1⟩ : Vec2 R)⟩ : AABB2 R)
  let v6 : R := (0.0 : R)
  let v7 : R := (0.2 : R)
  let v8 : Vec2 R := (Vec2.zero : Vec2 R)
  let v9 : Vec2 R := (Vec2.moved (Vec2.zero : Vec2 R) Coord.Y (if (decide (v2 > (0.0 : R))) then v3 else (-v3)))
  let o10 := (AABB2.intersectsLine (fltMax : R) v5 (⟨(Vec2.moved v8 v4 v3), (Vec2.moved v9 v4 v3)⟩ : Line2 R))
  bad := ck bad 800 (decide (o10.isSome = false))
  let o11 := (AABB2.intersectsLine (fltMax : R) v5 (⟨(Vec2.moved v8 v4 (-v3)), (Vec2.moved v9 v4 (-v3))⟩ : Line2 R))
  bad := ck bad 801 (decide (o11.isSome = false))
  return bad
end Aabb2_181
#guard passes Aabb2_181.run

namespace Aabb2_182
abbrev R := Float32
def run : Res (List Nat) := do
  let mut bad : List Nat := []
  let v1 : R := (1000.0 : R)
  let v2 : R := (1.0 : R)
  let v3 : R := (v1 * (5.0 : R))
  let v4 : Coord := (next2D Coord.X)
  let v5 : AABB2 R := (⟨(⟨(-v1), (-v1)⟩ : Vec2 R), (⟨v1, v1⟩ : Vec2 R)⟩ : AABB2 R)
  let v6 : R := (0.0 : R)
  let v7 : R := (0.2 : R)
  let v8 : Vec2 R := (Vec2.zero : Vec2 R)
  let v9 : Vec2 R := (Vec2.moved (Vec2.zero : Vec2 R) Coord.X (if (decide (v2 > (0.0 : R))) then v3 else (-v3)))
  let o10 := (AABB2.intersectsLine (fltMax : R) v5 (⟨(Vec2.moved v8 v4 v3), (Vec2.moved v9 v4 v3)⟩ : Line2 R))
  bad := ck bad 800 (decide (o10.isSome = false))
  let o11 := (AABB2.intersectsLine (fltMax : R) v5 (⟨(Vec2.moved v8 v4 (-v3)), (Vec2.moved v9 v4 (-v3))⟩ : Line2 R))
  bad := ck bad 801 (decide (o11.isSome = false))
  return bad
end Aabb2_182
#guard passes Aabb2_182.run

namespace Aabb2_183
abbrev R := Float32
def run : Res (List Nat) := do
  let mut bad : List Nat := []
  let v1 : R := (1000.0 : R)
  let v2 : R := (1.0 : R)
  let v3 : R := (v1 * (5.0 : R))
  let v4 : Coord := (next2D Coord.Y)
  let v5 : AABB2 R := (⟨(⟨(-v1), (-v1)⟩ : Vec2 R), (⟨v1, v1⟩ : Vec2 R)⟩ : AABB2 R)
  let v6 : R := (0.0 : R)
  let v7 : R := (0.2 : R)
  let v8 : Vec2 R := (Vec2.zero : Vec2 R)
  let v9 : Vec2 R := (Vec2.moved (Vec2.zero : Vec2 R) Coord.Y (if (decide (v2 > (0.0 : R))) then v3 else (-v3)))
  let o10 := (AABB2.intersectsLine (fltMax : R) v5 (⟨(Vec2.moved v8 v4 v3), (Vec2.moved v9 v4 v3)⟩ : Line2 R))
  bad := ck bad 800 (decide (o10.isSome = false))
  let o11 := (AABB2.intersectsLine (fltMax : R) v5 (⟨(Vec2.moved v8 v4 (-v3)), (Vec2.moved v9 v4 (-v3))⟩ : Line2 R))
  bad := ck bad 801 (decide (o11.isSome = false))
  return bad
end Aabb2_183
#guard passes Aabb2_183.run

namespace Aabb2_184
abbrev R := Float32
def run : Res (List Nat) := do
  let mut bad : List Nat := []
  let v1 : R := (1.0 : R)
  let v2 : R := (1.0 : R)
  let v3 : R := (v1 * (5.0 : R))
  let v4 : Coord := (next2D Coord.X)
  let v5 : AABB2 R := (⟨(⟨(-v1), (-v1)⟩ : Vec2 R), (⟨v1, v1⟩ : Vec2 R)⟩ : AABB2 R)
  let v6 : R := (0.8 : R)
  let v7 : R := (1.0 : R)
  let v8 : Vec2 R := (Vec2.moved (Vec2.zero : Vec2 R) Coord.X (if (decide (v2 > (0.0 : R))) then (-v3) else v3))
  let v9 : Vec2 R := (Vec2.zero : Vec2 R)
  let o10 := (AABB2.intersectsLine (fltMax : R) v5 (⟨v8, v9⟩ : Line2 R))
  bad := ck bad 814 (decide (o10.isSome = true))
  bad := ck bad 815 (nearRel (0.0001 : R) (o10.getD (0, 0)).1 v6)
  bad := ck bad 816 (nearRel (0.0001 : R) (o10.getD (0, 0)).2 v7)
  return bad
end Aabb2_184
#guard passes Aabb2_184.run

namespace Aabb2_185
abbrev R := Float32
def run : Res (List Nat) := do
  let mut bad : List Nat := []
  let v1 : R := (1.0 : R)
  let v2 : R := (1.0 : R)
  let v3 : R := (v1 * (5.0 : R))
  let v4 : Coord := (next2D Coord.Y)
  let v5 : AABB2 R := (⟨(⟨(-v1), (-v1)⟩ : Vec2 R), (⟨v1, v1⟩ : Vec2 R)⟩ : AABB2 R)
  let v6 : R := (0.8 : R)
  let v7 : R := (1.0 : R)
  let v8 : Vec2 R := (Vec2.moved (Vec2.zero : Vec2 R) Coord.Y (if (decide (v2 > (0.0 : R))) then (-v3) else v3))
  let v9 : Vec2 R := (Vec2.zero : Vec2 R)
  let o10 := (AABB2.intersectsLine (fltMax : R) v5 (⟨v8, v9⟩ : Line2 R))
  bad := ck bad 814 (decide (o10.isSome = true))
  bad := ck bad 815 (nearRel (0.0001 : R) (o10.getD (0, 0)).1 v6)
  bad := ck bad 816 (nearRel (0.0001 : R) (o10.getD (0, 0)).2 v7)
  return bad
end Aabb2_185
#guard passes Aabb2_185.run

namespace Aabb2_186
abbrev R := Float32
def run : Res (List Nat) := do
  let mut bad : List Nat := []
  let v1 : R := (0.001 : R)
  let v2 : R := (1.0 : R)
  let v3 : R := (v1 * (5.0 : R))
  let v4 : Coord := (next2D Coord.X)
  let v5 : AABB2 R := (⟨(⟨(-v1), (-v1)⟩ : Vec2 R), (⟨v1, v1⟩ : Vec2 R)⟩ : AABB2 R)
  let v6 : R := (0.8 : R)
  let v7 : R := (1.0 : R)
  let v8 : Vec2 R := (Vec2.moved (Vec2.zero : Vec2 R) Coord.X (if (decide (v2 > (0.0 : R))) then (-v3) else v3))
  let v9 : Vec2 R := (Vec2.zero : Vec2 R)
  let o10 := (AABB2.intersectsLine (fltMax : R) v5 (⟨v8, v9⟩ : Line2 R))
  bad := ck bad 814 (decide (o10.isSome = true))
  bad := ck bad 815 (nearRel (0.0001 : R) (o10.getD (0, 0)).1 v6)
  bad := ck bad 816 (nearRel (0.0001 : R) (o10.getD (0, 0)).2 v7)
  return bad
end Aabb2_186
#guard passes Aabb2_186.run

namespace Aabb2_187
abbrev R := Float32
def run : Res (List Nat) := do
  let mut bad : List Nat := []
  let v1 : R := (0.001 : R)
  let v2 : R := (1.0 : R)
  let v3 : R := (v1 * (5.0 : R))
  let v4 : Coord := (next2D Coord.Y)
  let v5 : AABB2 R := (⟨(⟨(-v1), (-v1)⟩ : Vec2 R), (⟨v1, v1⟩ : Vec2 R)⟩ : AABB2 R)
  let v6 : R := (0.8 : R)
  let v7 : R := (1.0 : R)
  let v8 : Vec2 R := (Vec2.moved (Vec2.zero : Vec2 R) Coord.Y (if (decide (v2 > (0.0 : R))) then (-v3) else v3))
  let v9 : Vec2 R := (Vec2.zero : Vec2 R)
  let o10 := (AABB2.intersectsLine (fltMax : R) v5 (⟨v8, v9⟩ : Line2 R))
  bad := ck bad 814 (decide (o10.isSome = true))
  bad := ck bad 815 (nearRel (0.0001 : R) (o10.getD (0, 0)).1 v6)
  bad := ck bad 816 (nearRel (0.0001 : R) (o10.getD (0, 0)).2 v7)
  return bad
end Aabb2_187
#guard passes Aabb2_187.run

namespace Aabb2_188
abbrev R := Float32
def run : Res (List Nat) := do
  let mut bad : List Nat := []
  let v1 : R := (1000.0 : R)
  let v2 : R := (1.0 : R)
  let v3 : R := (v1 * (5.0 : R))
  let v4 : Coord := (next2D Coord.X)
  let v5 : AABB2 R := (⟨(⟨(-v1), (-v1)⟩ : Vec2 R), (⟨v1, v1⟩ : Vec2 R)⟩ : AABB2 R)
  let v6 : R := (0.8 : R)
  let v7 : R := (1.0 : R)
  let v8 : Vec2 R := (Vec2.moved (Vec2.zero : Vec2 R) Coord.X (if (decide (v2 > (0.0 : R))) then (-v3) else v3))
  let v9 : Vec2 R := (Vec2.zero : Vec2 R)
  let o10 := (AABB2.intersectsLine (fltMax : R) v5 (⟨v8, v9⟩ : Line2 R))
  bad := ck bad 814 (decide (o10.isSome = true))
  bad := ck bad 815 (nearRel (0.0001 : R) (o10.getD (0, 0)).1 v6)
  bad := ck bad 816 (nearRel (0.0001 : R) (o10.getD (0, 0)).2 v7)
  return bad
end Aabb2_188
#guard passes Aabb2_188.run

namespace Aabb2_189
abbrev R := Float32
def run : Res (List Nat) := do
  let mut bad : List Nat := []
  let v1 : R := (1000.0 : R)
  let v2 : R := (1.0 : R)
  let v3 : R := (v1 * (5.0 : R))
  let v4 : Coord := (next2D Coord.Y)
  let v5 : AABB2 R := (⟨(⟨(-v1), (-v1)⟩ : Vec2 R), (⟨v1, v1⟩ : Vec2 R)⟩ : AABB2 R)
  let v6 : R := (0.8 : R)
  let v7 : R := (1.0 : R)
  let v8 : Vec2 R := (Vec2.moved (Vec2.zero : Vec2 R) Coord.Y (if (decide (v2 > (0.0 : R))) then (-v3) else v3))
  let v9 : Vec2 R := (Vec2.zero : Vec2 R)
  let o10 := (AABB2.intersectsLine (fltMax : R) v5 (⟨v8, v9⟩ : Line2 R))
  bad := ck bad 814 (decide (o10.isSome = true))
  bad := ck bad 815 (nearRel (0.0001 : R) (o10.getD (0, 0)).1 v6)
  bad := ck bad 816 (nearRel (0.0001 : R) (o10.getD (0, 0)).2 v7)
  return bad
end Aabb2_189
#guard passes Aabb2_189.run

namespace Aabb2_190
abbrev R := Float32
def run : Res (List Nat) := do
  let mut bad : List Nat := []
  let v1 : R := (1.0 : R)
  let v2 : R := (1.0 : R)
  let v3 : R := (v1 * (5.0 : R))
  let v4 : Coord := (next2D Coord.X)
  let v5 : AABB2 R := (⟨(⟨(-v1), (-v1)⟩ : Vec2 R), (⟨v1, v1⟩ : Vec2 R)⟩ : AABB2 R)
  let v6 : R := (0.8 : R)
  let v7 : R := (1.0 : R)
  let v8 : Vec2 R := (Vec2.moved (Vec2.zero : Vec2 R) Coord.X (if (decide (v2 > (0.0 : R))) then (-v3) else v3))
  let v9 : Vec2 R := (Vec2.zero : Vec2 R)
  let o10 := (AABB2.intersectsLine (fltMax : R) v5 (⟨(Vec2.moved v8 v4 v3), (Vec2.moved v9 v4 v3)⟩ : Line2 R))
  bad := ck bad 820 (decide (o10.isSome = false))
  let o11 := (AABB2.intersectsLine (fltMax : R) v5 (⟨(Vec2.moved v8 v4 (-v3)), (Vec2.moved v9 v4 (-v3))⟩ : Line2 R))
  bad := ck bad 821 (decide (o11.isSome = false))
  return bad
end Aabb2_190
#guard passes Aabb2_190.run

namespace Aabb2_191
abbrev R := Float32
def run : Res (List Nat) := do
  let mut bad : List Nat := []
  let v1 : R := (1.0 : R)
  let v2 : R := (1.0 : R)
  let v3 : R := (v1 * (5.0 : R))
  let v4 : Coord := (next2D Coord.Y)
  let v5 : AABB2 R := (⟨(⟨(-v1), (-v1)⟩ : Vec2 R), (⟨v1, v1⟩ : Vec2 R)⟩ : AABB2 R)
  let v6 : R := (0.8 : R)
  let v7 : R := (1.0 : R)
  let v8 : Vec2 R := (Vec2.moved (Vec2.zero : Vec2 R) Coord.Y (if (decide (v2 > (0.0 : R))) then (-v3) else v3))
  let v9 : Vec2 R := (Vec2.zero : Vec2 R)
  let o10 := (AABB2.intersectsLine (fltMax : R) v5 (⟨(Vec2.moved v8 v4 v3), (Vec2.moved v9 v4 v3)⟩ : Line2 R))
  bad := ck bad 820 (decide (o10.isSome = false))
  let o11 := (AABB2.intersectsLine (fltMax : R) v5 (⟨(Vec2.moved v8 v4 (-v3)), (Vec2.moved v9 v4 (-v3))⟩ : Line2 R))
  bad := ck bad 821 (decide (o11.isSome = false))
  return bad
end Aabb2_191
#guard passes Aabb2_191.run

namespace Aabb2_192
abbrev R := Float32
def run : Res (List Nat) := do
  let mut bad : List Nat := []
  let v1 : R := (0.001 : R)
  let v2 : R := (1.0 : R)
  let v3 : R := (v1 * (5.0 : R))
  let v4 : Coord := (next2D Coord.X)
  let v5 : AABB2 R := (⟨(⟨(-v1), (-v1)⟩ : Vec2 R), (⟨v1, v1⟩ : Vec2 R)⟩ : AABB2 R)
  let v6 : R := (0.8 : R)
  let v7 : R := (1.0 : R)
  let v8 : Vec2 R := (Vec2.moved (Vec2.zero : Vec2 R) Coord.X (if (decide (v2 > (0.0 : R))) then (-v3) else v3))
  let v9 : Vec2 R := (Vec2.zero : Vec2 R)
  let o10 := (AABB2.intersectsLine (fltMax : R) v5 (⟨(Vec2.moved v8 v4 v3), (Vec2.moved v9 v4 v3)⟩ : Line2 R))
  bad := ck bad 820 (decide (o10.isSome = false))
  let o11 := (AABB2.intersectsLine (fltMax : R) v5 (⟨(Vec2.moved v8 v4 (-v3)), (Vec2.moved v9 v4 (-v3))⟩ : Line2 R))
  bad := ck bad 821 (decide (o11.isSome = false))
  return bad
end Aabb2_192
#guard passes Aabb2_192.run

namespace Aabb2_193
abbrev R := Float32
def run : Res (List Nat) := do
  let mut bad : List Nat := []
  let v1 : R := (0.001 : R)
  let v2 : R := (1.0 : R)
  let v3 : R := (v1 * (5.0 : R))
  let v4 : Coord := (next2D Coord.Y)
  let v5 : AABB2 R := (⟨(⟨(-v1), (-v1)⟩ : Vec2 R), (⟨v1, v1⟩ : Vec2 R)⟩ : AABB2 R)
  let v6 : R := (0.8 : R)
  let v7 : R := (1.0 : R)
  let v8 : Vec2 R := (Vec2.moved (Vec2.zero : Vec2 R) Coord.Y (if (decide (v2 > (0.0 : R))) then (-v3) else v3))
  let v9 : Vec2 R := (Vec2.zero : Vec2 R)
  let o10 := (AABB2.intersectsLine (fltMax : R) v5 (⟨(Vec2.moved v8 v4 v3), (Vec2.moved v9 v4 v3)⟩ : Line2 R))
  bad := ck bad 820 (decide (o10.isSome = false))
  let o11 := (AABB2.intersectsLine (fltMax : R) v5 (⟨(Vec2.moved v8 v4 (-v3)), (Vec2.moved v9 v4 (-v3))⟩ : Line2 R))
  bad := ck bad 821 (decide (o11.isSome = false))
  return bad
end Aabb2_193
#guard passes Aabb2_193.run

namespace Aabb2_194
abbrev R := Float32
def run : Res (List Nat) := do
  let mut bad : List Nat := []
  let v1 : R := (1000.0 : R)
  let v2 : R := (1.0 : R)
  let v3 : R := (v1 * (5.0 : R))
  let v4 : Coord := (next2D Coord.X)
  let v5 : AABB2 R := (⟨(⟨(-v1), (-v1)⟩ : Vec2 R), (⟨v1, v1⟩ : Vec2 R)⟩ : AABB2 R)
  let v6 : R := (0.8 : R)
  let v7 : R := (1.0 : R)
  let v8 : Vec2 R := (Vec2.moved (Vec2.zero : Vec2 R) Coord.X (if (decide (v2 > (0.0 : R))) then (-v3) else v3))
  let v9 : Vec2 R := (Vec2.zero : Vec2 R)
  let o10 := (AABB2.intersectsLine (fltMax : R) v5 (⟨(Vec2.moved v8 v4 v3), (Vec2.moved v9 v4 v3)⟩ : Line2 R))
  bad := ck bad 820 (decide (o10.isSome = false))
  let o11 := (AABB2.intersectsLine (fltMax : R) v5 (⟨(Vec2.moved v8 v4 (-v3)), (Vec2.moved v9 v4 (-v3))⟩ : Line2 R))
  bad := ck bad 821 (decide (o11.isSome = false))
  return bad
end Aabb2_194
#guard passes Aabb2_194.run

namespace Aabb2_195
abbrev R := Float32
def run : Res (List Nat) := do
  let mut bad : List Nat := []
  let v1 : R := (1000.0 : R)
  let v2 : R := (1.0 : R)
  let v3 : R := (v1 * (5.0 : R))
  let v4 : Coord := (next2D Coord.Y)
  let v5 : AABB2 R := (⟨(⟨(-v1), (-v1)⟩ : Vec2 R), (⟨v1, v1⟩ : Vec2 R)⟩ : AABB2 R)
  let v6 : R := (0.8 : R)
  let v7 : R := (1.0 : R)
  let v8 : Vec2 R := (Vec2.moved (Vec2.zero : Vec2 R) Coord.Y (if (decide (v2 > (0.0 : R))) then (-v3) else v3))
  let v9 : Vec2 R := (Vec2.zero : Vec2 R)
  let o10 := (AABB2.intersectsLine (fltMax : R) v5 (⟨(Vec2.moved v8 v4 v3), (Vec2.moved v9 v4 v3)⟩ : Line2 R))
  bad := ck bad 820 (decide (o10.isSome = false))
  let o11 := (AABB2.intersectsLine (fltMax : R) v5 (⟨(Vec2.moved v8 v4 (-v3)), (Vec2.moved v9 v4 (-v3))⟩ : Line2 R))
  bad := ck bad 821 (decide (o11.isSome = false))
  return bad
end Aabb2_195
#guard passes Aabb2_195.run

namespace Aabb2_196
abbrev R := Float32
def run : Res (List Nat) := do
  let mut bad : List Nat := []
  let v1 : R := (1.0 : R)
  let v2 : R := (1.0 : R)
  let v3 : R := (v1 * (5.0 : R))
  let v4 : Coord := (next2D Coord.X)
  let v5 : AABB2 R := (⟨(⟨(-v1), (-v1)⟩ : Vec2 R), (⟨v1, v1⟩ : Vec2 R)⟩ : AABB2 R)
  let v6 : Vec2 R := (Vec2.moved (Vec2.zero : Vec2 R) Coord.X (if (decide (v2 > (0.0 : R))) then v3 else (-v3)))
  let v7 : Vec2 R := (Vec2.moved v6 Coord.X v1)
  let o8 := (AABB2.intersectsLine (fltMax : R) v5 (⟨v6, v7⟩ : Line2 R))
  let v9 : Bool := o8.isSome
  bad := ck bad 832 (decide (v9 = false))
  return bad
end Aabb2_196
#guard passes Aabb2_196.run

namespace Aabb2_197
abbrev R := Float32
def run : Res (List Nat) := do
  let mut bad : List Nat := []
  let v1 : R := (1.0 : R)
  let v2 : R := (1.0 : R)
  let v3 : R := (v1 * (5.0 : R))
  let v4 : Coord := (next2D Coord.Y)
  let v5 : AABB2 R := (⟨(⟨(-v1), (-v1)⟩ : Vec2 R), (⟨v1, v1⟩ : Vec2 R)⟩ : AABB2 R)
  let v6 : Vec2 R := (Vec2.moved (Vec2.zero : Vec2 R) Coord.Y (if (decide (v2 > (0.0 : R))) then v3 else (-v3)))
  let v7 : Vec2 R := (Vec2.moved v6 Coord.Y v1)
  let o8 := (AABB2.intersectsLine (fltMax : R) v5 (⟨v6, v7⟩ : Line2 R))
  let v9 : Bool := o8.isSome
  bad := ck bad 832 (decide (v9 = false))
  return bad
end Aabb2_197
#guard passes Aabb2_197.run

namespace Aabb2_198
abbrev R := Float32
def run : Res (List Nat) := do
  let mut bad : List Nat := []
  let v1 : R := (0.001 : R)
  let v2 : R := (1.0 : R)
  let v3 : R := (v1 * (5.0 : R))
  let v4 : Coord := (next2D Coord.X)
  let v5 : AABB2 R := (⟨(⟨(-v1), (-v1)⟩ : Vec2 R), (⟨v1, v1⟩ : Vec2 R)⟩ : AABB2 R)
  let v6 : Vec2 R := (Vec2.moved (Vec2.zero : Vec2 R) Coord.X (if (decide (v2 > (0.0 : R))) then v3 else (-v3)))
  let v7 : Vec2 R := (Vec2.moved v6 Coord.X v1)
  let o8 := (AABB2.intersectsLine (fltMax : R) v5 (⟨v6, v7⟩ : Line2 R))
  let v9 : Bool := o8.isSome
  bad := ck bad 832 (decide (v9 = false))
  return bad
end Aabb2_198
#guard passes Aabb2_198.run

namespace Aabb2_199
abbrev R := Float32
def run : Res (List Nat) := do
  let mut bad : List Nat := []
  let v1 : R := (0.001 : R)
  let v2 : R := (1.0 : R)
  let v3 : R := (v1 * (5.0 : R))
  let v4 : Coord := (next2D Coord.Y)
  let v5 : AABB2 R := (⟨(⟨(-v1), (-v1)⟩ : Vec2 R), (⟨v1, v1⟩ : Vec2 R)⟩ : AABB2 R)
  let v6 : Vec2 R := (Vec2.moved (Vec2.zero : Vec2 R) Coord.Y (if (decide (v2 > (0.0 : R))) then v3 else (-v3)))
  let v7 : Vec2 R := (Vec2.moved v6 Coord.Y v1)
  let o8 := (AABB2.intersectsLine (fltMax : R) v5 (⟨v6, v7⟩ : Line2 R))
  let v9 : Bool := o8.isSome
  bad := ck bad 832 (decide (v9 = false))
  return bad
end Aabb2_199
#guard passes Aabb2_199.run

namespace Aabb2_200
abbrev R := Float32
def run : Res (List Nat) := do
  let mut bad : List Nat := []
  let v1 : R := (1000.0 : R)
  let v2 : R := (1.0 : R)
  let v3 : R := (v1 * (5.0 : R))
  let v4 : Coord := (next2D Coord.X)
  let v5 : AABB2 R := (⟨(⟨(-v1), (-v1)⟩ : Vec2 R), (⟨v1, v1⟩ : Vec2 R)⟩ : AABB2 R)
  let v6 : Vec2 R := (Vec2.moved (Vec2.zero : Vec2 R) Coord.X (if (decide (v2 > (0.0 : R))) then v3 else (-v3)))
  let v7 : Vec2 R := (Vec2.moved v6 Coord.X v1)
  let o8 := (AABB2.intersectsLine (fltMax : R) v5 (⟨v6, v7⟩ : Line2 R))
  let v9 : Bool := o8.isSome
  bad := ck bad 832 (decide (v9 = false))
  return bad
end Aabb2_200
#guard passes Aabb2_200.run

namespace Aabb2_201
abbrev R := Float32
def run : Res (List Nat) := do
  let mut bad : List Nat := []
  let v1 : R := (1000.0 : R)
  let v2 : R := (1.0 : R)
  let v3 : R := (v1 * (5.0 : R))
  let v4 : Coord := (next2D Coord.Y)
  let v5 : AABB2 R := (⟨(⟨(-v1), (-v1)⟩ : Vec2 R), (⟨v1, v1⟩ : Vec2 R)⟩ : AABB2 R)
  let v6 : Vec2 R := (Vec2.moved (Vec2.zero : Vec2 R) Coord.Y (if (decide (v2 > (0.0 : R))) then v3 else (-v3)))
  let v7 : Vec2 R := (Vec2.moved v6 Coord.Y v1)
  let o8 := (AABB2.intersectsLine (fltMax : R) v5 (⟨v6, v7⟩ : Line2 R))
  let v9 : Bool := o8.isSome
  bad := ck bad 832 (decide (v9 = false))
  return bad
end Aabb2_201
#guard passes Aabb2_201.run

namespace Aabb2_202
abbrev R := Float32
def run : Res (List Nat) := do
  let mut bad : List Nat := []
  let v1 : R := (1.0 : R)
  let v2 : R := (1.0 : R)
  let v3 : R := (v1 * (5.0 : R))
  let v4 : Coord := (next2D Coord.X)
  let v5 : AABB2 R := (⟨(⟨(-v1), (-v1)⟩ : Vec2 R), (⟨v1, v1⟩ : Vec2 R)⟩ : AABB2 R)
  let v6 : Vec2 R := (Vec2.moved (Vec2.zero : Vec2 R) Coord.X (if (decide (v2 > (0.0 : R))) then v3 else (-v3)))
  let v7 : Vec2 R := (Vec2.moved v6 Coord.X v1)
  let o8 := (AABB2.intersectsLine (fltMax : R) v5 (⟨(Vec2.moved v6 v4 v3), (Vec2.moved v7 v4 v3)⟩ : Line2 R))
  bad := ck bad 836 (decide (o8.isSome = false))
  let o9 := (AABB2.intersectsLine (fltMax : R) v5 (⟨(Vec2.moved v6 v4 (-v3)), (Vec2.moved v7 v4 (-v3))⟩ : Line2 R))
  bad := ck bad 837 (decide (o9.isSome = false))
  return bad
end Aabb2_202
#guard passes Aabb2_202.run

namespace Aabb2_203
abbrev R := Float32
def run : Res (List Nat) := do
  let mut bad : List Nat := []
  let v1 : R := (1.0 : R)
  let v2 : R := (1.0 : R)
  let v3 : R := (v1 * (5.0 : R))
  let v4 : Coord := (next2D Coord.Y)
  let v5 : AABB2 R := (⟨(⟨(-v1), (-v1)⟩ : Vec2 R), (⟨v1, v1⟩ : Vec2 R)⟩ : AABB2 R)
  let v6 : Vec2 R := (Vec2.moved (Vec2.zero : Vec2 R) Coord.Y (if (decide (v2 > (0.0 : R))) then v3 else (-v3)))
  let v7 : Vec2 R := (Vec2.moved v6 Coord.Y v1)
  let o8 := (AABB2.intersectsLine (fltMax : R) v5 (⟨(Vec2.moved v6 v4 v3), (Vec2.moved v7 v4 v3)⟩ : Line2 R))
  bad := ck bad 836 (decide (o8.isSome = false))
  let o9 := (AABB2.intersectsLine (fltMax : R) v5 (⟨(Vec2.moved v6 v4 (-v3)), (Vec2.moved v7 v4 (-v3))⟩ : Line2 R))
  bad := ck bad 837 (decide (o9.isSome = false))
  return bad
end Aabb2_203
#guard passes Aabb2_203.run

namespace Aabb2_204
abbrev R := Float32
def run : Res (List Nat) := do
  let mut bad : List Nat := []
  let v1 : R := (0.001 : R)
  let v2 : R := (1.0 : R)
  let v3 : R := (v1 * (5.0 : R))
  let v4 : Coord := (next2D Coord.X)
  let v5 : AABB2 R := (⟨(⟨(-v1), (-v1)⟩ : Vec2 R), (⟨v1, v1⟩ : Vec2 R)⟩ : AABB2 R)
  let v6 : Vec2 R := (Vec2.moved (Vec2.zero : Vec2 R) Coord.X (if (decide (v2 > (0.0 : R))) then v3 else (-v3)))
  let v7 : Vec2 R := (Vec2.moved v6 Coord.X v1)
  let o8 := (AABB2.intersectsLine (fltMax : R) v5 (⟨(Vec2.moved v6 v4 v3), (Vec2.moved v7 v4 v3)⟩ : Line2 R))
  bad := ck bad 836 (decide (o8.isSome = false))
  let o9 := (AABB2.intersectsLine (fltMax : R) v5 (⟨(Vec2.moved v6 v4 (-v3)), (Vec2.moved v7 v4 (-v3))⟩ : Line2 R))
  bad := ck bad 837 (decide (o9.isSome = false))
  return bad
end Aabb2_204
#guard passes Aabb2_204.run

namespace Aabb2_205
abbrev R := Float32
def run : Res (List Nat) := do
  let mut bad : List Nat := []
  let v1 : R := (0.001 : R)
  let v2 : R := (1.0 : R)
  let v3 : R := (v1 * (5.0 : R))
  let v4 : Coord := (next2D Coord.Y)
  let v5 : AABB2 R := (⟨(⟨(-v1), (-v1)⟩ : Vec2 R), (⟨v1, v1⟩ : Vec2 R)⟩ : AABB2 R)
  let v6 : Vec2 R := (Vec2.moved (Vec2.zero : Vec2 R) Coord.Y (if (decide (v2 > (0.0 : R))) then v3 else (-v3)))
  let v7 : Vec2 R := (Vec2.moved v6 Coord.Y v1)
  let o8 := (AABB2.intersectsLine (fltMax : R) v5 (⟨(Vec2.moved v6 v4 v3), (Vec2.moved v7 v4 v3)⟩ : Line2 R))
  bad := ck bad 836 (decide (o8.isSome = false))
  let o9 := (AABB2.intersectsLine (fltMax : R) v5 (⟨(Vec2.moved v6 v4 (-v3)), (Vec2.moved v7 v4 (-v3))⟩ : Line2 R))
  bad := ck bad 837 (decide (o9.isSome = false))
  return bad
end Aabb2_205
#guard passes Aabb2_205.run

namespace Aabb2_206
abbrev R := Float32
def run : Res (List Nat) := do
  let mut bad : List Nat := []
  let v1 : R := (1000.0 : R)
  let v2 : R := (1.0 : R)
  let v3 : R := (v1 * (5.0 : R))
  let v4 : Coord := (next2D Coord.X)
  let v5 : AABB2 R := (⟨(⟨(-v1), (-v1)⟩ : Vec2 R), (⟨v1, v1⟩ : Vec2 R)⟩ : AABB2 R)
  let v6 : Vec2 R := (Vec2.moved (Vec2.zero : Vec2 R) Coord.X (if (decide (v2 > (0.0 : R))) then v3 else (-v3)))
  let v7 : Vec2 R := (Vec2.moved v6 Coord.X v1)
  let o8 := (AABB2.intersectsLine (fltMax : R) v5 (⟨(Vec2.moved v6 v4 v3), (Vec2.moved v7 v4 v3)⟩ : Line2 R))
  bad := ck bad 836 (decide (o8.isSome = false))
  let o9 := (AABB2.intersectsLine (fltMax : R) v5 (⟨(Vec2.moved v6 v4 (-v3)), (Vec2.moved v7 v4 (-v3))⟩ : Line2 R))
  bad := ck bad 837 (decide (o9.isSome = false))
  return bad
end Aabb2_206
#guard passes Aabb2_206.run

namespace Aabb2_207
abbrev R := Float32
def run : Res (List Nat) := do
  let mut bad : List Nat := []
  let v1 : R := (1000.0 : R)
  let v2 : R := (1.0 : R)
  let v3 : R := (v1 * (5.0 : R))
  let v4 : Coord := (next2D Coord.Y)
  let v5 : AABB2 R := (⟨(⟨(-v1), (-v1)⟩ : Vec2 R), (⟨v1, v1⟩ : Vec2 R)⟩ : AABB2 R)
  let v6 : Vec2 R := (Vec2.moved (Vec2.zero : Vec2 R) Coord.Y (if (decide (v2 > (0.0 : R))) then v3 else (-v3)))
  let v7 : Vec2 R := (Vec2.moved v6 Coord.Y v1)
  let o8 := (AABB2.intersectsLine (fltMax : R) v5 (⟨(Vec2.moved v6 v4 v3), (Vec2.moved v7 v4 v3)⟩ : Line2 R))
  bad := ck bad 836 (decide (o8.isSome = false))
  let o9 := (AABB2.intersectsLine (fltMax : R) v5 (⟨(Vec2.moved v6 v4 (-v3)), (Vec2.moved v7 v4 (-v3))⟩ : Line2 R))
  bad := ck bad 837 (decide (o9.isSome = false))
  return bad
end Aabb2_207
#guard passes Aabb2_207.run

namespace Aabb2_208
abbrev R := Float32
def run : Res (List Nat) := do
  let mut bad : List Nat := []
  bad := ck bad 886 (Near.near (0.001 : R) (constAABB2One : AABB2 R) (constAABB2One : AABB2 R))
  return bad
end Aabb2_208
#guard passes Aabb2_208.run

end MathLib.Conformance
