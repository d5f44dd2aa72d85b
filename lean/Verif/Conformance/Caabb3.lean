import Verif.Conformance.Base

/-!
# Unit tests of `tests/tests/src/test_caabb3.cpp`, replayed on the model

Generated by `tools/conform.py`; the numbers are the source lines of the checks.  133 checks;
12 checks of that file are not translated (casts, random draws, `sizeof`, `data()`, and
functions outside the model).
-/

namespace MathLib.Conformance
set_option linter.all false

namespace Caabb3_0
abbrev R := Float32
def run : Res (List Nat) := do
  let mut bad : List Nat := []
  bad := ck bad 19 ((Vec3.zero : Vec3 R).x == (0.0 : R))
  bad := ck bad 20 ((Vec3.zero : Vec3 R).y == (0.0 : R))
  bad := ck bad 21 ((Vec3.zero : Vec3 R).z == (0.0 : R))
  return bad
end Caabb3_0
#guard passes Caabb3_0.run

namespace Caabb3_1
abbrev R := Float32
def run : Res (List Nat) := do
  let mut bad : List Nat := []
  bad := ck bad 26 (Vec3.eq (constCAABB3One : CAABB3 R).center (Vec3.zero : Vec3 R))
  bad := ck bad 27 ((constCAABB3One : CAABB3 R).extents.x == (0.5 : R))
  bad := ck bad 28 ((constCAABB3One : CAABB3 R).extents.y == (0.5 : R))
  bad := ck bad 29 ((constCAABB3One : CAABB3 R).extents.z == (0.5 : R))
  return bad
end Caabb3_1
#guard passes Caabb3_1.run

namespace Caabb3_2
abbrev R := Float32
def run : Res (List Nat) := do
  let mut bad : List Nat := []
  let v1 : CAABB3 R := (CAABB3.ofCenterSize (Vec3.zero : Vec3 R) (⟨(1 : R), (2 : R), (3 : R)⟩ : Vec3 R))
  bad := ck bad 43 (Vec3.eq v1.center (Vec3.zero : Vec3 R))
  bad := ck bad 44 (Vec3.eq v1.extents (⟨(0.5 : R), (1.0 : R), (1.5 : R)⟩ : Vec3 R))
  return bad
end Caabb3_2
#guard passes Caabb3_2.run

namespace Caabb3_3
abbrev R := Float32
def run : Res (List Nat) := do
  let mut bad : List Nat := []
  let v1 : CAABB3 R := (CAABB3.ofPoint (⟨(1 : R), (2 : R), (3 : R)⟩ : Vec3 R))
  bad := ck bad 53 (Vec3.eq v1.center (⟨(1 : R), (2 : R), (3 : R)⟩ : Vec3 R))
  bad := ck bad 54 (Vec3.eq v1.extents (Vec3.zero : Vec3 R))
  return bad
end Caabb3_3
#guard passes Caabb3_3.run

namespace Caabb3_4
abbrev R := Float32
def run : Res (List Nat) := do
  let mut bad : List Nat := []
  let v1 : CAABB3 R := (CAABB3.ofCenterSize (Vec3.zero : Vec3 R) (⟨(1 : R), (2 : R), (3 : R)⟩ : Vec3 R))
  bad := ck bad 61 (Vec3.eq v1.center (Vec3.zero : Vec3 R))
  bad := ck bad 62 (Vec3.eq v1.extents (⟨(0.5 : R), (1.0 : R), (1.5 : R)⟩ : Vec3 R))
  return bad
end Caabb3_4
#guard passes Caabb3_4.run

namespace Caabb3_5
abbrev R := Float32
def run : Res (List Nat) := do
  let mut bad : List Nat := []
  let v1 : CAABB3 R := (CAABB3.ofBox (⟨(Vec3.zero : Vec3 R), (⟨(1 : R), (2 : R), (3 : R)⟩ : Vec3 R)⟩ : AABB3 R))
  bad := ck bad 69 (Vec3.eq v1.center (⟨(0.5 : R), (1.0 : R), (1.5 : R)⟩ : Vec3 R))
  bad := ck bad 70 (Vec3.eq v1.extents (⟨(0.5 : R), (1.0 : R), (1.5 : R)⟩ : Vec3 R))
  return bad
end Caabb3_5
#guard passes Caabb3_5.run

namespace Caabb3_6
abbrev R := Float32
def run : Res (List Nat) := do
  let mut bad : List Nat := []
  let v1 : CAABB3 R := (CAABB3.ofPoint (Vec3.zero : Vec3 R))
  let v2 : CAABB3 R := (CAABB3.add v1 (⟨(1 : R), (1 : R), (1 : R)⟩ : Vec3 R))
  let v3 : CAABB3 R := (CAABB3.add v2 (⟨(-1 : R), (-1 : R), (-1 : R)⟩ : Vec3 R))
  let v4 : CAABB3 R := (CAABB3.add v3 (Vec3.zero : Vec3 R))
  bad := ck bad 115 (Vec3.eq v4.center (Vec3.zero : Vec3 R))
  bad := ck bad 116 (Vec3.eq v4.extents (⟨(1 : R), (1 : R), (1 : R)⟩ : Vec3 R))
  return bad
end Caabb3_6
#guard passes Caabb3_6.run

namespace Caabb3_7
abbrev R := Float32
def run : Res (List Nat) := do
  let mut bad : List Nat := []
  let v1 : CAABB3 R := (CAABB3.ofPoint (⟨(1 : R), (2 : R), (3 : R)⟩ : Vec3 R))
  bad := ck bad 124 (Vec3.eq v1.center (⟨(1 : R), (2 : R), (3 : R)⟩ : Vec3 R))
  bad := ck bad 125 (Vec3.eq v1.extents (Vec3.zero : Vec3 R))
  return bad
end Caabb3_7
#guard passes Caabb3_7.run

namespace Caabb3_8
abbrev R := Float32
def run : Res (List Nat) := do
  let mut bad : List Nat := []
  let v1 : CAABB3 R := (CAABB3.ofCenterSize (Vec3.zero : Vec3 R) (⟨(1 : R), (2 : R), (3 : R)⟩ : Vec3 R))
  bad := ck bad 131 (Vec3.eq v1.center (Vec3.zero : Vec3 R))
  bad := ck bad 132 (Vec3.eq v1.extents (⟨(0.5 : R), (1.0 : R), (1.5 : R)⟩ : Vec3 R))
  return bad
end Caabb3_8
#guard passes Caabb3_8.run

namespace Caabb3_9
abbrev R := Float32
def run : Res (List Nat) := do
  let mut bad : List Nat := []
  let v1 : CAABB3 R := (CAABB3.ofBox (⟨(Vec3.zero : Vec3 R), (⟨(1 : R), (2 : R), (3 : R)⟩ : Vec3 R)⟩ : AABB3 R))
  bad := ck bad 138 (Vec3.eq v1.center (⟨(0.5 : R), (1.0 : R), (1.5 : R)⟩ : Vec3 R))
  bad := ck bad 139 (Vec3.eq v1.extents (⟨(0.5 : R), (1.0 : R), (1.5 : R)⟩ : Vec3 R))
  return bad
end Caabb3_9
#guard passes Caabb3_9.run

namespace Caabb3_10
abbrev R := Float32
def run : Res (List Nat) := do
  let mut bad : List Nat := []
  let v1 : CAABB3 R := (constCAABB3One : CAABB3 R)
  let v2 : CAABB3 R := (CAABB3.translate v1 (⟨(1 : R), (2 : R), (3 : R)⟩ : Vec3 R))
  bad := ck bad 181 (Vec3.eq v2.center (⟨(1 : R), (2 : R), (3 : R)⟩ : Vec3 R))
  bad := ck bad 182 (Vec3.eq v2.extents (⟨(0.5 : R), (0.5 : R), (0.5 : R)⟩ : Vec3 R))
  return bad
end Caabb3_10
#guard passes Caabb3_10.run

namespace Caabb3_11
abbrev R := Float32
def run : Res (List Nat) := do
  let mut bad : List Nat := []
  let v1 : CAABB3 R := (constCAABB3One : CAABB3 R)
  let v2 : CAABB3 R := (CAABB3.translateNeg v1 (⟨(1 : R), (2 : R), (3 : R)⟩ : Vec3 R))
  bad := ck bad 189 (Vec3.eq v2.center (⟨(-1 : R), (-2 : R), (-3 : R)⟩ : Vec3 R))
  bad := ck bad 190 (Vec3.eq v2.extents (⟨(0.5 : R), (0.5 : R), (0.5 : R)⟩ : Vec3 R))
  return bad
end Caabb3_11
#guard passes Caabb3_11.run

namespace Caabb3_12
abbrev R := Float32
def run : Res (List Nat) := do
  let mut bad : List Nat := []
  let v1 : CAABB3 R := (constCAABB3One : CAABB3 R)
  let v2 : CAABB3 R := (CAABB3.scale v1 (2.0 : R))
  bad := ck bad 197 (Vec3.eq v2.center (Vec3.zero : Vec3 R))
  bad := ck bad 198 (Vec3.eq v2.extents (⟨(1 : R), (1 : R), (1 : R)⟩ : Vec3 R))
  return bad
end Caabb3_12
#guard passes Caabb3_12.run

namespace Caabb3_13
abbrev R := Float32
def run : Res (List Nat) := do
  let mut bad : List Nat := []
  let v1 : CAABB3 R := (constCAABB3One : CAABB3 R)
  let v2 : CAABB3 R := (← CAABB3.unscale v1 (2.0 : R))
  bad := ck bad 205 (Vec3.eq v2.center (Vec3.zero : Vec3 R))
  bad := ck bad 206 (Vec3.eq v2.extents (⟨(0.25 : R), (0.25 : R), (0.25 : R)⟩ : Vec3 R))
  return bad
end Caabb3_13
#guard passes Caabb3_13.run

namespace Caabb3_14
abbrev R := Float32
def run : Res (List Nat) := do
  let mut bad : List Nat := []
  let v1 : CAABB3 R := (CAABB3.ofCenterSize (Vec3.zero : Vec3 R) (⟨(1 : R), (2 : R), (3 : R)⟩ : Vec3 R))
  bad := ck bad 214 (CAABB3.eq v1 v1)
  bad := ck bad 215 (CAABB3.eq v1 (CAABB3.ofCenterSize (Vec3.zero : Vec3 R) (⟨(1 : R), (2 : R), (3 : R)⟩ : Vec3 R)))
  bad := ck bad 216 (!(CAABB3.eq v1 (constCAABB3One : CAABB3 R)))
  return bad
end Caabb3_14
#guard passes Caabb3_14.run

namespace Caabb3_15
abbrev R := Float32
def run : Res (List Nat) := do
  let mut bad : List Nat := []
  let v1 : CAABB3 R := (CAABB3.ofCenterSize (Vec3.zero : Vec3 R) (⟨(1 : R), (2 : R), (3 : R)⟩ : Vec3 R))
  bad := ck bad 222 (!(CAABB3.ne v1 v1))
  bad := ck bad 223 (CAABB3.ne v1 (CAABB3.ofCenterSize (Vec3.oneX : Vec3 R) (⟨(1 : R), (2 : R), (3 : R)⟩ : Vec3 R)))
  bad := ck bad 224 (CAABB3.ne v1 (CAABB3.ofCenterSize (Vec3.zero : Vec3 R) (⟨(3 : R), (2 : R), (1 : R)⟩ : Vec3 R)))
  return bad
end Caabb3_15
#guard passes Caabb3_15.run

namespace Caabb3_16
abbrev R := Float32
def run : Res (List Nat) := do
  let mut bad : List Nat := []
  let v1 : CAABB3 R := (constCAABB3One : CAABB3 R)
  bad := ck bad 234 (Near.near (1e-10 : R) (CAABB3.inf v1) (⟨(-(0.5 : R)), (-(0.5 : R)), (-(0.5 : R))⟩ : Vec3 R))
  return bad
end Caabb3_16
#guard passes Caabb3_16.run

namespace Caabb3_17
abbrev R := Float32
def run : Res (List Nat) := do
  let mut bad : List Nat := []
  let v1 : CAABB3 R := (constCAABB3One : CAABB3 R)
  bad := ck bad 242 (Near.near (1e-10 : R) (CAABB3.sup v1) (⟨(0.5 : R), (0.5 : R), (0.5 : R)⟩ : Vec3 R))
  return bad
end Caabb3_17
#guard passes Caabb3_17.run

namespace Caabb3_18
abbrev R := Float32
def run : Res (List Nat) := do
  let mut bad : List Nat := []
  let v1 : CAABB3 R := (constCAABB3One : CAABB3 R)
  bad := ck bad 250 (Near.near (1e-10 : R) (CAABB3.size v1) (⟨(1.0 : R), (1.0 : R), (1.0 : R)⟩ : Vec3 R))
  return bad
end Caabb3_18
#guard passes Caabb3_18.run

namespace Caabb3_19
abbrev R := Float32
def run : Res (List Nat) := do
  let mut bad : List Nat := []
  let v1 : CAABB3 R := (constCAABB3One : CAABB3 R)
  bad := ck bad 258 (Near.near (1e-10 : R) (← CAABB3.innerSphere v1) (⟨(Vec3.zero : Vec3 R), (0.5 : R)⟩ : Sphere R))
  return bad
end Caabb3_19
#guard passes Caabb3_19.run

namespace Caabb3_20
abbrev R := Float32
def run : Res (List Nat) := do
  let mut bad : List Nat := []
  let v1 : CAABB3 R := (constCAABB3One : CAABB3 R)
  bad := ck bad 266 (Near.near (1e-6 : R) (CAABB3.outerSphere v1) (⟨(Vec3.zero : Vec3 R), (0.866025 : R)⟩ : Sphere R))
  return bad
end Caabb3_20
#guard passes Caabb3_20.run

namespace Caabb3_21
abbrev R := Float32
def run : Res (List Nat) := do
  let mut bad : List Nat := []
  let v1 : CAABB3 R := (constCAABB3One : CAABB3 R)
  bad := ck bad 274 (Near.near (1e-10 : R) (CAABB3.volume v1) (1.0 : R))
  let v2 : CAABB3 R := (CAABB3.ofCenterSize (Vec3.zero : Vec3 R) (⟨(2 : R), (2 : R), (2 : R)⟩ : Vec3 R))
  bad := ck bad 276 (Near.near (1e-10 : R) (CAABB3.volume v2) (8.0 : R))
  let v3 : CAABB3 R := (CAABB3.ofCenterSize (Vec3.zero : Vec3 R) (⟨(1 : R), (2 : R), (3 : R)⟩ : Vec3 R))
  bad := ck bad 278 (Near.near (1e-10 : R) (CAABB3.volume v3) (6.0 : R))
  return bad
end Caabb3_21
#guard passes Caabb3_21.run

namespace Caabb3_22
abbrev R := Float32
def run : Res (List Nat) := do
  let mut bad : List Nat := []
  let v1 : CAABB3 R := (constCAABB3One : CAABB3 R)
  bad := ck bad 286 (!(CAABB3.isNull v1))
  let v2 : CAABB3 R := (CAABB3.ofCenterSize (Vec3.zero : Vec3 R) (Vec3.zero : Vec3 R))
  bad := ck bad 288 (CAABB3.isNull v2)
  return bad
end Caabb3_22
#guard passes Caabb3_22.run

namespace Caabb3_23
abbrev R := Float32
def run : Res (List Nat) := do
  let mut bad : List Nat := []
  let v1 : CAABB3 R := (constCAABB3One : CAABB3 R)
  bad := ck bad 297 (Near.near (1e-10 : R) (CAABB3.pointAt v1 (⟨(0 : R), (0 : R), (0 : R)⟩ : Vec3 R)) (Vec3.zero : Vec3 R))
  bad := ck bad 299 (Near.near (1e-10 : R) (CAABB3.pointAt v1 (⟨(1 : R), (1 : R), (1 : R)⟩ : Vec3 R)) (⟨(0.5 : R), (0.5 : R), (0.5 : R)⟩ : Vec3 R))
  bad := ck bad 300 (Near.near (1e-10 : R) (CAABB3.pointAt v1 (⟨(1 : R), (-1 : R), (1 : R)⟩ : Vec3 R)) (⟨(0.5 : R), (-(0.5 : R)), (0.5 : R)⟩ : Vec3 R))
  bad := ck bad 301 (Near.near (1e-10 : R) (CAABB3.pointAt v1 (⟨(-1 : R), (-1 : R), (1 : R)⟩ : Vec3 R)) (⟨(-(0.5 : R)), (-(0.5 : R)), (0.5 : R)⟩ : Vec3 R))
  bad := ck bad 302 (Near.near (1e-10 : R) (CAABB3.pointAt v1 (⟨(-1 : R), (1 : R), (1 : R)⟩ : Vec3 R)) (⟨(-(0.5 : R)), (0.5 : R), (0.5 : R)⟩ : Vec3 R))
  bad := ck bad 303 (Near.near (1e-10 : R) (CAABB3.pointAt v1 (⟨(1 : R), (1 : R), (-1 : R)⟩ : Vec3 R)) (⟨(0.5 : R), (0.5 : R), (-(0.5 : R))⟩ : Vec3 R))
  bad := ck bad 304 (Near.near (1e-10 : R) (CAABB3.pointAt v1 (⟨(1 : R), (-1 : R), (-1 : R)⟩ : Vec3 R)) (⟨(0.5 : R), (-(0.5 : R)), (-(0.5 : R))⟩ : Vec3 R))
  bad := ck bad 305 (Near.near (1e-10 : R) (CAABB3.pointAt v1 (⟨(-1 : R), (-1 : R), (-1 : R)⟩ : Vec3 R)) (⟨(-(0.5 : R)), (-(0.5 : R)), (-(0.5 : R))⟩ : Vec3 R))
  bad := ck bad 306 (Near.near (1e-10 : R) (CAABB3.pointAt v1 (⟨(-1 : R), (1 : R), (-1 : R)⟩ : Vec3 R)) (⟨(-(0.5 : R)), (0.5 : R), (-(0.5 : R))⟩ : Vec3 R))
  return bad
end Caabb3_23
#guard passes Caabb3_23.run

namespace Caabb3_24
abbrev R := Float32
def run : Res (List Nat) := do
  let mut bad : List Nat := []
  let v1 : CAABB3 R := (constCAABB3One : CAABB3 R)
  bad := ck bad 313 (CAABB3.contains v1 (Vec3.zero : Vec3 R))
  bad := ck bad 315 (CAABB3.contains v1 (⟨(0.5 : R), (0.5 : R), (0.5 : R)⟩ : Vec3 R))
  bad := ck bad 316 (CAABB3.contains v1 (⟨(0.5 : R), (-(0.5 : R)), (0.5 : R)⟩ : Vec3 R))
  bad := ck bad 317 (CAABB3.contains v1 (⟨(-(0.5 : R)), (-(0.5 : R)), (0.5 : R)⟩ : Vec3 R))
  bad := ck bad 318 (CAABB3.contains v1 (⟨(-(0.5 : R)), (0.5 : R), (0.5 : R)⟩ : Vec3 R))
  bad := ck bad 319 (CAABB3.contains v1 (⟨(0.5 : R), (0.5 : R), (-(0.5 : R))⟩ : Vec3 R))
  bad := ck bad 320 (CAABB3.contains v1 (⟨(0.5 : R), (-(0.5 : R)), (-(0.5 : R))⟩ : Vec3 R))
  bad := ck bad 321 (CAABB3.contains v1 (⟨(-(0.5 : R)), (-(0.5 : R)), (-(0.5 : R))⟩ : Vec3 R))
  bad := ck bad 322 (CAABB3.contains v1 (⟨(-(0.5 : R)), (0.5 : R), (-(0.5 : R))⟩ : Vec3 R))
  bad := ck bad 324 (!(CAABB3.contains v1 (⟨(0.51 : R), (0.51 : R), (0.51 : R)⟩ : Vec3 R)))
  bad := ck bad 325 (!(CAABB3.contains v1 (⟨(0.51 : R), (-(0.51 : R)), (0.51 : R)⟩ : Vec3 R)))
  bad := ck bad 326 (!(CAABB3.contains v1 (⟨(-(0.51 : R)), (-(0.51 : R)), (0.51 : R)⟩ : Vec3 R)))
  bad := ck bad 327 (!(CAABB3.contains v1 (⟨(-(0.51 : R)), (0.51 : R), (0.51 : R)⟩ : Vec3 R)))
  bad := ck bad 328 (!(CAABB3.contains v1 (⟨(0.51 : R), (0.51 : R), (-(0.51 : R))⟩ : Vec3 R)))
  bad := ck bad 329 (!(CAABB3.contains v1 (⟨(0.51 : R), (-(0.51 : R)), (-(0.51 : R))⟩ : Vec3 R)))
  bad := ck bad 330 (!(CAABB3.contains v1 (⟨(-(0.51 : R)), (-(0.51 : R)), (-(0.51 : R))⟩ : Vec3 R)))
  bad := ck bad 331 (!(CAABB3.contains v1 (⟨(-(0.51 : R)), (0.51 : R), (-(0.51 : R))⟩ : Vec3 R)))
  return bad
end Caabb3_24
#guard passes Caabb3_24.run

namespace Caabb3_25
abbrev R := Float32
def run : Res (List Nat) := do
  let mut bad : List Nat := []
  let v1 : CAABB3 R := (constCAABB3One : CAABB3 R)
  let v2 : Sphere R := (← Sphere.mul (constSphereOne : Sphere R) (0.1 : R))
  bad := ck bad 339 (CAABB3.containsSphere v1 v2)
  bad := ck bad 341 (CAABB3.containsSphere v1 (← Sphere.add v2 (⟨(0.4 : R), (0.4 : R), (0.4 : R)⟩ : Vec3 R)))
  bad := ck bad 342 (CAABB3.containsSphere v1 (← Sphere.add v2 (⟨(0.4 : R), (-(0.4 : R)), (0.4 : R)⟩ : Vec3 R)))
  bad := ck bad 343 (CAABB3.containsSphere v1 (← Sphere.add v2 (⟨(-(0.4 : R)), (-(0.4 : R)), (0.4 : R)⟩ : Vec3 R)))
  bad := ck bad 344 (CAABB3.containsSphere v1 (← Sphere.add v2 (⟨(-(0.4 : R)), (0.4 : R), (0.4 : R)⟩ : Vec3 R)))
  bad := ck bad 345 (CAABB3.containsSphere v1 (← Sphere.add v2 (⟨(0.4 : R), (0.4 : R), (-(0.4 : R))⟩ : Vec3 R)))
  bad := ck bad 346 (CAABB3.containsSphere v1 (← Sphere.add v2 (⟨(0.4 : R), (-(0.4 : R)), (-(0.4 : R))⟩ : Vec3 R)))
  bad := ck bad 347 (CAABB3.containsSphere v1 (← Sphere.add v2 (⟨(-(0.4 : R)), (-(0.4 : R)), (-(0.4 : R))⟩ : Vec3 R)))
  bad := ck bad 348 (CAABB3.containsSphere v1 (← Sphere.add v2 (⟨(-(0.4 : R)), (0.4 : R), (-(0.4 : R))⟩ : Vec3 R)))
  bad := ck bad 350 (!(CAABB3.containsSphere v1 (← Sphere.add v2 (⟨(0.41 : R), (0.41 : R), (0.41 : R)⟩ : Vec3 R))))
  bad := ck bad 351 (!(CAABB3.containsSphere v1 (← Sphere.add v2 (⟨(0.41 : R), (-(0.41 : R)), (0.41 : R)⟩ : Vec3 R))))
  bad := ck bad 352 (!(CAABB3.containsSphere v1 (← Sphere.add v2 (⟨(-(0.41 : R)), (-(0.41 : R)), (0.41 : R)⟩ : Vec3 R))))
  bad := ck bad 353 (!(CAABB3.containsSphere v1 (← Sphere.add v2 (⟨(-(0.41 : R)), (0.41 : R), (0.41 : R)⟩ : Vec3 R))))
  bad := ck bad 354 (!(CAABB3.containsSphere v1 (← Sphere.add v2 (⟨(0.41 : R), (0.41 : R), (-(0.41 : R))⟩ : Vec3 R))))
  bad := ck bad 355 (!(CAABB3.containsSphere v1 (← Sphere.add v2 (⟨(0.41 : R), (-(0.41 : R)), (-(0.41 : R))⟩ : Vec3 R))))
  bad := ck bad 356 (!(CAABB3.containsSphere v1 (← Sphere.add v2 (⟨(-(0.41 : R)), (-(0.41 : R)), (-(0.41 : R))⟩ : Vec3 R))))
  bad := ck bad 357 (!(CAABB3.containsSphere v1 (← Sphere.add v2 (⟨(-(0.41 : R)), (0.41 : R), (-(0.41 : R))⟩ : Vec3 R))))
  return bad
end Caabb3_25
#guard passes Caabb3_25.run

namespace Caabb3_26
abbrev R := Float32
def run : Res (List Nat) := do
  let mut bad : List Nat := []
  let v1 : CAABB3 R := (constCAABB3One : CAABB3 R)
  let v2 : CAABB3 R := (CAABB3.scale (constCAABB3One : CAABB3 R) (0.1 : R))
  bad := ck bad 365 (CAABB3.containsBox v1 v2)
  bad := ck bad 367 (CAABB3.containsBox v1 (CAABB3.translate v2 (⟨(0.45 : R), (0.45 : R), (0.45 : R)⟩ : Vec3 R)))
  bad := ck bad 368 (CAABB3.containsBox v1 (CAABB3.translate v2 (⟨(0.45 : R), (-(0.45 : R)), (0.45 : R)⟩ : Vec3 R)))
  bad := ck bad 369 (CAABB3.containsBox v1 (CAABB3.translate v2 (⟨(-(0.45 : R)), (-(0.45 : R)), (0.45 : R)⟩ : Vec3 R)))
  bad := ck bad 370 (CAABB3.containsBox v1 (CAABB3.translate v2 (⟨(-(0.45 : R)), (0.45 : R), (0.45 : R)⟩ : Vec3 R)))
  bad := ck bad 371 (CAABB3.containsBox v1 (CAABB3.translate v2 (⟨(0.45 : R), (0.45 : R), (-(0.45 : R))⟩ : Vec3 R)))
  bad := ck bad 372 (CAABB3.containsBox v1 (CAABB3.translate v2 (⟨(0.45 : R), (-(0.45 : R)), (-(0.45 : R))⟩ : Vec3 R)))
  bad := ck bad 373 (CAABB3.containsBox v1 (CAABB3.translate v2 (⟨(-(0.45 : R)), (-(0.45 : R)), (-(0.45 : R))⟩ : Vec3 R)))
  bad := ck bad 374 (CAABB3.containsBox v1 (CAABB3.translate v2 (⟨(-(0.45 : R)), (0.45 : R), (-(0.45 : R))⟩ : Vec3 R)))
  bad := ck bad 376 (!(CAABB3.containsBox v1 (CAABB3.translate v2 (⟨(0.46 : R), (0.46 : R), (0.46 : R)⟩ : Vec3 R))))
  bad := ck bad 377 (!(CAABB3.containsBox v1 (CAABB3.translate v2 (⟨(0.46 : R), (-(0.46 : R)), (0.46 : R)⟩ : Vec3 R))))
  bad := ck bad 378 (!(CAABB3.containsBox v1 (CAABB3.translate v2 (⟨(-(0.46 : R)), (-(0.46 : R)), (0.46 : R)⟩ : Vec3 R))))
  bad := ck bad 379 (!(CAABB3.containsBox v1 (CAABB3.translate v2 (⟨(-(0.46 : R)), (0.46 : R), (0.46 : R)⟩ : Vec3 R))))
  bad := ck bad 380 (!(CAABB3.containsBox v1 (CAABB3.translate v2 (⟨(0.46 : R), (0.46 : R), (-(0.46 : R))⟩ : Vec3 R))))
  bad := ck bad 381 (!(CAABB3.containsBox v1 (CAABB3.translate v2 (⟨(0.46 : R), (-(0.46 : R)), (-(0.46 : R))⟩ : Vec3 R))))
  bad := ck bad 382 (!(CAABB3.containsBox v1 (CAABB3.translate v2 (⟨(-(0.46 : R)), (-(0.46 : R)), (-(0.46 : R))⟩ : Vec3 R))))
  bad := ck bad 383 (!(CAABB3.containsBox v1 (CAABB3.translate v2 (⟨(-(0.46 : R)), (0.46 : R), (-(0.46 : R))⟩ : Vec3 R))))
  return bad
end Caabb3_26
#guard passes Caabb3_26.run

namespace Caabb3_27
abbrev R := Float32
def run : Res (List Nat) := do
  let mut bad : List Nat := []
  let v1 : CAABB3 R := (constCAABB3One : CAABB3 R)
  let v2 : CAABB3 R := (CAABB3.scale (constCAABB3One : CAABB3 R) (0.1 : R))
  bad := ck bad 391 (CAABB3.intersects v1 v2)
  bad := ck bad 393 (CAABB3.intersects v1 (CAABB3.translate v2 (⟨(0.45 : R), (0.45 : R), (0.45 : R)⟩ : Vec3 R)))
  bad := ck bad 394 (CAABB3.intersects v1 (CAABB3.translate v2 (⟨(0.45 : R), (-(0.45 : R)), (0.45 : R)⟩ : Vec3 R)))
  bad := ck bad 395 (CAABB3.intersects v1 (CAABB3.translate v2 (⟨(-(0.45 : R)), (-(0.45 : R)), (0.45 : R)⟩ : Vec3 R)))
  bad := ck bad 396 (CAABB3.intersects v1 (CAABB3.translate v2 (⟨(-(0.45 : R)), (0.45 : R), (0.45 : R)⟩ : Vec3 R)))
  bad := ck bad 397 (CAABB3.intersects v1 (CAABB3.translate v2 (⟨(0.45 : R), (0.45 : R), (-(0.45 : R))⟩ : Vec3 R)))
  bad := ck bad 398 (CAABB3.intersects v1 (CAABB3.translate v2 (⟨(0.45 : R), (-(0.45 : R)), (-(0.45 : R))⟩ : Vec3 R)))
  bad := ck bad 399 (CAABB3.intersects v1 (CAABB3.translate v2 (⟨(-(0.45 : R)), (-(0.45 : R)), (-(0.45 : R))⟩ : Vec3 R)))
  bad := ck bad 400 (CAABB3.intersects v1 (CAABB3.translate v2 (⟨(-(0.45 : R)), (0.45 : R), (-(0.45 : R))⟩ : Vec3 R)))
  bad := ck bad 402 (CAABB3.intersects v1 (CAABB3.translate v2 (⟨(0.46 : R), (0.46 : R), (0.46 : R)⟩ : Vec3 R)))
  bad := ck bad 403 (CAABB3.intersects v1 (CAABB3.translate v2 (⟨(0.46 : R), (-(0.46 : R)), (0.46 : R)⟩ : Vec3 R)))
  bad := ck bad 404 (CAABB3.intersects v1 (CAABB3.translate v2 (⟨(-(0.46 : R)), (-(0.46 : R)), (0.46 : R)⟩ : Vec3 R)))
  bad := ck bad 405 (CAABB3.intersects v1 (CAABB3.translate v2 (⟨(-(0.46 : R)), (0.46 : R), (0.46 : R)⟩ : Vec3 R)))
  bad := ck bad 406 (CAABB3.intersects v1 (CAABB3.translate v2 (⟨(0.46 : R), (0.46 : R), (-(0.46 : R))⟩ : Vec3 R)))
  bad := ck bad 407 (CAABB3.intersects v1 (CAABB3.translate v2 (⟨(0.46 : R), (-(0.46 : R)), (-(0.46 : R))⟩ : Vec3 R)))
  bad := ck bad 408 (CAABB3.intersects v1 (CAABB3.translate v2 (⟨(-(0.46 : R)), (-(0.46 : R)), (-(0.46 : R))⟩ : Vec3 R)))
  bad := ck bad 409 (CAABB3.intersects v1 (CAABB3.translate v2 (⟨(-(0.46 : R)), (0.46 : R), (-(0.46 : R))⟩ : Vec3 R)))
  bad := ck bad 411 (!(CAABB3.intersects v1 (CAABB3.translate v2 (⟨(0.56 : R), (0.56 : R), (0.56 : R)⟩ : Vec3 R))))
  bad := ck bad 412 (!(CAABB3.intersects v1 (CAABB3.translate v2 (⟨(0.56 : R), (-(0.56 : R)), (0.56 : R)⟩ : Vec3 R))))
  bad := ck bad 413 (!(CAABB3.intersects v1 (CAABB3.translate v2 (⟨(-(0.56 : R)), (-(0.56 : R)), (0.56 : R)⟩ : Vec3 R))))
  bad := ck bad 414 (!(CAABB3.intersects v1 (CAABB3.translate v2 (⟨(-(0.56 : R)), (0.56 : R), (0.56 : R)⟩ : Vec3 R))))
  bad := ck bad 415 (!(CAABB3.intersects v1 (CAABB3.translate v2 (⟨(0.56 : R), (0.56 : R), (-(0.56 : R))⟩ : Vec3 R))))
  bad := ck bad 416 (!(CAABB3.intersects v1 (CAABB3.translate v2 (⟨(0.56 : R), (-(0.56 : R)), (-(0.56 : R))⟩ : Vec3 R))))
  bad := ck bad 417 (!(CAABB3.intersects v1 (CAABB3.translate v2 (⟨(-(0.56 : R)), (-(0.56 : R)), (-(0.56 : R))⟩ : Vec3 R))))
  bad := ck bad 418 (!(CAABB3.intersects v1 (CAABB3.translate v2 (⟨(-(0.56 : R)), (0.56 : R), (-(0.56 : R))⟩ : Vec3 R))))
  return bad
end Caabb3_27
#guard passes Caabb3_27.run

namespace Caabb3_28
abbrev R := Float32
def run : Res (List Nat) := do
  let mut bad : List Nat := []
  bad := ck bad 430 (Near.near (0.001 : R) (constCAABB3One : CAABB3 R) (constCAABB3One : CAABB3 R))
  return bad
end Caabb3_28
#guard passes Caabb3_28.run

end MathLib.Conformance
