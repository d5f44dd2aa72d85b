import Verif.Conformance.Base

/-!
# Unit tests of `tests/tests/src/test_caabb2.cpp`, replayed on the model

Generated by `tools/conform.py`; the numbers are the source lines of the checks.  114 checks;
12 checks of that file are not translated (casts, random draws, `sizeof`, `data()`, and
functions outside the model).
-/

namespace MathLib.Conformance
set_option linter.all false

namespace Caabb2_0
abbrev R := Float32
def run : Res (List Nat) := do
  let mut bad : List Nat := []
  bad := ck bad 19 ((Vec2.zero : Vec2 R).x == (0.0 : R))
  bad := ck bad 20 ((Vec2.zero : Vec2 R).y == (0.0 : R))
  return bad
end Caabb2_0
#guard passes Caabb2_0.run

namespace Caabb2_1
abbrev R := Float32
def run : Res (List Nat) := do
  let mut bad : List Nat := []
  bad := ck bad 25 (Vec2.eq (constCAABB2One : CAABB2 R).center (Vec2.zero : Vec2 R))
  bad := ck bad 26 ((constCAABB2One : CAABB2 R).extents.x == (0.5 : R))
  bad := ck bad 27 ((constCAABB2One : CAABB2 R).extents.y == (0.5 : R))
  return bad
end Caabb2_1
#guard passes Caabb2_1.run

namespace Caabb2_2
abbrev R := Float32
def run : Res (List Nat) := do
  let mut bad : List Nat := []
  let v1 : CAABB2 R := (CAABB2.ofCenterSize (Vec2.zero : Vec2 R) (⟨(1 : R), (2 : R)⟩ : Vec2 R))
  bad := ck bad 41 (Vec2.eq v1.center (Vec2.zero : Vec2 R))
  bad := ck bad 42 (Vec2.eq v1.extents (⟨(0.5 : R), (1.0 : R)⟩ : Vec2 R))
  return bad
end Caabb2_2
#guard passes Caabb2_2.run

namespace Caabb2_3
abbrev R := Float32
def run : Res (List Nat) := do
  let mut bad : List Nat := []
  let v1 : CAABB2 R := (CAABB2.ofPoint (⟨(1 : R), (2 : R)⟩ : Vec2 R))
  bad := ck bad 51 (Vec2.eq v1.center (⟨(1 : R), (2 : R)⟩ : Vec2 R))
  bad := ck bad 52 (Vec2.eq v1.extents (Vec2.zero : Vec2 R))
  return bad
end Caabb2_3
#guard passes Caabb2_3.run

namespace Caabb2_4
abbrev R := Float32
def run : Res (List Nat) := do
  let mut bad : List Nat := []
  let v1 : CAABB2 R := (CAABB2.ofCenterSize (Vec2.zero : Vec2 R) (⟨(1 : R), (2 : R)⟩ : Vec2 R))
  bad := ck bad 59 (Vec2.eq v1.center (Vec2.zero : Vec2 R))
  bad := ck bad 60 (Vec2.eq v1.extents (⟨(0.5 : R), (1.0 : R)⟩ : Vec2 R))
  return bad
end Caabb2_4
#guard passes Caabb2_4.run

namespace Caabb2_5
abbrev R := Float32
def run : Res (List Nat) := do
  let mut bad : List Nat := []
  let v1 : CAABB2 R := (CAABB2.ofBox (⟨(Vec2.zero : Vec2 R), (⟨(1 : R), (2 : R)⟩ : Vec2 R)⟩ : AABB2 R))
  bad := ck bad 67 (Vec2.eq v1.center (⟨(0.5 : R), (1.0 : R)⟩ : Vec2 R))
  bad := ck bad 68 (Vec2.eq v1.extents (⟨(0.5 : R), (1.0 : R)⟩ : Vec2 R))
  return bad
end Caabb2_5
#guard passes Caabb2_5.run

namespace Caabb2_6
abbrev R := Float32
def run : Res (List Nat) := do
  let mut bad : List Nat := []
  let v1 : CAABB2 R := (CAABB2.ofPoint (Vec2.zero : Vec2 R))
  let v2 : CAABB2 R := (CAABB2.add v1 (⟨(1 : R), (1 : R)⟩ : Vec2 R))
  let v3 : CAABB2 R := (CAABB2.add v2 (⟨(-1 : R), (-1 : R)⟩ : Vec2 R))
  let v4 : CAABB2 R := (CAABB2.add v3 (Vec2.zero : Vec2 R))
  bad := ck bad 113 (Vec2.eq v4.center (Vec2.zero : Vec2 R))
  bad := ck bad 114 (Vec2.eq v4.extents (⟨(1 : R), (1 : R)⟩ : Vec2 R))
  return bad
end Caabb2_6
#guard passes Caabb2_6.run

namespace Caabb2_7
abbrev R := Float32
def run : Res (List Nat) := do
  let mut bad : List Nat := []
  let v1 : CAABB2 R := (CAABB2.ofPoint (⟨(1 : R), (2 : R)⟩ : Vec2 R))
  bad := ck bad 122 (Vec2.eq v1.center (⟨(1 : R), (2 : R)⟩ : Vec2 R))
  bad := ck bad 123 (Vec2.eq v1.extents (Vec2.zero : Vec2 R))
  return bad
end Caabb2_7
#guard passes Caabb2_7.run

namespace Caabb2_8
abbrev R := Float32
def run : Res (List Nat) := do
  let mut bad : List Nat := []
  let v1 : CAABB2 R := (CAABB2.ofCenterSize (Vec2.zero : Vec2 R) (⟨(1 : R), (2 : R)⟩ : Vec2 R))
  bad := ck bad 129 (Vec2.eq v1.center (Vec2.zero : Vec2 R))
  bad := ck bad 130 (Vec2.eq v1.extents (⟨(0.5 : R), (1.0 : R)⟩ : Vec2 R))
  return bad
end Caabb2_8
#guard passes Caabb2_8.run

namespace Caabb2_9
abbrev R := Float32
def run : Res (List Nat) := do
  let mut bad : List Nat := []
  let v1 : CAABB2 R := (CAABB2.ofBox (⟨(Vec2.zero : Vec2 R), (⟨(1 : R), (2 : R)⟩ : Vec2 R)⟩ : AABB2 R))
  bad := ck bad 136 (Vec2.eq v1.center (⟨(0.5 : R), (1.0 : R)⟩ : Vec2 R))
  bad := ck bad 137 (Vec2.eq v1.extents (⟨(0.5 : R), (1.0 : R)⟩ : Vec2 R))
  return bad
end Caabb2_9
#guard passes Caabb2_9.run

namespace Caabb2_10
abbrev R := Float32
def run : Res (List Nat) := do
  let mut bad : List Nat := []
  let v1 : CAABB2 R := (constCAABB2One : CAABB2 R)
  let v2 : CAABB2 R := (CAABB2.translate v1 (⟨(1 : R), (2 : R)⟩ : Vec2 R))
  bad := ck bad 179 (Vec2.eq v2.center (⟨(1 : R), (2 : R)⟩ : Vec2 R))
  bad := ck bad 180 (Vec2.eq v2.extents (⟨(0.5 : R), (0.5 : R)⟩ : Vec2 R))
  return bad
end Caabb2_10
#guard passes Caabb2_10.run

namespace Caabb2_11
abbrev R := Float32
def run : Res (List Nat) := do
  let mut bad : List Nat := []
  let v1 : CAABB2 R := (constCAABB2One : CAABB2 R)
  let v2 : CAABB2 R := (CAABB2.translateNeg v1 (⟨(1 : R), (2 : R)⟩ : Vec2 R))
  bad := ck bad 187 (Vec2.eq v2.center (⟨(-1 : R), (-2 : R)⟩ : Vec2 R))
  bad := ck bad 188 (Vec2.eq v2.extents (⟨(0.5 : R), (0.5 : R)⟩ : Vec2 R))
  return bad
end Caabb2_11
#guard passes Caabb2_11.run

namespace Caabb2_12
abbrev R := Float32
def run : Res (List Nat) := do
  let mut bad : List Nat := []
  let v1 : CAABB2 R := (constCAABB2One : CAABB2 R)
  let v2 : CAABB2 R := (CAABB2.scale v1 (2.0 : R))
  bad := ck bad 195 (Vec2.eq v2.center (Vec2.zero : Vec2 R))
  bad := ck bad 196 (Vec2.eq v2.extents (⟨(1 : R), (1 : R)⟩ : Vec2 R))
  return bad
end Caabb2_12
#guard passes Caabb2_12.run

namespace Caabb2_13
abbrev R := Float32
def run : Res (List Nat) := do
  let mut bad : List Nat := []
  let v1 : CAABB2 R := (constCAABB2One : CAABB2 R)
  let v2 : CAABB2 R := (← CAABB2.unscale v1 (2.0 : R))
  bad := ck bad 203 (Vec2.eq v2.center (Vec2.zero : Vec2 R))
  bad := ck bad 204 (Vec2.eq v2.extents (⟨(0.25 : R), (0.25 : R)⟩ : Vec2 R))
  return bad
end Caabb2_13
#guard passes Caabb2_13.run

namespace Caabb2_14
abbrev R := Float32
def run : Res (List Nat) := do
  let mut bad : List Nat := []
  let v1 : CAABB2 R := (CAABB2.ofCenterSize (Vec2.zero : Vec2 R) (⟨(1 : R), (2 : R)⟩ : Vec2 R))
  bad := ck bad 212 (CAABB2.eq v1 v1)
  bad := ck bad 213 (CAABB2.eq v1 (CAABB2.ofCenterSize (Vec2.zero : Vec2 R) (⟨(1 : R), (2 : R)⟩ : Vec2 R)))
  bad := ck bad 214 (!(CAABB2.eq v1 (constCAABB2One : CAABB2 R)))
  return bad
end Caabb2_14
#guard passes Caabb2_14.run

namespace Caabb2_15
abbrev R := Float32
def run : Res (List Nat) := do
  let mut bad : List Nat := []
  let v1 : CAABB2 R := (CAABB2.ofCenterSize (Vec2.zero : Vec2 R) (⟨(1 : R), (2 : R)⟩ : Vec2 R))
  bad := ck bad 220 (!(CAABB2.ne v1 v1))
  bad := ck bad 221 (CAABB2.ne v1 (CAABB2.ofCenterSize (Vec2.oneX : Vec2 R) (⟨(1 : R), (2 : R)⟩ : Vec2 R)))
  bad := ck bad 222 (CAABB2.ne v1 (CAABB2.ofCenterSize (Vec2.zero : Vec2 R) (⟨(3 : R), (2 : R)⟩ : Vec2 R)))
  return bad
end Caabb2_15
#guard passes Caabb2_15.run

namespace Caabb2_16
abbrev R := Float32
def run : Res (List Nat) := do
  let mut bad : List Nat := []
  let v1 : CAABB2 R := (constCAABB2One : CAABB2 R)
  bad := ck bad 232 (Near.near (1e-10 : R) (CAABB2.inf v1) (⟨(-(0.5 : R)), (-(0.5 : R))⟩ : Vec2 R))
  return bad
end Caabb2_16
#guard passes Caabb2_16.run

namespace Caabb2_17
abbrev R := Float32
def run : Res (List Nat) := do
  let mut bad : List Nat := []
  let v1 : CAABB2 R := (constCAABB2One : CAABB2 R)
  bad := ck bad 240 (Near.near (1e-10 : R) (CAABB2.sup v1) (⟨(0.5 : R), (0.5 : R)⟩ : Vec2 R))
  return bad
end Caabb2_17
#guard passes Caabb2_17.run

namespace Caabb2_18
abbrev R := Float32
def run : Res (List Nat) := do
  let mut bad : List Nat := []
  let v1 : CAABB2 R := (constCAABB2One : CAABB2 R)
  bad := ck bad 248 (Near.near (1e-10 : R) (CAABB2.size v1) (⟨(1.0 : R), (1.0 : R)⟩ : Vec2 R))
  return bad
end Caabb2_18
#guard passes Caabb2_18.run

namespace Caabb2_19
abbrev R := Float32
def run : Res (List Nat) := do
  let mut bad : List Nat := []
  let v1 : CAABB2 R := (constCAABB2One : CAABB2 R)
  bad := ck bad 256 (Near.near (1e-10 : R) (← CAABB2.innerCircle v1) (⟨(Vec2.zero : Vec2 R), (0.5 : R)⟩ : Circle R))
  return bad
end Caabb2_19
#guard passes Caabb2_19.run

namespace Caabb2_20
abbrev R := Float32
def run : Res (List Nat) := do
  let mut bad : List Nat := []
  let v1 : CAABB2 R := (constCAABB2One : CAABB2 R)
  bad := ck bad 264 (Near.near (1e-6 : R) (CAABB2.outerCircle v1) (⟨(Vec2.zero : Vec2 R), (0.70710676908493042 : R)⟩ : Circle R))
  return bad
end Caabb2_20
#guard passes Caabb2_20.run

namespace Caabb2_21
abbrev R := Float32
def run : Res (List Nat) := do
  let mut bad : List Nat := []
  let v1 : CAABB2 R := (constCAABB2One : CAABB2 R)
  bad := ck bad 272 (Near.near (1e-10 : R) (CAABB2.area v1) (1.0 : R))
  let v2 : CAABB2 R := (CAABB2.ofCenterSize (Vec2.zero : Vec2 R) (⟨(2 : R), (2 : R)⟩ : Vec2 R))
  bad := ck bad 274 (Near.near (1e-10 : R) (CAABB2.area v2) (4.0 : R))
  let v3 : CAABB2 R := (CAABB2.ofCenterSize (Vec2.zero : Vec2 R) (⟨(1 : R), (2 : R)⟩ : Vec2 R))
  bad := ck bad 276 (Near.near (1e-10 : R) (CAABB2.area v3) (2.0 : R))
  return bad
end Caabb2_21
#guard passes Caabb2_21.run

namespace Caabb2_22
abbrev R := Float32
def run : Res (List Nat) := do
  let mut bad : List Nat := []
  let v1 : CAABB2 R := (constCAABB2One : CAABB2 R)
  bad := ck bad 284 (!(CAABB2.isNull v1))
  let v2 : CAABB2 R := (CAABB2.ofCenterSize (Vec2.zero : Vec2 R) (Vec2.zero : Vec2 R))
  bad := ck bad 286 (CAABB2.isNull v2)
  return bad
end Caabb2_22
#guard passes Caabb2_22.run

namespace Caabb2_23
abbrev R := Float32
def run : Res (List Nat) := do
  let mut bad : List Nat := []
  let v1 : CAABB2 R := (constCAABB2One : CAABB2 R)
  bad := ck bad 295 (Near.near (1e-10 : R) (CAABB2.pointAt v1 (⟨(0 : R), (0 : R)⟩ : Vec2 R)) (Vec2.zero : Vec2 R))
  bad := ck bad 297 (Near.near (1e-10 : R) (CAABB2.pointAt v1 (⟨(1 : R), (1 : R)⟩ : Vec2 R)) (⟨(0.5 : R), (0.5 : R)⟩ : Vec2 R))
  bad := ck bad 298 (Near.near (1e-10 : R) (CAABB2.pointAt v1 (⟨(1 : R), (-1 : R)⟩ : Vec2 R)) (⟨(0.5 : R), (-(0.5 : R))⟩ : Vec2 R))
  bad := ck bad 299 (Near.near (1e-10 : R) (CAABB2.pointAt v1 (⟨(-1 : R), (-1 : R)⟩ : Vec2 R)) (⟨(-(0.5 : R)), (-(0.5 : R))⟩ : Vec2 R))
  bad := ck bad 300 (Near.near (1e-10 : R) (CAABB2.pointAt v1 (⟨(-1 : R), (1 : R)⟩ : Vec2 R)) (⟨(-(0.5 : R)), (0.5 : R)⟩ : Vec2 R))
  bad := ck bad 301 (Near.near (1e-10 : R) (CAABB2.pointAt v1 (⟨(1 : R), (1 : R)⟩ : Vec2 R)) (⟨(0.5 : R), (0.5 : R)⟩ : Vec2 R))
  bad := ck bad 302 (Near.near (1e-10 : R) (CAABB2.pointAt v1 (⟨(1 : R), (-1 : R)⟩ : Vec2 R)) (⟨(0.5 : R), (-(0.5 : R))⟩ : Vec2 R))
  bad := ck bad 303 (Near.near (1e-10 : R) (CAABB2.pointAt v1 (⟨(-1 : R), (-1 : R)⟩ : Vec2 R)) (⟨(-(0.5 : R)), (-(0.5 : R))⟩ : Vec2 R))
  bad := ck bad 304 (Near.near (1e-10 : R) (CAABB2.pointAt v1 (⟨(-1 : R), (1 : R)⟩ : Vec2 R)) (⟨(-(0.5 : R)), (0.5 : R)⟩ : Vec2 R))
  return bad
end Caabb2_23
#guard passes Caabb2_23.run

namespace Caabb2_24
abbrev R := Float32
def run : Res (List Nat) := do
  let mut bad : List Nat := []
  let v1 : CAABB2 R := (constCAABB2One : CAABB2 R)
  bad := ck bad 311 (CAABB2.contains v1 (Vec2.zero : Vec2 R))
  bad := ck bad 313 (CAABB2.contains v1 (⟨(0.5 : R), (0.5 : R)⟩ : Vec2 R))
  bad := ck bad 314 (CAABB2.contains v1 (⟨(0.5 : R), (-(0.5 : R))⟩ : Vec2 R))
  bad := ck bad 315 (CAABB2.contains v1 (⟨(-(0.5 : R)), (-(0.5 : R))⟩ : Vec2 R))
  bad := ck bad 316 (CAABB2.contains v1 (⟨(-(0.5 : R)), (0.5 : R)⟩ : Vec2 R))
  bad := ck bad 317 (CAABB2.contains v1 (⟨(0.5 : R), (0.5 : R)⟩ : Vec2 R))
  bad := ck bad 318 (CAABB2.contains v1 (⟨(0.5 : R), (-(0.5 : R))⟩ : Vec2 R))
  bad := ck bad 319 (CAABB2.contains v1 (⟨(-(0.5 : R)), (-(0.5 : R))⟩ : Vec2 R))
  bad := ck bad 320 (CAABB2.contains v1 (⟨(-(0.5 : R)), (0.5 : R)⟩ : Vec2 R))
  bad := ck bad 322 (!(CAABB2.contains v1 (⟨(0.51 : R), (0.51 : R)⟩ : Vec2 R)))
  bad := ck bad 323 (!(CAABB2.contains v1 (⟨(0.51 : R), (-(0.51 : R))⟩ : Vec2 R)))
  bad := ck bad 324 (!(CAABB2.contains v1 (⟨(-(0.51 : R)), (-(0.51 : R))⟩ : Vec2 R)))
  bad := ck bad 325 (!(CAABB2.contains v1 (⟨(-(0.51 : R)), (0.51 : R)⟩ : Vec2 R)))
  bad := ck bad 326 (!(CAABB2.contains v1 (⟨(0.51 : R), (0.51 : R)⟩ : Vec2 R)))
  bad := ck bad 327 (!(CAABB2.contains v1 (⟨(0.51 : R), (-(0.51 : R))⟩ : Vec2 R)))
  bad := ck bad 328 (!(CAABB2.contains v1 (⟨(-(0.51 : R)), (-(0.51 : R))⟩ : Vec2 R)))
  bad := ck bad 329 (!(CAABB2.contains v1 (⟨(-(0.51 : R)), (0.51 : R)⟩ : Vec2 R)))
  return bad
end Caabb2_24
#guard passes Caabb2_24.run

namespace Caabb2_25
abbrev R := Float32
def run : Res (List Nat) := do
  let mut bad : List Nat := []
  let v1 : CAABB2 R := (constCAABB2One : CAABB2 R)
  let v2 : CAABB2 R := (CAABB2.scale (constCAABB2One : CAABB2 R) (0.1 : R))
  bad := ck bad 337 (CAABB2.containsBox v1 v2)
  bad := ck bad 339 (CAABB2.containsBox v1 (CAABB2.translate v2 (⟨(0.45 : R), (0.45 : R)⟩ : Vec2 R)))
  bad := ck bad 340 (CAABB2.containsBox v1 (CAABB2.translate v2 (⟨(0.45 : R), (-(0.45 : R))⟩ : Vec2 R)))
  bad := ck bad 341 (CAABB2.containsBox v1 (CAABB2.translate v2 (⟨(-(0.45 : R)), (-(0.45 : R))⟩ : Vec2 R)))
  bad := ck bad 342 (CAABB2.containsBox v1 (CAABB2.translate v2 (⟨(-(0.45 : R)), (0.45 : R)⟩ : Vec2 R)))
  bad := ck bad 343 (CAABB2.containsBox v1 (CAABB2.translate v2 (⟨(0.45 : R), (0.45 : R)⟩ : Vec2 R)))
  bad := ck bad 344 (CAABB2.containsBox v1 (CAABB2.translate v2 (⟨(0.45 : R), (-(0.45 : R))⟩ : Vec2 R)))
  bad := ck bad 345 (CAABB2.containsBox v1 (CAABB2.translate v2 (⟨(-(0.45 : R)), (-(0.45 : R))⟩ : Vec2 R)))
  bad := ck bad 346 (CAABB2.containsBox v1 (CAABB2.translate v2 (⟨(-(0.45 : R)), (0.45 : R)⟩ : Vec2 R)))
  bad := ck bad 348 (!(CAABB2.containsBox v1 (CAABB2.translate v2 (⟨(0.46 : R), (0.46 : R)⟩ : Vec2 R))))
  bad := ck bad 349 (!(CAABB2.containsBox v1 (CAABB2.translate v2 (⟨(0.46 : R), (-(0.46 : R))⟩ : Vec2 R))))
  bad := ck bad 350 (!(CAABB2.containsBox v1 (CAABB2.translate v2 (⟨(-(0.46 : R)), (-(0.46 : R))⟩ : Vec2 R))))
  bad := ck bad 351 (!(CAABB2.containsBox v1 (CAABB2.translate v2 (⟨(-(0.46 : R)), (0.46 : R)⟩ : Vec2 R))))
  bad := ck bad 352 (!(CAABB2.containsBox v1 (CAABB2.translate v2 (⟨(0.46 : R), (0.46 : R)⟩ : Vec2 R))))
  bad := ck bad 353 (!(CAABB2.containsBox v1 (CAABB2.translate v2 (⟨(0.46 : R), (-(0.46 : R))⟩ : Vec2 R))))
  bad := ck bad 354 (!(CAABB2.containsBox v1 (CAABB2.translate v2 (⟨(-(0.46 : R)), (-(0.46 : R))⟩ : Vec2 R))))
  bad := ck bad 355 (!(CAABB2.containsBox v1 (CAABB2.translate v2 (⟨(-(0.46 : R)), (0.46 : R)⟩ : Vec2 R))))
  return bad
end Caabb2_25
#guard passes Caabb2_25.run

namespace Caabb2_26
abbrev R := Float32
def run : Res (List Nat) := do
  let mut bad : List Nat := []
  let v1 : CAABB2 R := (constCAABB2One : CAABB2 R)
  let v2 : CAABB2 R := (CAABB2.scale (constCAABB2One : CAABB2 R) (0.1 : R))
  bad := ck bad 363 (CAABB2.intersects v1 v2)
  bad := ck bad 365 (CAABB2.intersects v1 (CAABB2.translate v2 (⟨(0.45 : R), (0.45 : R)⟩ : Vec2 R)))
  bad := ck bad 366 (CAABB2.intersects v1 (CAABB2.translate v2 (⟨(0.45 : R), (-(0.45 : R))⟩ : Vec2 R)))
  bad := ck bad 367 (CAABB2.intersects v1 (CAABB2.translate v2 (⟨(-(0.45 : R)), (-(0.45 : R))⟩ : Vec2 R)))
  bad := ck bad 368 (CAABB2.intersects v1 (CAABB2.translate v2 (⟨(-(0.45 : R)), (0.45 : R)⟩ : Vec2 R)))
  bad := ck bad 369 (CAABB2.intersects v1 (CAABB2.translate v2 (⟨(0.45 : R), (0.45 : R)⟩ : Vec2 R)))
  bad := ck bad 370 (CAABB2.intersects v1 (CAABB2.translate v2 (⟨(0.45 : R), (-(0.45 : R))⟩ : Vec2 R)))
  bad := ck bad 371 (CAABB2.intersects v1 (CAABB2.translate v2 (⟨(-(0.45 : R)), (-(0.45 : R))⟩ : Vec2 R)))
  bad := ck bad 372 (CAABB2.intersects v1 (CAABB2.translate v2 (⟨(-(0.45 : R)), (0.45 : R)⟩ : Vec2 R)))
  bad := ck bad 374 (CAABB2.intersects v1 (CAABB2.translate v2 (⟨(0.46 : R), (0.46 : R)⟩ : Vec2 R)))
  bad := ck bad 375 (CAABB2.intersects v1 (CAABB2.translate v2 (⟨(0.46 : R), (-(0.46 : R))⟩ : Vec2 R)))
  bad := ck bad 376 (CAABB2.intersects v1 (CAABB2.translate v2 (⟨(-(0.46 : R)), (-(0.46 : R))⟩ : Vec2 R)))
  bad := ck bad 377 (CAABB2.intersects v1 (CAABB2.translate v2 (⟨(-(0.46 : R)), (0.46 : R)⟩ : Vec2 R)))
  bad := ck bad 378 (CAABB2.intersects v1 (CAABB2.translate v2 (⟨(0.46 : R), (0.46 : R)⟩ : Vec2 R)))
  bad := ck bad 379 (CAABB2.intersects v1 (CAABB2.translate v2 (⟨(0.46 : R), (-(0.46 : R))⟩ : Vec2 R)))
  bad := ck bad 380 (CAABB2.intersects v1 (CAABB2.translate v2 (⟨(-(0.46 : R)), (-(0.46 : R))⟩ : Vec2 R)))
  bad := ck bad 381 (CAABB2.intersects v1 (CAABB2.translate v2 (⟨(-(0.46 : R)), (0.46 : R)⟩ : Vec2 R)))
  bad := ck bad 383 (!(CAABB2.intersects v1 (CAABB2.translate v2 (⟨(0.56 : R), (0.56 : R)⟩ : Vec2 R))))
  bad := ck bad 384 (!(CAABB2.intersects v1 (CAABB2.translate v2 (⟨(0.56 : R), (-(0.56 : R))⟩ : Vec2 R))))
  bad := ck bad 385 (!(CAABB2.intersects v1 (CAABB2.translate v2 (⟨(-(0.56 : R)), (-(0.56 : R))⟩ : Vec2 R))))
  bad := ck bad 386 (!(CAABB2.intersects v1 (CAABB2.translate v2 (⟨(-(0.56 : R)), (0.56 : R)⟩ : Vec2 R))))
  bad := ck bad 387 (!(CAABB2.intersects v1 (CAABB2.translate v2 (⟨(0.56 : R), (0.56 : R)⟩ : Vec2 R))))
  bad := ck bad 388 (!(CAABB2.intersects v1 (CAABB2.translate v2 (⟨(0.56 : R), (-(0.56 : R))⟩ : Vec2 R))))
  bad := ck bad 389 (!(CAABB2.intersects v1 (CAABB2.translate v2 (⟨(-(0.56 : R)), (-(0.56 : R))⟩ : Vec2 R))))
  bad := ck bad 390 (!(CAABB2.intersects v1 (CAABB2.translate v2 (⟨(-(0.56 : R)), (0.56 : R)⟩ : Vec2 R))))
  return bad
end Caabb2_26
#guard passes Caabb2_26.run

namespace Caabb2_27
abbrev R := Float32
def run : Res (List Nat) := do
  let mut bad : List Nat := []
  bad := ck bad 402 (Near.near (0.001 : R) (constCAABB2One : CAABB2 R) (constCAABB2One : CAABB2 R))
  return bad
end Caabb2_27
#guard passes Caabb2_27.run

end MathLib.Conformance
