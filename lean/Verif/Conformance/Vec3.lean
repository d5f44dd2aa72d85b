import Verif.Conformance.Base

/-!
# Unit tests of `tests/tests/src/test_vec3.cpp`, replayed on the model

Generated by `tools/conform.py`; the numbers are the source lines of the checks.  216 checks;
14 checks of that file are not translated (casts, random draws, `sizeof`, `data()`, and
functions outside the model).
-/

namespace MathLib.Conformance
set_option linter.all false

namespace Vec3_0
abbrev R := Float32
def run : Res (List Nat) := do
  let mut bad : List Nat := []
  bad := ck bad 19 ((Vec3.zero : Vec3 R).x == (0.0 : R))
  bad := ck bad 20 ((Vec3.zero : Vec3 R).y == (0.0 : R))
  bad := ck bad 21 ((Vec3.zero : Vec3 R).z == (0.0 : R))
  return bad
end Vec3_0
#guard passes Vec3_0.run

namespace Vec3_1
abbrev R := Float32
def run : Res (List Nat) := do
  let mut bad : List Nat := []
  bad := ck bad 26 ((Vec3.oneX : Vec3 R).x == (1.0 : R))
  bad := ck bad 27 ((Vec3.oneX : Vec3 R).y == (0.0 : R))
  bad := ck bad 28 ((Vec3.oneX : Vec3 R).z == (0.0 : R))
  return bad
end Vec3_1
#guard passes Vec3_1.run

namespace Vec3_2
abbrev R := Float32
def run : Res (List Nat) := do
  let mut bad : List Nat := []
  bad := ck bad 33 ((Vec3.oneY : Vec3 R).x == (0.0 : R))
  bad := ck bad 34 ((Vec3.oneY : Vec3 R).y == (1.0 : R))
  bad := ck bad 35 ((Vec3.oneY : Vec3 R).z == (0.0 : R))
  return bad
end Vec3_2
#guard passes Vec3_2.run

namespace Vec3_3
abbrev R := Float32
def run : Res (List Nat) := do
  let mut bad : List Nat := []
  bad := ck bad 40 ((Vec3.oneZ : Vec3 R).x == (0.0 : R))
  bad := ck bad 41 ((Vec3.oneZ : Vec3 R).y == (0.0 : R))
  bad := ck bad 42 ((Vec3.oneZ : Vec3 R).z == (1.0 : R))
  return bad
end Vec3_3
#guard passes Vec3_3.run

namespace Vec3_4
abbrev R := Float32
def run : Res (List Nat) := do
  let mut bad : List Nat := []
  let v1 : Vec3 R := (Vec3.ofScalar (42 : R))
  bad := ck bad 50 (v1.x == (42.0 : R))
  bad := ck bad 51 (v1.y == (42.0 : R))
  bad := ck bad 52 (v1.z == (42.0 : R))
  return bad
end Vec3_4
#guard passes Vec3_4.run

namespace Vec3_5
abbrev R := Float32
def run : Res (List Nat) := do
  let mut bad : List Nat := []
  let v1 : Vec3 R := (⟨(1 : R), (2 : R), (3 : R)⟩ : Vec3 R)
  bad := ck bad 58 (v1.x == (1.0 : R))
  bad := ck bad 59 (v1.y == (2.0 : R))
  bad := ck bad 60 (v1.z == (3.0 : R))
  return bad
end Vec3_5
#guard passes Vec3_5.run

namespace Vec3_6
abbrev R := Float32
def run : Res (List Nat) := do
  let mut bad : List Nat := []
  bad := ck bad 67 (Near.near (0.001 : R) (Vec3.ofVec2 (⟨(1 : R), (2 : R)⟩ : Vec2 R) Coord.X) (⟨(0 : R), (1 : R), (2 : R)⟩ : Vec3 R))
  bad := ck bad 68 (Near.near (0.001 : R) (Vec3.ofVec2 (⟨(1 : R), (2 : R)⟩ : Vec2 R) Coord.Y) (⟨(2 : R), (0 : R), (1 : R)⟩ : Vec3 R))
  bad := ck bad 69 (Near.near (0.001 : R) (Vec3.ofVec2 (⟨(1 : R), (2 : R)⟩ : Vec2 R) Coord.Z) (⟨(1 : R), (2 : R), (0 : R)⟩ : Vec3 R))
  return bad
end Vec3_6
#guard passes Vec3_6.run

namespace Vec3_7
abbrev R := Float32
def run : Res (List Nat) := do
  let mut bad : List Nat := []
  bad := ck bad 74 (Near.near (0.001 : R) (Vec3.toVec2 (Vec3.ofVec2 (⟨(1 : R), (2 : R)⟩ : Vec2 R) Coord.X) Coord.X) (⟨(1 : R), (2 : R)⟩ : Vec2 R))
  bad := ck bad 75 (Near.near (0.001 : R) (Vec3.toVec2 (Vec3.ofVec2 (⟨(1 : R), (2 : R)⟩ : Vec2 R) Coord.Y) Coord.Y) (⟨(1 : R), (2 : R)⟩ : Vec2 R))
  bad := ck bad 76 (Near.near (0.001 : R) (Vec3.toVec2 (Vec3.ofVec2 (⟨(1 : R), (2 : R)⟩ : Vec2 R) Coord.Z) Coord.Z) (⟨(1 : R), (2 : R)⟩ : Vec2 R))
  return bad
end Vec3_7
#guard passes Vec3_7.run

namespace Vec3_8
abbrev R := Float32
def run : Res (List Nat) := do
  let mut bad : List Nat := []
  bad := ck bad 84 (Near.near (0.001 : R) (← Vec3.slerp (Vec3.oneX : Vec3 R) (Vec3.oneY : Vec3 R) (0.0 : R)) (Vec3.oneX : Vec3 R))
  bad := ck bad 86 (Near.near (0.001 : R) (← Vec3.slerp (Vec3.oneX : Vec3 R) (Vec3.oneY : Vec3 R) (1.0 : R)) (Vec3.oneY : Vec3 R))
  bad := ck bad 88 (Near.near (0.001 : R) (← Vec3.slerp (Vec3.oneX : Vec3 R) (Vec3.oneY : Vec3 R) (0.5 : R)) (Vec3.rotated (Vec3.oneX : Vec3 R) Coord.Z ((MathFns.pi : R) / 4)))
  bad := ck bad 90 (Near.near (0.001 : R) (← Vec3.slerp (Vec3.oneX : Vec3 R) ((Vec3.oneY : Vec3 R) * (3.0 : R)) (0.5 : R)) ((Vec3.rotated (Vec3.oneX : Vec3 R) Coord.Z ((MathFns.pi : R) / 4)) * (2.0 : R)))
  return bad
end Vec3_8
#guard passes Vec3_8.run

namespace Vec3_9
abbrev R := Float32
def run : Res (List Nat) := do
  let mut bad : List Nat := []
  bad := ck bad 99 (Near.near (0.001 : R) (← Vec3.slerpMaxAngle (Vec3.oneX : Vec3 R) (Vec3.oneY : Vec3 R) (0.0 : R)) (Vec3.oneX : Vec3 R))
  bad := ck bad 101 (Near.near (0.001 : R) (← Vec3.slerpMaxAngle (Vec3.oneX : Vec3 R) (Vec3.oneY : Vec3 R) (MathFns.pi : R)) (Vec3.oneY : Vec3 R))
  bad := ck bad 103 (Near.near (0.001 : R) (← Vec3.slerpMaxAngle (Vec3.oneX : Vec3 R) (Vec3.oneY : Vec3 R) ((MathFns.pi : R) / 4)) (Vec3.rotated (Vec3.oneX : Vec3 R) Coord.Z ((MathFns.pi : R) / 4)))
  bad := ck bad 105 (Near.near (0.001 : R) (← Vec3.slerpMaxAngle (Vec3.oneX : Vec3 R) ((Vec3.oneY : Vec3 R) * (3.0 : R)) ((MathFns.pi : R) / 4)) ((Vec3.rotated (Vec3.oneX : Vec3 R) Coord.Z ((MathFns.pi : R) / 4)) * (2.0 : R)))
  return bad
end Vec3_9
#guard passes Vec3_9.run

namespace Vec3_10
abbrev R := Float32
def run : Res (List Nat) := do
  let mut bad : List Nat := []
  let v1 : Vec3 R := (⟨(1 : R), (2 : R), (3 : R)⟩ : Vec3 R)
  bad := ck bad 118 (Near.near (0.001 : R) v1 (⟨(1 : R), (2 : R), (3 : R)⟩ : Vec3 R))
  return bad
end Vec3_10
#guard passes Vec3_10.run

namespace Vec3_11
abbrev R := Float32
def run : Res (List Nat) := do
  let mut bad : List Nat := []
  let v1 : Vec3 R := (Vec3.oneX : Vec3 R)
  bad := ck bad 125 (Near.near (0.001 : R) v1 (Vec3.oneX : Vec3 R))
  let v2 : Vec3 R := (Vec3.oneY : Vec3 R)
  bad := ck bad 127 (Near.near (0.001 : R) v2 (Vec3.oneY : Vec3 R))
  let v3 : Vec3 R := (Vec3.oneZ : Vec3 R)
  bad := ck bad 129 (Near.near (0.001 : R) v3 (Vec3.oneZ : Vec3 R))
  let v4 : Vec3 R := (⟨(1 : R), (2 : R), (3 : R)⟩ : Vec3 R)
  bad := ck bad 131 (Near.near (0.001 : R) v4 (⟨(1 : R), (2 : R), (3 : R)⟩ : Vec3 R))
  return bad
end Vec3_11
#guard passes Vec3_11.run

namespace Vec3_12
abbrev R := Float32
def run : Res (List Nat) := do
  let mut bad : List Nat := []
  let v1 : Vec3 R := (Vec3.zero : Vec3 R)
  let v2 : Vec3 R := (← Vec3.setCoord v1 Coord.X (1 : R))
  bad := ck bad 138 (Near.near (0.001 : R) v2 (⟨(1 : R), (0 : R), (0 : R)⟩ : Vec3 R))
  let v3 : Vec3 R := (← Vec3.setCoord v2 Coord.Y (2 : R))
  bad := ck bad 140 (Near.near (0.001 : R) v3 (⟨(1 : R), (2 : R), (0 : R)⟩ : Vec3 R))
  let v4 : Vec3 R := (← Vec3.setCoord v3 Coord.Z (3 : R))
  bad := ck bad 142 (Near.near (0.001 : R) v4 (⟨(1 : R), (2 : R), (3 : R)⟩ : Vec3 R))
  return bad
end Vec3_12
#guard passes Vec3_12.run

namespace Vec3_13
abbrev R := Float32
def run : Res (List Nat) := do
  let mut bad : List Nat := []
  let v1 : Vec3 R := (← Vec3.slerp (Vec3.oneX : Vec3 R) (Vec3.oneY : Vec3 R) (0.0 : R))
  bad := ck bad 149 (Near.near (0.001 : R) v1 (Vec3.oneX : Vec3 R))
  let v2 : Vec3 R := (← Vec3.slerp (Vec3.oneX : Vec3 R) (Vec3.oneY : Vec3 R) (1.0 : R))
  bad := ck bad 153 (Near.near (0.001 : R) v2 (Vec3.oneY : Vec3 R))
  let v3 : Vec3 R := (← Vec3.slerp (Vec3.oneX : Vec3 R) (Vec3.oneY : Vec3 R) (0.5 : R))
  bad := ck bad 157 (Near.near (0.001 : R) v3 (Vec3.rotated (Vec3.oneX : Vec3 R) Coord.Z ((MathFns.pi : R) / 4)))
  let v4 : Vec3 R := (← Vec3.slerp (Vec3.oneX : Vec3 R) ((Vec3.oneY : Vec3 R) * (3.0 : R)) (0.5 : R))
  bad := ck bad 161 (Near.near (0.001 : R) v4 ((Vec3.rotated (Vec3.oneX : Vec3 R) Coord.Z ((MathFns.pi : R) / 4)) * (2.0 : R)))
  return bad
end Vec3_13
#guard passes Vec3_13.run

namespace Vec3_14
abbrev R := Float32
def run : Res (List Nat) := do
  let mut bad : List Nat := []
  let v1 : Vec3 R := (← Vec3.slerpMaxAngle (Vec3.oneX : Vec3 R) (Vec3.oneY : Vec3 R) (0.0 : R))
  bad := ck bad 173 (Near.near (0.001 : R) v1 (Vec3.oneX : Vec3 R))
  let v2 : Vec3 R := (← Vec3.slerpMaxAngle (Vec3.oneX : Vec3 R) (Vec3.oneY : Vec3 R) (MathFns.pi : R))
  bad := ck bad 177 (Near.near (0.001 : R) v2 (Vec3.oneY : Vec3 R))
  let v3 : Vec3 R := (← Vec3.slerpMaxAngle (Vec3.oneX : Vec3 R) (Vec3.oneY : Vec3 R) ((MathFns.pi : R) / 4))
  bad := ck bad 181 (Near.near (0.001 : R) v3 (Vec3.rotated (Vec3.oneX : Vec3 R) Coord.Z ((MathFns.pi : R) / 4)))
  let v4 : Vec3 R := (← Vec3.slerpMaxAngle (Vec3.oneX : Vec3 R) ((Vec3.oneY : Vec3 R) * (3.0 : R)) ((MathFns.pi : R) / 4))
  bad := ck bad 185 (Near.near (0.001 : R) v4 ((Vec3.rotated (Vec3.oneX : Vec3 R) Coord.Z ((MathFns.pi : R) / 4)) * (2.0 : R)))
  return bad
end Vec3_14
#guard passes Vec3_14.run

namespace Vec3_15
abbrev R := Float32
def run : Res (List Nat) := do
  let mut bad : List Nat := []
  let v1 : Vec3 R := (Vec3.zero : Vec3 R)
  let v2 : Vec3 R := ((Vec3.normalize v1 (1 : R))).1
  bad := ck bad 200 (Near.near (0.001 : R) v2 (Vec3.zero : Vec3 R))
  let v3 : Vec3 R := (Vec3.oneX : Vec3 R)
  let v4 : Vec3 R := ((Vec3.normalize v3 (1 : R))).1
  bad := ck bad 204 (Near.near (0.001 : R) v4 (Vec3.oneX : Vec3 R))
  let v5 : Vec3 R := (Vec3.oneY : Vec3 R)
  let v6 : Vec3 R := ((Vec3.normalize v5 (1 : R))).1
  bad := ck bad 208 (Near.near (0.001 : R) v6 (Vec3.oneY : Vec3 R))
  let v7 : Vec3 R := (Vec3.oneZ : Vec3 R)
  let v8 : Vec3 R := ((Vec3.normalize v7 (1 : R))).1
  bad := ck bad 212 (Near.near (0.001 : R) v8 (Vec3.oneZ : Vec3 R))
  let v9 : Vec3 R := (Vec3.zero : Vec3 R)
  let v10 : Vec3 R := ((Vec3.normalize v9 (2.0 : R))).1
  bad := ck bad 217 (Near.near (0.001 : R) v10 (Vec3.zero : Vec3 R))
  let v11 : Vec3 R := (Vec3.oneX : Vec3 R)
  let v12 : Vec3 R := ((Vec3.normalize v11 (2.0 : R))).1
  bad := ck bad 221 (Near.near (0.001 : R) v12 ((Vec3.oneX : Vec3 R) * (2.0 : R)))
  let v13 : Vec3 R := (Vec3.oneY : Vec3 R)
  let v14 : Vec3 R := ((Vec3.normalize v13 (2.0 : R))).1
  bad := ck bad 225 (Near.near (0.001 : R) v14 ((Vec3.oneY : Vec3 R) * (2.0 : R)))
  let v15 : Vec3 R := (Vec3.oneZ : Vec3 R)
  let v16 : Vec3 R := ((Vec3.normalize v15 (2.0 : R))).1
  bad := ck bad 229 (Near.near (0.001 : R) v16 ((Vec3.oneZ : Vec3 R) * (2.0 : R)))
  return bad
end Vec3_15
#guard passes Vec3_15.run

namespace Vec3_16
abbrev R := Float32
def run : Res (List Nat) := do
  let mut bad : List Nat := []
  let v1 : Vec3 R := (Vec3.zero : Vec3 R)
  let v2 : Vec3 R := (Vec3.rotate v1 Coord.X ((MathFns.pi : R) / 3))
  bad := ck bad 238 (Near.near (0.001 : R) v2 (Vec3.zero : Vec3 R))
  let v3 : Vec3 R := (Vec3.zero : Vec3 R)
  let v4 : Vec3 R := (Vec3.rotate v3 Coord.Y ((MathFns.pi : R) / 3))
  bad := ck bad 242 (Near.near (0.001 : R) v4 (Vec3.zero : Vec3 R))
  let v5 : Vec3 R := (Vec3.zero : Vec3 R)
  let v6 : Vec3 R := (Vec3.rotate v5 Coord.Z ((MathFns.pi : R) / 3))
  bad := ck bad 246 (Near.near (0.001 : R) v6 (Vec3.zero : Vec3 R))
  let v7 : Vec3 R := (Vec3.oneX : Vec3 R)
  let v8 : Vec3 R := (Vec3.rotate v7 Coord.X ((MathFns.pi : R) / 2))
  bad := ck bad 250 (Near.near (0.001 : R) v8 (Vec3.oneX : Vec3 R))
  let v9 : Vec3 R := (Vec3.oneX : Vec3 R)
  let v10 : Vec3 R := (Vec3.rotate v9 Coord.Y ((MathFns.pi : R) / 2))
  bad := ck bad 254 (Near.near (0.001 : R) v10 (-(Vec3.oneZ : Vec3 R)))
  let v11 : Vec3 R := (Vec3.oneX : Vec3 R)
  let v12 : Vec3 R := (Vec3.rotate v11 Coord.Z ((MathFns.pi : R) / 2))
  bad := ck bad 258 (Near.near (0.001 : R) v12 (Vec3.oneY : Vec3 R))
  let v13 : Vec3 R := (Vec3.oneY : Vec3 R)
  let v14 : Vec3 R := (Vec3.rotate v13 Coord.X ((MathFns.pi : R) / 2))
  bad := ck bad 262 (Near.near (0.001 : R) v14 (Vec3.oneZ : Vec3 R))
  let v15 : Vec3 R := (Vec3.oneY : Vec3 R)
  let v16 : Vec3 R := (Vec3.rotate v15 Coord.Y ((MathFns.pi : R) / 2))
  bad := ck bad 266 (Near.near (0.001 : R) v16 (Vec3.oneY : Vec3 R))
  let v17 : Vec3 R := (Vec3.oneY : Vec3 R)
  let v18 : Vec3 R := (Vec3.rotate v17 Coord.Z ((MathFns.pi : R) / 2))
  bad := ck bad 270 (Near.near (0.001 : R) v18 (-(Vec3.oneX : Vec3 R)))
  let v19 : Vec3 R := (Vec3.oneZ : Vec3 R)
  let v20 : Vec3 R := (Vec3.rotate v19 Coord.X ((MathFns.pi : R) / 2))
  bad := ck bad 274 (Near.near (0.001 : R) v20 (-(Vec3.oneY : Vec3 R)))
  let v21 : Vec3 R := (Vec3.oneZ : Vec3 R)
  let v22 : Vec3 R := (Vec3.rotate v21 Coord.Y ((MathFns.pi : R) / 2))
  bad := ck bad 278 (Near.near (0.001 : R) v22 (Vec3.oneX : Vec3 R))
  let v23 : Vec3 R := (Vec3.oneZ : Vec3 R)
  let v24 : Vec3 R := (Vec3.rotate v23 Coord.Z ((MathFns.pi : R) / 2))
  bad := ck bad 282 (Near.near (0.001 : R) v24 (Vec3.oneZ : Vec3 R))
  return bad
end Vec3_16
#guard passes Vec3_16.run

namespace Vec3_17
abbrev R := Float32
def run : Res (List Nat) := do
  let mut bad : List Nat := []
  let v1 : Vec3 R := (Vec3.zero : Vec3 R)
  let v2 : Vec3 R := (Vec3.mirror v1 Coord.X)
  bad := ck bad 291 (Near.near (0.001 : R) v2 (Vec3.zero : Vec3 R))
  let v3 : Vec3 R := (Vec3.zero : Vec3 R)
  let v4 : Vec3 R := (Vec3.mirror v3 Coord.Y)
  bad := ck bad 295 (Near.near (0.001 : R) v4 (Vec3.zero : Vec3 R))
  let v5 : Vec3 R := (Vec3.zero : Vec3 R)
  let v6 : Vec3 R := (Vec3.mirror v5 Coord.Z)
  bad := ck bad 299 (Near.near (0.001 : R) v6 (Vec3.zero : Vec3 R))
  let v7 : Vec3 R := (Vec3.oneX : Vec3 R)
  let v8 : Vec3 R := (Vec3.mirror v7 Coord.X)
  bad := ck bad 303 (Near.near (0.001 : R) v8 (-(Vec3.oneX : Vec3 R)))
  let v9 : Vec3 R := (Vec3.oneX : Vec3 R)
  let v10 : Vec3 R := (Vec3.mirror v9 Coord.Y)
  bad := ck bad 307 (Near.near (0.001 : R) v10 (Vec3.oneX : Vec3 R))
  let v11 : Vec3 R := (Vec3.oneX : Vec3 R)
  let v12 : Vec3 R := (Vec3.mirror v11 Coord.Z)
  bad := ck bad 311 (Near.near (0.001 : R) v12 (Vec3.oneX : Vec3 R))
  let v13 : Vec3 R := (Vec3.oneY : Vec3 R)
  let v14 : Vec3 R := (Vec3.mirror v13 Coord.X)
  bad := ck bad 315 (Near.near (0.001 : R) v14 (Vec3.oneY : Vec3 R))
  let v15 : Vec3 R := (Vec3.oneY : Vec3 R)
  let v16 : Vec3 R := (Vec3.mirror v15 Coord.Y)
  bad := ck bad 319 (Near.near (0.001 : R) v16 (-(Vec3.oneY : Vec3 R)))
  let v17 : Vec3 R := (Vec3.oneY : Vec3 R)
  let v18 : Vec3 R := (Vec3.mirror v17 Coord.Z)
  bad := ck bad 323 (Near.near (0.001 : R) v18 (Vec3.oneY : Vec3 R))
  let v19 : Vec3 R := (Vec3.oneZ : Vec3 R)
  let v20 : Vec3 R := (Vec3.mirror v19 Coord.X)
  bad := ck bad 327 (Near.near (0.001 : R) v20 (Vec3.oneZ : Vec3 R))
  let v21 : Vec3 R := (Vec3.oneZ : Vec3 R)
  let v22 : Vec3 R := (Vec3.mirror v21 Coord.Y)
  bad := ck bad 331 (Near.near (0.001 : R) v22 (Vec3.oneZ : Vec3 R))
  let v23 : Vec3 R := (Vec3.oneZ : Vec3 R)
  let v24 : Vec3 R := (Vec3.mirror v23 Coord.Z)
  bad := ck bad 335 (Near.near (0.001 : R) v24 (-(Vec3.oneZ : Vec3 R)))
  return bad
end Vec3_17
#guard passes Vec3_17.run

namespace Vec3_18
abbrev R := Float32
def run : Res (List Nat) := do
  let mut bad : List Nat := []
  let v1 : Vec3 R := (⟨(1 : R), (2 : R), (3 : R)⟩ : Vec3 R)
  bad := ck bad 344 ((← Vec3.get v1 Coord.X) == (1.0 : R))
  bad := ck bad 345 ((← Vec3.get v1 Coord.Y) == (2.0 : R))
  bad := ck bad 346 ((← Vec3.get v1 Coord.Z) == (3.0 : R))
  let v2 : Vec3 R := { v1 with x := (1001.0 : R) }
  let v3 : Vec3 R := { v2 with y := (1002.0 : R) }
  let v4 : Vec3 R := { v3 with z := (1003.0 : R) }
  bad := ck bad 350 ((← Vec3.get v4 Coord.X) == (1001.0 : R))
  bad := ck bad 351 ((← Vec3.get v4 Coord.Y) == (1002.0 : R))
  bad := ck bad 352 ((← Vec3.get v4 Coord.Z) == (1003.0 : R))
  return bad
end Vec3_18
#guard passes Vec3_18.run

namespace Vec3_19
abbrev R := Float32
def run : Res (List Nat) := do
  let mut bad : List Nat := []
  let v1 : Vec3 R := (⟨(1 : R), (2 : R), (3 : R)⟩ : Vec3 R)
  let v2 : Vec3 R := (Vec3.addAssign v1 (⟨(10 : R), (11 : R), (12 : R)⟩ : Vec3 R))
  bad := ck bad 361 (Near.near (0.001 : R) v2 (⟨(11 : R), (13 : R), (15 : R)⟩ : Vec3 R))
  return bad
end Vec3_19
#guard passes Vec3_19.run

namespace Vec3_20
abbrev R := Float32
def run : Res (List Nat) := do
  let mut bad : List Nat := []
  let v1 : Vec3 R := (⟨(1 : R), (2 : R), (3 : R)⟩ : Vec3 R)
  let v2 : Vec3 R := (Vec3.subAssign v1 (⟨(10 : R), (11 : R), (12 : R)⟩ : Vec3 R))
  bad := ck bad 368 (Near.near (0.001 : R) v2 (⟨(-9 : R), (-9 : R), (-9 : R)⟩ : Vec3 R))
  return bad
end Vec3_20
#guard passes Vec3_20.run

namespace Vec3_21
abbrev R := Float32
def run : Res (List Nat) := do
  let mut bad : List Nat := []
  let v1 : Vec3 R := (⟨(1 : R), (2 : R), (3 : R)⟩ : Vec3 R)
  let v2 : Vec3 R := (Vec3.mulAssign v1 (3 : R))
  bad := ck bad 375 (Near.near (0.001 : R) v2 (⟨(3 : R), (6 : R), (9 : R)⟩ : Vec3 R))
  return bad
end Vec3_21
#guard passes Vec3_21.run

namespace Vec3_22
abbrev R := Float32
def run : Res (List Nat) := do
  let mut bad : List Nat := []
  let v1 : Vec3 R := (⟨(1 : R), (2 : R), (3 : R)⟩ : Vec3 R)
  let v2 : Vec3 R := (Mat3.vecMulAssign v1 (Mat3.ofCols (⟨(4 : R), (5 : R), (6 : R)⟩ : Vec3 R) (⟨(7 : R), (8 : R), (9 : R)⟩ : Vec3 R) (⟨(10 : R), (11 : R), (12 : R)⟩ : Vec3 R)))
  bad := ck bad 386 (Near.near (0.001 : R) v2 (⟨(32 : R), (50 : R), (68 : R)⟩ : Vec3 R))
  return bad
end Vec3_22
#guard passes Vec3_22.run

namespace Vec3_23
abbrev R := Float32
def run : Res (List Nat) := do
  let mut bad : List Nat := []
  let v1 : Vec3 R := (⟨(1 : R), (2 : R), (3 : R)⟩ : Vec3 R)
  let v2 : Vec3 R := (← Vec3.divAssign v1 (2 : R))
  bad := ck bad 393 (Near.near (0.001 : R) v2 (⟨(0.5 : R), (1 : R), (1.5 : R)⟩ : Vec3 R))
  return bad
end Vec3_23
#guard passes Vec3_23.run

namespace Vec3_24
abbrev R := Float32
def run : Res (List Nat) := do
  let mut bad : List Nat := []
  let v1 : Vec3 R := (⟨(1 : R), (2 : R), (3 : R)⟩ : Vec3 R)
  let v2 : Vec3 R := (Vec3.crossAssign v1 (⟨(4 : R), (5 : R), (6 : R)⟩ : Vec3 R))
  bad := ck bad 400 (Near.near (0.001 : R) v2 (⟨(-3 : R), (6 : R), (-3 : R)⟩ : Vec3 R))
  return bad
end Vec3_24
#guard passes Vec3_24.run

namespace Vec3_25
abbrev R := Float32
def run : Res (List Nat) := do
  let mut bad : List Nat := []
  let v1 : Vec3 R := (⟨(1 : R), (2 : R), (3 : R)⟩ : Vec3 R)
  let v2 : Vec3 R := (← Vec3.crossAssignCoord v1 Coord.Z)
  bad := ck bad 407 (Near.near (0.001 : R) v2 (⟨(2 : R), (-1 : R), (0 : R)⟩ : Vec3 R))
  return bad
end Vec3_25
#guard passes Vec3_25.run

namespace Vec3_26
abbrev R := Float32
def run : Res (List Nat) := do
  let mut bad : List Nat := []
  let v1 : Vec3 R := (⟨(1 : R), (2 : R), (3 : R)⟩ : Vec3 R)
  bad := ck bad 415 (Near.near (0.001 : R) (v1 + (⟨(10 : R), (11 : R), (12 : R)⟩ : Vec3 R)) (⟨(11 : R), (13 : R), (15 : R)⟩ : Vec3 R))
  return bad
end Vec3_26
#guard passes Vec3_26.run

namespace Vec3_27
abbrev R := Float32
def run : Res (List Nat) := do
  let mut bad : List Nat := []
  let v1 : Vec3 R := (⟨(1 : R), (2 : R), (3 : R)⟩ : Vec3 R)
  bad := ck bad 421 (Near.near (0.001 : R) (-v1) (⟨(-1 : R), (-2 : R), (-3 : R)⟩ : Vec3 R))
  return bad
end Vec3_27
#guard passes Vec3_27.run

namespace Vec3_28
abbrev R := Float32
def run : Res (List Nat) := do
  let mut bad : List Nat := []
  let v1 : Vec3 R := (⟨(1 : R), (2 : R), (3 : R)⟩ : Vec3 R)
  bad := ck bad 427 (Near.near (0.001 : R) (v1 - (⟨(10 : R), (11 : R), (12 : R)⟩ : Vec3 R)) (⟨(-9 : R), (-9 : R), (-9 : R)⟩ : Vec3 R))
  return bad
end Vec3_28
#guard passes Vec3_28.run

namespace Vec3_29
abbrev R := Float32
def run : Res (List Nat) := do
  let mut bad : List Nat := []
  let v1 : Vec3 R := (⟨(1 : R), (2 : R), (3 : R)⟩ : Vec3 R)
  bad := ck bad 433 ((Vec3.dot v1 (⟨(10 : R), (11 : R), (12 : R)⟩ : Vec3 R)) == (68 : R))
  return bad
end Vec3_29
#guard passes Vec3_29.run

namespace Vec3_30
abbrev R := Float32
def run : Res (List Nat) := do
  let mut bad : List Nat := []
  let v1 : Vec3 R := (⟨(1 : R), (2 : R), (3 : R)⟩ : Vec3 R)
  let v2 : Mat3 R := (Mat3.ofCols (⟨(4 : R), (5 : R), (6 : R)⟩ : Vec3 R) (⟨(7 : R), (8 : R), (9 : R)⟩ : Vec3 R) (⟨(10 : R), (11 : R), (12 : R)⟩ : Vec3 R))
  bad := ck bad 444 (Near.near (0.001 : R) (Mat3.vecMul v1 v2) (⟨(32 : R), (50 : R), (68 : R)⟩ : Vec3 R))
  return bad
end Vec3_30
#guard passes Vec3_30.run

namespace Vec3_31
abbrev R := Float32
def run : Res (List Nat) := do
  let mut bad : List Nat := []
  let v1 : Vec3 R := (⟨(1 : R), (2 : R), (3 : R)⟩ : Vec3 R)
  bad := ck bad 450 (Near.near (0.001 : R) (Vec3.cross v1 (⟨(4 : R), (5 : R), (6 : R)⟩ : Vec3 R)) (⟨(-3 : R), (6 : R), (-3 : R)⟩ : Vec3 R))
  return bad
end Vec3_31
#guard passes Vec3_31.run

namespace Vec3_32
abbrev R := Float32
def run : Res (List Nat) := do
  let mut bad : List Nat := []
  let v1 : Vec3 R := (⟨(1 : R), (2 : R), (3 : R)⟩ : Vec3 R)
  bad := ck bad 456 (Near.near (0.001 : R) (← Vec3.crossCoord v1 Coord.Z) (⟨(2 : R), (-1 : R), (0 : R)⟩ : Vec3 R))
  return bad
end Vec3_32
#guard passes Vec3_32.run

namespace Vec3_33
abbrev R := Float32
def run : Res (List Nat) := do
  let mut bad : List Nat := []
  let v1 : Vec3 R := (⟨(1 : R), (2 : R), (3 : R)⟩ : Vec3 R)
  bad := ck bad 462 (Near.near (0.001 : R) (v1 * (2 : R)) (⟨(2 : R), (4 : R), (6 : R)⟩ : Vec3 R))
  return bad
end Vec3_33
#guard passes Vec3_33.run

namespace Vec3_34
abbrev R := Float32
def run : Res (List Nat) := do
  let mut bad : List Nat := []
  let v1 : Vec3 R := (⟨(1 : R), (2 : R), (3 : R)⟩ : Vec3 R)
  bad := ck bad 468 (Near.near (0.001 : R) (← Vec3.div v1 (0.5 : R)) (⟨(2 : R), (4 : R), (6 : R)⟩ : Vec3 R))
  return bad
end Vec3_34
#guard passes Vec3_34.run

namespace Vec3_35
abbrev R := Float32
def run : Res (List Nat) := do
  let mut bad : List Nat := []
  let v1 : Vec3 R := (⟨(1 : R), (2 : R), (3 : R)⟩ : Vec3 R)
  bad := ck bad 476 (Vec3.eq v1 v1)
  bad := ck bad 477 (Vec3.eq v1 (⟨(1 : R), (2 : R), (3 : R)⟩ : Vec3 R))
  return bad
end Vec3_35
#guard passes Vec3_35.run

namespace Vec3_36
abbrev R := Float32
def run : Res (List Nat) := do
  let mut bad : List Nat := []
  let v1 : Vec3 R := (⟨(1 : R), (2 : R), (3 : R)⟩ : Vec3 R)
  bad := ck bad 483 (!(Vec3.ne v1 v1))
  bad := ck bad 484 (Vec3.ne v1 (⟨(1.1 : R), (2 : R), (3 : R)⟩ : Vec3 R))
  return bad
end Vec3_36
#guard passes Vec3_36.run

namespace Vec3_37
abbrev R := Float32
def run : Res (List Nat) := do
  let mut bad : List Nat := []
  bad := ck bad 491 (Near.near (0.001 : R) (Vec3.zero : Vec3 R) (Vec3.zero : Vec3 R))
  bad := ck bad 492 (Near.near (0.001 : R) (Vec3.oneX : Vec3 R) (Vec3.oneX : Vec3 R))
  bad := ck bad 493 (Near.near (0.001 : R) (Vec3.oneY : Vec3 R) (Vec3.oneY : Vec3 R))
  bad := ck bad 494 (Near.near (0.001 : R) (Vec3.oneZ : Vec3 R) (Vec3.oneZ : Vec3 R))
  return bad
end Vec3_37
#guard passes Vec3_37.run

namespace Vec3_38
abbrev R := Float32
def run : Res (List Nat) := do
  let mut bad : List Nat := []
  bad := ck bad 499 (Near.near (1e-10 : R) (Vec3.length (Vec3.zero : Vec3 R)) (0.0 : R))
  bad := ck bad 500 (Near.near (1e-10 : R) (Vec3.length (Vec3.oneX : Vec3 R)) (1.0 : R))
  bad := ck bad 501 (Near.near (1e-10 : R) (Vec3.length (Vec3.oneY : Vec3 R)) (1.0 : R))
  bad := ck bad 502 (Near.near (1e-10 : R) (Vec3.length (Vec3.oneZ : Vec3 R)) (1.0 : R))
  bad := ck bad 503 (Near.near (1e-6 : R) (Vec3.length (⟨(2 : R), (2 : R), (2 : R)⟩ : Vec3 R)) ((MathFns.sqrt (3.0 : R)) * (2 : R)))
  return bad
end Vec3_38
#guard passes Vec3_38.run

namespace Vec3_39
abbrev R := Float32
def run : Res (List Nat) := do
  let mut bad : List Nat := []
  bad := ck bad 508 (Near.near (1e-10 : R) (Vec3.lengthSqr (Vec3.zero : Vec3 R)) (0.0 : R))
  bad := ck bad 509 (Near.near (1e-10 : R) (Vec3.lengthSqr (Vec3.oneX : Vec3 R)) (1.0 : R))
  bad := ck bad 510 (Near.near (1e-10 : R) (Vec3.lengthSqr (Vec3.oneY : Vec3 R)) (1.0 : R))
  bad := ck bad 511 (Near.near (1e-10 : R) (Vec3.lengthSqr (Vec3.oneZ : Vec3 R)) (1.0 : R))
  bad := ck bad 512 (Near.near (1e-10 : R) (Vec3.lengthSqr (⟨(2 : R), (2 : R), (2 : R)⟩ : Vec3 R)) (12.0 : R))
  return bad
end Vec3_39
#guard passes Vec3_39.run

namespace Vec3_40
abbrev R := Float32
def run : Res (List Nat) := do
  let mut bad : List Nat := []
  bad := ck bad 517 (Near.near (0.001 : R) (Vec3.normalized (Vec3.zero : Vec3 R) (1 : R)) (Vec3.zero : Vec3 R))
  bad := ck bad 518 (Near.near (0.001 : R) (Vec3.normalized (Vec3.oneX : Vec3 R) (1 : R)) (Vec3.oneX : Vec3 R))
  bad := ck bad 519 (Near.near (0.001 : R) (Vec3.normalized (Vec3.oneY : Vec3 R) (1 : R)) (Vec3.oneY : Vec3 R))
  bad := ck bad 520 (Near.near (0.001 : R) (Vec3.normalized (Vec3.oneZ : Vec3 R) (1 : R)) (Vec3.oneZ : Vec3 R))
  bad := ck bad 522 (Near.near (0.001 : R) (Vec3.normalized (Vec3.zero : Vec3 R) (2.0 : R)) (Vec3.zero : Vec3 R))
  bad := ck bad 523 (Near.near (0.001 : R) (Vec3.normalized (Vec3.oneX : Vec3 R) (2.0 : R)) ((Vec3.oneX : Vec3 R) * (2.0 : R)))
  bad := ck bad 524 (Near.near (0.001 : R) (Vec3.normalized (Vec3.oneY : Vec3 R) (2.0 : R)) ((Vec3.oneY : Vec3 R) * (2.0 : R)))
  bad := ck bad 525 (Near.near (0.001 : R) (Vec3.normalized (Vec3.oneZ : Vec3 R) (2.0 : R)) ((Vec3.oneZ : Vec3 R) * (2.0 : R)))
  return bad
end Vec3_40
#guard passes Vec3_40.run

namespace Vec3_41
abbrev R := Float32
def run : Res (List Nat) := do
  let mut bad : List Nat := []
  bad := ck bad 530 (Vec3.eq (Vec3.moved (Vec3.zero : Vec3 R) Coord.X (0.0 : R)) (Vec3.zero : Vec3 R))
  bad := ck bad 531 (Vec3.eq (Vec3.moved (Vec3.zero : Vec3 R) Coord.Y (0.0 : R)) (Vec3.zero : Vec3 R))
  bad := ck bad 532 (Vec3.eq (Vec3.moved (Vec3.zero : Vec3 R) Coord.Z (0.0 : R)) (Vec3.zero : Vec3 R))
  bad := ck bad 533 (Vec3.eq (Vec3.moved (Vec3.zero : Vec3 R) Coord.X (1.0 : R)) (Vec3.oneX : Vec3 R))
  bad := ck bad 534 (Vec3.eq (Vec3.moved (Vec3.zero : Vec3 R) Coord.Y (1.0 : R)) (Vec3.oneY : Vec3 R))
  bad := ck bad 535 (Vec3.eq (Vec3.moved (Vec3.zero : Vec3 R) Coord.Z (1.0 : R)) (Vec3.oneZ : Vec3 R))
  return bad
end Vec3_41
#guard passes Vec3_41.run

namespace Vec3_42
abbrev R := Float32
def run : Res (List Nat) := do
  let mut bad : List Nat := []
  bad := ck bad 540 (Near.near (0.001 : R) (Vec3.rotated (Vec3.zero : Vec3 R) Coord.X ((MathFns.pi : R) / 3)) (Vec3.zero : Vec3 R))
  bad := ck bad 541 (Near.near (0.001 : R) (Vec3.rotated (Vec3.zero : Vec3 R) Coord.Y ((MathFns.pi : R) / 3)) (Vec3.zero : Vec3 R))
  bad := ck bad 542 (Near.near (0.001 : R) (Vec3.rotated (Vec3.zero : Vec3 R) Coord.Z ((MathFns.pi : R) / 3)) (Vec3.zero : Vec3 R))
  bad := ck bad 544 (Near.near (0.001 : R) (Vec3.rotated (Vec3.oneX : Vec3 R) Coord.X ((MathFns.pi : R) / 2)) (Vec3.oneX : Vec3 R))
  bad := ck bad 545 (Near.near (0.001 : R) (Vec3.rotated (Vec3.oneX : Vec3 R) Coord.Y ((MathFns.pi : R) / 2)) (-(Vec3.oneZ : Vec3 R)))
  bad := ck bad 546 (Near.near (0.001 : R) (Vec3.rotated (Vec3.oneX : Vec3 R) Coord.Z ((MathFns.pi : R) / 2)) (Vec3.oneY : Vec3 R))
  bad := ck bad 548 (Near.near (0.001 : R) (Vec3.rotated (Vec3.oneY : Vec3 R) Coord.X ((MathFns.pi : R) / 2)) (Vec3.oneZ : Vec3 R))
  bad := ck bad 549 (Near.near (0.001 : R) (Vec3.rotated (Vec3.oneY : Vec3 R) Coord.Y ((MathFns.pi : R) / 2)) (Vec3.oneY : Vec3 R))
  bad := ck bad 550 (Near.near (0.001 : R) (Vec3.rotated (Vec3.oneY : Vec3 R) Coord.Z ((MathFns.pi : R) / 2)) (-(Vec3.oneX : Vec3 R)))
  bad := ck bad 552 (Near.near (0.001 : R) (Vec3.rotated (Vec3.oneZ : Vec3 R) Coord.X ((MathFns.pi : R) / 2)) (-(Vec3.oneY : Vec3 R)))
  bad := ck bad 553 (Near.near (0.001 : R) (Vec3.rotated (Vec3.oneZ : Vec3 R) Coord.Y ((MathFns.pi : R) / 2)) (Vec3.oneX : Vec3 R))
  bad := ck bad 554 (Near.near (0.001 : R) (Vec3.rotated (Vec3.oneZ : Vec3 R) Coord.Z ((MathFns.pi : R) / 2)) (Vec3.oneZ : Vec3 R))
  return bad
end Vec3_42
#guard passes Vec3_42.run

namespace Vec3_43
abbrev R := Float32
def run : Res (List Nat) := do
  let mut bad : List Nat := []
  bad := ck bad 559 (Near.near (0.001 : R) (Vec3.mirrored (Vec3.zero : Vec3 R) Coord.X) (Vec3.zero : Vec3 R))
  bad := ck bad 560 (Near.near (0.001 : R) (Vec3.mirrored (Vec3.zero : Vec3 R) Coord.Y) (Vec3.zero : Vec3 R))
  bad := ck bad 561 (Near.near (0.001 : R) (Vec3.mirrored (Vec3.zero : Vec3 R) Coord.Z) (Vec3.zero : Vec3 R))
  bad := ck bad 562 (Near.near (0.001 : R) (Vec3.mirrored (Vec3.oneX : Vec3 R) Coord.X) (-(Vec3.oneX : Vec3 R)))
  bad := ck bad 563 (Near.near (0.001 : R) (Vec3.mirrored (Vec3.oneX : Vec3 R) Coord.Y) (Vec3.oneX : Vec3 R))
  bad := ck bad 564 (Near.near (0.001 : R) (Vec3.mirrored (Vec3.oneX : Vec3 R) Coord.Z) (Vec3.oneX : Vec3 R))
  bad := ck bad 565 (Near.near (0.001 : R) (Vec3.mirrored (Vec3.oneY : Vec3 R) Coord.X) (Vec3.oneY : Vec3 R))
  bad := ck bad 566 (Near.near (0.001 : R) (Vec3.mirrored (Vec3.oneY : Vec3 R) Coord.Y) (-(Vec3.oneY : Vec3 R)))
  bad := ck bad 567 (Near.near (0.001 : R) (Vec3.mirrored (Vec3.oneY : Vec3 R) Coord.Z) (Vec3.oneY : Vec3 R))
  bad := ck bad 568 (Near.near (0.001 : R) (Vec3.mirrored (Vec3.oneZ : Vec3 R) Coord.X) (Vec3.oneZ : Vec3 R))
  bad := ck bad 569 (Near.near (0.001 : R) (Vec3.mirrored (Vec3.oneZ : Vec3 R) Coord.Y) (Vec3.oneZ : Vec3 R))
  bad := ck bad 570 (Near.near (0.001 : R) (Vec3.mirrored (Vec3.oneZ : Vec3 R) Coord.Z) (-(Vec3.oneZ : Vec3 R)))
  return bad
end Vec3_43
#guard passes Vec3_43.run

namespace Vec3_44
abbrev R := Float32
def run : Res (List Nat) := do
  let mut bad : List Nat := []
  bad := ck bad 575 (decide ((Vec3.majorCoord (Vec3.zero : Vec3 R)) = Coord.X))
  bad := ck bad 576 (decide ((Vec3.majorCoord (Vec3.oneX : Vec3 R)) = Coord.X))
  bad := ck bad 577 (decide ((Vec3.majorCoord (Vec3.oneY : Vec3 R)) = Coord.Y))
  bad := ck bad 578 (decide ((Vec3.majorCoord (Vec3.oneZ : Vec3 R)) = Coord.Z))
  bad := ck bad 579 (decide ((Vec3.majorCoord (⟨(2 : R), (2 : R), (2 : R)⟩ : Vec3 R)) = Coord.X))
  bad := ck bad 580 (decide ((Vec3.majorCoord (⟨(1 : R), (2 : R), (3 : R)⟩ : Vec3 R)) = Coord.Z))
  bad := ck bad 581 (decide ((Vec3.majorCoord (⟨(1 : R), (3 : R), (2 : R)⟩ : Vec3 R)) = Coord.Y))
  bad := ck bad 582 (decide ((Vec3.majorCoord (⟨(3 : R), (1 : R), (2 : R)⟩ : Vec3 R)) = Coord.X))
  return bad
end Vec3_44
#guard passes Vec3_44.run

namespace Vec3_45
abbrev R := Float32
def run : Res (List Nat) := do
  let mut bad : List Nat := []
  bad := ck bad 587 (decide ((Vec3.minorCoord (Vec3.zero : Vec3 R)) = Coord.Z))
  bad := ck bad 588 (decide ((Vec3.minorCoord (Vec3.oneX : Vec3 R)) = Coord.Z))
  bad := ck bad 589 (decide ((Vec3.minorCoord (Vec3.oneY : Vec3 R)) = Coord.Z))
  bad := ck bad 590 (decide ((Vec3.minorCoord (Vec3.oneZ : Vec3 R)) = Coord.Y))
  bad := ck bad 591 (decide ((Vec3.minorCoord (⟨(2 : R), (2 : R), (2 : R)⟩ : Vec3 R)) = Coord.Z))
  bad := ck bad 592 (decide ((Vec3.minorCoord (⟨(1 : R), (2 : R), (3 : R)⟩ : Vec3 R)) = Coord.X))
  bad := ck bad 593 (decide ((Vec3.minorCoord (⟨(3 : R), (1 : R), (2 : R)⟩ : Vec3 R)) = Coord.Y))
  bad := ck bad 594 (decide ((Vec3.minorCoord (⟨(3 : R), (2 : R), (1 : R)⟩ : Vec3 R)) = Coord.Z))
  return bad
end Vec3_45
#guard passes Vec3_45.run

namespace Vec3_46
abbrev R := Float32
def run : Res (List Nat) := do
  let mut bad : List Nat := []
  bad := ck bad 599 (Vec3.isNull (Vec3.zero : Vec3 R))
  bad := ck bad 600 (!(Vec3.isNull (Vec3.oneX : Vec3 R)))
  bad := ck bad 601 (!(Vec3.isNull (Vec3.oneY : Vec3 R)))
  bad := ck bad 602 (!(Vec3.isNull (Vec3.oneZ : Vec3 R)))
  bad := ck bad 603 (!(Vec3.isNull (⟨(2 : R), (2 : R), (2 : R)⟩ : Vec3 R)))
  bad := ck bad 604 (!(Vec3.isNull (⟨(1 : R), (2 : R), (3 : R)⟩ : Vec3 R)))
  bad := ck bad 605 (!(Vec3.isNull (⟨(3 : R), (1 : R), (2 : R)⟩ : Vec3 R)))
  bad := ck bad 606 (!(Vec3.isNull (⟨(3 : R), (2 : R), (1 : R)⟩ : Vec3 R)))
  return bad
end Vec3_46
#guard passes Vec3_46.run

namespace Vec3_47
abbrev R := Float32
def run : Res (List Nat) := do
  let mut bad : List Nat := []
  let v1 : Vec3 R := (⟨(1 : R), (2 : R), (3 : R)⟩ : Vec3 R)
  bad := ck bad 612 (Near.near (0.001 : R) (Vec3.toVec2 v1 Coord.X) (⟨(2 : R), (3 : R)⟩ : Vec2 R))
  bad := ck bad 613 (Near.near (0.001 : R) (Vec3.toVec2 v1 Coord.Y) (⟨(3 : R), (1 : R)⟩ : Vec2 R))
  bad := ck bad 614 (Near.near (0.001 : R) (Vec3.toVec2 v1 Coord.Z) (⟨(1 : R), (2 : R)⟩ : Vec2 R))
  return bad
end Vec3_47
#guard passes Vec3_47.run

namespace Vec3_48
abbrev R := Float32
def run : Res (List Nat) := do
  let mut bad : List Nat := []
  bad := ck bad 644 (Near.near (0.001 : R) (Vec3.product (Vec3.zero : Vec3 R) (Vec3.oneX : Vec3 R)) (Vec3.zero : Vec3 R))
  bad := ck bad 645 (Near.near (0.001 : R) (Vec3.product (Vec3.zero : Vec3 R) (Vec3.oneY : Vec3 R)) (Vec3.zero : Vec3 R))
  bad := ck bad 646 (Near.near (0.001 : R) (Vec3.product (Vec3.zero : Vec3 R) (Vec3.oneZ : Vec3 R)) (Vec3.zero : Vec3 R))
  bad := ck bad 647 (Near.near (0.001 : R) (Vec3.product (Vec3.oneX : Vec3 R) (Vec3.oneY : Vec3 R)) (Vec3.zero : Vec3 R))
  bad := ck bad 648 (Near.near (0.001 : R) (Vec3.product (Vec3.oneX : Vec3 R) (Vec3.oneZ : Vec3 R)) (Vec3.zero : Vec3 R))
  bad := ck bad 649 (Near.near (0.001 : R) (Vec3.product (Vec3.oneY : Vec3 R) (Vec3.oneX : Vec3 R)) (Vec3.zero : Vec3 R))
  bad := ck bad 650 (Near.near (0.001 : R) (Vec3.product (Vec3.oneY : Vec3 R) (Vec3.oneZ : Vec3 R)) (Vec3.zero : Vec3 R))
  bad := ck bad 651 (Near.near (0.001 : R) (Vec3.product (Vec3.oneZ : Vec3 R) (Vec3.oneX : Vec3 R)) (Vec3.zero : Vec3 R))
  bad := ck bad 652 (Near.near (0.001 : R) (Vec3.product (Vec3.oneZ : Vec3 R) (Vec3.oneY : Vec3 R)) (Vec3.zero : Vec3 R))
  bad := ck bad 653 (Near.near (0.001 : R) (Vec3.product (⟨(1 : R), (2 : R), (3 : R)⟩ : Vec3 R) (⟨(4 : R), (5 : R), (6 : R)⟩ : Vec3 R)) (⟨(4 : R), (10 : R), (18 : R)⟩ : Vec3 R))
  return bad
end Vec3_48
#guard passes Vec3_48.run

namespace Vec3_49
abbrev R := Float32
def run : Res (List Nat) := do
  let mut bad : List Nat := []
  bad := ck bad 658 (Near.near (0.001 : R) (Vec3.min (Vec3.zero : Vec3 R) (Vec3.oneX : Vec3 R)) (Vec3.zero : Vec3 R))
  bad := ck bad 659 (Near.near (0.001 : R) (Vec3.min (Vec3.zero : Vec3 R) (Vec3.oneY : Vec3 R)) (Vec3.zero : Vec3 R))
  bad := ck bad 660 (Near.near (0.001 : R) (Vec3.min (Vec3.zero : Vec3 R) (Vec3.oneZ : Vec3 R)) (Vec3.zero : Vec3 R))
  bad := ck bad 661 (Near.near (0.001 : R) (Vec3.min (Vec3.oneX : Vec3 R) (Vec3.oneY : Vec3 R)) (Vec3.zero : Vec3 R))
  bad := ck bad 662 (Near.near (0.001 : R) (Vec3.min (Vec3.oneX : Vec3 R) (Vec3.oneZ : Vec3 R)) (Vec3.zero : Vec3 R))
  bad := ck bad 663 (Near.near (0.001 : R) (Vec3.min (Vec3.oneY : Vec3 R) (Vec3.oneX : Vec3 R)) (Vec3.zero : Vec3 R))
  bad := ck bad 664 (Near.near (0.001 : R) (Vec3.min (Vec3.oneY : Vec3 R) (Vec3.oneZ : Vec3 R)) (Vec3.zero : Vec3 R))
  bad := ck bad 665 (Near.near (0.001 : R) (Vec3.min (Vec3.oneZ : Vec3 R) (Vec3.oneX : Vec3 R)) (Vec3.zero : Vec3 R))
  bad := ck bad 666 (Near.near (0.001 : R) (Vec3.min (Vec3.oneZ : Vec3 R) (Vec3.oneY : Vec3 R)) (Vec3.zero : Vec3 R))
  bad := ck bad 667 (Near.near (0.001 : R) (Vec3.min (⟨(1 : R), (2 : R), (3 : R)⟩ : Vec3 R) (⟨(4 : R), (5 : R), (6 : R)⟩ : Vec3 R)) (⟨(1 : R), (2 : R), (3 : R)⟩ : Vec3 R))
  return bad
end Vec3_49
#guard passes Vec3_49.run

namespace Vec3_50
abbrev R := Float32
def run : Res (List Nat) := do
  let mut bad : List Nat := []
  bad := ck bad 672 (Near.near (0.001 : R) (Vec3.max (Vec3.zero : Vec3 R) (Vec3.oneX : Vec3 R)) (Vec3.oneX : Vec3 R))
  bad := ck bad 673 (Near.near (0.001 : R) (Vec3.max (Vec3.zero : Vec3 R) (Vec3.oneY : Vec3 R)) (Vec3.oneY : Vec3 R))
  bad := ck bad 674 (Near.near (0.001 : R) (Vec3.max (Vec3.zero : Vec3 R) (Vec3.oneZ : Vec3 R)) (Vec3.oneZ : Vec3 R))
  bad := ck bad 675 (Near.near (0.001 : R) (Vec3.max (Vec3.oneX : Vec3 R) (Vec3.oneY : Vec3 R)) (⟨(1 : R), (1 : R), (0 : R)⟩ : Vec3 R))
  bad := ck bad 676 (Near.near (0.001 : R) (Vec3.max (Vec3.oneX : Vec3 R) (Vec3.oneZ : Vec3 R)) (⟨(1 : R), (0 : R), (1 : R)⟩ : Vec3 R))
  bad := ck bad 677 (Near.near (0.001 : R) (Vec3.max (Vec3.oneY : Vec3 R) (Vec3.oneX : Vec3 R)) (⟨(1 : R), (1 : R), (0 : R)⟩ : Vec3 R))
  bad := ck bad 678 (Near.near (0.001 : R) (Vec3.max (Vec3.oneY : Vec3 R) (Vec3.oneZ : Vec3 R)) (⟨(0 : R), (1 : R), (1 : R)⟩ : Vec3 R))
  bad := ck bad 679 (Near.near (0.001 : R) (Vec3.max (Vec3.oneZ : Vec3 R) (Vec3.oneX : Vec3 R)) (⟨(1 : R), (0 : R), (1 : R)⟩ : Vec3 R))
  bad := ck bad 680 (Near.near (0.001 : R) (Vec3.max (Vec3.oneZ : Vec3 R) (Vec3.oneY : Vec3 R)) (⟨(0 : R), (1 : R), (1 : R)⟩ : Vec3 R))
  bad := ck bad 681 (Near.near (0.001 : R) (Vec3.max (⟨(1 : R), (2 : R), (3 : R)⟩ : Vec3 R) (⟨(4 : R), (5 : R), (6 : R)⟩ : Vec3 R)) (⟨(4 : R), (5 : R), (6 : R)⟩ : Vec3 R))
  return bad
end Vec3_50
#guard passes Vec3_50.run

namespace Vec3_51
abbrev R := Float32
def run : Res (List Nat) := do
  let mut bad : List Nat := []
  let v1 : Vec3 R := (Vec3.oneX : Vec3 R)
  bad := ck bad 696 (Near.near (0.001 : R) v1 v1)
  return bad
end Vec3_51
#guard passes Vec3_51.run

end MathLib.Conformance
