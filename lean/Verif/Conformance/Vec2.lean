import Verif.Conformance.Base

/-!
# Unit tests of `tests/tests/src/test_vec2.cpp`, replayed on the model

Generated by `tools/conform.py`; the numbers are the source lines of the checks.  171 checks;
11 checks of that file are not translated (casts, random draws, `sizeof`, `data()`, and
functions outside the model).
-/

namespace MathLib.Conformance
set_option linter.all false

namespace Vec2_0
abbrev R := Float32
def run : Res (List Nat) := do
  let mut bad : List Nat := []
  bad := ck bad 19 ((Vec2.zero : Vec2 R).x == (0.0 : R))
  bad := ck bad 20 ((Vec2.zero : Vec2 R).y == (0.0 : R))
  return bad
end Vec2_0
#guard passes Vec2_0.run

namespace Vec2_1
abbrev R := Float32
def run : Res (List Nat) := do
  let mut bad : List Nat := []
  bad := ck bad 25 ((Vec2.oneX : Vec2 R).x == (1.0 : R))
  bad := ck bad 26 ((Vec2.oneX : Vec2 R).y == (0.0 : R))
  return bad
end Vec2_1
#guard passes Vec2_1.run

namespace Vec2_2
abbrev R := Float32
def run : Res (List Nat) := do
  let mut bad : List Nat := []
  bad := ck bad 31 ((Vec2.oneY : Vec2 R).x == (0.0 : R))
  bad := ck bad 32 ((Vec2.oneY : Vec2 R).y == (1.0 : R))
  return bad
end Vec2_2
#guard passes Vec2_2.run

namespace Vec2_3
abbrev R := Float32
def run : Res (List Nat) := do
  let mut bad : List Nat := []
  let v1 : Vec2 R := (Vec2.ofScalar (42 : R))
  bad := ck bad 40 (v1.x == (42.0 : R))
  bad := ck bad 41 (v1.y == (42.0 : R))
  return bad
end Vec2_3
#guard passes Vec2_3.run

namespace Vec2_4
abbrev R := Float32
def run : Res (List Nat) := do
  let mut bad : List Nat := []
  let v1 : Vec2 R := (⟨(1 : R), (2 : R)⟩ : Vec2 R)
  bad := ck bad 47 (v1.x == (1.0 : R))
  bad := ck bad 48 (v1.y == (2.0 : R))
  return bad
end Vec2_4
#guard passes Vec2_4.run

namespace Vec2_5
abbrev R := Float32
def run : Res (List Nat) := do
  let mut bad : List Nat := []
  bad := ck bad 55 (Near.near (0.001 : R) (Vec2.ofAngle (0.0 : R) (1 : R)) (Vec2.oneX : Vec2 R))
  bad := ck bad 56 (Near.near (0.001 : R) (Vec2.ofAngle ((MathFns.pi : R) / 2) (1 : R)) (Vec2.oneY : Vec2 R))
  bad := ck bad 57 (Near.near (0.001 : R) (Vec2.ofAngle (MathFns.pi : R) (1 : R)) (-(Vec2.oneX : Vec2 R)))
  bad := ck bad 58 (Near.near (0.001 : R) (Vec2.ofAngle (((MathFns.pi : R) / 2) * (3 : R)) (1 : R)) (-(Vec2.oneY : Vec2 R)))
  bad := ck bad 59 (Near.near (0.001 : R) (Vec2.ofAngle ((MathFns.pi : R) * 2) (1 : R)) (Vec2.oneX : Vec2 R))
  bad := ck bad 60 (Near.near (0.001 : R) (Vec2.ofAngle ((MathFns.pi : R) / 4) (1 : R)) (Vec2.rotated (Vec2.oneX : Vec2 R) ((MathFns.pi : R) / 4)))
  bad := ck bad 63 (Near.near (0.001 : R) (Vec2.ofAngle (0.0 : R) (42.0 : R)) ((Vec2.oneX : Vec2 R) * (42.0 : R)))
  bad := ck bad 64 (Near.near (0.001 : R) (Vec2.ofAngle ((MathFns.pi : R) / 2) (42.0 : R)) ((Vec2.oneY : Vec2 R) * (42.0 : R)))
  bad := ck bad 65 (Near.near (0.001 : R) (Vec2.ofAngle (MathFns.pi : R) (42.0 : R)) ((-(Vec2.oneX : Vec2 R)) * (42.0 : R)))
  bad := ck bad 66 (Near.near (0.001 : R) (Vec2.ofAngle (((MathFns.pi : R) / 2) * (3 : R)) (42.0 : R)) ((-(Vec2.oneY : Vec2 R)) * (42.0 : R)))
  bad := ck bad 67 (Near.near (0.001 : R) (Vec2.ofAngle ((MathFns.pi : R) * 2) (42.0 : R)) ((Vec2.oneX : Vec2 R) * (42.0 : R)))
  bad := ck bad 68 (Near.near (0.001 : R) (Vec2.ofAngle ((MathFns.pi : R) / 4) (42.0 : R)) ((Vec2.rotated (Vec2.oneX : Vec2 R) ((MathFns.pi : R) / 4)) * (42.0 : R)))
  return bad
end Vec2_5
#guard passes Vec2_5.run

namespace Vec2_6
abbrev R := Float32
def run : Res (List Nat) := do
  let mut bad : List Nat := []
  bad := ck bad 74 (Near.near (0.001 : R) (← Vec2.clerp (Vec2.oneX : Vec2 R) (Vec2.oneY : Vec2 R) (0.0 : R)) (Vec2.oneX : Vec2 R))
  bad := ck bad 76 (Near.near (0.001 : R) (← Vec2.clerp (Vec2.oneX : Vec2 R) (Vec2.oneY : Vec2 R) (1.0 : R)) (Vec2.oneY : Vec2 R))
  bad := ck bad 78 (Near.near (0.001 : R) (← Vec2.clerp (Vec2.oneX : Vec2 R) (Vec2.oneY : Vec2 R) (0.5 : R)) (Vec2.rotated (Vec2.oneX : Vec2 R) ((MathFns.pi : R) / 4)))
  bad := ck bad 80 (Near.near (0.001 : R) (← Vec2.clerp (Vec2.oneX : Vec2 R) ((Vec2.oneY : Vec2 R) * (3.0 : R)) (0.5 : R)) ((Vec2.rotated (Vec2.oneX : Vec2 R) ((MathFns.pi : R) / 4)) * (2.0 : R)))
  return bad
end Vec2_6
#guard passes Vec2_6.run

namespace Vec2_7
abbrev R := Float32
def run : Res (List Nat) := do
  let mut bad : List Nat := []
  bad := ck bad 89 (Near.near (0.001 : R) (← Vec2.clerpMaxAngle (Vec2.oneX : Vec2 R) (Vec2.oneY : Vec2 R) (0.0 : R)) (Vec2.oneX : Vec2 R))
  bad := ck bad 91 (Near.near (0.001 : R) (← Vec2.clerpMaxAngle (Vec2.oneX : Vec2 R) (Vec2.oneY : Vec2 R) (MathFns.pi : R)) (Vec2.oneY : Vec2 R))
  bad := ck bad 93 (Near.near (0.001 : R) (← Vec2.clerpMaxAngle (Vec2.oneX : Vec2 R) (Vec2.oneY : Vec2 R) ((MathFns.pi : R) / 4)) (Vec2.rotated (Vec2.oneX : Vec2 R) ((MathFns.pi : R) / 4)))
  bad := ck bad 95 (Near.near (0.001 : R) (← Vec2.clerpMaxAngle (Vec2.oneX : Vec2 R) ((Vec2.oneY : Vec2 R) * (3.0 : R)) ((MathFns.pi : R) / 4)) ((Vec2.rotated (Vec2.oneX : Vec2 R) ((MathFns.pi : R) / 4)) * (2.0 : R)))
  return bad
end Vec2_7
#guard passes Vec2_7.run

namespace Vec2_8
abbrev R := Float32
def run : Res (List Nat) := do
  let mut bad : List Nat := []
  let v1 : Vec2 R := (⟨(1 : R), (2 : R)⟩ : Vec2 R)
  bad := ck bad 108 (Near.near (0.001 : R) v1 (⟨(1 : R), (2 : R)⟩ : Vec2 R))
  return bad
end Vec2_8
#guard passes Vec2_8.run

namespace Vec2_9
abbrev R := Float32
def run : Res (List Nat) := do
  let mut bad : List Nat := []
  let v1 : Vec2 R := (Vec2.oneX : Vec2 R)
  bad := ck bad 115 (Near.near (0.001 : R) v1 (Vec2.oneX : Vec2 R))
  let v2 : Vec2 R := (Vec2.oneY : Vec2 R)
  bad := ck bad 117 (Near.near (0.001 : R) v2 (Vec2.oneY : Vec2 R))
  let v3 : Vec2 R := (⟨(1 : R), (2 : R)⟩ : Vec2 R)
  bad := ck bad 119 (Near.near (0.001 : R) v3 (⟨(1 : R), (2 : R)⟩ : Vec2 R))
  return bad
end Vec2_9
#guard passes Vec2_9.run

namespace Vec2_10
abbrev R := Float32
def run : Res (List Nat) := do
  let mut bad : List Nat := []
  let v1 : Vec2 R := (Vec2.zero : Vec2 R)
  let v2 : Vec2 R := (← Vec2.setCoord v1 Coord.X (1 : R))
  bad := ck bad 126 (Near.near (0.001 : R) v2 (⟨(1 : R), (0 : R)⟩ : Vec2 R))
  let v3 : Vec2 R := (← Vec2.setCoord v2 Coord.Y (2 : R))
  bad := ck bad 128 (Near.near (0.001 : R) v3 (⟨(1 : R), (2 : R)⟩ : Vec2 R))
  return bad
end Vec2_10
#guard passes Vec2_10.run

namespace Vec2_11
abbrev R := Float32
def run : Res (List Nat) := do
  let mut bad : List Nat := []
  let v1 : Vec2 R := (Vec2.ofAngle (0.0 : R) (1 : R))
  bad := ck bad 136 (Near.near (0.001 : R) v1 (Vec2.oneX : Vec2 R))
  let v2 : Vec2 R := (Vec2.ofAngle ((MathFns.pi : R) / 2) (1 : R))
  bad := ck bad 138 (Near.near (0.001 : R) v2 (Vec2.oneY : Vec2 R))
  let v3 : Vec2 R := (Vec2.ofAngle (MathFns.pi : R) (1 : R))
  bad := ck bad 140 (Near.near (0.001 : R) v3 (-(Vec2.oneX : Vec2 R)))
  let v4 : Vec2 R := (Vec2.ofAngle (((MathFns.pi : R) / 2) * (3 : R)) (1 : R))
  bad := ck bad 142 (Near.near (0.001 : R) v4 (-(Vec2.oneY : Vec2 R)))
  let v5 : Vec2 R := (Vec2.ofAngle ((MathFns.pi : R) * 2) (1 : R))
  bad := ck bad 144 (Near.near (0.001 : R) v5 (Vec2.oneX : Vec2 R))
  let v6 : Vec2 R := (Vec2.ofAngle ((MathFns.pi : R) / 4) (1 : R))
  bad := ck bad 146 (Near.near (0.001 : R) v6 (Vec2.rotated (Vec2.oneX : Vec2 R) ((MathFns.pi : R) / 4)))
  let v7 : Vec2 R := (Vec2.ofAngle (0.0 : R) (42.0 : R))
  bad := ck bad 149 (Near.near (0.001 : R) v7 ((Vec2.oneX : Vec2 R) * (42.0 : R)))
  let v8 : Vec2 R := (Vec2.ofAngle ((MathFns.pi : R) / 2) (42.0 : R))
  bad := ck bad 151 (Near.near (0.001 : R) v8 ((Vec2.oneY : Vec2 R) * (42.0 : R)))
  let v9 : Vec2 R := (Vec2.ofAngle (MathFns.pi : R) (42.0 : R))
  bad := ck bad 153 (Near.near (0.001 : R) v9 ((-(Vec2.oneX : Vec2 R)) * (42.0 : R)))
  let v10 : Vec2 R := (Vec2.ofAngle (((MathFns.pi : R) / 2) * (3 : R)) (42.0 : R))
  bad := ck bad 155 (Near.near (0.001 : R) v10 ((-(Vec2.oneY : Vec2 R)) * (42.0 : R)))
  let v11 : Vec2 R := (Vec2.ofAngle ((MathFns.pi : R) * 2) (42.0 : R))
  bad := ck bad 157 (Near.near (0.001 : R) v11 ((Vec2.oneX : Vec2 R) * (42.0 : R)))
  let v12 : Vec2 R := (Vec2.ofAngle ((MathFns.pi : R) / 4) (42.0 : R))
  bad := ck bad 159 (Near.near (0.001 : R) v12 ((Vec2.rotated (Vec2.oneX : Vec2 R) ((MathFns.pi : R) / 4)) * (42.0 : R)))
  return bad
end Vec2_11
#guard passes Vec2_11.run

namespace Vec2_12
abbrev R := Float32
def run : Res (List Nat) := do
  let mut bad : List Nat := []
  let v1 : Vec2 R := (← Vec2.clerp (Vec2.oneX : Vec2 R) (Vec2.oneY : Vec2 R) (0.0 : R))
  bad := ck bad 166 (Near.near (0.001 : R) v1 (Vec2.oneX : Vec2 R))
  let v2 : Vec2 R := (← Vec2.clerp (Vec2.oneX : Vec2 R) (Vec2.oneY : Vec2 R) (1.0 : R))
  bad := ck bad 170 (Near.near (0.001 : R) v2 (Vec2.oneY : Vec2 R))
  let v3 : Vec2 R := (← Vec2.clerp (Vec2.oneX : Vec2 R) (Vec2.oneY : Vec2 R) (0.5 : R))
  bad := ck bad 174 (Near.near (0.001 : R) v3 (Vec2.rotated (Vec2.oneX : Vec2 R) ((MathFns.pi : R) / 4)))
  let v4 : Vec2 R := (← Vec2.clerp (Vec2.oneX : Vec2 R) ((Vec2.oneY : Vec2 R) * (3.0 : R)) (0.5 : R))
  bad := ck bad 178 (Near.near (0.001 : R) v4 ((Vec2.rotated (Vec2.oneX : Vec2 R) ((MathFns.pi : R) / 4)) * (2.0 : R)))
  return bad
end Vec2_12
#guard passes Vec2_12.run

namespace Vec2_13
abbrev R := Float32
def run : Res (List Nat) := do
  let mut bad : List Nat := []
  let v1 : Vec2 R := (← Vec2.clerpMaxAngle (Vec2.oneX : Vec2 R) (Vec2.oneY : Vec2 R) (0.0 : R))
  bad := ck bad 190 (Near.near (0.001 : R) v1 (Vec2.oneX : Vec2 R))
  let v2 : Vec2 R := (← Vec2.clerpMaxAngle (Vec2.oneX : Vec2 R) (Vec2.oneY : Vec2 R) (MathFns.pi : R))
  bad := ck bad 194 (Near.near (0.001 : R) v2 (Vec2.oneY : Vec2 R))
  let v3 : Vec2 R := (← Vec2.clerpMaxAngle (Vec2.oneX : Vec2 R) (Vec2.oneY : Vec2 R) ((MathFns.pi : R) / 4))
  bad := ck bad 198 (Near.near (0.001 : R) v3 (Vec2.rotated (Vec2.oneX : Vec2 R) ((MathFns.pi : R) / 4)))
  let v4 : Vec2 R := (← Vec2.clerpMaxAngle (Vec2.oneX : Vec2 R) ((Vec2.oneY : Vec2 R) * (3.0 : R)) ((MathFns.pi : R) / 4))
  bad := ck bad 202 (Near.near (0.001 : R) v4 ((Vec2.rotated (Vec2.oneX : Vec2 R) ((MathFns.pi : R) / 4)) * (2.0 : R)))
  return bad
end Vec2_13
#guard passes Vec2_13.run

namespace Vec2_14
abbrev R := Float32
def run : Res (List Nat) := do
  let mut bad : List Nat := []
  let v1 : Vec2 R := (Vec2.zero : Vec2 R)
  let v2 : Vec2 R := ((Vec2.normalize v1 (1 : R))).1
  bad := ck bad 217 (Near.near (0.001 : R) v2 (Vec2.zero : Vec2 R))
  let v3 : Vec2 R := (Vec2.oneX : Vec2 R)
  let v4 : Vec2 R := ((Vec2.normalize v3 (1 : R))).1
  bad := ck bad 221 (Near.near (0.001 : R) v4 (Vec2.oneX : Vec2 R))
  let v5 : Vec2 R := (Vec2.oneY : Vec2 R)
  let v6 : Vec2 R := ((Vec2.normalize v5 (1 : R))).1
  bad := ck bad 225 (Near.near (0.001 : R) v6 (Vec2.oneY : Vec2 R))
  let v7 : Vec2 R := (Vec2.zero : Vec2 R)
  let v8 : Vec2 R := ((Vec2.normalize v7 (2.0 : R))).1
  bad := ck bad 230 (Near.near (0.001 : R) v8 (Vec2.zero : Vec2 R))
  let v9 : Vec2 R := (Vec2.oneX : Vec2 R)
  let v10 : Vec2 R := ((Vec2.normalize v9 (2.0 : R))).1
  bad := ck bad 234 (Near.near (0.001 : R) v10 ((Vec2.oneX : Vec2 R) * (2.0 : R)))
  let v11 : Vec2 R := (Vec2.oneY : Vec2 R)
  let v12 : Vec2 R := ((Vec2.normalize v11 (2.0 : R))).1
  bad := ck bad 238 (Near.near (0.001 : R) v12 ((Vec2.oneY : Vec2 R) * (2.0 : R)))
  return bad
end Vec2_14
#guard passes Vec2_14.run

namespace Vec2_15
abbrev R := Float32
def run : Res (List Nat) := do
  let mut bad : List Nat := []
  let v1 : Vec2 R := (Vec2.zero : Vec2 R)
  let v2 : Vec2 R := (Vec2.rotate v1 ((MathFns.pi : R) / 3))
  bad := ck bad 247 (Near.near (0.001 : R) v2 (Vec2.zero : Vec2 R))
  let v3 : Vec2 R := (Vec2.oneX : Vec2 R)
  let v4 : Vec2 R := (Vec2.rotate v3 ((MathFns.pi : R) / 2))
  bad := ck bad 251 (Near.near (0.001 : R) v4 (Vec2.oneY : Vec2 R))
  let v5 : Vec2 R := (Vec2.oneY : Vec2 R)
  let v6 : Vec2 R := (Vec2.rotate v5 ((MathFns.pi : R) / 2))
  bad := ck bad 255 (Near.near (0.001 : R) v6 (-(Vec2.oneX : Vec2 R)))
  return bad
end Vec2_15
#guard passes Vec2_15.run

namespace Vec2_16
abbrev R := Float32
def run : Res (List Nat) := do
  let mut bad : List Nat := []
  let v1 : Vec2 R := (Vec2.zero : Vec2 R)
  let v2 : Vec2 R := (Vec2.rotate90 v1)
  bad := ck bad 264 (Near.near (0.001 : R) v2 (Vec2.zero : Vec2 R))
  let v3 : Vec2 R := (Vec2.oneX : Vec2 R)
  let v4 : Vec2 R := (Vec2.rotate90 v3)
  bad := ck bad 268 (Near.near (0.001 : R) v4 (Vec2.oneY : Vec2 R))
  let v5 : Vec2 R := (Vec2.oneY : Vec2 R)
  let v6 : Vec2 R := (Vec2.rotate90 v5)
  bad := ck bad 272 (Near.near (0.001 : R) v6 (-(Vec2.oneX : Vec2 R)))
  return bad
end Vec2_16
#guard passes Vec2_16.run

namespace Vec2_17
abbrev R := Float32
def run : Res (List Nat) := do
  let mut bad : List Nat := []
  let v1 : Vec2 R := (Vec2.zero : Vec2 R)
  let v2 : Vec2 R := (Vec2.rotate180 v1)
  bad := ck bad 281 (Near.near (0.001 : R) v2 (Vec2.zero : Vec2 R))
  let v3 : Vec2 R := (Vec2.oneX : Vec2 R)
  let v4 : Vec2 R := (Vec2.rotate180 v3)
  bad := ck bad 285 (Near.near (0.001 : R) v4 (-(Vec2.oneX : Vec2 R)))
  let v5 : Vec2 R := (Vec2.oneY : Vec2 R)
  let v6 : Vec2 R := (Vec2.rotate180 v5)
  bad := ck bad 289 (Near.near (0.001 : R) v6 (-(Vec2.oneY : Vec2 R)))
  return bad
end Vec2_17
#guard passes Vec2_17.run

namespace Vec2_18
abbrev R := Float32
def run : Res (List Nat) := do
  let mut bad : List Nat := []
  let v1 : Vec2 R := (Vec2.zero : Vec2 R)
  let v2 : Vec2 R := (Vec2.rotate270 v1)
  bad := ck bad 298 (Near.near (0.001 : R) v2 (Vec2.zero : Vec2 R))
  let v3 : Vec2 R := (Vec2.oneX : Vec2 R)
  let v4 : Vec2 R := (Vec2.rotate270 v3)
  bad := ck bad 302 (Near.near (0.001 : R) v4 (-(Vec2.oneY : Vec2 R)))
  let v5 : Vec2 R := (Vec2.oneY : Vec2 R)
  let v6 : Vec2 R := (Vec2.rotate270 v5)
  bad := ck bad 306 (Near.near (0.001 : R) v6 (Vec2.oneX : Vec2 R))
  return bad
end Vec2_18
#guard passes Vec2_18.run

namespace Vec2_19
abbrev R := Float32
def run : Res (List Nat) := do
  let mut bad : List Nat := []
  let v1 : Vec2 R := (Vec2.zero : Vec2 R)
  let v2 : Vec2 R := (Vec2.mirror v1 Coord.X)
  bad := ck bad 315 (Near.near (0.001 : R) v2 (Vec2.zero : Vec2 R))
  let v3 : Vec2 R := (Vec2.zero : Vec2 R)
  let v4 : Vec2 R := (Vec2.mirror v3 Coord.Y)
  bad := ck bad 319 (Near.near (0.001 : R) v4 (Vec2.zero : Vec2 R))
  let v5 : Vec2 R := (Vec2.zero : Vec2 R)
  let v6 : Vec2 R := (Vec2.mirror v5 Coord.Z)
  bad := ck bad 323 (Near.near (0.001 : R) v6 (Vec2.zero : Vec2 R))
  let v7 : Vec2 R := (Vec2.oneX : Vec2 R)
  let v8 : Vec2 R := (Vec2.mirror v7 Coord.X)
  bad := ck bad 327 (Near.near (0.001 : R) v8 (-(Vec2.oneX : Vec2 R)))
  let v9 : Vec2 R := (Vec2.oneX : Vec2 R)
  let v10 : Vec2 R := (Vec2.mirror v9 Coord.Y)
  bad := ck bad 331 (Near.near (0.001 : R) v10 (Vec2.oneX : Vec2 R))
  let v11 : Vec2 R := (Vec2.oneY : Vec2 R)
  let v12 : Vec2 R := (Vec2.mirror v11 Coord.X)
  bad := ck bad 335 (Near.near (0.001 : R) v12 (Vec2.oneY : Vec2 R))
  let v13 : Vec2 R := (Vec2.oneY : Vec2 R)
  let v14 : Vec2 R := (Vec2.mirror v13 Coord.Y)
  bad := ck bad 339 (Near.near (0.001 : R) v14 (-(Vec2.oneY : Vec2 R)))
  return bad
end Vec2_19
#guard passes Vec2_19.run

namespace Vec2_20
abbrev R := Float32
def run : Res (List Nat) := do
  let mut bad : List Nat := []
  let v1 : Vec2 R := (⟨(1 : R), (2 : R)⟩ : Vec2 R)
  bad := ck bad 347 ((← Vec2.get v1 Coord.X) == (1.0 : R))
  bad := ck bad 348 ((← Vec2.get v1 Coord.Y) == (2.0 : R))
  let v2 : Vec2 R := { v1 with x := (1001.0 : R) }
  let v3 : Vec2 R := { v2 with y := (1002.0 : R) }
  bad := ck bad 351 ((← Vec2.get v3 Coord.X) == (1001.0 : R))
  bad := ck bad 352 ((← Vec2.get v3 Coord.Y) == (1002.0 : R))
  return bad
end Vec2_20
#guard passes Vec2_20.run

namespace Vec2_21
abbrev R := Float32
def run : Res (List Nat) := do
  let mut bad : List Nat := []
  let v1 : Vec2 R := (⟨(1 : R), (2 : R)⟩ : Vec2 R)
  let v2 : Vec2 R := (Vec2.addAssign v1 (⟨(10 : R), (11 : R)⟩ : Vec2 R))
  bad := ck bad 361 (Near.near (0.001 : R) v2 (⟨(11 : R), (13 : R)⟩ : Vec2 R))
  return bad
end Vec2_21
#guard passes Vec2_21.run

namespace Vec2_22
abbrev R := Float32
def run : Res (List Nat) := do
  let mut bad : List Nat := []
  let v1 : Vec2 R := (⟨(1 : R), (2 : R)⟩ : Vec2 R)
  let v2 : Vec2 R := (Vec2.subAssign v1 (⟨(10 : R), (11 : R)⟩ : Vec2 R))
  bad := ck bad 368 (Near.near (0.001 : R) v2 (⟨(-9 : R), (-9 : R)⟩ : Vec2 R))
  return bad
end Vec2_22
#guard passes Vec2_22.run

namespace Vec2_23
abbrev R := Float32
def run : Res (List Nat) := do
  let mut bad : List Nat := []
  let v1 : Vec2 R := (⟨(1 : R), (2 : R)⟩ : Vec2 R)
  let v2 : Vec2 R := (Vec2.mulAssign v1 (3 : R))
  bad := ck bad 375 (Near.near (0.001 : R) v2 (⟨(3 : R), (6 : R)⟩ : Vec2 R))
  return bad
end Vec2_23
#guard passes Vec2_23.run

namespace Vec2_24
abbrev R := Float32
def run : Res (List Nat) := do
  let mut bad : List Nat := []
  let v1 : Vec2 R := (⟨(1 : R), (2 : R)⟩ : Vec2 R)
  let v2 : Vec2 R := (Mat2.vecMulAssign v1 (Mat2.ofCols (⟨(4 : R), (5 : R)⟩ : Vec2 R) (⟨(7 : R), (8 : R)⟩ : Vec2 R)))
  bad := ck bad 385 (Near.near (0.001 : R) v2 (⟨(14 : R), (23 : R)⟩ : Vec2 R))
  return bad
end Vec2_24
#guard passes Vec2_24.run

namespace Vec2_25
abbrev R := Float32
def run : Res (List Nat) := do
  let mut bad : List Nat := []
  let v1 : Vec2 R := (⟨(1 : R), (2 : R)⟩ : Vec2 R)
  let v2 : Vec2 R := (← Vec2.divAssign v1 (2 : R))
  bad := ck bad 392 (Near.near (0.001 : R) v2 (⟨(0.5 : R), (1 : R)⟩ : Vec2 R))
  return bad
end Vec2_25
#guard passes Vec2_25.run

namespace Vec2_26
abbrev R := Float32
def run : Res (List Nat) := do
  let mut bad : List Nat := []
  let v1 : Vec2 R := (⟨(1 : R), (2 : R)⟩ : Vec2 R)
  bad := ck bad 400 (Near.near (0.001 : R) (v1 + (⟨(10 : R), (11 : R)⟩ : Vec2 R)) (⟨(11 : R), (13 : R)⟩ : Vec2 R))
  return bad
end Vec2_26
#guard passes Vec2_26.run

namespace Vec2_27
abbrev R := Float32
def run : Res (List Nat) := do
  let mut bad : List Nat := []
  let v1 : Vec2 R := (⟨(1 : R), (2 : R)⟩ : Vec2 R)
  bad := ck bad 406 (Near.near (0.001 : R) (-v1) (⟨(-1 : R), (-2 : R)⟩ : Vec2 R))
  return bad
end Vec2_27
#guard passes Vec2_27.run

namespace Vec2_28
abbrev R := Float32
def run : Res (List Nat) := do
  let mut bad : List Nat := []
  let v1 : Vec2 R := (⟨(1 : R), (2 : R)⟩ : Vec2 R)
  bad := ck bad 412 (Near.near (0.001 : R) (v1 - (⟨(10 : R), (11 : R)⟩ : Vec2 R)) (⟨(-9 : R), (-9 : R)⟩ : Vec2 R))
  return bad
end Vec2_28
#guard passes Vec2_28.run

namespace Vec2_29
abbrev R := Float32
def run : Res (List Nat) := do
  let mut bad : List Nat := []
  let v1 : Vec2 R := (⟨(1 : R), (2 : R)⟩ : Vec2 R)
  bad := ck bad 418 ((Vec2.dot v1 (⟨(10 : R), (11 : R)⟩ : Vec2 R)) == (32 : R))
  return bad
end Vec2_29
#guard passes Vec2_29.run

namespace Vec2_30
abbrev R := Float32
def run : Res (List Nat) := do
  let mut bad : List Nat := []
  let v1 : Vec2 R := (⟨(1 : R), (2 : R)⟩ : Vec2 R)
  let v2 : Mat2 R := (Mat2.ofCols (⟨(4 : R), (5 : R)⟩ : Vec2 R) (⟨(7 : R), (8 : R)⟩ : Vec2 R))
  bad := ck bad 428 (Near.near (0.001 : R) (Mat2.vecMul v1 v2) (⟨(14 : R), (23 : R)⟩ : Vec2 R))
  return bad
end Vec2_30
#guard passes Vec2_30.run

namespace Vec2_31
abbrev R := Float32
def run : Res (List Nat) := do
  let mut bad : List Nat := []
  let v1 : Vec2 R := (⟨(1 : R), (2 : R)⟩ : Vec2 R)
  bad := ck bad 434 (Near.near (0.001 : R) (v1 * (2 : R)) (⟨(2 : R), (4 : R)⟩ : Vec2 R))
  return bad
end Vec2_31
#guard passes Vec2_31.run

namespace Vec2_32
abbrev R := Float32
def run : Res (List Nat) := do
  let mut bad : List Nat := []
  let v1 : Vec2 R := (⟨(1 : R), (2 : R)⟩ : Vec2 R)
  bad := ck bad 440 (Near.near (0.001 : R) (← Vec2.div v1 (0.5 : R)) (⟨(2 : R), (4 : R)⟩ : Vec2 R))
  return bad
end Vec2_32
#guard passes Vec2_32.run

namespace Vec2_33
abbrev R := Float32
def run : Res (List Nat) := do
  let mut bad : List Nat := []
  let v1 : Vec2 R := (⟨(1 : R), (2 : R)⟩ : Vec2 R)
  bad := ck bad 448 (Vec2.eq v1 v1)
  bad := ck bad 449 (Vec2.eq v1 (⟨(1 : R), (2 : R)⟩ : Vec2 R))
  return bad
end Vec2_33
#guard passes Vec2_33.run

namespace Vec2_34
abbrev R := Float32
def run : Res (List Nat) := do
  let mut bad : List Nat := []
  let v1 : Vec2 R := (⟨(1 : R), (2 : R)⟩ : Vec2 R)
  bad := ck bad 455 (!(Vec2.ne v1 v1))
  bad := ck bad 456 (Vec2.ne v1 (⟨(1.1 : R), (2 : R)⟩ : Vec2 R))
  return bad
end Vec2_34
#guard passes Vec2_34.run

namespace Vec2_35
abbrev R := Float32
def run : Res (List Nat) := do
  let mut bad : List Nat := []
  bad := ck bad 463 (Near.near (0.001 : R) (Vec2.zero : Vec2 R) (Vec2.zero : Vec2 R))
  bad := ck bad 464 (Near.near (0.001 : R) (Vec2.oneX : Vec2 R) (Vec2.oneX : Vec2 R))
  bad := ck bad 465 (Near.near (0.001 : R) (Vec2.oneY : Vec2 R) (Vec2.oneY : Vec2 R))
  return bad
end Vec2_35
#guard passes Vec2_35.run

namespace Vec2_36
abbrev R := Float32
def run : Res (List Nat) := do
  let mut bad : List Nat := []
  bad := ck bad 470 (Near.near (1e-10 : R) (Vec2.length (Vec2.zero : Vec2 R)) (0.0 : R))
  bad := ck bad 471 (Near.near (1e-10 : R) (Vec2.length (Vec2.oneX : Vec2 R)) (1.0 : R))
  bad := ck bad 472 (Near.near (1e-10 : R) (Vec2.length (Vec2.oneY : Vec2 R)) (1.0 : R))
  bad := ck bad 473 (Near.near (1e-6 : R) (Vec2.length (⟨(2 : R), (2 : R)⟩ : Vec2 R)) ((MathFns.sqrt (2.0 : R)) * (2 : R)))
  return bad
end Vec2_36
#guard passes Vec2_36.run

namespace Vec2_37
abbrev R := Float32
def run : Res (List Nat) := do
  let mut bad : List Nat := []
  bad := ck bad 478 (Near.near (1e-10 : R) (Vec2.lengthSqr (Vec2.zero : Vec2 R)) (0.0 : R))
  bad := ck bad 479 (Near.near (1e-10 : R) (Vec2.lengthSqr (Vec2.oneX : Vec2 R)) (1.0 : R))
  bad := ck bad 480 (Near.near (1e-10 : R) (Vec2.lengthSqr (Vec2.oneY : Vec2 R)) (1.0 : R))
  bad := ck bad 481 (Near.near (1e-10 : R) (Vec2.lengthSqr (⟨(2 : R), (2 : R)⟩ : Vec2 R)) (8.0 : R))
  return bad
end Vec2_37
#guard passes Vec2_37.run

namespace Vec2_38
abbrev R := Float32
def run : Res (List Nat) := do
  let mut bad : List Nat := []
  bad := ck bad 486 (Near.near (0.001 : R) (Vec2.normalized (Vec2.zero : Vec2 R) (1 : R)) (Vec2.zero : Vec2 R))
  bad := ck bad 487 (Near.near (0.001 : R) (Vec2.normalized (Vec2.oneX : Vec2 R) (1 : R)) (Vec2.oneX : Vec2 R))
  bad := ck bad 488 (Near.near (0.001 : R) (Vec2.normalized (Vec2.oneY : Vec2 R) (1 : R)) (Vec2.oneY : Vec2 R))
  bad := ck bad 490 (Near.near (0.001 : R) (Vec2.normalized (Vec2.zero : Vec2 R) (2.0 : R)) (Vec2.zero : Vec2 R))
  bad := ck bad 491 (Near.near (0.001 : R) (Vec2.normalized (Vec2.oneX : Vec2 R) (2.0 : R)) ((Vec2.oneX : Vec2 R) * (2.0 : R)))
  bad := ck bad 492 (Near.near (0.001 : R) (Vec2.normalized (Vec2.oneY : Vec2 R) (2.0 : R)) ((Vec2.oneY : Vec2 R) * (2.0 : R)))
  return bad
end Vec2_38
#guard passes Vec2_38.run

namespace Vec2_39
abbrev R := Float32
def run : Res (List Nat) := do
  let mut bad : List Nat := []
  bad := ck bad 497 (Vec2.eq (Vec2.moved (Vec2.zero : Vec2 R) Coord.X (0.0 : R)) (Vec2.zero : Vec2 R))
  bad := ck bad 498 (Vec2.eq (Vec2.moved (Vec2.zero : Vec2 R) Coord.Y (0.0 : R)) (Vec2.zero : Vec2 R))
  bad := ck bad 500 (Vec2.eq (Vec2.moved (Vec2.zero : Vec2 R) Coord.X (1.0 : R)) (Vec2.oneX : Vec2 R))
  bad := ck bad 501 (Vec2.eq (Vec2.moved (Vec2.zero : Vec2 R) Coord.Y (1.0 : R)) (Vec2.oneY : Vec2 R))
  return bad
end Vec2_39
#guard passes Vec2_39.run

namespace Vec2_40
abbrev R := Float32
def run : Res (List Nat) := do
  let mut bad : List Nat := []
  bad := ck bad 506 (Near.near (0.001 : R) (Vec2.rotated (Vec2.zero : Vec2 R) ((MathFns.pi : R) / 3)) (Vec2.zero : Vec2 R))
  bad := ck bad 507 (Near.near (0.001 : R) (Vec2.rotated (Vec2.oneX : Vec2 R) ((MathFns.pi : R) / 2)) (Vec2.oneY : Vec2 R))
  bad := ck bad 508 (Near.near (0.001 : R) (Vec2.rotated (Vec2.oneY : Vec2 R) ((MathFns.pi : R) / 2)) (-(Vec2.oneX : Vec2 R)))
  return bad
end Vec2_40
#guard passes Vec2_40.run

namespace Vec2_41
abbrev R := Float32
def run : Res (List Nat) := do
  let mut bad : List Nat := []
  bad := ck bad 513 (Near.near (0.001 : R) (Vec2.rotated90 (Vec2.zero : Vec2 R)) (Vec2.zero : Vec2 R))
  bad := ck bad 514 (Near.near (0.001 : R) (Vec2.rotated90 (Vec2.oneX : Vec2 R)) (Vec2.oneY : Vec2 R))
  bad := ck bad 515 (Near.near (0.001 : R) (Vec2.rotated90 (Vec2.oneY : Vec2 R)) (-(Vec2.oneX : Vec2 R)))
  return bad
end Vec2_41
#guard passes Vec2_41.run

namespace Vec2_42
abbrev R := Float32
def run : Res (List Nat) := do
  let mut bad : List Nat := []
  bad := ck bad 520 (Near.near (0.001 : R) (Vec2.rotated180 (Vec2.zero : Vec2 R)) (Vec2.zero : Vec2 R))
  bad := ck bad 521 (Near.near (0.001 : R) (Vec2.rotated180 (Vec2.oneX : Vec2 R)) (-(Vec2.oneX : Vec2 R)))
  bad := ck bad 522 (Near.near (0.001 : R) (Vec2.rotated180 (Vec2.oneY : Vec2 R)) (-(Vec2.oneY : Vec2 R)))
  return bad
end Vec2_42
#guard passes Vec2_42.run

namespace Vec2_43
abbrev R := Float32
def run : Res (List Nat) := do
  let mut bad : List Nat := []
  bad := ck bad 527 (Near.near (0.001 : R) (Vec2.rotated270 (Vec2.zero : Vec2 R)) (Vec2.zero : Vec2 R))
  bad := ck bad 528 (Near.near (0.001 : R) (Vec2.rotated270 (Vec2.oneX : Vec2 R)) (-(Vec2.oneY : Vec2 R)))
  bad := ck bad 529 (Near.near (0.001 : R) (Vec2.rotated270 (Vec2.oneY : Vec2 R)) (Vec2.oneX : Vec2 R))
  return bad
end Vec2_43
#guard passes Vec2_43.run

namespace Vec2_44
abbrev R := Float32
def run : Res (List Nat) := do
  let mut bad : List Nat := []
  bad := ck bad 534 (Near.near (0.001 : R) (Vec2.mirrored (Vec2.zero : Vec2 R) Coord.X) (Vec2.zero : Vec2 R))
  bad := ck bad 535 (Near.near (0.001 : R) (Vec2.mirrored (Vec2.zero : Vec2 R) Coord.Y) (Vec2.zero : Vec2 R))
  bad := ck bad 536 (Near.near (0.001 : R) (Vec2.mirrored (Vec2.oneX : Vec2 R) Coord.X) (-(Vec2.oneX : Vec2 R)))
  bad := ck bad 537 (Near.near (0.001 : R) (Vec2.mirrored (Vec2.oneX : Vec2 R) Coord.Y) (Vec2.oneX : Vec2 R))
  bad := ck bad 538 (Near.near (0.001 : R) (Vec2.mirrored (Vec2.oneY : Vec2 R) Coord.X) (Vec2.oneY : Vec2 R))
  bad := ck bad 539 (Near.near (0.001 : R) (Vec2.mirrored (Vec2.oneY : Vec2 R) Coord.Y) (-(Vec2.oneY : Vec2 R)))
  return bad
end Vec2_44
#guard passes Vec2_44.run

namespace Vec2_45
abbrev R := Float32
def run : Res (List Nat) := do
  let mut bad : List Nat := []
  bad := ck bad 544 (decide ((Vec2.majorCoord (Vec2.zero : Vec2 R)) = Coord.X))
  bad := ck bad 545 (decide ((Vec2.majorCoord (Vec2.oneX : Vec2 R)) = Coord.X))
  bad := ck bad 546 (decide ((Vec2.majorCoord (Vec2.oneY : Vec2 R)) = Coord.Y))
  bad := ck bad 547 (decide ((Vec2.majorCoord (⟨(2 : R), (2 : R)⟩ : Vec2 R)) = Coord.X))
  bad := ck bad 548 (decide ((Vec2.majorCoord (⟨(1 : R), (2 : R)⟩ : Vec2 R)) = Coord.Y))
  bad := ck bad 549 (decide ((Vec2.majorCoord (⟨(3 : R), (1 : R)⟩ : Vec2 R)) = Coord.X))
  return bad
end Vec2_45
#guard passes Vec2_45.run

namespace Vec2_46
abbrev R := Float32
def run : Res (List Nat) := do
  let mut bad : List Nat := []
  bad := ck bad 554 (decide ((Vec2.minorCoord (Vec2.zero : Vec2 R)) = Coord.Y))
  bad := ck bad 555 (decide ((Vec2.minorCoord (Vec2.oneX : Vec2 R)) = Coord.Y))
  bad := ck bad 556 (decide ((Vec2.minorCoord (Vec2.oneY : Vec2 R)) = Coord.X))
  bad := ck bad 557 (decide ((Vec2.minorCoord (⟨(2 : R), (2 : R)⟩ : Vec2 R)) = Coord.Y))
  bad := ck bad 558 (decide ((Vec2.minorCoord (⟨(1 : R), (2 : R)⟩ : Vec2 R)) = Coord.X))
  bad := ck bad 559 (decide ((Vec2.minorCoord (⟨(3 : R), (1 : R)⟩ : Vec2 R)) = Coord.Y))
  return bad
end Vec2_46
#guard passes Vec2_46.run

namespace Vec2_47
abbrev R := Float32
def run : Res (List Nat) := do
  let mut bad : List Nat := []
  bad := ck bad 564 (Vec2.isNull (Vec2.zero : Vec2 R))
  bad := ck bad 565 (!(Vec2.isNull (Vec2.oneX : Vec2 R)))
  bad := ck bad 566 (!(Vec2.isNull (Vec2.oneY : Vec2 R)))
  bad := ck bad 567 (!(Vec2.isNull (⟨(2 : R), (2 : R)⟩ : Vec2 R)))
  bad := ck bad 568 (!(Vec2.isNull (⟨(1 : R), (2 : R)⟩ : Vec2 R)))
  bad := ck bad 569 (!(Vec2.isNull (⟨(2 : R), (1 : R)⟩ : Vec2 R)))
  return bad
end Vec2_47
#guard passes Vec2_47.run

namespace Vec2_48
abbrev R := Float32
def run : Res (List Nat) := do
  let mut bad : List Nat := []
  bad := ck bad 596 (Near.near (0.001 : R) (Vec2.product (Vec2.zero : Vec2 R) (Vec2.oneX : Vec2 R)) (Vec2.zero : Vec2 R))
  bad := ck bad 597 (Near.near (0.001 : R) (Vec2.product (Vec2.zero : Vec2 R) (Vec2.oneY : Vec2 R)) (Vec2.zero : Vec2 R))
  bad := ck bad 598 (Near.near (0.001 : R) (Vec2.product (Vec2.oneX : Vec2 R) (Vec2.oneY : Vec2 R)) (Vec2.zero : Vec2 R))
  bad := ck bad 599 (Near.near (0.001 : R) (Vec2.product (⟨(1 : R), (2 : R)⟩ : Vec2 R) (⟨(3 : R), (4 : R)⟩ : Vec2 R)) (⟨(3 : R), (8 : R)⟩ : Vec2 R))
  return bad
end Vec2_48
#guard passes Vec2_48.run

namespace Vec2_49
abbrev R := Float32
def run : Res (List Nat) := do
  let mut bad : List Nat := []
  bad := ck bad 604 (Near.near (0.001 : R) (Vec2.min (Vec2.zero : Vec2 R) (Vec2.oneX : Vec2 R)) (Vec2.zero : Vec2 R))
  bad := ck bad 605 (Near.near (0.001 : R) (Vec2.min (Vec2.zero : Vec2 R) (Vec2.oneY : Vec2 R)) (Vec2.zero : Vec2 R))
  bad := ck bad 606 (Near.near (0.001 : R) (Vec2.min (Vec2.oneX : Vec2 R) (Vec2.oneY : Vec2 R)) (Vec2.zero : Vec2 R))
  bad := ck bad 607 (Near.near (0.001 : R) (Vec2.min (⟨(1 : R), (2 : R)⟩ : Vec2 R) (⟨(3 : R), (4 : R)⟩ : Vec2 R)) (⟨(1 : R), (2 : R)⟩ : Vec2 R))
  return bad
end Vec2_49
#guard passes Vec2_49.run

namespace Vec2_50
abbrev R := Float32
def run : Res (List Nat) := do
  let mut bad : List Nat := []
  bad := ck bad 612 (Near.near (0.001 : R) (Vec2.max (Vec2.zero : Vec2 R) (Vec2.oneX : Vec2 R)) (Vec2.oneX : Vec2 R))
  bad := ck bad 613 (Near.near (0.001 : R) (Vec2.max (Vec2.zero : Vec2 R) (Vec2.oneY : Vec2 R)) (Vec2.oneY : Vec2 R))
  bad := ck bad 614 (Near.near (0.001 : R) (Vec2.max (Vec2.oneX : Vec2 R) (Vec2.oneY : Vec2 R)) (⟨(1 : R), (1 : R)⟩ : Vec2 R))
  bad := ck bad 615 (Near.near (0.001 : R) (Vec2.max (⟨(1 : R), (2 : R)⟩ : Vec2 R) (⟨(3 : R), (4 : R)⟩ : Vec2 R)) (⟨(3 : R), (4 : R)⟩ : Vec2 R))
  return bad
end Vec2_50
#guard passes Vec2_50.run

namespace Vec2_51
abbrev R := Float32
def run : Res (List Nat) := do
  let mut bad : List Nat := []
  let v1 : Vec2 R := (Vec2.oneX : Vec2 R)
  bad := ck bad 630 (Near.near (0.001 : R) v1 v1)
  return bad
end Vec2_51
#guard passes Vec2_51.run

end MathLib.Conformance
