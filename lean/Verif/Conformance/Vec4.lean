import Verif.Conformance.Base

/-!
# Unit tests of `tests/tests/src/test_vec4.cpp`, replayed on the model

Generated by `tools/conform.py`; the numbers are the source lines of the checks.  117 checks;
21 checks of that file are not translated (casts, random draws, `sizeof`, `data()`, and
functions outside the model).
-/

namespace MathLib.Conformance
set_option linter.all false

namespace Vec4_0
abbrev R := Float32
def run : Res (List Nat) := do
  let mut bad : List Nat := []
  bad := ck bad 19 ((Vec4.zero : Vec4 R).x == (0.0 : R))
  bad := ck bad 20 ((Vec4.zero : Vec4 R).y == (0.0 : R))
  bad := ck bad 21 ((Vec4.zero : Vec4 R).z == (0.0 : R))
  bad := ck bad 22 ((Vec4.zero : Vec4 R).w == (0.0 : R))
  return bad
end Vec4_0
#guard passes Vec4_0.run

namespace Vec4_1
abbrev R := Float32
def run : Res (List Nat) := do
  let mut bad : List Nat := []
  bad := ck bad 27 ((Vec4.oneX : Vec4 R).x == (1.0 : R))
  bad := ck bad 28 ((Vec4.oneX : Vec4 R).y == (0.0 : R))
  bad := ck bad 29 ((Vec4.oneX : Vec4 R).z == (0.0 : R))
  bad := ck bad 30 ((Vec4.oneX : Vec4 R).w == (1.0 : R))
  return bad
end Vec4_1
#guard passes Vec4_1.run

namespace Vec4_2
abbrev R := Float32
def run : Res (List Nat) := do
  let mut bad : List Nat := []
  bad := ck bad 35 ((Vec4.oneY : Vec4 R).x == (0.0 : R))
  bad := ck bad 36 ((Vec4.oneY : Vec4 R).y == (1.0 : R))
  bad := ck bad 37 ((Vec4.oneY : Vec4 R).z == (0.0 : R))
  bad := ck bad 38 ((Vec4.oneY : Vec4 R).w == (1.0 : R))
  return bad
end Vec4_2
#guard passes Vec4_2.run

namespace Vec4_3
abbrev R := Float32
def run : Res (List Nat) := do
  let mut bad : List Nat := []
  bad := ck bad 43 ((Vec4.oneZ : Vec4 R).x == (0.0 : R))
  bad := ck bad 44 ((Vec4.oneZ : Vec4 R).y == (0.0 : R))
  bad := ck bad 45 ((Vec4.oneZ : Vec4 R).z == (1.0 : R))
  bad := ck bad 46 ((Vec4.oneZ : Vec4 R).w == (1.0 : R))
  return bad
end Vec4_3
#guard passes Vec4_3.run

namespace Vec4_4
abbrev R := Float32
def run : Res (List Nat) := do
  let mut bad : List Nat := []
  bad := ck bad 51 ((Vec4.oneW : Vec4 R).x == (0.0 : R))
  bad := ck bad 52 ((Vec4.oneW : Vec4 R).y == (0.0 : R))
  bad := ck bad 53 ((Vec4.oneW : Vec4 R).z == (0.0 : R))
  bad := ck bad 54 ((Vec4.oneW : Vec4 R).w == (1.0 : R))
  return bad
end Vec4_4
#guard passes Vec4_4.run

namespace Vec4_5
abbrev R := Float32
def run : Res (List Nat) := do
  let mut bad : List Nat := []
  let v1 : Vec4 R := (⟨(1 : R), (2 : R), (3 : R), (4 : R)⟩ : Vec4 R)
  bad := ck bad 71 (v1.x == (1.0 : R))
  bad := ck bad 72 (v1.y == (2.0 : R))
  bad := ck bad 73 (v1.z == (3.0 : R))
  bad := ck bad 74 (v1.w == (4.0 : R))
  return bad
end Vec4_5
#guard passes Vec4_5.run

namespace Vec4_6
abbrev R := Float32
def run : Res (List Nat) := do
  let mut bad : List Nat := []
  bad := ck bad 79 (Near.near (0.001 : R) (Vec4.ofVec3 (⟨(1 : R), (2 : R), (3 : R)⟩ : Vec3 R) (4 : R)) (⟨(1 : R), (2 : R), (3 : R), (4 : R)⟩ : Vec4 R))
  return bad
end Vec4_6
#guard passes Vec4_6.run

namespace Vec4_7
abbrev R := Float32
def run : Res (List Nat) := do
  let mut bad : List Nat := []
  let v1 : Vec4 R := (⟨(1 : R), (2 : R), (3 : R), (4 : R)⟩ : Vec4 R)
  bad := ck bad 88 (Near.near (0.001 : R) v1 (⟨(1 : R), (2 : R), (3 : R), (4 : R)⟩ : Vec4 R))
  return bad
end Vec4_7
#guard passes Vec4_7.run

namespace Vec4_8
abbrev R := Float32
def run : Res (List Nat) := do
  let mut bad : List Nat := []
  let v1 : Vec4 R := (Vec4.oneX : Vec4 R)
  bad := ck bad 95 (Near.near (0.001 : R) v1 (Vec4.oneX : Vec4 R))
  let v2 : Vec4 R := (Vec4.oneY : Vec4 R)
  bad := ck bad 97 (Near.near (0.001 : R) v2 (Vec4.oneY : Vec4 R))
  let v3 : Vec4 R := (Vec4.oneZ : Vec4 R)
  bad := ck bad 99 (Near.near (0.001 : R) v3 (Vec4.oneZ : Vec4 R))
  let v4 : Vec4 R := (Vec4.oneW : Vec4 R)
  bad := ck bad 101 (Near.near (0.001 : R) v4 (Vec4.oneW : Vec4 R))
  let v5 : Vec4 R := (⟨(1 : R), (2 : R), (3 : R), (4 : R)⟩ : Vec4 R)
  bad := ck bad 103 (Near.near (0.001 : R) v5 (⟨(1 : R), (2 : R), (3 : R), (4 : R)⟩ : Vec4 R))
  return bad
end Vec4_8
#guard passes Vec4_8.run

namespace Vec4_9
abbrev R := Float32
def run : Res (List Nat) := do
  let mut bad : List Nat := []
  let v1 : Vec4 R := (Vec4.zero : Vec4 R)
  let v2 : Vec4 R := (← Vec4.setCoord v1 Coord.X (1 : R))
  bad := ck bad 110 (Near.near (0.001 : R) v2 (⟨(1 : R), (0 : R), (0 : R), (0 : R)⟩ : Vec4 R))
  let v3 : Vec4 R := (← Vec4.setCoord v2 Coord.Y (2 : R))
  bad := ck bad 112 (Near.near (0.001 : R) v3 (⟨(1 : R), (2 : R), (0 : R), (0 : R)⟩ : Vec4 R))
  let v4 : Vec4 R := (← Vec4.setCoord v3 Coord.Z (3 : R))
  bad := ck bad 114 (Near.near (0.001 : R) v4 (⟨(1 : R), (2 : R), (3 : R), (0 : R)⟩ : Vec4 R))
  let v5 : Vec4 R := (← Vec4.setCoord v4 Coord.W (4 : R))
  bad := ck bad 116 (Near.near (0.001 : R) v5 (⟨(1 : R), (2 : R), (3 : R), (4 : R)⟩ : Vec4 R))
  return bad
end Vec4_9
#guard passes Vec4_9.run

namespace Vec4_10
abbrev R := Float32
def run : Res (List Nat) := do
  let mut bad : List Nat := []
  let v1 : Vec4 R := (⟨(1 : R), (2 : R), (3 : R), (4 : R)⟩ : Vec4 R)
  bad := ck bad 124 (Near.near (0.001 : R) (v1 + (⟨(10 : R), (11 : R), (12 : R), (13 : R)⟩ : Vec4 R)) (⟨(11 : R), (13 : R), (15 : R), (17 : R)⟩ : Vec4 R))
  return bad
end Vec4_10
#guard passes Vec4_10.run

namespace Vec4_11
abbrev R := Float32
def run : Res (List Nat) := do
  let mut bad : List Nat := []
  let v1 : Vec4 R := (⟨(1 : R), (2 : R), (3 : R), (4 : R)⟩ : Vec4 R)
  bad := ck bad 130 (Near.near (0.001 : R) (-v1) (⟨(-1 : R), (-2 : R), (-3 : R), (-4 : R)⟩ : Vec4 R))
  return bad
end Vec4_11
#guard passes Vec4_11.run

namespace Vec4_12
abbrev R := Float32
def run : Res (List Nat) := do
  let mut bad : List Nat := []
  let v1 : Vec4 R := (⟨(1 : R), (2 : R), (3 : R), (4 : R)⟩ : Vec4 R)
  bad := ck bad 136 (Near.near (0.001 : R) (v1 - (⟨(10 : R), (11 : R), (12 : R), (13 : R)⟩ : Vec4 R)) (⟨(-9 : R), (-9 : R), (-9 : R), (-9 : R)⟩ : Vec4 R))
  return bad
end Vec4_12
#guard passes Vec4_12.run

namespace Vec4_13
abbrev R := Float32
def run : Res (List Nat) := do
  let mut bad : List Nat := []
  let v1 : Vec4 R := (⟨(1 : R), (2 : R), (3 : R), (4 : R)⟩ : Vec4 R)
  bad := ck bad 142 ((Vec4.dot v1 (⟨(10 : R), (11 : R), (12 : R), (13 : R)⟩ : Vec4 R)) == (120 : R))
  return bad
end Vec4_13
#guard passes Vec4_13.run

namespace Vec4_14
abbrev R := Float32
def run : Res (List Nat) := do
  let mut bad : List Nat := []
  let v1 : Vec4 R := (⟨(1 : R), (2 : R), (3 : R), (4 : R)⟩ : Vec4 R)
  bad := ck bad 148 (Near.near (0.001 : R) (v1 * (2 : R)) (⟨(2 : R), (4 : R), (6 : R), (8 : R)⟩ : Vec4 R))
  return bad
end Vec4_14
#guard passes Vec4_14.run

namespace Vec4_15
abbrev R := Float32
def run : Res (List Nat) := do
  let mut bad : List Nat := []
  let v1 : Vec4 R := (⟨(1 : R), (2 : R), (3 : R), (4 : R)⟩ : Vec4 R)
  bad := ck bad 154 (Near.near (0.001 : R) (← Vec4.div v1 (0.5 : R)) (⟨(2 : R), (4 : R), (6 : R), (8 : R)⟩ : Vec4 R))
  return bad
end Vec4_15
#guard passes Vec4_15.run

namespace Vec4_16
abbrev R := Float32
def run : Res (List Nat) := do
  let mut bad : List Nat := []
  bad := ck bad 161 (Near.near (0.001 : R) (Vec4.zero : Vec4 R) (Vec4.zero : Vec4 R))
  bad := ck bad 162 (Near.near (0.001 : R) (Vec4.oneX : Vec4 R) (Vec4.oneX : Vec4 R))
  bad := ck bad 163 (Near.near (0.001 : R) (Vec4.oneY : Vec4 R) (Vec4.oneY : Vec4 R))
  bad := ck bad 164 (Near.near (0.001 : R) (Vec4.oneZ : Vec4 R) (Vec4.oneZ : Vec4 R))
  bad := ck bad 165 (Near.near (0.001 : R) (Vec4.oneW : Vec4 R) (Vec4.oneW : Vec4 R))
  return bad
end Vec4_16
#guard passes Vec4_16.run

namespace Vec4_17
abbrev R := Float32
def run : Res (List Nat) := do
  let mut bad : List Nat := []
  bad := ck bad 170 (Vec4.eq (Vec4.moved (Vec4.zero : Vec4 R) Coord.X (0.0 : R)) (Vec4.zero : Vec4 R))
  bad := ck bad 171 (Vec4.eq (Vec4.moved (Vec4.zero : Vec4 R) Coord.Y (0.0 : R)) (Vec4.zero : Vec4 R))
  bad := ck bad 172 (Vec4.eq (Vec4.moved (Vec4.zero : Vec4 R) Coord.Z (0.0 : R)) (Vec4.zero : Vec4 R))
  bad := ck bad 173 (Vec4.eq (Vec4.moved (Vec4.zero : Vec4 R) Coord.W (0.0 : R)) (Vec4.zero : Vec4 R))
  bad := ck bad 175 (Vec4.eq (Vec4.moved (Vec4.zero : Vec4 R) Coord.X (1.0 : R)) (Vec4.oneXnw : Vec4 R))
  bad := ck bad 176 (Vec4.eq (Vec4.moved (Vec4.zero : Vec4 R) Coord.Y (1.0 : R)) (Vec4.oneYnw : Vec4 R))
  bad := ck bad 177 (Vec4.eq (Vec4.moved (Vec4.zero : Vec4 R) Coord.Z (1.0 : R)) (Vec4.oneZnw : Vec4 R))
  bad := ck bad 178 (Vec4.eq (Vec4.moved (Vec4.zero : Vec4 R) Coord.W (1.0 : R)) (Vec4.oneW : Vec4 R))
  return bad
end Vec4_17
#guard passes Vec4_17.run

namespace Vec4_18
abbrev R := Float32
def run : Res (List Nat) := do
  let mut bad : List Nat := []
  bad := ck bad 183 (Near.near (0.001 : R) (Vec4.toVec3 (Vec4.zero : Vec4 R)) (Vec3.zero : Vec3 R))
  bad := ck bad 184 (Near.near (0.001 : R) (Vec4.toVec3 (Vec4.oneX : Vec4 R)) (Vec3.oneX : Vec3 R))
  bad := ck bad 185 (Near.near (0.001 : R) (Vec4.toVec3 (Vec4.oneY : Vec4 R)) (Vec3.oneY : Vec3 R))
  bad := ck bad 186 (Near.near (0.001 : R) (Vec4.toVec3 (Vec4.oneZ : Vec4 R)) (Vec3.oneZ : Vec3 R))
  bad := ck bad 187 (Near.near (0.001 : R) (Vec4.toVec3 (Vec4.oneW : Vec4 R)) (Vec3.zero : Vec3 R))
  return bad
end Vec4_18
#guard passes Vec4_18.run

namespace Vec4_19
abbrev R := Float32
def run : Res (List Nat) := do
  let mut bad : List Nat := []
  bad := ck bad 192 (Vec4.isNull (Vec4.zero : Vec4 R))
  bad := ck bad 193 (!(Vec4.isNull (Vec4.oneX : Vec4 R)))
  bad := ck bad 194 (!(Vec4.isNull (Vec4.oneY : Vec4 R)))
  bad := ck bad 195 (!(Vec4.isNull (Vec4.oneZ : Vec4 R)))
  bad := ck bad 196 (!(Vec4.isNull (Vec4.oneW : Vec4 R)))
  bad := ck bad 197 (!(Vec4.isNull (⟨(2 : R), (2 : R), (2 : R), (2 : R)⟩ : Vec4 R)))
  return bad
end Vec4_19
#guard passes Vec4_19.run

namespace Vec4_20
abbrev R := Float32
def run : Res (List Nat) := do
  let mut bad : List Nat := []
  bad := ck bad 230 (Near.near (0.001 : R) (Vec4.product (Vec4.zero : Vec4 R) (Vec4.oneX : Vec4 R)) (Vec4.zero : Vec4 R))
  bad := ck bad 231 (Near.near (0.001 : R) (Vec4.product (Vec4.zero : Vec4 R) (Vec4.oneY : Vec4 R)) (Vec4.zero : Vec4 R))
  bad := ck bad 232 (Near.near (0.001 : R) (Vec4.product (Vec4.zero : Vec4 R) (Vec4.oneZ : Vec4 R)) (Vec4.zero : Vec4 R))
  bad := ck bad 233 (Near.near (0.001 : R) (Vec4.product (Vec4.zero : Vec4 R) (Vec4.oneW : Vec4 R)) (Vec4.zero : Vec4 R))
  bad := ck bad 235 (Near.near (0.001 : R) (Vec4.product (Vec4.oneXnw : Vec4 R) (Vec4.oneYnw : Vec4 R)) (Vec4.zero : Vec4 R))
  bad := ck bad 236 (Near.near (0.001 : R) (Vec4.product (Vec4.oneXnw : Vec4 R) (Vec4.oneZnw : Vec4 R)) (Vec4.zero : Vec4 R))
  bad := ck bad 237 (Near.near (0.001 : R) (Vec4.product (Vec4.oneXnw : Vec4 R) (Vec4.oneW : Vec4 R)) (Vec4.zero : Vec4 R))
  bad := ck bad 239 (Near.near (0.001 : R) (Vec4.product (Vec4.oneYnw : Vec4 R) (Vec4.oneXnw : Vec4 R)) (Vec4.zero : Vec4 R))
  bad := ck bad 240 (Near.near (0.001 : R) (Vec4.product (Vec4.oneYnw : Vec4 R) (Vec4.oneZnw : Vec4 R)) (Vec4.zero : Vec4 R))
  bad := ck bad 241 (Near.near (0.001 : R) (Vec4.product (Vec4.oneYnw : Vec4 R) (Vec4.oneW : Vec4 R)) (Vec4.zero : Vec4 R))
  bad := ck bad 243 (Near.near (0.001 : R) (Vec4.product (Vec4.oneZnw : Vec4 R) (Vec4.oneXnw : Vec4 R)) (Vec4.zero : Vec4 R))
  bad := ck bad 244 (Near.near (0.001 : R) (Vec4.product (Vec4.oneZnw : Vec4 R) (Vec4.oneYnw : Vec4 R)) (Vec4.zero : Vec4 R))
  bad := ck bad 245 (Near.near (0.001 : R) (Vec4.product (Vec4.oneZnw : Vec4 R) (Vec4.oneW : Vec4 R)) (Vec4.zero : Vec4 R))
  bad := ck bad 247 (Near.near (0.001 : R) (Vec4.product (Vec4.oneW : Vec4 R) (Vec4.oneXnw : Vec4 R)) (Vec4.zero : Vec4 R))
  bad := ck bad 248 (Near.near (0.001 : R) (Vec4.product (Vec4.oneW : Vec4 R) (Vec4.oneYnw : Vec4 R)) (Vec4.zero : Vec4 R))
  bad := ck bad 249 (Near.near (0.001 : R) (Vec4.product (Vec4.oneW : Vec4 R) (Vec4.oneZnw : Vec4 R)) (Vec4.zero : Vec4 R))
  bad := ck bad 251 (Near.near (0.001 : R) (Vec4.product (⟨(1 : R), (2 : R), (3 : R), (4 : R)⟩ : Vec4 R) (⟨(5 : R), (6 : R), (7 : R), (8 : R)⟩ : Vec4 R)) (⟨(5 : R), (12 : R), (21 : R), (32 : R)⟩ : Vec4 R))
  return bad
end Vec4_20
#guard passes Vec4_20.run

namespace Vec4_21
abbrev R := Float32
def run : Res (List Nat) := do
  let mut bad : List Nat := []
  bad := ck bad 256 (Near.near (0.001 : R) (Vec4.min (Vec4.zero : Vec4 R) (Vec4.oneX : Vec4 R)) (Vec4.zero : Vec4 R))
  bad := ck bad 257 (Near.near (0.001 : R) (Vec4.min (Vec4.zero : Vec4 R) (Vec4.oneY : Vec4 R)) (Vec4.zero : Vec4 R))
  bad := ck bad 258 (Near.near (0.001 : R) (Vec4.min (Vec4.zero : Vec4 R) (Vec4.oneZ : Vec4 R)) (Vec4.zero : Vec4 R))
  bad := ck bad 259 (Near.near (0.001 : R) (Vec4.min (Vec4.zero : Vec4 R) (Vec4.oneW : Vec4 R)) (Vec4.zero : Vec4 R))
  bad := ck bad 261 (Near.near (0.001 : R) (Vec4.min (Vec4.oneXnw : Vec4 R) (Vec4.oneYnw : Vec4 R)) (Vec4.zero : Vec4 R))
  bad := ck bad 262 (Near.near (0.001 : R) (Vec4.min (Vec4.oneXnw : Vec4 R) (Vec4.oneZnw : Vec4 R)) (Vec4.zero : Vec4 R))
  bad := ck bad 263 (Near.near (0.001 : R) (Vec4.min (Vec4.oneXnw : Vec4 R) (Vec4.oneW : Vec4 R)) (Vec4.zero : Vec4 R))
  bad := ck bad 265 (Near.near (0.001 : R) (Vec4.min (Vec4.oneYnw : Vec4 R) (Vec4.oneXnw : Vec4 R)) (Vec4.zero : Vec4 R))
  bad := ck bad 266 (Near.near (0.001 : R) (Vec4.min (Vec4.oneYnw : Vec4 R) (Vec4.oneZnw : Vec4 R)) (Vec4.zero : Vec4 R))
  bad := ck bad 267 (Near.near (0.001 : R) (Vec4.min (Vec4.oneYnw : Vec4 R) (Vec4.oneW : Vec4 R)) (Vec4.zero : Vec4 R))
  bad := ck bad 269 (Near.near (0.001 : R) (Vec4.min (Vec4.oneZnw : Vec4 R) (Vec4.oneXnw : Vec4 R)) (Vec4.zero : Vec4 R))
  bad := ck bad 270 (Near.near (0.001 : R) (Vec4.min (Vec4.oneZnw : Vec4 R) (Vec4.oneYnw : Vec4 R)) (Vec4.zero : Vec4 R))
  bad := ck bad 271 (Near.near (0.001 : R) (Vec4.min (Vec4.oneZnw : Vec4 R) (Vec4.oneW : Vec4 R)) (Vec4.zero : Vec4 R))
  bad := ck bad 273 (Near.near (0.001 : R) (Vec4.min (Vec4.oneW : Vec4 R) (Vec4.oneXnw : Vec4 R)) (Vec4.zero : Vec4 R))
  bad := ck bad 274 (Near.near (0.001 : R) (Vec4.min (Vec4.oneW : Vec4 R) (Vec4.oneYnw : Vec4 R)) (Vec4.zero : Vec4 R))
  bad := ck bad 275 (Near.near (0.001 : R) (Vec4.min (Vec4.oneW : Vec4 R) (Vec4.oneZnw : Vec4 R)) (Vec4.zero : Vec4 R))
  bad := ck bad 277 (Near.near (0.001 : R) (Vec4.min (⟨(1 : R), (2 : R), (3 : R), (4 : R)⟩ : Vec4 R) (⟨(5 : R), (6 : R), (7 : R), (8 : R)⟩ : Vec4 R)) (⟨(1 : R), (2 : R), (3 : R), (4 : R)⟩ : Vec4 R))
  return bad
end Vec4_21
#guard passes Vec4_21.run

namespace Vec4_22
abbrev R := Float32
def run : Res (List Nat) := do
  let mut bad : List Nat := []
  bad := ck bad 282 (Near.near (0.001 : R) (Vec4.max (Vec4.zero : Vec4 R) (Vec4.oneX : Vec4 R)) (Vec4.oneX : Vec4 R))
  bad := ck bad 283 (Near.near (0.001 : R) (Vec4.max (Vec4.zero : Vec4 R) (Vec4.oneY : Vec4 R)) (Vec4.oneY : Vec4 R))
  bad := ck bad 284 (Near.near (0.001 : R) (Vec4.max (Vec4.zero : Vec4 R) (Vec4.oneZ : Vec4 R)) (Vec4.oneZ : Vec4 R))
  bad := ck bad 285 (Near.near (0.001 : R) (Vec4.max (Vec4.zero : Vec4 R) (Vec4.oneW : Vec4 R)) (Vec4.oneW : Vec4 R))
  bad := ck bad 287 (Near.near (0.001 : R) (Vec4.max (Vec4.oneXnw : Vec4 R) (Vec4.oneYnw : Vec4 R)) (⟨(1 : R), (1 : R), (0 : R), (0 : R)⟩ : Vec4 R))
  bad := ck bad 288 (Near.near (0.001 : R) (Vec4.max (Vec4.oneXnw : Vec4 R) (Vec4.oneZnw : Vec4 R)) (⟨(1 : R), (0 : R), (1 : R), (0 : R)⟩ : Vec4 R))
  bad := ck bad 289 (Near.near (0.001 : R) (Vec4.max (Vec4.oneXnw : Vec4 R) (Vec4.oneW : Vec4 R)) (⟨(1 : R), (0 : R), (0 : R), (1 : R)⟩ : Vec4 R))
  bad := ck bad 291 (Near.near (0.001 : R) (Vec4.max (Vec4.oneYnw : Vec4 R) (Vec4.oneXnw : Vec4 R)) (⟨(1 : R), (1 : R), (0 : R), (0 : R)⟩ : Vec4 R))
  bad := ck bad 292 (Near.near (0.001 : R) (Vec4.max (Vec4.oneYnw : Vec4 R) (Vec4.oneZnw : Vec4 R)) (⟨(0 : R), (1 : R), (1 : R), (0 : R)⟩ : Vec4 R))
  bad := ck bad 293 (Near.near (0.001 : R) (Vec4.max (Vec4.oneYnw : Vec4 R) (Vec4.oneW : Vec4 R)) (⟨(0 : R), (1 : R), (0 : R), (1 : R)⟩ : Vec4 R))
  bad := ck bad 295 (Near.near (0.001 : R) (Vec4.max (Vec4.oneZnw : Vec4 R) (Vec4.oneXnw : Vec4 R)) (⟨(1 : R), (0 : R), (1 : R), (0 : R)⟩ : Vec4 R))
  bad := ck bad 296 (Near.near (0.001 : R) (Vec4.max (Vec4.oneZnw : Vec4 R) (Vec4.oneYnw : Vec4 R)) (⟨(0 : R), (1 : R), (1 : R), (0 : R)⟩ : Vec4 R))
  bad := ck bad 297 (Near.near (0.001 : R) (Vec4.max (Vec4.oneZnw : Vec4 R) (Vec4.oneW : Vec4 R)) (⟨(0 : R), (0 : R), (1 : R), (1 : R)⟩ : Vec4 R))
  bad := ck bad 299 (Near.near (0.001 : R) (Vec4.max (Vec4.oneW : Vec4 R) (Vec4.oneXnw : Vec4 R)) (⟨(1 : R), (0 : R), (0 : R), (1 : R)⟩ : Vec4 R))
  bad := ck bad 300 (Near.near (0.001 : R) (Vec4.max (Vec4.oneW : Vec4 R) (Vec4.oneYnw : Vec4 R)) (⟨(0 : R), (1 : R), (0 : R), (1 : R)⟩ : Vec4 R))
  bad := ck bad 301 (Near.near (0.001 : R) (Vec4.max (Vec4.oneW : Vec4 R) (Vec4.oneZnw : Vec4 R)) (⟨(0 : R), (0 : R), (1 : R), (1 : R)⟩ : Vec4 R))
  bad := ck bad 303 (Near.near (0.001 : R) (Vec4.max (⟨(1 : R), (2 : R), (3 : R), (4 : R)⟩ : Vec4 R) (⟨(5 : R), (6 : R), (7 : R), (8 : R)⟩ : Vec4 R)) (⟨(5 : R), (6 : R), (7 : R), (8 : R)⟩ : Vec4 R))
  return bad
end Vec4_22
#guard passes Vec4_22.run

namespace Vec4_23
abbrev R := Float32
def run : Res (List Nat) := do
  let mut bad : List Nat := []
  let v1 : Vec4 R := (Vec4.oneX : Vec4 R)
  bad := ck bad 309 (Near.near (0.001 : R) v1 v1)
  return bad
end Vec4_23
#guard passes Vec4_23.run

end MathLib.Conformance
