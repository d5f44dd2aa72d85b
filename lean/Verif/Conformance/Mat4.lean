import Verif.Conformance.Base

/-!
# Unit tests of `tests/tests/src/test_mat4.cpp`, replayed on the model

Generated by `tools/conform.py`; the numbers are the source lines of the checks.  496 checks;
72 checks of that file are not translated (casts, random draws, `sizeof`, `data()`, and
functions outside the model).
-/

namespace MathLib.Conformance
set_option linter.all false

namespace Mat4_0
abbrev R := Float32
def run : Res (List Nat) := do
  let mut bad : List Nat := []
  bad := ck bad 19 (Vec4.eq (Mat4.zero : Mat4 R).x (Vec4.zero : Vec4 R))
  bad := ck bad 20 (Vec4.eq (Mat4.zero : Mat4 R).y (Vec4.zero : Vec4 R))
  bad := ck bad 21 (Vec4.eq (Mat4.zero : Mat4 R).z (Vec4.zero : Vec4 R))
  bad := ck bad 22 (Vec4.eq (Mat4.zero : Mat4 R).t (Vec4.zero : Vec4 R))
  bad := ck bad 23 (Mat4.isInitialized (Mat4.zero : Mat4 R))
  bad := ck bad 24 (!(Mat4.isNormal (Mat4.zero : Mat4 R)))
  bad := ck bad 25 (Mat4.isOrthogonal (Mat4.zero : Mat4 R))
  bad := ck bad 26 (!(Mat4.isOrthonormal (Mat4.zero : Mat4 R)))
  bad := ck bad 27 (!(Mat4.isIdentity (Mat4.zero : Mat4 R)))
  return bad
end Mat4_0
#guard passes Mat4_0.run

namespace Mat4_1
abbrev R := Float32
def run : Res (List Nat) := do
  let mut bad : List Nat := []
  bad := ck bad 32 (Vec4.eq (Mat4.one : Mat4 R).x (⟨(1 : R), (0 : R), (0 : R), (0 : R)⟩ : Vec4 R))
  bad := ck bad 33 (Vec4.eq (Mat4.one : Mat4 R).y (⟨(0 : R), (1 : R), (0 : R), (0 : R)⟩ : Vec4 R))
  bad := ck bad 34 (Vec4.eq (Mat4.one : Mat4 R).z (⟨(0 : R), (0 : R), (1 : R), (0 : R)⟩ : Vec4 R))
  bad := ck bad 35 (Vec4.eq (Mat4.one : Mat4 R).t (Vec4.oneW : Vec4 R))
  bad := ck bad 36 (Mat4.isInitialized (Mat4.one : Mat4 R))
  bad := ck bad 37 (Mat4.isNormal (Mat4.one : Mat4 R))
  bad := ck bad 38 (Mat4.isOrthogonal (Mat4.one : Mat4 R))
  bad := ck bad 39 (Mat4.isOrthonormal (Mat4.one : Mat4 R))
  bad := ck bad 40 (Mat4.isIdentity (Mat4.one : Mat4 R))
  return bad
end Mat4_1
#guard passes Mat4_1.run

namespace Mat4_2
abbrev R := Float32
def run : Res (List Nat) := do
  let mut bad : List Nat := []
  let v1 : Mat4 R := (Mat4.ofScalar (3 : R))
  bad := ck bad 58 (Vec4.eq v1.x (⟨(3 : R), (0 : R), (0 : R), (0 : R)⟩ : Vec4 R))
  bad := ck bad 59 (Vec4.eq v1.y (⟨(0 : R), (3 : R), (0 : R), (0 : R)⟩ : Vec4 R))
  bad := ck bad 60 (Vec4.eq v1.z (⟨(0 : R), (0 : R), (3 : R), (0 : R)⟩ : Vec4 R))
  bad := ck bad 61 (Vec4.eq v1.t (⟨(0 : R), (0 : R), (0 : R), (1 : R)⟩ : Vec4 R))
  bad := ck bad 62 (Mat4.isInitialized v1)
  bad := ck bad 63 (!(Mat4.isNormal v1))
  bad := ck bad 64 (Mat4.isOrthogonal v1)
  bad := ck bad 65 (!(Mat4.isOrthonormal v1))
  bad := ck bad 66 (!(Mat4.isIdentity v1))
  return bad
end Mat4_2
#guard passes Mat4_2.run

namespace Mat4_3
abbrev R := Float32
def run : Res (List Nat) := do
  let mut bad : List Nat := []
  let v1 : Mat4 R := (Mat4.ofCols3 (⟨(1 : R), (2 : R), (3 : R)⟩ : Vec3 R) (⟨(4 : R), (5 : R), (6 : R)⟩ : Vec3 R) (⟨(7 : R), (8 : R), (9 : R)⟩ : Vec3 R) (⟨(10 : R), (11 : R), (12 : R)⟩ : Vec3 R))
  bad := ck bad 72 (Vec4.eq v1.x (⟨(1 : R), (2 : R), (3 : R), (0 : R)⟩ : Vec4 R))
  bad := ck bad 73 (Vec4.eq v1.y (⟨(4 : R), (5 : R), (6 : R), (0 : R)⟩ : Vec4 R))
  bad := ck bad 74 (Vec4.eq v1.z (⟨(7 : R), (8 : R), (9 : R), (0 : R)⟩ : Vec4 R))
  bad := ck bad 75 (Vec4.eq v1.t (⟨(10 : R), (11 : R), (12 : R), (1 : R)⟩ : Vec4 R))
  bad := ck bad 76 (Mat4.isInitialized v1)
  bad := ck bad 77 (!(Mat4.isNormal v1))
  bad := ck bad 78 (!(Mat4.isOrthogonal v1))
  bad := ck bad 79 (!(Mat4.isOrthonormal v1))
  bad := ck bad 80 (!(Mat4.isIdentity v1))
  return bad
end Mat4_3
#guard passes Mat4_3.run

namespace Mat4_4
abbrev R := Float32
def run : Res (List Nat) := do
  let mut bad : List Nat := []
  let v1 : Mat4 R := (Mat4.ofScalar (3 : R))
  let v2 : Mat4 R := (Mat4.setIdentity : Mat4 R)
  bad := ck bad 89 (Mat4.eq v2 (Mat4.one : Mat4 R))
  bad := ck bad 90 (Mat4.isInitialized v2)
  bad := ck bad 91 (Mat4.isNormal v2)
  bad := ck bad 92 (Mat4.isOrthogonal v2)
  bad := ck bad 93 (Mat4.isOrthonormal v2)
  bad := ck bad 94 (Mat4.isIdentity v2)
  return bad
end Mat4_4
#guard passes Mat4_4.run

namespace Mat4_5
abbrev R := Float32
def run : Res (List Nat) := do
  let mut bad : List Nat := []
  let v1 : Mat4 R := (Mat4.ofScalar (3 : R))
  let v2 : Mat4 R := (Mat4.ofScalar (42 : R))
  let v3 : Mat4 R := v2
  bad := ck bad 102 (Mat4.eq v3 v2)
  bad := ck bad 103 (Mat4.isInitialized v3)
  bad := ck bad 104 (!(Mat4.isNormal v3))
  bad := ck bad 105 (Mat4.isOrthogonal v3)
  bad := ck bad 106 (!(Mat4.isOrthonormal v3))
  bad := ck bad 107 (!(Mat4.isIdentity v3))
  return bad
end Mat4_5
#guard passes Mat4_5.run

namespace Mat4_6
abbrev R := Float32
def run : Res (List Nat) := do
  let mut bad : List Nat := []
  let v1 : Quat R := (Quat.ofAxisAngle (Vec3.oneZ : Vec3 R) ((MathFns.pi : R) / 4))
  let v2 : Mat4 R := (Mat4.ofScalar (3 : R))
  let v3 : Mat4 R := (Mat4.ofQuat v1 (Vec3.zero : Vec3 R))
  bad := ck bad 115 (Near.near (0.001 : R) v3 (Mat4.ofCols3 (⟨(0.70711 : R), (0.70711 : R), (0 : R)⟩ : Vec3 R) (⟨(-(0.70711 : R)), (0.70711 : R), (0 : R)⟩ : Vec3 R) (⟨(0 : R), (0 : R), (1 : R)⟩ : Vec3 R) (Vec3.zero : Vec3 R)))
  bad := ck bad 116 (Mat4.isInitialized v3)
  bad := ck bad 117 (Mat4.isNormal v3)
  bad := ck bad 118 (Mat4.isOrthogonal v3)
  bad := ck bad 119 (Mat4.isOrthonormal v3)
  bad := ck bad 120 (!(Mat4.isIdentity v3))
  return bad
end Mat4_6
#guard passes Mat4_6.run

namespace Mat4_7
abbrev R := Float32
def run : Res (List Nat) := do
  let mut bad : List Nat := []
  let v1 : Mat4 R := (Mat4.ofScalar (3 : R))
  let v2 : Mat4 R := (Mat4.ofCols3 (⟨(1 : R), (2 : R), (3 : R)⟩ : Vec3 R) (⟨(4 : R), (5 : R), (6 : R)⟩ : Vec3 R) (⟨(7 : R), (8 : R), (9 : R)⟩ : Vec3 R) (Vec3.zero : Vec3 R))
  bad := ck bad 127 (Near.near (0.001 : R) v2 (Mat4.ofCols3 (⟨(1 : R), (2 : R), (3 : R)⟩ : Vec3 R) (⟨(4 : R), (5 : R), (6 : R)⟩ : Vec3 R) (⟨(7 : R), (8 : R), (9 : R)⟩ : Vec3 R) (Vec3.zero : Vec3 R)))
  bad := ck bad 133 (Mat4.isInitialized v2)
  bad := ck bad 134 (!(Mat4.isNormal v2))
  bad := ck bad 135 (!(Mat4.isOrthogonal v2))
  bad := ck bad 136 (!(Mat4.isOrthonormal v2))
  bad := ck bad 137 (!(Mat4.isIdentity v2))
  return bad
end Mat4_7
#guard passes Mat4_7.run

namespace Mat4_8
abbrev R := Float32
def run : Res (List Nat) := do
  let mut bad : List Nat := []
  let v1 : Mat4 R := (Mat4.ofScalar (3 : R))
  let v2 : Mat4 R := (← Mat4.ofExactApprox Coord.X (Vec3.oneX : Vec3 R) Coord.Z (Vec3.oneZ : Vec3 R))
  bad := ck bad 145 (Near.near (0.001 : R) v2 (Mat4.one : Mat4 R))
  bad := ck bad 146 (Mat4.isInitialized v2)
  bad := ck bad 147 (Mat4.isNormal v2)
  bad := ck bad 148 (Mat4.isOrthogonal v2)
  bad := ck bad 149 (Mat4.isOrthonormal v2)
  bad := ck bad 150 (Mat4.isIdentity v2)
  let v3 : Mat4 R := (← Mat4.ofExactApprox Coord.X (Vec3.oneX : Vec3 R) Coord.Y (Vec3.oneY : Vec3 R))
  bad := ck bad 153 (Near.near (0.001 : R) v3 (Mat4.one : Mat4 R))
  bad := ck bad 154 (Mat4.isInitialized v3)
  bad := ck bad 155 (Mat4.isNormal v3)
  bad := ck bad 156 (Mat4.isOrthogonal v3)
  bad := ck bad 157 (Mat4.isOrthonormal v3)
  bad := ck bad 158 (Mat4.isIdentity v3)
  let v4 : Mat4 R := (← Mat4.ofExactApprox Coord.Y (Vec3.oneY : Vec3 R) Coord.X (Vec3.oneX : Vec3 R))
  bad := ck bad 161 (Near.near (0.001 : R) v4 (Mat4.one : Mat4 R))
  bad := ck bad 162 (Mat4.isInitialized v4)
  bad := ck bad 163 (Mat4.isNormal v4)
  bad := ck bad 164 (Mat4.isOrthogonal v4)
  bad := ck bad 165 (Mat4.isOrthonormal v4)
  bad := ck bad 166 (Mat4.isIdentity v4)
  let v5 : Mat4 R := (← Mat4.ofExactApprox Coord.Y (Vec3.oneY : Vec3 R) Coord.Z (Vec3.oneZ : Vec3 R))
  bad := ck bad 169 (Near.near (0.001 : R) v5 (Mat4.one : Mat4 R))
  bad := ck bad 170 (Mat4.isInitialized v5)
  bad := ck bad 171 (Mat4.isNormal v5)
  bad := ck bad 172 (Mat4.isOrthogonal v5)
  bad := ck bad 173 (Mat4.isOrthonormal v5)
  bad := ck bad 174 (Mat4.isIdentity v5)
  let v6 : Mat4 R := (← Mat4.ofExactApprox Coord.Z (Vec3.oneZ : Vec3 R) Coord.X (Vec3.oneX : Vec3 R))
  bad := ck bad 177 (Near.near (0.001 : R) v6 (Mat4.one : Mat4 R))
  bad := ck bad 178 (Mat4.isInitialized v6)
  bad := ck bad 179 (Mat4.isNormal v6)
  bad := ck bad 180 (Mat4.isOrthogonal v6)
  bad := ck bad 181 (Mat4.isOrthonormal v6)
  bad := ck bad 182 (Mat4.isIdentity v6)
  let v7 : Mat4 R := (← Mat4.ofExactApprox Coord.Z (Vec3.oneZ : Vec3 R) Coord.Y (Vec3.oneY : Vec3 R))
  bad := ck bad 185 (Near.near (0.001 : R) v7 (Mat4.one : Mat4 R))
  bad := ck bad 186 (Mat4.isInitialized v7)
  bad := ck bad 187 (Mat4.isNormal v7)
  bad := ck bad 188 (Mat4.isOrthogonal v7)
  bad := ck bad 189 (Mat4.isOrthonormal v7)
  bad := ck bad 190 (Mat4.isIdentity v7)
  return bad
end Mat4_8
#guard passes Mat4_8.run

namespace Mat4_9
abbrev R := Float32
def run : Res (List Nat) := do
  let mut bad : List Nat := []
  let v1 : Mat4 R := (Mat4.ofScalar (3 : R))
  let v2 : Mat4 R := (Mat4.ofAxisAngle (Vec3.oneZ : Vec3 R) ((MathFns.pi : R) / 4))
  bad := ck bad 197 (Near.near (0.001 : R) v2 (Mat4.ofCols3 (⟨(0.70711 : R), (0.70711 : R), (0 : R)⟩ : Vec3 R) (⟨(-(0.70711 : R)), (0.70711 : R), (0 : R)⟩ : Vec3 R) (⟨(0 : R), (0 : R), (1 : R)⟩ : Vec3 R) (Vec3.zero : Vec3 R)))
  bad := ck bad 202 (Mat4.isInitialized v2)
  bad := ck bad 203 (Mat4.isNormal v2)
  bad := ck bad 204 (Mat4.isOrthogonal v2)
  bad := ck bad 205 (Mat4.isOrthonormal v2)
  bad := ck bad 206 (!(Mat4.isIdentity v2))
  return bad
end Mat4_9
#guard passes Mat4_9.run

namespace Mat4_10
abbrev R := Float32
def run : Res (List Nat) := do
  let mut bad : List Nat := []
  let v1 : Mat4 R := (Mat4.ofScalar (3 : R))
  let v2 : Mat4 R := (← Mat4.ofCoordAngle Coord.X ((MathFns.pi : R) / 3))
  bad := ck bad 213 (Near.near (0.001 : R) v2 (Mat4.ofAxisAngle (Vec3.oneX : Vec3 R) ((MathFns.pi : R) / 3)))
  bad := ck bad 214 (Mat4.isInitialized v2)
  bad := ck bad 215 (Mat4.isNormal v2)
  bad := ck bad 216 (Mat4.isOrthogonal v2)
  bad := ck bad 217 (Mat4.isOrthonormal v2)
  bad := ck bad 218 (!(Mat4.isIdentity v2))
  let v3 : Mat4 R := (← Mat4.ofCoordAngle Coord.Y ((MathFns.pi : R) / 3))
  bad := ck bad 220 (Near.near (0.001 : R) v3 (Mat4.ofAxisAngle (Vec3.oneY : Vec3 R) ((MathFns.pi : R) / 3)))
  bad := ck bad 221 (Mat4.isInitialized v3)
  bad := ck bad 222 (Mat4.isNormal v3)
  bad := ck bad 223 (Mat4.isOrthogonal v3)
  bad := ck bad 224 (Mat4.isOrthonormal v3)
  bad := ck bad 225 (!(Mat4.isIdentity v3))
  let v4 : Mat4 R := (← Mat4.ofCoordAngle Coord.Z ((MathFns.pi : R) / 3))
  bad := ck bad 227 (Near.near (0.001 : R) v4 (Mat4.ofAxisAngle (Vec3.oneZ : Vec3 R) ((MathFns.pi : R) / 3)))
  bad := ck bad 228 (Mat4.isInitialized v4)
  bad := ck bad 229 (Mat4.isNormal v4)
  bad := ck bad 230 (Mat4.isOrthogonal v4)
  bad := ck bad 231 (Mat4.isOrthonormal v4)
  bad := ck bad 232 (!(Mat4.isIdentity v4))
  return bad
end Mat4_10
#guard passes Mat4_10.run

namespace Mat4_11
abbrev R := Float32
def run : Res (List Nat) := do
  let mut bad : List Nat := []
  let v1 : Quat R := (Quat.ofAxisAngle (Vec3.oneZ : Vec3 R) ((MathFns.pi : R) / 4))
  let v2 : Mat4 R := (Mat4.ofScalar (3 : R))
  let v3 : Mat4 R := (Mat4.ofQuat v1 (Vec3.zero : Vec3 R))
  bad := ck bad 242 (Near.near (0.001 : R) v3 (Mat4.ofCols3 (⟨(0.70711 : R), (0.70711 : R), (0 : R)⟩ : Vec3 R) (⟨(-(0.70711 : R)), (0.70711 : R), (0 : R)⟩ : Vec3 R) (⟨(0 : R), (0 : R), (1 : R)⟩ : Vec3 R) (Vec3.zero : Vec3 R)))
  bad := ck bad 243 (Mat4.isInitialized v3)
  bad := ck bad 244 (Mat4.isNormal v3)
  bad := ck bad 245 (Mat4.isOrthogonal v3)
  bad := ck bad 246 (Mat4.isOrthonormal v3)
  bad := ck bad 247 (!(Mat4.isIdentity v3))
  return bad
end Mat4_11
#guard passes Mat4_11.run

namespace Mat4_12
abbrev R := Float32
def run : Res (List Nat) := do
  let mut bad : List Nat := []
  let v1 : Mat4 R := (Mat4.ofScalar (3 : R))
  let v2 : Mat4 R := (Mat4.ofCols3 (⟨(1 : R), (2 : R), (3 : R)⟩ : Vec3 R) (⟨(4 : R), (5 : R), (6 : R)⟩ : Vec3 R) (⟨(7 : R), (8 : R), (9 : R)⟩ : Vec3 R) (Vec3.zero : Vec3 R))
  bad := ck bad 254 (Near.near (0.001 : R) v2 (Mat4.ofCols3 (⟨(1 : R), (2 : R), (3 : R)⟩ : Vec3 R) (⟨(4 : R), (5 : R), (6 : R)⟩ : Vec3 R) (⟨(7 : R), (8 : R), (9 : R)⟩ : Vec3 R) (Vec3.zero : Vec3 R)))
  bad := ck bad 260 (Mat4.isInitialized v2)
  bad := ck bad 261 (!(Mat4.isNormal v2))
  bad := ck bad 262 (!(Mat4.isOrthogonal v2))
  bad := ck bad 263 (!(Mat4.isOrthonormal v2))
  bad := ck bad 264 (!(Mat4.isIdentity v2))
  return bad
end Mat4_12
#guard passes Mat4_12.run

namespace Mat4_13
abbrev R := Float32
def run : Res (List Nat) := do
  let mut bad : List Nat := []
  let v1 : Mat4 R := (Mat4.ofScalar (3 : R))
  let v2 : Mat4 R := (← Mat4.ofExactApprox Coord.X (Vec3.oneX : Vec3 R) Coord.Z (Vec3.oneZ : Vec3 R))
  bad := ck bad 272 (Near.near (0.001 : R) v2 (Mat4.one : Mat4 R))
  bad := ck bad 273 (Mat4.isInitialized v2)
  bad := ck bad 274 (Mat4.isNormal v2)
  bad := ck bad 275 (Mat4.isOrthogonal v2)
  bad := ck bad 276 (Mat4.isOrthonormal v2)
  bad := ck bad 277 (Mat4.isIdentity v2)
  let v3 : Mat4 R := (← Mat4.ofExactApprox Coord.X (Vec3.oneX : Vec3 R) Coord.Y (Vec3.oneY : Vec3 R))
  bad := ck bad 280 (Near.near (0.001 : R) v3 (Mat4.one : Mat4 R))
  bad := ck bad 281 (Mat4.isInitialized v3)
  bad := ck bad 282 (Mat4.isNormal v3)
  bad := ck bad 283 (Mat4.isOrthogonal v3)
  bad := ck bad 284 (Mat4.isOrthonormal v3)
  bad := ck bad 285 (Mat4.isIdentity v3)
  let v4 : Mat4 R := (← Mat4.ofExactApprox Coord.Y (Vec3.oneY : Vec3 R) Coord.X (Vec3.oneX : Vec3 R))
  bad := ck bad 288 (Near.near (0.001 : R) v4 (Mat4.one : Mat4 R))
  bad := ck bad 289 (Mat4.isInitialized v4)
  bad := ck bad 290 (Mat4.isNormal v4)
  bad := ck bad 291 (Mat4.isOrthogonal v4)
  bad := ck bad 292 (Mat4.isOrthonormal v4)
  bad := ck bad 293 (Mat4.isIdentity v4)
  let v5 : Mat4 R := (← Mat4.ofExactApprox Coord.Y (Vec3.oneY : Vec3 R) Coord.Z (Vec3.oneZ : Vec3 R))
  bad := ck bad 296 (Near.near (0.001 : R) v5 (Mat4.one : Mat4 R))
  bad := ck bad 297 (Mat4.isInitialized v5)
  bad := ck bad 298 (Mat4.isNormal v5)
  bad := ck bad 299 (Mat4.isOrthogonal v5)
  bad := ck bad 300 (Mat4.isOrthonormal v5)
  bad := ck bad 301 (Mat4.isIdentity v5)
  let v6 : Mat4 R := (← Mat4.ofExactApprox Coord.Z (Vec3.oneZ : Vec3 R) Coord.X (Vec3.oneX : Vec3 R))
  bad := ck bad 304 (Near.near (0.001 : R) v6 (Mat4.one : Mat4 R))
  bad := ck bad 305 (Mat4.isInitialized v6)
  bad := ck bad 306 (Mat4.isNormal v6)
  bad := ck bad 307 (Mat4.isOrthogonal v6)
  bad := ck bad 308 (Mat4.isOrthonormal v6)
  bad := ck bad 309 (Mat4.isIdentity v6)
  let v7 : Mat4 R := (← Mat4.ofExactApprox Coord.Z (Vec3.oneZ : Vec3 R) Coord.Y (Vec3.oneY : Vec3 R))
  bad := ck bad 312 (Near.near (0.001 : R) v7 (Mat4.one : Mat4 R))
  bad := ck bad 313 (Mat4.isInitialized v7)
  bad := ck bad 314 (Mat4.isNormal v7)
  bad := ck bad 315 (Mat4.isOrthogonal v7)
  bad := ck bad 316 (Mat4.isOrthonormal v7)
  bad := ck bad 317 (Mat4.isIdentity v7)
  return bad
end Mat4_13
#guard passes Mat4_13.run

namespace Mat4_14
abbrev R := Float32
def run : Res (List Nat) := do
  let mut bad : List Nat := []
  let v1 : Mat4 R := (Mat4.ofScalar (3 : R))
  let v2 : Mat4 R := (Mat4.ofAxisAngle (Vec3.oneZ : Vec3 R) ((MathFns.pi : R) / 4))
  bad := ck bad 324 (Near.near (0.001 : R) v2 (Mat4.ofCols3 (⟨(0.70711 : R), (0.70711 : R), (0 : R)⟩ : Vec3 R) (⟨(-(0.70711 : R)), (0.70711 : R), (0 : R)⟩ : Vec3 R) (⟨(0 : R), (0 : R), (1 : R)⟩ : Vec3 R) (Vec3.zero : Vec3 R)))
  bad := ck bad 325 (Mat4.isInitialized v2)
  bad := ck bad 326 (Mat4.isNormal v2)
  bad := ck bad 327 (Mat4.isOrthogonal v2)
  bad := ck bad 328 (Mat4.isOrthonormal v2)
  bad := ck bad 329 (!(Mat4.isIdentity v2))
  return bad
end Mat4_14
#guard passes Mat4_14.run

namespace Mat4_15
abbrev R := Float32
def run : Res (List Nat) := do
  let mut bad : List Nat := []
  let v1 : Mat4 R := (Mat4.ofScalar (3 : R))
  let v2 : Mat4 R := (← Mat4.ofCoordAngle Coord.X ((MathFns.pi : R) / 3))
  bad := ck bad 336 (Near.near (0.001 : R) v2 (Mat4.ofAxisAngle (Vec3.oneX : Vec3 R) ((MathFns.pi : R) / 3)))
  bad := ck bad 337 (Mat4.isInitialized v2)
  bad := ck bad 338 (Mat4.isNormal v2)
  bad := ck bad 339 (Mat4.isOrthogonal v2)
  bad := ck bad 340 (Mat4.isOrthonormal v2)
  bad := ck bad 341 (!(Mat4.isIdentity v2))
  let v3 : Mat4 R := (← Mat4.ofCoordAngle Coord.Y ((MathFns.pi : R) / 3))
  bad := ck bad 343 (Near.near (0.001 : R) v3 (Mat4.ofAxisAngle (Vec3.oneY : Vec3 R) ((MathFns.pi : R) / 3)))
  bad := ck bad 344 (Mat4.isInitialized v3)
  bad := ck bad 345 (Mat4.isNormal v3)
  bad := ck bad 346 (Mat4.isOrthogonal v3)
  bad := ck bad 347 (Mat4.isOrthonormal v3)
  bad := ck bad 348 (!(Mat4.isIdentity v3))
  let v4 : Mat4 R := (← Mat4.ofCoordAngle Coord.Z ((MathFns.pi : R) / 3))
  bad := ck bad 350 (Near.near (0.001 : R) v4 (Mat4.ofAxisAngle (Vec3.oneZ : Vec3 R) ((MathFns.pi : R) / 3)))
  bad := ck bad 351 (Mat4.isInitialized v4)
  bad := ck bad 352 (Mat4.isNormal v4)
  bad := ck bad 353 (Mat4.isOrthogonal v4)
  bad := ck bad 354 (Mat4.isOrthonormal v4)
  bad := ck bad 355 (!(Mat4.isIdentity v4))
  return bad
end Mat4_15
#guard passes Mat4_15.run

namespace Mat4_16
abbrev R := Float32
def run : Res (List Nat) := do
  let mut bad : List Nat := []
  let v1 : Mat4 R := (Mat4.ofCols3 (⟨(1 : R), (2 : R), (3 : R)⟩ : Vec3 R) (⟨(4 : R), (5 : R), (6 : R)⟩ : Vec3 R) (⟨(7 : R), (8 : R), (9 : R)⟩ : Vec3 R) (Vec3.zero : Vec3 R))
  bad := ck bad 364 (Near.near (0.001 : R) (← Mat4.get v1 Coord.X) (⟨(1 : R), (2 : R), (3 : R), (0 : R)⟩ : Vec4 R))
  bad := ck bad 365 (Near.near (0.001 : R) (← Mat4.get v1 Coord.Y) (⟨(4 : R), (5 : R), (6 : R), (0 : R)⟩ : Vec4 R))
  bad := ck bad 366 (Near.near (0.001 : R) (← Mat4.get v1 Coord.Z) (⟨(7 : R), (8 : R), (9 : R), (0 : R)⟩ : Vec4 R))
  return bad
end Mat4_16
#guard passes Mat4_16.run

namespace Mat4_17
abbrev R := Float32
def run : Res (List Nat) := do
  let mut bad : List Nat := []
  let v1 : Mat4 R := (Mat4.ofCols3 (⟨(1 : R), (2 : R), (3 : R)⟩ : Vec3 R) (⟨(4 : R), (5 : R), (6 : R)⟩ : Vec3 R) (⟨(7 : R), (8 : R), (9 : R)⟩ : Vec3 R) (Vec3.zero : Vec3 R))
  let v2 : Mat4 R := (Mat4.neg v1)
  bad := ck bad 387 (Near.near (0.001 : R) v2 (Mat4.ofCols (⟨(-1 : R), (-2 : R), (-3 : R), (0 : R)⟩ : Vec4 R) (⟨(-4 : R), (-5 : R), (-6 : R), (0 : R)⟩ : Vec4 R) (⟨(-7 : R), (-8 : R), (-9 : R), (0 : R)⟩ : Vec4 R) (-(Vec4.oneW : Vec4 R))))
  bad := ck bad 388 (Mat4.isInitialized v2)
  bad := ck bad 389 (!(Mat4.isNormal v2))
  bad := ck bad 390 (!(Mat4.isOrthogonal v2))
  bad := ck bad 391 (!(Mat4.isOrthonormal v2))
  bad := ck bad 392 (!(Mat4.isIdentity v2))
  return bad
end Mat4_17
#guard passes Mat4_17.run

namespace Mat4_18
abbrev R := Float32
def run : Res (List Nat) := do
  let mut bad : List Nat := []
  let v1 : Mat4 R := (Mat4.ofCols3 (⟨(1 : R), (2 : R), (3 : R)⟩ : Vec3 R) (⟨(4 : R), (5 : R), (6 : R)⟩ : Vec3 R) (⟨(7 : R), (8 : R), (9 : R)⟩ : Vec3 R) (Vec3.zero : Vec3 R))
  let v2 : Mat4 R := (Mat4.ofCols3 (⟨(9 : R), (8 : R), (7 : R)⟩ : Vec3 R) (⟨(6 : R), (5 : R), (4 : R)⟩ : Vec3 R) (⟨(3 : R), (2 : R), (1 : R)⟩ : Vec3 R) (Vec3.zero : Vec3 R))
  let v3 : Mat4 R := (Mat4.mul v1 v2)
  bad := ck bad 400 (Near.near (0.001 : R) v3 (Mat4.ofCols3 (⟨(90 : R), (114 : R), (138 : R)⟩ : Vec3 R) (⟨(54 : R), (69 : R), (84 : R)⟩ : Vec3 R) (⟨(18 : R), (24 : R), (30 : R)⟩ : Vec3 R) (Vec3.zero : Vec3 R)))
  bad := ck bad 401 (Mat4.isInitialized v3)
  bad := ck bad 402 (!(Mat4.isNormal v3))
  bad := ck bad 403 (!(Mat4.isOrthogonal v3))
  bad := ck bad 404 (!(Mat4.isOrthonormal v3))
  bad := ck bad 405 (!(Mat4.isIdentity v3))
  return bad
end Mat4_18
#guard passes Mat4_18.run

namespace Mat4_19
abbrev R := Float32
def run : Res (List Nat) := do
  let mut bad : List Nat := []
  let v1 : Mat4 R := (Mat4.ofCols3 (⟨(1 : R), (2 : R), (3 : R)⟩ : Vec3 R) (⟨(4 : R), (5 : R), (6 : R)⟩ : Vec3 R) (⟨(7 : R), (8 : R), (9 : R)⟩ : Vec3 R) (Vec3.zero : Vec3 R))
  bad := ck bad 411 (Near.near (0.001 : R) (Mat4.mulVec3 v1 (Vec3.oneX : Vec3 R)) (⟨(1 : R), (2 : R), (3 : R)⟩ : Vec3 R))
  bad := ck bad 412 (Near.near (0.001 : R) (Mat4.mulVec3 v1 (Vec3.oneY : Vec3 R)) (⟨(4 : R), (5 : R), (6 : R)⟩ : Vec3 R))
  bad := ck bad 413 (Near.near (0.001 : R) (Mat4.mulVec3 v1 (Vec3.oneZ : Vec3 R)) (⟨(7 : R), (8 : R), (9 : R)⟩ : Vec3 R))
  return bad
end Mat4_19
#guard passes Mat4_19.run

namespace Mat4_20
abbrev R := Float32
def run : Res (List Nat) := do
  let mut bad : List Nat := []
  let v1 : Mat4 R := (Mat4.ofCols3 (⟨(1 : R), (2 : R), (3 : R)⟩ : Vec3 R) (⟨(4 : R), (5 : R), (6 : R)⟩ : Vec3 R) (⟨(7 : R), (8 : R), (9 : R)⟩ : Vec3 R) (Vec3.zero : Vec3 R))
  bad := ck bad 434 (Mat4.ne v1 (Mat4.ofCols3 (⟨(1.1 : R), (2 : R), (3 : R)⟩ : Vec3 R) (⟨(4 : R), (5 : R), (6 : R)⟩ : Vec3 R) (⟨(7 : R), (8 : R), (9 : R)⟩ : Vec3 R) (Vec3.zero : Vec3 R)))
  bad := ck bad 435 (Mat4.ne v1 (Mat4.ofCols3 (⟨(1 : R), (2.1 : R), (3 : R)⟩ : Vec3 R) (⟨(4 : R), (5 : R), (6 : R)⟩ : Vec3 R) (⟨(7 : R), (8 : R), (9 : R)⟩ : Vec3 R) (Vec3.zero : Vec3 R)))
  bad := ck bad 436 (Mat4.ne v1 (Mat4.ofCols3 (⟨(1 : R), (2 : R), (3.1 : R)⟩ : Vec3 R) (⟨(4 : R), (5 : R), (6 : R)⟩ : Vec3 R) (⟨(7 : R), (8 : R), (9 : R)⟩ : Vec3 R) (Vec3.zero : Vec3 R)))
  bad := ck bad 437 (Mat4.ne v1 (Mat4.ofCols3 (⟨(1 : R), (2 : R), (3 : R)⟩ : Vec3 R) (⟨(4.1 : R), (5 : R), (6 : R)⟩ : Vec3 R) (⟨(7 : R), (8 : R), (9 : R)⟩ : Vec3 R) (Vec3.zero : Vec3 R)))
  bad := ck bad 438 (Mat4.ne v1 (Mat4.ofCols3 (⟨(1 : R), (2 : R), (3 : R)⟩ : Vec3 R) (⟨(4 : R), (5.1 : R), (6 : R)⟩ : Vec3 R) (⟨(7 : R), (8 : R), (9 : R)⟩ : Vec3 R) (Vec3.zero : Vec3 R)))
  bad := ck bad 439 (Mat4.ne v1 (Mat4.ofCols3 (⟨(1 : R), (2 : R), (3 : R)⟩ : Vec3 R) (⟨(4 : R), (5 : R), (6.1 : R)⟩ : Vec3 R) (⟨(7 : R), (8 : R), (9 : R)⟩ : Vec3 R) (Vec3.zero : Vec3 R)))
  bad := ck bad 440 (Mat4.ne v1 (Mat4.ofCols3 (⟨(1 : R), (2 : R), (3 : R)⟩ : Vec3 R) (⟨(4 : R), (5 : R), (6 : R)⟩ : Vec3 R) (⟨(7.1 : R), (8 : R), (9 : R)⟩ : Vec3 R) (Vec3.zero : Vec3 R)))
  bad := ck bad 441 (Mat4.ne v1 (Mat4.ofCols3 (⟨(1 : R), (2 : R), (3 : R)⟩ : Vec3 R) (⟨(4 : R), (5 : R), (6 : R)⟩ : Vec3 R) (⟨(7 : R), (8.1 : R), (9 : R)⟩ : Vec3 R) (Vec3.zero : Vec3 R)))
  bad := ck bad 442 (Mat4.ne v1 (Mat4.ofCols3 (⟨(1 : R), (2 : R), (3 : R)⟩ : Vec3 R) (⟨(4 : R), (5 : R), (6 : R)⟩ : Vec3 R) (⟨(7 : R), (8 : R), (9.1 : R)⟩ : Vec3 R) (Vec3.zero : Vec3 R)))
  return bad
end Mat4_20
#guard passes Mat4_20.run

namespace Mat4_21
abbrev R := Float32
def run : Res (List Nat) := do
  let mut bad : List Nat := []
  let v1 : Mat4 R := (Mat4.ofAxisAngle (Vec3.oneZ : Vec3 R) ((MathFns.pi : R) / 3))
  let v2 : Mat4 R := (Mat4.rotateQuat v1 (Quat.ofAxisAngle (Vec3.oneX : Vec3 R) ((MathFns.pi : R) / 6)))
  bad := ck bad 452 (Near.near (0.001 : R) v2 (Mat4.mul (Mat4.ofAxisAngle (Vec3.oneX : Vec3 R) ((MathFns.pi : R) / 6)) (Mat4.ofAxisAngle (Vec3.oneZ : Vec3 R) ((MathFns.pi : R) / 3))))
  bad := ck bad 455 (Mat4.isInitialized v2)
  bad := ck bad 456 (Mat4.isNormal v2)
  bad := ck bad 457 (Mat4.isOrthogonal v2)
  bad := ck bad 458 (Mat4.isOrthonormal v2)
  bad := ck bad 459 (!(Mat4.isIdentity v2))
  return bad
end Mat4_21
#guard passes Mat4_21.run

namespace Mat4_22
abbrev R := Float32
def run : Res (List Nat) := do
  let mut bad : List Nat := []
  let v1 : Mat4 R := (Mat4.ofAxisAngle (Vec3.oneZ : Vec3 R) ((MathFns.pi : R) / 3))
  let v2 : Mat4 R := (Mat4.rotateAxis v1 (Vec3.oneX : Vec3 R) ((MathFns.pi : R) / 6))
  bad := ck bad 467 (Near.near (0.001 : R) v2 (Mat4.mul (Mat4.ofAxisAngle (Vec3.oneX : Vec3 R) ((MathFns.pi : R) / 6)) (Mat4.ofAxisAngle (Vec3.oneZ : Vec3 R) ((MathFns.pi : R) / 3))))
  bad := ck bad 470 (Mat4.isInitialized v2)
  bad := ck bad 471 (Mat4.isNormal v2)
  bad := ck bad 472 (Mat4.isOrthogonal v2)
  bad := ck bad 473 (Mat4.isOrthonormal v2)
  bad := ck bad 474 (!(Mat4.isIdentity v2))
  return bad
end Mat4_22
#guard passes Mat4_22.run

namespace Mat4_23
abbrev R := Float32
def run : Res (List Nat) := do
  let mut bad : List Nat := []
  let v1 : Mat4 R := (Mat4.ofAxisAngle (Vec3.oneZ : Vec3 R) ((MathFns.pi : R) / 3))
  let v2 : Mat4 R := (← Mat4.rotateCoord v1 Coord.X ((MathFns.pi : R) / 6))
  bad := ck bad 482 (Near.near (0.001 : R) v2 (Mat4.mul (Mat4.ofAxisAngle (Vec3.oneX : Vec3 R) ((MathFns.pi : R) / 6)) (Mat4.ofAxisAngle (Vec3.oneZ : Vec3 R) ((MathFns.pi : R) / 3))))
  bad := ck bad 485 (Mat4.isInitialized v2)
  bad := ck bad 486 (Mat4.isNormal v2)
  bad := ck bad 487 (Mat4.isOrthogonal v2)
  bad := ck bad 488 (Mat4.isOrthonormal v2)
  bad := ck bad 489 (!(Mat4.isIdentity v2))
  return bad
end Mat4_23
#guard passes Mat4_23.run

namespace Mat4_24
abbrev R := Float32
def run : Res (List Nat) := do
  let mut bad : List Nat := []
  let v1 : Mat4 R := (Mat4.ofCols3 (⟨(1 : R), (2 : R), (3 : R)⟩ : Vec3 R) (⟨(4 : R), (5 : R), (6 : R)⟩ : Vec3 R) (⟨(7 : R), (8 : R), (9 : R)⟩ : Vec3 R) (⟨(10 : R), (11 : R), (12 : R)⟩ : Vec3 R))
  let v2 : Mat4 R := (Mat4.translate v1 (⟨(2 : R), (3 : R), (4 : R)⟩ : Vec3 R))
  bad := ck bad 498 (Near.near (0.001 : R) v2 (Mat4.ofCols3 (⟨(1 : R), (2 : R), (3 : R)⟩ : Vec3 R) (⟨(4 : R), (5 : R), (6 : R)⟩ : Vec3 R) (⟨(7 : R), (8 : R), (9 : R)⟩ : Vec3 R) (⟨(12 : R), (14 : R), (16 : R)⟩ : Vec3 R)))
  bad := ck bad 505 (Mat4.isInitialized v2)
  bad := ck bad 506 (!(Mat4.isNormal v2))
  bad := ck bad 507 (!(Mat4.isOrthogonal v2))
  bad := ck bad 508 (!(Mat4.isOrthonormal v2))
  bad := ck bad 509 (!(Mat4.isIdentity v2))
  return bad
end Mat4_24
#guard passes Mat4_24.run

namespace Mat4_25
abbrev R := Float32
def run : Res (List Nat) := do
  let mut bad : List Nat := []
  let v1 : Mat4 R := (Mat4.setIdentity : Mat4 R)
  let v2 : Mat4 R := (Mat4.translate v1 (Vec3.oneX : Vec3 R))
  bad := ck bad 516 (!(Mat4.isIdentity v2))
  return bad
end Mat4_25
#guard passes Mat4_25.run

namespace Mat4_26
abbrev R := Float32
def run : Res (List Nat) := do
  let mut bad : List Nat := []
  let v1 : Mat4 R := (Mat4.setIdentity : Mat4 R)
  let v2 : Mat4 R := (Mat4.translate v1 (Vec3.zero : Vec3 R))
  bad := ck bad 523 (Mat4.isIdentity v2)
  return bad
end Mat4_26
#guard passes Mat4_26.run

namespace Mat4_27
abbrev R := Float32
def run : Res (List Nat) := do
  let mut bad : List Nat := []
  let v1 : Mat4 R := (Mat4.ofCols3 (⟨(1 : R), (2 : R), (3 : R)⟩ : Vec3 R) (⟨(4 : R), (5 : R), (6 : R)⟩ : Vec3 R) (⟨(7 : R), (8 : R), (9 : R)⟩ : Vec3 R) (⟨(10 : R), (11 : R), (12 : R)⟩ : Vec3 R))
  let v2 : Mat4 R := (Mat4.scale v1 (⟨(10 : R), (100 : R), (1000 : R)⟩ : Vec3 R))
  bad := ck bad 533 (Near.near (0.001 : R) v2 (Mat4.ofCols3 (⟨(10 : R), (20 : R), (30 : R)⟩ : Vec3 R) (⟨(400 : R), (500 : R), (600 : R)⟩ : Vec3 R) (⟨(7000 : R), (8000 : R), (9000 : R)⟩ : Vec3 R) (⟨(100 : R), (1100 : R), (12000 : R)⟩ : Vec3 R)))
  bad := ck bad 540 (Mat4.isInitialized v2)
  bad := ck bad 541 (!(Mat4.isNormal v2))
  bad := ck bad 542 (!(Mat4.isOrthogonal v2))
  bad := ck bad 543 (!(Mat4.isOrthonormal v2))
  bad := ck bad 544 (!(Mat4.isIdentity v2))
  return bad
end Mat4_27
#guard passes Mat4_27.run

namespace Mat4_28
abbrev R := Float32
def run : Res (List Nat) := do
  let mut bad : List Nat := []
  let v1 : Mat4 R := (Mat4.setIdentity : Mat4 R)
  let v2 : Mat4 R := (Mat4.scale v1 (⟨(2.0 : R), (1.0 : R), (1.0 : R)⟩ : Vec3 R))
  bad := ck bad 551 (!(Mat4.isIdentity v2))
  return bad
end Mat4_28
#guard passes Mat4_28.run

namespace Mat4_29
abbrev R := Float32
def run : Res (List Nat) := do
  let mut bad : List Nat := []
  let v1 : Mat4 R := (Mat4.setIdentity : Mat4 R)
  let v2 : Mat4 R := (Mat4.scale v1 (⟨(1.0 : R), (1.0 : R), (1.0 : R)⟩ : Vec3 R))
  bad := ck bad 558 (Mat4.isIdentity v2)
  return bad
end Mat4_29
#guard passes Mat4_29.run

namespace Mat4_30
abbrev R := Float32
def run : Res (List Nat) := do
  let mut bad : List Nat := []
  let v1 : Mat4 R := (Mat4.setIdentity : Mat4 R)
  let v2 : Mat4 R := (Mat4.scale v1 (⟨(2.0 : R), (1.0 : R), (1.0 : R)⟩ : Vec3 R))
  bad := ck bad 565 (!(Mat4.isIdentity v2))
  bad := ck bad 566 (!(Mat4.isNormal v2))
  bad := ck bad 567 (!(Mat4.isOrthonormal v2))
  return bad
end Mat4_30
#guard passes Mat4_30.run

namespace Mat4_31
abbrev R := Float32
def run : Res (List Nat) := do
  let mut bad : List Nat := []
  let v1 : Mat4 R := (Mat4.setIdentity : Mat4 R)
  let v2 : Mat4 R := (Mat4.scale v1 (⟨(1.0 : R), (1.0 : R), (1.0 : R)⟩ : Vec3 R))
  bad := ck bad 574 (Mat4.isIdentity v2)
  bad := ck bad 575 (Mat4.isNormal v2)
  bad := ck bad 576 (Mat4.isOrthonormal v2)
  return bad
end Mat4_31
#guard passes Mat4_31.run

namespace Mat4_32
abbrev R := Float32
def run : Res (List Nat) := do
  let mut bad : List Nat := []
  let v1 : Mat4 R := (Mat4.ofAxisAngle (Vec3.oneZ : Vec3 R) ((MathFns.pi : R) / 3))
  let v2 : Mat4 R := (Mat4.translate v1 (⟨(1 : R), (10 : R), (100 : R)⟩ : Vec3 R))
  let v3 : Mat4 R := (Mat4.ofAxisAngle (Vec3.oneX : Vec3 R) ((MathFns.pi : R) / 6))
  let v4 : Mat4 R := (Mat4.translate v3 (⟨(4 : R), (5 : R), (6 : R)⟩ : Vec3 R))
  let v5 : Mat4 R := (Mat4.transform v2 v4)
  bad := ck bad 587 (Near.near (0.001 : R) v5 (Mat4.mul (Mat4.translate (Mat4.ofAxisAngle (Vec3.oneX : Vec3 R) ((MathFns.pi : R) / 6)) (⟨(4 : R), (5 : R), (6 : R)⟩ : Vec3 R)) (Mat4.translate (Mat4.ofAxisAngle (Vec3.oneZ : Vec3 R) ((MathFns.pi : R) / 3)) (⟨(1 : R), (10 : R), (100 : R)⟩ : Vec3 R))))
  bad := ck bad 591 (Mat4.isInitialized v5)
  bad := ck bad 592 (Mat4.isNormal v5)
  bad := ck bad 593 (Mat4.isOrthogonal v5)
  bad := ck bad 594 (Mat4.isOrthonormal v5)
  bad := ck bad 595 (!(Mat4.isIdentity v5))
  return bad
end Mat4_32
#guard passes Mat4_32.run

namespace Mat4_33
abbrev R := Float32
def run : Res (List Nat) := do
  let mut bad : List Nat := []
  let v1 : Mat4 R := (Mat4.ofAxisAngle (Vec3.oneZ : Vec3 R) ((MathFns.pi : R) / 3))
  let v2 : Mat4 R := (Mat4.rotatePreQuat v1 (Quat.ofAxisAngle (Vec3.oneX : Vec3 R) ((MathFns.pi : R) / 6)))
  bad := ck bad 604 (Near.near (0.001 : R) v2 (Mat4.mul (Mat4.ofAxisAngle (Vec3.oneZ : Vec3 R) ((MathFns.pi : R) / 3)) (Mat4.ofAxisAngle (Vec3.oneX : Vec3 R) ((MathFns.pi : R) / 6))))
  bad := ck bad 608 (Mat4.isInitialized v2)
  bad := ck bad 609 (Mat4.isNormal v2)
  bad := ck bad 610 (Mat4.isOrthogonal v2)
  bad := ck bad 611 (Mat4.isOrthonormal v2)
  bad := ck bad 612 (!(Mat4.isIdentity v2))
  return bad
end Mat4_33
#guard passes Mat4_33.run

namespace Mat4_34
abbrev R := Float32
def run : Res (List Nat) := do
  let mut bad : List Nat := []
  let v1 : Mat4 R := (Mat4.ofAxisAngle (Vec3.oneZ : Vec3 R) ((MathFns.pi : R) / 3))
  let v2 : Mat4 R := (Mat4.rotatePreAxis v1 (Vec3.oneX : Vec3 R) ((MathFns.pi : R) / 6))
  bad := ck bad 620 (Near.near (0.001 : R) v2 (Mat4.mul (Mat4.ofAxisAngle (Vec3.oneZ : Vec3 R) ((MathFns.pi : R) / 3)) (Mat4.ofAxisAngle (Vec3.oneX : Vec3 R) ((MathFns.pi : R) / 6))))
  bad := ck bad 624 (Mat4.isInitialized v2)
  bad := ck bad 625 (Mat4.isNormal v2)
  bad := ck bad 626 (Mat4.isOrthogonal v2)
  bad := ck bad 627 (Mat4.isOrthonormal v2)
  bad := ck bad 628 (!(Mat4.isIdentity v2))
  return bad
end Mat4_34
#guard passes Mat4_34.run

namespace Mat4_35
abbrev R := Float32
def run : Res (List Nat) := do
  let mut bad : List Nat := []
  let v1 : Mat4 R := (Mat4.ofAxisAngle (Vec3.oneZ : Vec3 R) ((MathFns.pi : R) / 3))
  let v2 : Mat4 R := (← Mat4.rotatePreCoord v1 Coord.X ((MathFns.pi : R) / 6))
  bad := ck bad 636 (Near.near (0.001 : R) v2 (Mat4.mul (Mat4.ofAxisAngle (Vec3.oneZ : Vec3 R) ((MathFns.pi : R) / 3)) (Mat4.ofAxisAngle (Vec3.oneX : Vec3 R) ((MathFns.pi : R) / 6))))
  bad := ck bad 640 (Mat4.isInitialized v2)
  bad := ck bad 641 (Mat4.isNormal v2)
  bad := ck bad 642 (Mat4.isOrthogonal v2)
  bad := ck bad 643 (Mat4.isOrthonormal v2)
  bad := ck bad 644 (!(Mat4.isIdentity v2))
  return bad
end Mat4_35
#guard passes Mat4_35.run

namespace Mat4_36
abbrev R := Float32
def run : Res (List Nat) := do
  let mut bad : List Nat := []
  let v1 : Mat4 R := (Mat4.ofCols3 (⟨(1 : R), (2 : R), (3 : R)⟩ : Vec3 R) (⟨(4 : R), (5 : R), (6 : R)⟩ : Vec3 R) (⟨(7 : R), (8 : R), (9 : R)⟩ : Vec3 R) (⟨(10 : R), (11 : R), (12 : R)⟩ : Vec3 R))
  let v2 : Mat4 R := (Mat4.translatePre v1 (⟨(2 : R), (3 : R), (4 : R)⟩ : Vec3 R))
  bad := ck bad 653 (Near.near (0.001 : R) v2 (Mat4.ofCols3 (⟨(1 : R), (2 : R), (3 : R)⟩ : Vec3 R) (⟨(4 : R), (5 : R), (6 : R)⟩ : Vec3 R) (⟨(7 : R), (8 : R), (9 : R)⟩ : Vec3 R) (⟨(52 : R), (62 : R), (72 : R)⟩ : Vec3 R)))
  bad := ck bad 660 (Mat4.isInitialized v2)
  bad := ck bad 661 (!(Mat4.isNormal v2))
  bad := ck bad 662 (!(Mat4.isOrthogonal v2))
  bad := ck bad 663 (!(Mat4.isOrthonormal v2))
  bad := ck bad 664 (!(Mat4.isIdentity v2))
  return bad
end Mat4_36
#guard passes Mat4_36.run

namespace Mat4_37
abbrev R := Float32
def run : Res (List Nat) := do
  let mut bad : List Nat := []
  let v1 : Mat4 R := (Mat4.setIdentity : Mat4 R)
  let v2 : Mat4 R := (Mat4.translatePre v1 (Vec3.oneX : Vec3 R))
  bad := ck bad 671 (!(Mat4.isIdentity v2))
  return bad
end Mat4_37
#guard passes Mat4_37.run

namespace Mat4_38
abbrev R := Float32
def run : Res (List Nat) := do
  let mut bad : List Nat := []
  let v1 : Mat4 R := (Mat4.setIdentity : Mat4 R)
  let v2 : Mat4 R := (Mat4.translatePre v1 (Vec3.zero : Vec3 R))
  bad := ck bad 678 (Mat4.isIdentity v2)
  return bad
end Mat4_38
#guard passes Mat4_38.run

namespace Mat4_39
abbrev R := Float32
def run : Res (List Nat) := do
  let mut bad : List Nat := []
  let v1 : Mat4 R := (Mat4.ofCols3 (⟨(1 : R), (2 : R), (3 : R)⟩ : Vec3 R) (⟨(4 : R), (5 : R), (6 : R)⟩ : Vec3 R) (⟨(7 : R), (8 : R), (9 : R)⟩ : Vec3 R) (⟨(10 : R), (11 : R), (12 : R)⟩ : Vec3 R))
  let v2 : Mat4 R := (Mat4.scalePre v1 (⟨(10 : R), (100 : R), (1000 : R)⟩ : Vec3 R))
  bad := ck bad 688 (Near.near (0.001 : R) v2 (Mat4.ofCols3 (⟨(10 : R), (20 : R), (30 : R)⟩ : Vec3 R) (⟨(400 : R), (500 : R), (600 : R)⟩ : Vec3 R) (⟨(7000 : R), (8000 : R), (9000 : R)⟩ : Vec3 R) (⟨(10 : R), (11 : R), (12 : R)⟩ : Vec3 R)))
  bad := ck bad 695 (Mat4.isInitialized v2)
  bad := ck bad 696 (!(Mat4.isNormal v2))
  bad := ck bad 697 (!(Mat4.isOrthogonal v2))
  bad := ck bad 698 (!(Mat4.isOrthonormal v2))
  bad := ck bad 699 (!(Mat4.isIdentity v2))
  return bad
end Mat4_39
#guard passes Mat4_39.run

namespace Mat4_40
abbrev R := Float32
def run : Res (List Nat) := do
  let mut bad : List Nat := []
  let v1 : Mat4 R := (Mat4.setIdentity : Mat4 R)
  let v2 : Mat4 R := (Mat4.scalePre v1 (⟨(2.0 : R), (1.0 : R), (1.0 : R)⟩ : Vec3 R))
  bad := ck bad 706 (!(Mat4.isIdentity v2))
  return bad
end Mat4_40
#guard passes Mat4_40.run

namespace Mat4_41
abbrev R := Float32
def run : Res (List Nat) := do
  let mut bad : List Nat := []
  let v1 : Mat4 R := (Mat4.setIdentity : Mat4 R)
  let v2 : Mat4 R := (Mat4.scalePre v1 (⟨(1.0 : R), (1.0 : R), (1.0 : R)⟩ : Vec3 R))
  bad := ck bad 713 (Mat4.isIdentity v2)
  return bad
end Mat4_41
#guard passes Mat4_41.run

namespace Mat4_42
abbrev R := Float32
def run : Res (List Nat) := do
  let mut bad : List Nat := []
  let v1 : Mat4 R := (Mat4.setIdentity : Mat4 R)
  let v2 : Mat4 R := (Mat4.scalePre v1 (⟨(2.0 : R), (1.0 : R), (1.0 : R)⟩ : Vec3 R))
  bad := ck bad 720 (!(Mat4.isNormal v2))
  bad := ck bad 721 (!(Mat4.isOrthonormal v2))
  return bad
end Mat4_42
#guard passes Mat4_42.run

namespace Mat4_43
abbrev R := Float32
def run : Res (List Nat) := do
  let mut bad : List Nat := []
  let v1 : Mat4 R := (Mat4.setIdentity : Mat4 R)
  let v2 : Mat4 R := (Mat4.scalePre v1 (⟨(1.0 : R), (1.0 : R), (1.0 : R)⟩ : Vec3 R))
  bad := ck bad 728 (Mat4.isIdentity v2)
  bad := ck bad 729 (Mat4.isNormal v2)
  bad := ck bad 730 (Mat4.isOrthonormal v2)
  return bad
end Mat4_43
#guard passes Mat4_43.run

namespace Mat4_44
abbrev R := Float32
def run : Res (List Nat) := do
  let mut bad : List Nat := []
  let v1 : Mat4 R := (Mat4.ofAxisAngle (Vec3.oneZ : Vec3 R) ((MathFns.pi : R) / 3))
  let v2 : Mat4 R := (Mat4.translate v1 (⟨(1 : R), (10 : R), (100 : R)⟩ : Vec3 R))
  let v3 : Mat4 R := (Mat4.ofAxisAngle (Vec3.oneX : Vec3 R) ((MathFns.pi : R) / 6))
  let v4 : Mat4 R := (Mat4.translate v3 (⟨(4 : R), (5 : R), (6 : R)⟩ : Vec3 R))
  let v5 : Mat4 R := (Mat4.transformPre v2 v4)
  bad := ck bad 741 (Near.near (0.001 : R) v5 (Mat4.mul (Mat4.translate (Mat4.ofAxisAngle (Vec3.oneZ : Vec3 R) ((MathFns.pi : R) / 3)) (⟨(1 : R), (10 : R), (100 : R)⟩ : Vec3 R)) (Mat4.translate (Mat4.ofAxisAngle (Vec3.oneX : Vec3 R) ((MathFns.pi : R) / 6)) (⟨(4 : R), (5 : R), (6 : R)⟩ : Vec3 R))))
  bad := ck bad 745 (Mat4.isInitialized v5)
  bad := ck bad 746 (Mat4.isNormal v5)
  bad := ck bad 747 (Mat4.isOrthogonal v5)
  bad := ck bad 748 (Mat4.isOrthonormal v5)
  bad := ck bad 749 (!(Mat4.isIdentity v5))
  return bad
end Mat4_44
#guard passes Mat4_44.run

namespace Mat4_45
abbrev R := Float32
def run : Res (List Nat) := do
  let mut bad : List Nat := []
  let v1 : Mat4 R := (Mat4.ofCols3 (⟨(1 : R), (2 : R), (3 : R)⟩ : Vec3 R) (⟨(4 : R), (5 : R), (6 : R)⟩ : Vec3 R) (⟨(7 : R), (8 : R), (9 : R)⟩ : Vec3 R) (Vec3.zero : Vec3 R))
  let v2 : Mat4 R := (Mat4.orthonormalise v1)
  bad := ck bad 756 (Mat4.isOrthonormal v2)
  bad := ck bad 757 (Mat4.isInitialized v2)
  bad := ck bad 758 (Mat4.isNormal v2)
  bad := ck bad 759 (Mat4.isOrthogonal v2)
  bad := ck bad 760 (Mat4.isOrthonormal v2)
  bad := ck bad 761 (!(Mat4.isIdentity v2))
  return bad
end Mat4_45
#guard passes Mat4_45.run

namespace Mat4_46
abbrev R := Float32
def run : Res (List Nat) := do
  let mut bad : List Nat := []
  let v1 : Mat4 R := (Mat4.ofCols (⟨(1 : R), (2 : R), (3 : R), (4 : R)⟩ : Vec4 R) (⟨(5 : R), (6 : R), (7 : R), (8 : R)⟩ : Vec4 R) (⟨(9 : R), (10 : R), (11 : R), (12 : R)⟩ : Vec4 R) (⟨(13 : R), (14 : R), (15 : R), (16 : R)⟩ : Vec4 R))
  let v2 : Mat4 R := (Mat4.transpose v1)
  bad := ck bad 768 (Near.near (0.001 : R) v2 (Mat4.ofCols (⟨(1 : R), (5 : R), (9 : R), (13 : R)⟩ : Vec4 R) (⟨(2 : R), (6 : R), (10 : R), (14 : R)⟩ : Vec4 R) (⟨(3 : R), (7 : R), (11 : R), (15 : R)⟩ : Vec4 R) (⟨(4 : R), (8 : R), (12 : R), (16 : R)⟩ : Vec4 R)))
  bad := ck bad 775 (Mat4.isInitialized v2)
  bad := ck bad 776 (!(Mat4.isNormal v2))
  bad := ck bad 777 (!(Mat4.isOrthogonal v2))
  bad := ck bad 778 (!(Mat4.isOrthonormal v2))
  bad := ck bad 779 (!(Mat4.isIdentity v2))
  return bad
end Mat4_46
#guard passes Mat4_46.run

namespace Mat4_47
abbrev R := Float32
def run : Res (List Nat) := do
  let mut bad : List Nat := []
  let v1 : Mat4 R := (← Mat4.ofCoordAngle Coord.X ((MathFns.pi : R) / 6))
  let v2 : Mat4 R := (Mat4.transformPre v1 (← Mat4.ofCoordAngle Coord.Y ((MathFns.pi : R) / 3)))
  let v3 : Mat4 R := v2
  let v4 : Mat4 R := (Mat4.invert v3)
  bad := ck bad 790 (Near.near (0.001 : R) (Mat4.mul v2 v4) (Mat4.one : Mat4 R))
  bad := ck bad 791 (Mat4.isInitialized v2)
  bad := ck bad 792 (Mat4.isNormal v2)
  bad := ck bad 793 (Mat4.isOrthogonal v2)
  bad := ck bad 794 (Mat4.isOrthonormal v2)
  bad := ck bad 795 (!(Mat4.isIdentity v2))
  return bad
end Mat4_47
#guard passes Mat4_47.run

namespace Mat4_48
abbrev R := Float32
def run : Res (List Nat) := do
  let mut bad : List Nat := []
  let v1 : Mat4 R := (Mat4.ofCols3 (⟨(1 : R), (7 : R), (8 : R)⟩ : Vec3 R) (⟨(4 : R), (2 : R), (9 : R)⟩ : Vec3 R) (⟨(5 : R), (6 : R), (3 : R)⟩ : Vec3 R) (Vec3.zero : Vec3 R))
  let v2 : Mat4 R := v1
  let v3 : Mat4 R := (Mat4.invert v2)
  bad := ck bad 802 (Near.near (0.001 : R) (Mat4.mul v1 v3) (Mat4.one : Mat4 R))
  bad := ck bad 803 (Near.near (0.001 : R) v3 (Mat4.ofCols3 (⟨((-48 : R) / (295.0 : R)), ((27 : R) / (295.0 : R)), ((47 : R) / (295.0 : R))⟩ : Vec3 R) (⟨((33 : R) / (295.0 : R)), ((-37 : R) / (295.0 : R)), ((23 : R) / (295.0 : R))⟩ : Vec3 R) (⟨((14 : R) / (295.0 : R)), ((29 : R) / (295.0 : R)), ((-26 : R) / (295.0 : R))⟩ : Vec3 R) (Vec3.zero : Vec3 R)))
  bad := ck bad 809 (Mat4.isInitialized v1)
  bad := ck bad 810 (!(Mat4.isNormal v1))
  bad := ck bad 811 (!(Mat4.isOrthogonal v1))
  bad := ck bad 812 (!(Mat4.isOrthonormal v1))
  bad := ck bad 813 (!(Mat4.isIdentity v1))
  return bad
end Mat4_48
#guard passes Mat4_48.run

namespace Mat4_49
abbrev R := Float32
def run : Res (List Nat) := do
  let mut bad : List Nat := []
  let v1 : Mat4 R := (Mat4.ofCols (⟨(1 : R), (0 : R), (0 : R), (0 : R)⟩ : Vec4 R) (⟨(0 : R), (1 : R), (0 : R), (0 : R)⟩ : Vec4 R) (⟨(0 : R), (0 : R), (1 : R), (0 : R)⟩ : Vec4 R) (⟨(10 : R), (20 : R), (30 : R), (1 : R)⟩ : Vec4 R))
  let v2 : Mat4 R := v1
  let v3 : Mat4 R := (Mat4.invert v2)
  bad := ck bad 820 (Near.near (0.001 : R) (Mat4.mul v1 v3) (Mat4.one : Mat4 R))
  bad := ck bad 821 (Near.near (0.001 : R) v3 (Mat4.ofCols (⟨(1 : R), (0 : R), (0 : R), (0 : R)⟩ : Vec4 R) (⟨(0 : R), (1 : R), (0 : R), (0 : R)⟩ : Vec4 R) (⟨(0 : R), (0 : R), (1 : R), (0 : R)⟩ : Vec4 R) (⟨(-10 : R), (-20 : R), (-30 : R), (1 : R)⟩ : Vec4 R)))
  bad := ck bad 828 (Mat4.isInitialized v3)
  bad := ck bad 829 (Mat4.isNormal v3)
  bad := ck bad 830 (Mat4.isOrthogonal v3)
  bad := ck bad 831 (Mat4.isOrthonormal v3)
  bad := ck bad 832 (!(Mat4.isIdentity v3))
  return bad
end Mat4_49
#guard passes Mat4_49.run

namespace Mat4_50
abbrev R := Float32
def run : Res (List Nat) := do
  let mut bad : List Nat := []
  let v1 : Mat4 R := (Mat4.ofCols (⟨(1 : R), (7 : R), (8 : R), (10 : R)⟩ : Vec4 R) (⟨(4 : R), (2 : R), (9 : R), (20 : R)⟩ : Vec4 R) (⟨(5 : R), (6 : R), (3 : R), (30 : R)⟩ : Vec4 R) (⟨(0 : R), (0 : R), (0 : R), (1 : R)⟩ : Vec4 R))
  let v2 : Mat4 R := v1
  let v3 : Mat4 R := (Mat4.invert v2)
  bad := ck bad 839 (Near.near (0.001 : R) (Mat4.mul v1 v3) (Mat4.one : Mat4 R))
  bad := ck bad 840 (Near.near (0.001 : R) v3 (Mat4.ofCols (⟨((-48 : R) / (295.0 : R)), ((27 : R) / (295.0 : R)), ((47 : R) / (295.0 : R)), ((-294 : R) / (59.0 : R))⟩ : Vec4 R) (⟨((33 : R) / (295.0 : R)), ((-37 : R) / (295.0 : R)), ((23 : R) / (295.0 : R)), ((-56 : R) / (59.0 : R))⟩ : Vec4 R) (⟨((14 : R) / (295.0 : R)), ((29 : R) / (295.0 : R)), ((-26 : R) / (295.0 : R)), ((12 : R) / (59.0 : R))⟩ : Vec4 R) (⟨(0 : R), (0 : R), (0 : R), (1 : R)⟩ : Vec4 R)))
  bad := ck bad 847 (Mat4.isInitialized v3)
  bad := ck bad 848 (!(Mat4.isNormal v3))
  bad := ck bad 849 (!(Mat4.isOrthogonal v3))
  bad := ck bad 850 (!(Mat4.isOrthonormal v3))
  bad := ck bad 851 (!(Mat4.isIdentity v3))
  return bad
end Mat4_50
#guard passes Mat4_50.run

namespace Mat4_51
abbrev R := Float32
def run : Res (List Nat) := do
  let mut bad : List Nat := []
  let v1 : Mat4 R := (Mat4.ofAxisAngle (Vec3.oneZ : Vec3 R) ((MathFns.pi : R) / 3))
  let v2 : Mat4 R := (Mat4.rotatedQuat v1 (Quat.ofAxisAngle (Vec3.oneX : Vec3 R) ((MathFns.pi : R) / 6)))
  bad := ck bad 862 (Near.near (0.001 : R) v2 (Mat4.mul (Mat4.ofAxisAngle (Vec3.oneX : Vec3 R) ((MathFns.pi : R) / 6)) (Mat4.ofAxisAngle (Vec3.oneZ : Vec3 R) ((MathFns.pi : R) / 3))))
  bad := ck bad 865 (Mat4.isInitialized v2)
  bad := ck bad 866 (Mat4.isNormal v2)
  bad := ck bad 867 (Mat4.isOrthogonal v2)
  bad := ck bad 868 (Mat4.isOrthonormal v2)
  bad := ck bad 869 (!(Mat4.isIdentity v2))
  return bad
end Mat4_51
#guard passes Mat4_51.run

namespace Mat4_52
abbrev R := Float32
def run : Res (List Nat) := do
  let mut bad : List Nat := []
  let v1 : Mat4 R := (Mat4.ofAxisAngle (Vec3.oneZ : Vec3 R) ((MathFns.pi : R) / 3))
  let v2 : Mat4 R := (Mat4.rotatedAxis v1 (Vec3.oneX : Vec3 R) ((MathFns.pi : R) / 6))
  bad := ck bad 877 (Near.near (0.001 : R) v2 (Mat4.mul (Mat4.ofAxisAngle (Vec3.oneX : Vec3 R) ((MathFns.pi : R) / 6)) (Mat4.ofAxisAngle (Vec3.oneZ : Vec3 R) ((MathFns.pi : R) / 3))))
  bad := ck bad 880 (Mat4.isInitialized v2)
  bad := ck bad 881 (Mat4.isNormal v2)
  bad := ck bad 882 (Mat4.isOrthogonal v2)
  bad := ck bad 883 (Mat4.isOrthonormal v2)
  bad := ck bad 884 (!(Mat4.isIdentity v2))
  return bad
end Mat4_52
#guard passes Mat4_52.run

namespace Mat4_53
abbrev R := Float32
def run : Res (List Nat) := do
  let mut bad : List Nat := []
  let v1 : Mat4 R := (Mat4.ofAxisAngle (Vec3.oneZ : Vec3 R) ((MathFns.pi : R) / 3))
  let v2 : Mat4 R := (← Mat4.rotatedCoord v1 Coord.X ((MathFns.pi : R) / 6))
  bad := ck bad 892 (Near.near (0.001 : R) v2 (Mat4.mul (Mat4.ofAxisAngle (Vec3.oneX : Vec3 R) ((MathFns.pi : R) / 6)) (Mat4.ofAxisAngle (Vec3.oneZ : Vec3 R) ((MathFns.pi : R) / 3))))
  bad := ck bad 895 (Mat4.isInitialized v2)
  bad := ck bad 896 (Mat4.isNormal v2)
  bad := ck bad 897 (Mat4.isOrthogonal v2)
  bad := ck bad 898 (Mat4.isOrthonormal v2)
  bad := ck bad 899 (!(Mat4.isIdentity v2))
  return bad
end Mat4_53
#guard passes Mat4_53.run

namespace Mat4_54
abbrev R := Float32
def run : Res (List Nat) := do
  let mut bad : List Nat := []
  let v1 : Mat4 R := (Mat4.ofCols3 (⟨(1 : R), (2 : R), (3 : R)⟩ : Vec3 R) (⟨(4 : R), (5 : R), (6 : R)⟩ : Vec3 R) (⟨(7 : R), (8 : R), (9 : R)⟩ : Vec3 R) (⟨(10 : R), (11 : R), (12 : R)⟩ : Vec3 R))
  let v2 : Mat4 R := (Mat4.translated v1 (⟨(2 : R), (3 : R), (4 : R)⟩ : Vec3 R))
  bad := ck bad 908 (Near.near (0.001 : R) v2 (Mat4.ofCols3 (⟨(1 : R), (2 : R), (3 : R)⟩ : Vec3 R) (⟨(4 : R), (5 : R), (6 : R)⟩ : Vec3 R) (⟨(7 : R), (8 : R), (9 : R)⟩ : Vec3 R) (⟨(12 : R), (14 : R), (16 : R)⟩ : Vec3 R)))
  bad := ck bad 915 (Mat4.isInitialized v2)
  bad := ck bad 916 (!(Mat4.isNormal v2))
  bad := ck bad 917 (!(Mat4.isOrthogonal v2))
  bad := ck bad 918 (!(Mat4.isOrthonormal v2))
  bad := ck bad 919 (!(Mat4.isIdentity v2))
  return bad
end Mat4_54
#guard passes Mat4_54.run

namespace Mat4_55
abbrev R := Float32
def run : Res (List Nat) := do
  let mut bad : List Nat := []
  let v1 : Mat4 R := (Mat4.setIdentity : Mat4 R)
  let v2 : Mat4 R := (Mat4.translated v1 (Vec3.oneX : Vec3 R))
  bad := ck bad 927 (!(Mat4.isIdentity v2))
  return bad
end Mat4_55
#guard passes Mat4_55.run

namespace Mat4_56
abbrev R := Float32
def run : Res (List Nat) := do
  let mut bad : List Nat := []
  let v1 : Mat4 R := (Mat4.setIdentity : Mat4 R)
  let v2 : Mat4 R := (Mat4.translated v1 (Vec3.zero : Vec3 R))
  bad := ck bad 935 (Mat4.isIdentity v2)
  return bad
end Mat4_56
#guard passes Mat4_56.run

namespace Mat4_57
abbrev R := Float32
def run : Res (List Nat) := do
  let mut bad : List Nat := []
  let v1 : Mat4 R := (Mat4.ofCols3 (⟨(1 : R), (2 : R), (3 : R)⟩ : Vec3 R) (⟨(4 : R), (5 : R), (6 : R)⟩ : Vec3 R) (⟨(7 : R), (8 : R), (9 : R)⟩ : Vec3 R) (⟨(10 : R), (11 : R), (12 : R)⟩ : Vec3 R))
  let v2 : Mat4 R := (Mat4.scaled v1 (⟨(10 : R), (100 : R), (1000 : R)⟩ : Vec3 R))
  bad := ck bad 945 (Near.near (0.001 : R) v2 (Mat4.ofCols3 (⟨(10 : R), (20 : R), (30 : R)⟩ : Vec3 R) (⟨(400 : R), (500 : R), (600 : R)⟩ : Vec3 R) (⟨(7000 : R), (8000 : R), (9000 : R)⟩ : Vec3 R) (⟨(100 : R), (1100 : R), (12000 : R)⟩ : Vec3 R)))
  bad := ck bad 952 (Mat4.isInitialized v2)
  bad := ck bad 953 (!(Mat4.isNormal v2))
  bad := ck bad 954 (!(Mat4.isOrthogonal v2))
  bad := ck bad 955 (!(Mat4.isOrthonormal v2))
  bad := ck bad 956 (!(Mat4.isIdentity v2))
  return bad
end Mat4_57
#guard passes Mat4_57.run

namespace Mat4_58
abbrev R := Float32
def run : Res (List Nat) := do
  let mut bad : List Nat := []
  let v1 : Mat4 R := (Mat4.setIdentity : Mat4 R)
  let v2 : Mat4 R := (Mat4.scaled v1 (⟨(2.0 : R), (1.0 : R), (1.0 : R)⟩ : Vec3 R))
  bad := ck bad 964 (!(Mat4.isIdentity v2))
  return bad
end Mat4_58
#guard passes Mat4_58.run

namespace Mat4_59
abbrev R := Float32
def run : Res (List Nat) := do
  let mut bad : List Nat := []
  let v1 : Mat4 R := (Mat4.setIdentity : Mat4 R)
  let v2 : Mat4 R := (Mat4.scaled v1 (⟨(1.0 : R), (1.0 : R), (1.0 : R)⟩ : Vec3 R))
  bad := ck bad 972 (Mat4.isIdentity v2)
  return bad
end Mat4_59
#guard passes Mat4_59.run

namespace Mat4_60
abbrev R := Float32
def run : Res (List Nat) := do
  let mut bad : List Nat := []
  let v1 : Mat4 R := (Mat4.setIdentity : Mat4 R)
  let v2 : Mat4 R := (Mat4.scaled v1 (⟨(2.0 : R), (1.0 : R), (1.0 : R)⟩ : Vec3 R))
  bad := ck bad 980 (!(Mat4.isIdentity v2))
  bad := ck bad 981 (!(Mat4.isNormal v2))
  bad := ck bad 982 (!(Mat4.isOrthonormal v2))
  return bad
end Mat4_60
#guard passes Mat4_60.run

namespace Mat4_61
abbrev R := Float32
def run : Res (List Nat) := do
  let mut bad : List Nat := []
  let v1 : Mat4 R := (Mat4.setIdentity : Mat4 R)
  let v2 : Mat4 R := (Mat4.scaled v1 (⟨(1.0 : R), (1.0 : R), (1.0 : R)⟩ : Vec3 R))
  bad := ck bad 990 (Mat4.isIdentity v2)
  bad := ck bad 991 (Mat4.isNormal v2)
  bad := ck bad 992 (Mat4.isOrthonormal v2)
  return bad
end Mat4_61
#guard passes Mat4_61.run

namespace Mat4_62
abbrev R := Float32
def run : Res (List Nat) := do
  let mut bad : List Nat := []
  let v1 : Mat4 R := (Mat4.ofAxisAngle (Vec3.oneZ : Vec3 R) ((MathFns.pi : R) / 3))
  let v2 : Mat4 R := (Mat4.translate v1 (⟨(1 : R), (10 : R), (100 : R)⟩ : Vec3 R))
  let v3 : Mat4 R := (Mat4.ofAxisAngle (Vec3.oneX : Vec3 R) ((MathFns.pi : R) / 6))
  let v4 : Mat4 R := (Mat4.translate v3 (⟨(4 : R), (5 : R), (6 : R)⟩ : Vec3 R))
  let v5 : Mat4 R := (Mat4.transformed v2 v4)
  bad := ck bad 1003 (Near.near (0.001 : R) v5 (Mat4.mul (Mat4.translate (Mat4.ofAxisAngle (Vec3.oneX : Vec3 R) ((MathFns.pi : R) / 6)) (⟨(4 : R), (5 : R), (6 : R)⟩ : Vec3 R)) (Mat4.translate (Mat4.ofAxisAngle (Vec3.oneZ : Vec3 R) ((MathFns.pi : R) / 3)) (⟨(1 : R), (10 : R), (100 : R)⟩ : Vec3 R))))
  bad := ck bad 1007 (Mat4.isInitialized v5)
  bad := ck bad 1008 (Mat4.isNormal v5)
  bad := ck bad 1009 (Mat4.isOrthogonal v5)
  bad := ck bad 1010 (Mat4.isOrthonormal v5)
  bad := ck bad 1011 (!(Mat4.isIdentity v5))
  return bad
end Mat4_62
#guard passes Mat4_62.run

namespace Mat4_63
abbrev R := Float32
def run : Res (List Nat) := do
  let mut bad : List Nat := []
  let v1 : Mat4 R := (Mat4.ofAxisAngle (Vec3.oneZ : Vec3 R) ((MathFns.pi : R) / 3))
  let v2 : Mat4 R := (Mat4.rotatedPreQuat v1 (Quat.ofAxisAngle (Vec3.oneX : Vec3 R) ((MathFns.pi : R) / 6)))
  bad := ck bad 1020 (Near.near (0.001 : R) v2 (Mat4.mul (Mat4.ofAxisAngle (Vec3.oneZ : Vec3 R) ((MathFns.pi : R) / 3)) (Mat4.ofAxisAngle (Vec3.oneX : Vec3 R) ((MathFns.pi : R) / 6))))
  bad := ck bad 1024 (Mat4.isInitialized v2)
  bad := ck bad 1025 (Mat4.isNormal v2)
  bad := ck bad 1026 (Mat4.isOrthogonal v2)
  bad := ck bad 1027 (Mat4.isOrthonormal v2)
  bad := ck bad 1028 (!(Mat4.isIdentity v2))
  return bad
end Mat4_63
#guard passes Mat4_63.run

namespace Mat4_64
abbrev R := Float32
def run : Res (List Nat) := do
  let mut bad : List Nat := []
  let v1 : Mat4 R := (Mat4.ofAxisAngle (Vec3.oneZ : Vec3 R) ((MathFns.pi : R) / 3))
  let v2 : Mat4 R := (Mat4.rotatedPreAxis v1 (Vec3.oneX : Vec3 R) ((MathFns.pi : R) / 6))
  bad := ck bad 1036 (Near.near (0.001 : R) v2 (Mat4.mul (Mat4.ofAxisAngle (Vec3.oneZ : Vec3 R) ((MathFns.pi : R) / 3)) (Mat4.ofAxisAngle (Vec3.oneX : Vec3 R) ((MathFns.pi : R) / 6))))
  bad := ck bad 1040 (Mat4.isInitialized v2)
  bad := ck bad 1041 (Mat4.isNormal v2)
  bad := ck bad 1042 (Mat4.isOrthogonal v2)
  bad := ck bad 1043 (Mat4.isOrthonormal v2)
  bad := ck bad 1044 (!(Mat4.isIdentity v2))
  return bad
end Mat4_64
#guard passes Mat4_64.run

namespace Mat4_65
abbrev R := Float32
def run : Res (List Nat) := do
  let mut bad : List Nat := []
  let v1 : Mat4 R := (Mat4.ofAxisAngle (Vec3.oneZ : Vec3 R) ((MathFns.pi : R) / 3))
  let v2 : Mat4 R := (← Mat4.rotatedPreCoord v1 Coord.X ((MathFns.pi : R) / 6))
  bad := ck bad 1052 (Near.near (0.001 : R) v2 (Mat4.mul (Mat4.ofAxisAngle (Vec3.oneZ : Vec3 R) ((MathFns.pi : R) / 3)) (Mat4.ofAxisAngle (Vec3.oneX : Vec3 R) ((MathFns.pi : R) / 6))))
  bad := ck bad 1056 (Mat4.isInitialized v2)
  bad := ck bad 1057 (Mat4.isNormal v2)
  bad := ck bad 1058 (Mat4.isOrthogonal v2)
  bad := ck bad 1059 (Mat4.isOrthonormal v2)
  bad := ck bad 1060 (!(Mat4.isIdentity v2))
  return bad
end Mat4_65
#guard passes Mat4_65.run

namespace Mat4_66
abbrev R := Float32
def run : Res (List Nat) := do
  let mut bad : List Nat := []
  let v1 : Mat4 R := (Mat4.ofCols3 (⟨(1 : R), (2 : R), (3 : R)⟩ : Vec3 R) (⟨(4 : R), (5 : R), (6 : R)⟩ : Vec3 R) (⟨(7 : R), (8 : R), (9 : R)⟩ : Vec3 R) (⟨(10 : R), (11 : R), (12 : R)⟩ : Vec3 R))
  let v2 : Mat4 R := (Mat4.translatedPre v1 (⟨(2 : R), (3 : R), (4 : R)⟩ : Vec3 R))
  bad := ck bad 1069 (Near.near (0.001 : R) v2 (Mat4.ofCols3 (⟨(1 : R), (2 : R), (3 : R)⟩ : Vec3 R) (⟨(4 : R), (5 : R), (6 : R)⟩ : Vec3 R) (⟨(7 : R), (8 : R), (9 : R)⟩ : Vec3 R) (⟨(52 : R), (62 : R), (72 : R)⟩ : Vec3 R)))
  bad := ck bad 1076 (Mat4.isInitialized v2)
  bad := ck bad 1077 (!(Mat4.isNormal v2))
  bad := ck bad 1078 (!(Mat4.isOrthogonal v2))
  bad := ck bad 1079 (!(Mat4.isOrthonormal v2))
  bad := ck bad 1080 (!(Mat4.isIdentity v2))
  return bad
end Mat4_66
#guard passes Mat4_66.run

namespace Mat4_67
abbrev R := Float32
def run : Res (List Nat) := do
  let mut bad : List Nat := []
  let v1 : Mat4 R := (Mat4.setIdentity : Mat4 R)
  let v2 : Mat4 R := (Mat4.translatedPre v1 (Vec3.oneX : Vec3 R))
  bad := ck bad 1088 (!(Mat4.isIdentity v2))
  return bad
end Mat4_67
#guard passes Mat4_67.run

namespace Mat4_68
abbrev R := Float32
def run : Res (List Nat) := do
  let mut bad : List Nat := []
  let v1 : Mat4 R := (Mat4.setIdentity : Mat4 R)
  let v2 : Mat4 R := (Mat4.translatedPre v1 (Vec3.zero : Vec3 R))
  bad := ck bad 1096 (Mat4.isIdentity v2)
  return bad
end Mat4_68
#guard passes Mat4_68.run

namespace Mat4_69
abbrev R := Float32
def run : Res (List Nat) := do
  let mut bad : List Nat := []
  let v1 : Mat4 R := (Mat4.ofCols3 (⟨(1 : R), (2 : R), (3 : R)⟩ : Vec3 R) (⟨(4 : R), (5 : R), (6 : R)⟩ : Vec3 R) (⟨(7 : R), (8 : R), (9 : R)⟩ : Vec3 R) (⟨(10 : R), (11 : R), (12 : R)⟩ : Vec3 R))
  let v2 : Mat4 R := (Mat4.scaledPre v1 (⟨(10 : R), (100 : R), (1000 : R)⟩ : Vec3 R))
  bad := ck bad 1106 (Near.near (0.001 : R) v2 (Mat4.ofCols3 (⟨(10 : R), (20 : R), (30 : R)⟩ : Vec3 R) (⟨(400 : R), (500 : R), (600 : R)⟩ : Vec3 R) (⟨(7000 : R), (8000 : R), (9000 : R)⟩ : Vec3 R) (⟨(10 : R), (11 : R), (12 : R)⟩ : Vec3 R)))
  bad := ck bad 1113 (Mat4.isInitialized v2)
  bad := ck bad 1114 (!(Mat4.isNormal v2))
  bad := ck bad 1115 (!(Mat4.isOrthogonal v2))
  bad := ck bad 1116 (!(Mat4.isOrthonormal v2))
  bad := ck bad 1117 (!(Mat4.isIdentity v2))
  return bad
end Mat4_69
#guard passes Mat4_69.run

namespace Mat4_70
abbrev R := Float32
def run : Res (List Nat) := do
  let mut bad : List Nat := []
  let v1 : Mat4 R := (Mat4.setIdentity : Mat4 R)
  let v2 : Mat4 R := (Mat4.scaledPre v1 (⟨(2.0 : R), (1.0 : R), (1.0 : R)⟩ : Vec3 R))
  bad := ck bad 1125 (!(Mat4.isIdentity v2))
  return bad
end Mat4_70
#guard passes Mat4_70.run

namespace Mat4_71
abbrev R := Float32
def run : Res (List Nat) := do
  let mut bad : List Nat := []
  let v1 : Mat4 R := (Mat4.setIdentity : Mat4 R)
  let v2 : Mat4 R := (Mat4.scaledPre v1 (⟨(1.0 : R), (1.0 : R), (1.0 : R)⟩ : Vec3 R))
  bad := ck bad 1133 (Mat4.isIdentity v2)
  return bad
end Mat4_71
#guard passes Mat4_71.run

namespace Mat4_72
abbrev R := Float32
def run : Res (List Nat) := do
  let mut bad : List Nat := []
  let v1 : Mat4 R := (Mat4.setIdentity : Mat4 R)
  let v2 : Mat4 R := (Mat4.scaledPre v1 (⟨(2.0 : R), (1.0 : R), (1.0 : R)⟩ : Vec3 R))
  bad := ck bad 1141 (!(Mat4.isNormal v2))
  bad := ck bad 1142 (!(Mat4.isOrthonormal v2))
  return bad
end Mat4_72
#guard passes Mat4_72.run

namespace Mat4_73
abbrev R := Float32
def run : Res (List Nat) := do
  let mut bad : List Nat := []
  let v1 : Mat4 R := (Mat4.setIdentity : Mat4 R)
  let v2 : Mat4 R := (Mat4.scaledPre v1 (⟨(1.0 : R), (1.0 : R), (1.0 : R)⟩ : Vec3 R))
  bad := ck bad 1150 (Mat4.isIdentity v2)
  bad := ck bad 1151 (Mat4.isNormal v2)
  bad := ck bad 1152 (Mat4.isOrthonormal v2)
  return bad
end Mat4_73
#guard passes Mat4_73.run

namespace Mat4_74
abbrev R := Float32
def run : Res (List Nat) := do
  let mut bad : List Nat := []
  let v1 : Mat4 R := (Mat4.ofAxisAngle (Vec3.oneZ : Vec3 R) ((MathFns.pi : R) / 3))
  let v2 : Mat4 R := (Mat4.translate v1 (⟨(1 : R), (10 : R), (100 : R)⟩ : Vec3 R))
  let v3 : Mat4 R := (Mat4.ofAxisAngle (Vec3.oneX : Vec3 R) ((MathFns.pi : R) / 6))
  let v4 : Mat4 R := (Mat4.translate v3 (⟨(4 : R), (5 : R), (6 : R)⟩ : Vec3 R))
  let v5 : Mat4 R := (Mat4.transformedPre v2 v4)
  bad := ck bad 1163 (Near.near (0.001 : R) v5 (Mat4.mul (Mat4.translate (Mat4.ofAxisAngle (Vec3.oneZ : Vec3 R) ((MathFns.pi : R) / 3)) (⟨(1 : R), (10 : R), (100 : R)⟩ : Vec3 R)) (Mat4.translate (Mat4.ofAxisAngle (Vec3.oneX : Vec3 R) ((MathFns.pi : R) / 6)) (⟨(4 : R), (5 : R), (6 : R)⟩ : Vec3 R))))
  bad := ck bad 1167 (Mat4.isInitialized v5)
  bad := ck bad 1168 (Mat4.isNormal v5)
  bad := ck bad 1169 (Mat4.isOrthogonal v5)
  bad := ck bad 1170 (Mat4.isOrthonormal v5)
  bad := ck bad 1171 (!(Mat4.isIdentity v5))
  return bad
end Mat4_74
#guard passes Mat4_74.run

namespace Mat4_75
abbrev R := Float32
def run : Res (List Nat) := do
  let mut bad : List Nat := []
  let v1 : Mat4 R := (Mat4.ofCols (⟨(1 : R), (2 : R), (3 : R), (4 : R)⟩ : Vec4 R) (⟨(5 : R), (6 : R), (7 : R), (8 : R)⟩ : Vec4 R) (⟨(9 : R), (10 : R), (11 : R), (12 : R)⟩ : Vec4 R) (⟨(13 : R), (14 : R), (15 : R), (16 : R)⟩ : Vec4 R))
  let v2 : Mat4 R := (Mat4.transposed v1)
  bad := ck bad 1218 (Near.near (0.001 : R) v2 (Mat4.ofCols (⟨(1 : R), (5 : R), (9 : R), (13 : R)⟩ : Vec4 R) (⟨(2 : R), (6 : R), (10 : R), (14 : R)⟩ : Vec4 R) (⟨(3 : R), (7 : R), (11 : R), (15 : R)⟩ : Vec4 R) (⟨(4 : R), (8 : R), (12 : R), (16 : R)⟩ : Vec4 R)))
  bad := ck bad 1225 (Mat4.isInitialized v2)
  bad := ck bad 1226 (!(Mat4.isNormal v2))
  bad := ck bad 1227 (!(Mat4.isOrthogonal v2))
  bad := ck bad 1228 (!(Mat4.isOrthonormal v2))
  bad := ck bad 1229 (!(Mat4.isIdentity v2))
  return bad
end Mat4_75
#guard passes Mat4_75.run

namespace Mat4_76
abbrev R := Float32
def run : Res (List Nat) := do
  let mut bad : List Nat := []
  let v1 : Mat4 R := (Mat4.ofCols3 (⟨(1 : R), (7 : R), (8 : R)⟩ : Vec3 R) (⟨(4 : R), (2 : R), (9 : R)⟩ : Vec3 R) (⟨(5 : R), (6 : R), (3 : R)⟩ : Vec3 R) (Vec3.zero : Vec3 R))
  bad := ck bad 1235 ((Mat4.trace v1) == (7.0 : R))
  return bad
end Mat4_76
#guard passes Mat4_76.run

namespace Mat4_77
abbrev R := Float32
def run : Res (List Nat) := do
  let mut bad : List Nat := []
  let v1 : Mat4 R := (Mat4.ofCols3 (⟨(1 : R), (7 : R), (8 : R)⟩ : Vec3 R) (⟨(4 : R), (2 : R), (9 : R)⟩ : Vec3 R) (⟨(5 : R), (6 : R), (3 : R)⟩ : Vec3 R) (Vec3.zero : Vec3 R))
  bad := ck bad 1241 ((Mat4.determinant v1) == (295.0 : R))
  return bad
end Mat4_77
#guard passes Mat4_77.run

namespace Mat4_78
abbrev R := Float32
def run : Res (List Nat) := do
  let mut bad : List Nat := []
  let v1 : Mat4 R := (← Mat4.ofCoordAngle Coord.X ((MathFns.pi : R) / 6))
  let v2 : Mat4 R := (Mat4.transformPre v1 (← Mat4.ofCoordAngle Coord.Y ((MathFns.pi : R) / 3)))
  let v3 : Mat4 R := (← Mat4.inversed v2)
  bad := ck bad 1252 (Near.near (0.001 : R) (Mat4.mul v2 v3) (Mat4.one : Mat4 R))
  bad := ck bad 1253 (Mat4.isInitialized v2)
  bad := ck bad 1254 (Mat4.isNormal v2)
  bad := ck bad 1255 (Mat4.isOrthogonal v2)
  bad := ck bad 1256 (Mat4.isOrthonormal v2)
  bad := ck bad 1257 (!(Mat4.isIdentity v2))
  return bad
end Mat4_78
#guard passes Mat4_78.run

namespace Mat4_79
abbrev R := Float32
def run : Res (List Nat) := do
  let mut bad : List Nat := []
  let v1 : Mat4 R := (Mat4.ofCols3 (⟨(1 : R), (7 : R), (8 : R)⟩ : Vec3 R) (⟨(4 : R), (2 : R), (9 : R)⟩ : Vec3 R) (⟨(5 : R), (6 : R), (3 : R)⟩ : Vec3 R) (Vec3.zero : Vec3 R))
  let v2 : Mat4 R := (← Mat4.inversed v1)
  bad := ck bad 1264 (Near.near (0.001 : R) (Mat4.mul v1 v2) (Mat4.one : Mat4 R))
  bad := ck bad 1265 (Near.near (0.001 : R) v2 (Mat4.ofCols3 (⟨((-48 : R) / (295.0 : R)), ((27 : R) / (295.0 : R)), ((47 : R) / (295.0 : R))⟩ : Vec3 R) (⟨((33 : R) / (295.0 : R)), ((-37 : R) / (295.0 : R)), ((23 : R) / (295.0 : R))⟩ : Vec3 R) (⟨((14 : R) / (295.0 : R)), ((29 : R) / (295.0 : R)), ((-26 : R) / (295.0 : R))⟩ : Vec3 R) (Vec3.zero : Vec3 R)))
  bad := ck bad 1271 (Mat4.isInitialized v1)
  bad := ck bad 1272 (!(Mat4.isNormal v1))
  bad := ck bad 1273 (!(Mat4.isOrthogonal v1))
  bad := ck bad 1274 (!(Mat4.isOrthonormal v1))
  bad := ck bad 1275 (!(Mat4.isIdentity v1))
  return bad
end Mat4_79
#guard passes Mat4_79.run

namespace Mat4_80
abbrev R := Float32
def run : Res (List Nat) := do
  let mut bad : List Nat := []
  let v1 : Mat4 R := (Mat4.ofCols (⟨(1 : R), (0 : R), (0 : R), (0 : R)⟩ : Vec4 R) (⟨(0 : R), (1 : R), (0 : R), (0 : R)⟩ : Vec4 R) (⟨(0 : R), (0 : R), (1 : R), (0 : R)⟩ : Vec4 R) (⟨(10 : R), (20 : R), (30 : R), (1 : R)⟩ : Vec4 R))
  let v2 : Mat4 R := v1
  let v3 : Mat4 R := (Mat4.invert v2)
  let v4 : Mat4 R := (← Mat4.inversed v1)
  bad := ck bad 1283 (Near.near (0.001 : R) (Mat4.mul v1 v4) (Mat4.one : Mat4 R))
  bad := ck bad 1284 (Near.near (0.001 : R) v4 (Mat4.ofCols (⟨(1 : R), (0 : R), (0 : R), (0 : R)⟩ : Vec4 R) (⟨(0 : R), (1 : R), (0 : R), (0 : R)⟩ : Vec4 R) (⟨(0 : R), (0 : R), (1 : R), (0 : R)⟩ : Vec4 R) (⟨(-10 : R), (-20 : R), (-30 : R), (1 : R)⟩ : Vec4 R)))
  bad := ck bad 1291 (Mat4.isInitialized v4)
  bad := ck bad 1292 (Mat4.isNormal v4)
  bad := ck bad 1293 (Mat4.isOrthogonal v4)
  bad := ck bad 1294 (Mat4.isOrthonormal v4)
  bad := ck bad 1295 (!(Mat4.isIdentity v4))
  return bad
end Mat4_80
#guard passes Mat4_80.run

namespace Mat4_81
abbrev R := Float32
def run : Res (List Nat) := do
  let mut bad : List Nat := []
  let v1 : Mat4 R := (Mat4.ofCols (⟨(1 : R), (7 : R), (8 : R), (10 : R)⟩ : Vec4 R) (⟨(4 : R), (2 : R), (9 : R), (20 : R)⟩ : Vec4 R) (⟨(5 : R), (6 : R), (3 : R), (30 : R)⟩ : Vec4 R) (⟨(0 : R), (0 : R), (0 : R), (1 : R)⟩ : Vec4 R))
  let v2 : Mat4 R := (← Mat4.inversed v1)
  bad := ck bad 1302 (Near.near (0.001 : R) (Mat4.mul v1 v2) (Mat4.one : Mat4 R))
  bad := ck bad 1303 (Near.near (0.001 : R) v2 (Mat4.ofCols (⟨((-48 : R) / (295.0 : R)), ((27 : R) / (295.0 : R)), ((47 : R) / (295.0 : R)), ((-294 : R) / (59.0 : R))⟩ : Vec4 R) (⟨((33 : R) / (295.0 : R)), ((-37 : R) / (295.0 : R)), ((23 : R) / (295.0 : R)), ((-56 : R) / (59.0 : R))⟩ : Vec4 R) (⟨((14 : R) / (295.0 : R)), ((29 : R) / (295.0 : R)), ((-26 : R) / (295.0 : R)), ((12 : R) / (59.0 : R))⟩ : Vec4 R) (⟨(0 : R), (0 : R), (0 : R), (1 : R)⟩ : Vec4 R)))
  bad := ck bad 1310 (Mat4.isInitialized v2)
  bad := ck bad 1311 (!(Mat4.isNormal v2))
  bad := ck bad 1312 (!(Mat4.isOrthogonal v2))
  bad := ck bad 1313 (!(Mat4.isOrthonormal v2))
  bad := ck bad 1314 (!(Mat4.isIdentity v2))
  return bad
end Mat4_81
#guard passes Mat4_81.run

namespace Mat4_82
abbrev R := Float32
def run : Res (List Nat) := do
  let mut bad : List Nat := []
  bad := ck bad 1320 (Mat4.isIdentity (Mat4.one : Mat4 R))
  bad := ck bad 1321 (!(Mat4.isIdentity (Mat4.ofCols3 (Vec3.oneZ : Vec3 R) (Vec3.oneY : Vec3 R) (Vec3.oneX : Vec3 R) (Vec3.zero : Vec3 R))))
  bad := ck bad 1322 (!(Mat4.isIdentity (Mat4.ofCols3 (⟨(1 : R), (7 : R), (8 : R)⟩ : Vec3 R) (⟨(4 : R), (2 : R), (9 : R)⟩ : Vec3 R) (⟨(5 : R), (6 : R), (3 : R)⟩ : Vec3 R) (Vec3.zero : Vec3 R))))
  bad := ck bad 1323 (!(Mat4.isIdentity (Mat4.ofScalar (1.1 : R))))
  return bad
end Mat4_82
#guard passes Mat4_82.run

namespace Mat4_83
abbrev R := Float32
def run : Res (List Nat) := do
  let mut bad : List Nat := []
  bad := ck bad 1328 (Mat4.isOrthonormal (Mat4.one : Mat4 R))
  bad := ck bad 1329 (Mat4.isOrthonormal (Mat4.ofCols3 (Vec3.oneZ : Vec3 R) (Vec3.oneY : Vec3 R) (Vec3.oneX : Vec3 R) (Vec3.zero : Vec3 R)))
  bad := ck bad 1330 (!(Mat4.isOrthonormal (Mat4.ofCols3 (⟨(1 : R), (7 : R), (8 : R)⟩ : Vec3 R) (⟨(4 : R), (2 : R), (9 : R)⟩ : Vec3 R) (⟨(5 : R), (6 : R), (3 : R)⟩ : Vec3 R) (Vec3.zero : Vec3 R))))
  bad := ck bad 1331 (!(Mat4.isOrthonormal (Mat4.ofScalar (1.1 : R))))
  return bad
end Mat4_83
#guard passes Mat4_83.run

namespace Mat4_84
abbrev R := Float32
def run : Res (List Nat) := do
  let mut bad : List Nat := []
  bad := ck bad 1336 ((Mat4.normalError (Mat4.one : Mat4 R)) == (0.0 : R))
  bad := ck bad 1337 ((Mat4.normalError (Mat4.ofCols3 (Vec3.oneZ : Vec3 R) (Vec3.oneY : Vec3 R) (Vec3.oneX : Vec3 R) (Vec3.zero : Vec3 R))) == (0.0 : R))
  bad := ck bad 1338 (Near.near (0.001 : R) (Mat4.normalError (Mat4.ofCols3 (⟨(1 : R), (7 : R), (8 : R)⟩ : Vec3 R) (⟨(4 : R), (2 : R), (9 : R)⟩ : Vec3 R) (⟨(5 : R), (6 : R), (3 : R)⟩ : Vec3 R) (Vec3.zero : Vec3 R))) (27530.0 : R))
  bad := ck bad 1340 (Near.near (0.001 : R) (Mat4.normalError (Mat4.ofScalar (1.1 : R))) (0.1323 : R))
  return bad
end Mat4_84
#guard passes Mat4_84.run

namespace Mat4_85
abbrev R := Float32
def run : Res (List Nat) := do
  let mut bad : List Nat := []
  bad := ck bad 1346 ((Mat4.orthogonalError (Mat4.one : Mat4 R)) == (0.0 : R))
  bad := ck bad 1347 ((Mat4.orthogonalError (Mat4.ofCols3 (Vec3.oneZ : Vec3 R) (Vec3.oneY : Vec3 R) (Vec3.oneX : Vec3 R) (Vec3.zero : Vec3 R))) == (0.0 : R))
  bad := ck bad 1348 (Near.near (0.001 : R) (Mat4.orthogonalError (Mat4.ofCols3 (⟨(1 : R), (7 : R), (8 : R)⟩ : Vec3 R) (⟨(4 : R), (2 : R), (9 : R)⟩ : Vec3 R) (⟨(5 : R), (6 : R), (3 : R)⟩ : Vec3 R) (Vec3.zero : Vec3 R))) (16622.0 : R))
  bad := ck bad 1350 ((Mat4.orthogonalError (Mat4.ofScalar (1.1 : R))) == (0.0 : R))
  return bad
end Mat4_85
#guard passes Mat4_85.run

namespace Mat4_86
abbrev R := Float32
def run : Res (List Nat) := do
  let mut bad : List Nat := []
  bad := ck bad 1355 ((Mat4.identityError (Mat4.one : Mat4 R)) == (0.0 : R))
  bad := ck bad 1356 ((Mat4.identityError (Mat4.ofCols3 (Vec3.oneZ : Vec3 R) (Vec3.oneY : Vec3 R) (Vec3.oneX : Vec3 R) (Vec3.zero : Vec3 R))) == (4.0 : R))
  bad := ck bad 1357 (Near.near (0.001 : R) (Mat4.identityError (Mat4.ofCols3 (⟨(1 : R), (7 : R), (8 : R)⟩ : Vec3 R) (⟨(4 : R), (2 : R), (9 : R)⟩ : Vec3 R) (⟨(5 : R), (6 : R), (3 : R)⟩ : Vec3 R) (Vec3.zero : Vec3 R))) (276.0 : R))
  bad := ck bad 1359 (Near.near (0.001 : R) (Mat4.identityError (Mat4.ofScalar (1.1 : R))) (0.03 : R))
  return bad
end Mat4_86
#guard passes Mat4_86.run

namespace Mat4_87
abbrev R := Float32
def run : Res (List Nat) := do
  let mut bad : List Nat := []
  bad := ck bad 1531 (Near.near (0.001 : R) (Mat4.one : Mat4 R) (Mat4.one : Mat4 R))
  return bad
end Mat4_87
#guard passes Mat4_87.run

end MathLib.Conformance
