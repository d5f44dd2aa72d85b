import Verif.Conformance.Base

/-!
# Unit tests of `tests/tests/src/test_mat3.cpp`, replayed on the model

Generated by `tools/conform.py`; the numbers are the source lines of the checks.  494 checks;
38 checks of that file are not translated (casts, random draws, `sizeof`, `data()`, and
functions outside the model).
-/

namespace MathLib.Conformance
set_option linter.all false

namespace Mat3_0
abbrev R := Float32
def run : Res (List Nat) := do
  let mut bad : List Nat := []
  bad := ck bad 19 (Vec3.eq (Mat3.zero : Mat3 R).x (Vec3.zero : Vec3 R))
  bad := ck bad 20 (Vec3.eq (Mat3.zero : Mat3 R).y (Vec3.zero : Vec3 R))
  bad := ck bad 21 (Vec3.eq (Mat3.zero : Mat3 R).z (Vec3.zero : Vec3 R))
  bad := ck bad 22 (Mat3.isInitialized (Mat3.zero : Mat3 R))
  bad := ck bad 23 (!(Mat3.isNormal (Mat3.zero : Mat3 R)))
  bad := ck bad 24 (Mat3.isOrthogonal (Mat3.zero : Mat3 R))
  bad := ck bad 25 (!(Mat3.isOrthonormal (Mat3.zero : Mat3 R)))
  bad := ck bad 26 (!(Mat3.isIdentity (Mat3.zero : Mat3 R)))
  return bad
end Mat3_0
#guard passes Mat3_0.run

namespace Mat3_1
abbrev R := Float32
def run : Res (List Nat) := do
  let mut bad : List Nat := []
  bad := ck bad 31 (Vec3.eq (Mat3.one : Mat3 R).x (Vec3.oneX : Vec3 R))
  bad := ck bad 32 (Vec3.eq (Mat3.one : Mat3 R).y (Vec3.oneY : Vec3 R))
  bad := ck bad 33 (Vec3.eq (Mat3.one : Mat3 R).z (Vec3.oneZ : Vec3 R))
  bad := ck bad 34 (Mat3.isInitialized (Mat3.one : Mat3 R))
  bad := ck bad 35 (Mat3.isNormal (Mat3.one : Mat3 R))
  bad := ck bad 36 (Mat3.isOrthogonal (Mat3.one : Mat3 R))
  bad := ck bad 37 (Mat3.isOrthonormal (Mat3.one : Mat3 R))
  bad := ck bad 38 (Mat3.isIdentity (Mat3.one : Mat3 R))
  return bad
end Mat3_1
#guard passes Mat3_1.run

namespace Mat3_2
abbrev R := Float32
def run : Res (List Nat) := do
  let mut bad : List Nat := []
  let v1 : Mat3 R := (Mat3.ofScalar (3 : R))
  bad := ck bad 56 (Vec3.eq v1.x (⟨(3 : R), (0 : R), (0 : R)⟩ : Vec3 R))
  bad := ck bad 57 (Vec3.eq v1.y (⟨(0 : R), (3 : R), (0 : R)⟩ : Vec3 R))
  bad := ck bad 58 (Vec3.eq v1.z (⟨(0 : R), (0 : R), (3 : R)⟩ : Vec3 R))
  bad := ck bad 59 (Mat3.isInitialized v1)
  bad := ck bad 60 (!(Mat3.isNormal v1))
  bad := ck bad 61 (Mat3.isOrthogonal v1)
  bad := ck bad 62 (!(Mat3.isOrthonormal v1))
  bad := ck bad 63 (!(Mat3.isIdentity v1))
  return bad
end Mat3_2
#guard passes Mat3_2.run

namespace Mat3_3
abbrev R := Float32
def run : Res (List Nat) := do
  let mut bad : List Nat := []
  let v1 : Mat3 R := (Mat3.ofCols (⟨(1 : R), (2 : R), (3 : R)⟩ : Vec3 R) (⟨(4 : R), (5 : R), (6 : R)⟩ : Vec3 R) (⟨(7 : R), (8 : R), (9 : R)⟩ : Vec3 R))
  bad := ck bad 69 (Vec3.eq v1.x (⟨(1 : R), (2 : R), (3 : R)⟩ : Vec3 R))
  bad := ck bad 70 (Vec3.eq v1.y (⟨(4 : R), (5 : R), (6 : R)⟩ : Vec3 R))
  bad := ck bad 71 (Vec3.eq v1.z (⟨(7 : R), (8 : R), (9 : R)⟩ : Vec3 R))
  bad := ck bad 72 (Mat3.isInitialized v1)
  bad := ck bad 73 (!(Mat3.isNormal v1))
  bad := ck bad 74 (!(Mat3.isOrthogonal v1))
  bad := ck bad 75 (!(Mat3.isOrthonormal v1))
  bad := ck bad 76 (!(Mat3.isIdentity v1))
  return bad
end Mat3_3
#guard passes Mat3_3.run

namespace Mat3_4
abbrev R := Float32
def run : Res (List Nat) := do
  let mut bad : List Nat := []
  let v1 : Mat3 R := (Mat3.ofScalar (3 : R))
  let v2 : Mat3 R := (Mat3.setIdentity : Mat3 R)
  bad := ck bad 85 (Mat3.eq v2 (Mat3.one : Mat3 R))
  bad := ck bad 86 (Mat3.isInitialized v2)
  bad := ck bad 87 (Mat3.isNormal v2)
  bad := ck bad 88 (Mat3.isOrthogonal v2)
  bad := ck bad 89 (Mat3.isOrthonormal v2)
  bad := ck bad 90 (Mat3.isIdentity v2)
  return bad
end Mat3_4
#guard passes Mat3_4.run

namespace Mat3_5
abbrev R := Float32
def run : Res (List Nat) := do
  let mut bad : List Nat := []
  let v1 : Mat3 R := (Mat3.ofScalar (3 : R))
  let v2 : Mat3 R := (Mat3.ofScalar (42 : R))
  let v3 : Mat3 R := v2
  bad := ck bad 98 (Mat3.eq v3 v2)
  bad := ck bad 99 (Mat3.isInitialized v3)
  bad := ck bad 100 (!(Mat3.isNormal v3))
  bad := ck bad 101 (Mat3.isOrthogonal v3)
  bad := ck bad 102 (!(Mat3.isOrthonormal v3))
  bad := ck bad 103 (!(Mat3.isIdentity v3))
  return bad
end Mat3_5
#guard passes Mat3_5.run

namespace Mat3_6
abbrev R := Float32
def run : Res (List Nat) := do
  let mut bad : List Nat := []
  let v1 : Quat R := (Quat.ofAxisAngle (Vec3.oneZ : Vec3 R) ((MathFns.pi : R) / 4))
  let v2 : Mat3 R := (Mat3.ofScalar (3 : R))
  let v3 : Mat3 R := (Mat3.ofQuat v1)
  bad := ck bad 111 (Near.near (0.001 : R) v3 (Mat3.ofCols (⟨(0.70711 : R), (0.70711 : R), (0 : R)⟩ : Vec3 R) (⟨(-(0.70711 : R)), (0.70711 : R), (0 : R)⟩ : Vec3 R) (⟨(0 : R), (0 : R), (1 : R)⟩ : Vec3 R)))
  bad := ck bad 112 (Mat3.isInitialized v3)
  bad := ck bad 113 (Mat3.isNormal v3)
  bad := ck bad 114 (Mat3.isOrthogonal v3)
  bad := ck bad 115 (Mat3.isOrthonormal v3)
  bad := ck bad 116 (!(Mat3.isIdentity v3))
  return bad
end Mat3_6
#guard passes Mat3_6.run

namespace Mat3_7
abbrev R := Float32
def run : Res (List Nat) := do
  let mut bad : List Nat := []
  let v1 : Mat3 R := (Mat3.ofScalar (3 : R))
  let v2 : Mat3 R := (Mat3.ofCols (⟨(1 : R), (2 : R), (3 : R)⟩ : Vec3 R) (⟨(4 : R), (5 : R), (6 : R)⟩ : Vec3 R) (⟨(7 : R), (8 : R), (9 : R)⟩ : Vec3 R))
  bad := ck bad 123 (Near.near (0.001 : R) v2 (Mat3.ofCols (⟨(1 : R), (2 : R), (3 : R)⟩ : Vec3 R) (⟨(4 : R), (5 : R), (6 : R)⟩ : Vec3 R) (⟨(7 : R), (8 : R), (9 : R)⟩ : Vec3 R)))
  bad := ck bad 129 (Mat3.isInitialized v2)
  bad := ck bad 130 (!(Mat3.isNormal v2))
  bad := ck bad 131 (!(Mat3.isOrthogonal v2))
  bad := ck bad 132 (!(Mat3.isOrthonormal v2))
  bad := ck bad 133 (!(Mat3.isIdentity v2))
  return bad
end Mat3_7
#guard passes Mat3_7.run

namespace Mat3_8
abbrev R := Float32
def run : Res (List Nat) := do
  let mut bad : List Nat := []
  let v1 : Mat3 R := (Mat3.ofScalar (3 : R))
  let v2 : Mat3 R := (← Mat3.ofExactApprox Coord.X (Vec3.oneX : Vec3 R) Coord.Z (Vec3.oneZ : Vec3 R))
  bad := ck bad 141 (Near.near (0.001 : R) v2 (Mat3.one : Mat3 R))
  bad := ck bad 142 (Mat3.isInitialized v2)
  bad := ck bad 143 (Mat3.isNormal v2)
  bad := ck bad 144 (Mat3.isOrthogonal v2)
  bad := ck bad 145 (Mat3.isOrthonormal v2)
  bad := ck bad 146 (Mat3.isIdentity v2)
  let v3 : Mat3 R := (← Mat3.ofExactApprox Coord.X (Vec3.oneX : Vec3 R) Coord.Y (Vec3.oneY : Vec3 R))
  bad := ck bad 149 (Near.near (0.001 : R) v3 (Mat3.one : Mat3 R))
  bad := ck bad 150 (Mat3.isInitialized v3)
  bad := ck bad 151 (Mat3.isNormal v3)
  bad := ck bad 152 (Mat3.isOrthogonal v3)
  bad := ck bad 153 (Mat3.isOrthonormal v3)
  bad := ck bad 154 (Mat3.isIdentity v3)
  let v4 : Mat3 R := (← Mat3.ofExactApprox Coord.Y (Vec3.oneY : Vec3 R) Coord.X (Vec3.oneX : Vec3 R))
  bad := ck bad 157 (Near.near (0.001 : R) v4 (Mat3.one : Mat3 R))
  bad := ck bad 158 (Mat3.isInitialized v4)
  bad := ck bad 159 (Mat3.isNormal v4)
  bad := ck bad 160 (Mat3.isOrthogonal v4)
  bad := ck bad 161 (Mat3.isOrthonormal v4)
  bad := ck bad 162 (Mat3.isIdentity v4)
  let v5 : Mat3 R := (← Mat3.ofExactApprox Coord.Y (Vec3.oneY : Vec3 R) Coord.Z (Vec3.oneZ : Vec3 R))
  bad := ck bad 165 (Near.near (0.001 : R) v5 (Mat3.one : Mat3 R))
  bad := ck bad 166 (Mat3.isInitialized v5)
  bad := ck bad 167 (Mat3.isNormal v5)
  bad := ck bad 168 (Mat3.isOrthogonal v5)
  bad := ck bad 169 (Mat3.isOrthonormal v5)
  bad := ck bad 170 (Mat3.isIdentity v5)
  let v6 : Mat3 R := (← Mat3.ofExactApprox Coord.Z (Vec3.oneZ : Vec3 R) Coord.X (Vec3.oneX : Vec3 R))
  bad := ck bad 173 (Near.near (0.001 : R) v6 (Mat3.one : Mat3 R))
  bad := ck bad 174 (Mat3.isInitialized v6)
  bad := ck bad 175 (Mat3.isNormal v6)
  bad := ck bad 176 (Mat3.isOrthogonal v6)
  bad := ck bad 177 (Mat3.isOrthonormal v6)
  bad := ck bad 178 (Mat3.isIdentity v6)
  let v7 : Mat3 R := (← Mat3.ofExactApprox Coord.Z (Vec3.oneZ : Vec3 R) Coord.Y (Vec3.oneY : Vec3 R))
  bad := ck bad 181 (Near.near (0.001 : R) v7 (Mat3.one : Mat3 R))
  bad := ck bad 182 (Mat3.isInitialized v7)
  bad := ck bad 183 (Mat3.isNormal v7)
  bad := ck bad 184 (Mat3.isOrthogonal v7)
  bad := ck bad 185 (Mat3.isOrthonormal v7)
  bad := ck bad 186 (Mat3.isIdentity v7)
  return bad
end Mat3_8
#guard passes Mat3_8.run

namespace Mat3_9
abbrev R := Float32
def run : Res (List Nat) := do
  let mut bad : List Nat := []
  let v1 : Mat3 R := (Mat3.ofScalar (3 : R))
  let v2 : Mat3 R := (Mat3.ofAxisAngle (Vec3.oneZ : Vec3 R) ((MathFns.pi : R) / 4))
  bad := ck bad 193 (Near.near (0.001 : R) v2 (Mat3.ofCols (⟨(0.70711 : R), (0.70711 : R), (0 : R)⟩ : Vec3 R) (⟨(-(0.70711 : R)), (0.70711 : R), (0 : R)⟩ : Vec3 R) (⟨(0 : R), (0 : R), (1 : R)⟩ : Vec3 R)))
  bad := ck bad 198 (Mat3.isInitialized v2)
  bad := ck bad 199 (Mat3.isNormal v2)
  bad := ck bad 200 (Mat3.isOrthogonal v2)
  bad := ck bad 201 (Mat3.isOrthonormal v2)
  bad := ck bad 202 (!(Mat3.isIdentity v2))
  return bad
end Mat3_9
#guard passes Mat3_9.run

namespace Mat3_10
abbrev R := Float32
def run : Res (List Nat) := do
  let mut bad : List Nat := []
  let v1 : Mat3 R := (Mat3.ofScalar (3 : R))
  let v2 : Mat3 R := (← Mat3.ofCoordAngle Coord.X ((MathFns.pi : R) / 3))
  bad := ck bad 209 (Near.near (0.001 : R) v2 (Mat3.ofAxisAngle (Vec3.oneX : Vec3 R) ((MathFns.pi : R) / 3)))
  bad := ck bad 210 (Mat3.isInitialized v2)
  bad := ck bad 211 (Mat3.isNormal v2)
  bad := ck bad 212 (Mat3.isOrthogonal v2)
  bad := ck bad 213 (Mat3.isOrthonormal v2)
  bad := ck bad 214 (!(Mat3.isIdentity v2))
  let v3 : Mat3 R := (← Mat3.ofCoordAngle Coord.Y ((MathFns.pi : R) / 3))
  bad := ck bad 216 (Near.near (0.001 : R) v3 (Mat3.ofAxisAngle (Vec3.oneY : Vec3 R) ((MathFns.pi : R) / 3)))
  bad := ck bad 217 (Mat3.isInitialized v3)
  bad := ck bad 218 (Mat3.isNormal v3)
  bad := ck bad 219 (Mat3.isOrthogonal v3)
  bad := ck bad 220 (Mat3.isOrthonormal v3)
  bad := ck bad 221 (!(Mat3.isIdentity v3))
  let v4 : Mat3 R := (← Mat3.ofCoordAngle Coord.Z ((MathFns.pi : R) / 3))
  bad := ck bad 223 (Near.near (0.001 : R) v4 (Mat3.ofAxisAngle (Vec3.oneZ : Vec3 R) ((MathFns.pi : R) / 3)))
  bad := ck bad 224 (Mat3.isInitialized v4)
  bad := ck bad 225 (Mat3.isNormal v4)
  bad := ck bad 226 (Mat3.isOrthogonal v4)
  bad := ck bad 227 (Mat3.isOrthonormal v4)
  bad := ck bad 228 (!(Mat3.isIdentity v4))
  return bad
end Mat3_10
#guard passes Mat3_10.run

namespace Mat3_11
abbrev R := Float32
def run : Res (List Nat) := do
  let mut bad : List Nat := []
  let v1 : Mat3 R := (Mat3.one : Mat3 R)
  let v2 : Mat3 R := (Mat3.ofAxisAngle (Vec3.oneZ : Vec3 R) ((MathFns.pi : R) / 3))
  let v3 : Mat3 R := (Mat3.ofAxisAngle (Vec3.oneZ : Vec3 R) ((MathFns.pi : R) / 6))
  let v4 : Mat3 R := (← Mat3.slerp v1 v2 (0.0 : R))
  let v5 : Mat3 R := (← Mat3.slerp v1 v2 (0.5 : R))
  let v6 : Mat3 R := (← Mat3.slerp v1 v2 (1.0 : R))
  bad := ck bad 240 (Near.near (0.001 : R) v4 v1)
  bad := ck bad 241 (Mat3.isInitialized v4)
  bad := ck bad 242 (Mat3.isNormal v4)
  bad := ck bad 243 (Mat3.isOrthogonal v4)
  bad := ck bad 244 (Mat3.isOrthonormal v4)
  bad := ck bad 245 (Mat3.isIdentity v4)
  bad := ck bad 246 (Near.near (0.001 : R) v5 v3)
  bad := ck bad 247 (Mat3.isInitialized v5)
  bad := ck bad 248 (Mat3.isNormal v5)
  bad := ck bad 249 (Mat3.isOrthogonal v5)
  bad := ck bad 250 (Mat3.isOrthonormal v5)
  bad := ck bad 251 (!(Mat3.isIdentity v5))
  bad := ck bad 252 (Near.near (0.001 : R) v6 v2)
  bad := ck bad 253 (Mat3.isInitialized v6)
  bad := ck bad 254 (Mat3.isNormal v6)
  bad := ck bad 255 (Mat3.isOrthogonal v6)
  bad := ck bad 256 (Mat3.isOrthonormal v6)
  bad := ck bad 257 (!(Mat3.isIdentity v6))
  return bad
end Mat3_11
#guard passes Mat3_11.run

namespace Mat3_12
abbrev R := Float32
def run : Res (List Nat) := do
  let mut bad : List Nat := []
  let v1 : Mat3 R := (Mat3.one : Mat3 R)
  let v2 : Mat3 R := (Mat3.ofAxisAngle (Vec3.oneZ : Vec3 R) ((MathFns.pi : R) / 3))
  let v3 : Mat3 R := (Mat3.ofAxisAngle (Vec3.oneZ : Vec3 R) ((MathFns.pi : R) / 8))
  let v4 : Mat3 R := (← Mat3.slerpMaxAngle v1 v2 (0.0 : R))
  let v5 : Mat3 R := (← Mat3.slerpMaxAngle v1 v2 ((MathFns.pi : R) / 8))
  let v6 : Mat3 R := (← Mat3.slerpMaxAngle v1 v2 ((MathFns.pi : R) / 3))
  bad := ck bad 269 (Near.near (0.001 : R) v4 v1)
  bad := ck bad 270 (Mat3.isInitialized v4)
  bad := ck bad 271 (Mat3.isNormal v4)
  bad := ck bad 272 (Mat3.isOrthogonal v4)
  bad := ck bad 273 (Mat3.isOrthonormal v4)
  bad := ck bad 274 (Mat3.isIdentity v4)
  bad := ck bad 275 (Near.near (0.001 : R) v5 v3)
  bad := ck bad 276 (Mat3.isInitialized v5)
  bad := ck bad 277 (Mat3.isNormal v5)
  bad := ck bad 278 (Mat3.isOrthogonal v5)
  bad := ck bad 279 (Mat3.isOrthonormal v5)
  bad := ck bad 280 (!(Mat3.isIdentity v5))
  bad := ck bad 281 (Near.near (0.001 : R) v6 v2)
  bad := ck bad 282 (Mat3.isInitialized v6)
  bad := ck bad 283 (Mat3.isNormal v6)
  bad := ck bad 284 (Mat3.isOrthogonal v6)
  bad := ck bad 285 (Mat3.isOrthonormal v6)
  bad := ck bad 286 (!(Mat3.isIdentity v6))
  return bad
end Mat3_12
#guard passes Mat3_12.run

namespace Mat3_13
abbrev R := Float32
def run : Res (List Nat) := do
  let mut bad : List Nat := []
  let v1 : Quat R := (Quat.ofAxisAngle (Vec3.oneZ : Vec3 R) ((MathFns.pi : R) / 4))
  let v2 : Mat3 R := (Mat3.ofScalar (3 : R))
  let v3 : Mat3 R := (Mat3.ofQuat v1)
  bad := ck bad 296 (Near.near (0.001 : R) v3 (Mat3.ofCols (⟨(0.70711 : R), (0.70711 : R), (0 : R)⟩ : Vec3 R) (⟨(-(0.70711 : R)), (0.70711 : R), (0 : R)⟩ : Vec3 R) (⟨(0 : R), (0 : R), (1 : R)⟩ : Vec3 R)))
  bad := ck bad 297 (Mat3.isInitialized v3)
  bad := ck bad 298 (Mat3.isNormal v3)
  bad := ck bad 299 (Mat3.isOrthogonal v3)
  bad := ck bad 300 (Mat3.isOrthonormal v3)
  bad := ck bad 301 (!(Mat3.isIdentity v3))
  return bad
end Mat3_13
#guard passes Mat3_13.run

namespace Mat3_14
abbrev R := Float32
def run : Res (List Nat) := do
  let mut bad : List Nat := []
  let v1 : Mat3 R := (Mat3.ofScalar (3 : R))
  let v2 : Mat3 R := (Mat3.ofCols (⟨(1 : R), (2 : R), (3 : R)⟩ : Vec3 R) (⟨(4 : R), (5 : R), (6 : R)⟩ : Vec3 R) (⟨(7 : R), (8 : R), (9 : R)⟩ : Vec3 R))
  bad := ck bad 308 (Near.near (0.001 : R) v2 (Mat3.ofCols (⟨(1 : R), (2 : R), (3 : R)⟩ : Vec3 R) (⟨(4 : R), (5 : R), (6 : R)⟩ : Vec3 R) (⟨(7 : R), (8 : R), (9 : R)⟩ : Vec3 R)))
  bad := ck bad 314 (Mat3.isInitialized v2)
  bad := ck bad 315 (!(Mat3.isNormal v2))
  bad := ck bad 316 (!(Mat3.isOrthogonal v2))
  bad := ck bad 317 (!(Mat3.isOrthonormal v2))
  bad := ck bad 318 (!(Mat3.isIdentity v2))
  return bad
end Mat3_14
#guard passes Mat3_14.run

namespace Mat3_15
abbrev R := Float32
def run : Res (List Nat) := do
  let mut bad : List Nat := []
  let v1 : Mat3 R := (Mat3.ofScalar (3 : R))
  let v2 : Mat3 R := (← Mat3.ofExactApprox Coord.X (Vec3.oneX : Vec3 R) Coord.Z (Vec3.oneZ : Vec3 R))
  bad := ck bad 326 (Near.near (0.001 : R) v2 (Mat3.one : Mat3 R))
  bad := ck bad 327 (Mat3.isInitialized v2)
  bad := ck bad 328 (Mat3.isNormal v2)
  bad := ck bad 329 (Mat3.isOrthogonal v2)
  bad := ck bad 330 (Mat3.isOrthonormal v2)
  bad := ck bad 331 (Mat3.isIdentity v2)
  let v3 : Mat3 R := (← Mat3.ofExactApprox Coord.X (Vec3.oneX : Vec3 R) Coord.Y (Vec3.oneY : Vec3 R))
  bad := ck bad 334 (Near.near (0.001 : R) v3 (Mat3.one : Mat3 R))
  bad := ck bad 335 (Mat3.isInitialized v3)
  bad := ck bad 336 (Mat3.isNormal v3)
  bad := ck bad 337 (Mat3.isOrthogonal v3)
  bad := ck bad 338 (Mat3.isOrthonormal v3)
  bad := ck bad 339 (Mat3.isIdentity v3)
  let v4 : Mat3 R := (← Mat3.ofExactApprox Coord.Y (Vec3.oneY : Vec3 R) Coord.X (Vec3.oneX : Vec3 R))
  bad := ck bad 342 (Near.near (0.001 : R) v4 (Mat3.one : Mat3 R))
  bad := ck bad 343 (Mat3.isInitialized v4)
  bad := ck bad 344 (Mat3.isNormal v4)
  bad := ck bad 345 (Mat3.isOrthogonal v4)
  bad := ck bad 346 (Mat3.isOrthonormal v4)
  bad := ck bad 347 (Mat3.isIdentity v4)
  let v5 : Mat3 R := (← Mat3.ofExactApprox Coord.Y (Vec3.oneY : Vec3 R) Coord.Z (Vec3.oneZ : Vec3 R))
  bad := ck bad 350 (Near.near (0.001 : R) v5 (Mat3.one : Mat3 R))
  bad := ck bad 351 (Mat3.isInitialized v5)
  bad := ck bad 352 (Mat3.isNormal v5)
  bad := ck bad 353 (Mat3.isOrthogonal v5)
  bad := ck bad 354 (Mat3.isOrthonormal v5)
  bad := ck bad 355 (Mat3.isIdentity v5)
  let v6 : Mat3 R := (← Mat3.ofExactApprox Coord.Z (Vec3.oneZ : Vec3 R) Coord.X (Vec3.oneX : Vec3 R))
  bad := ck bad 358 (Near.near (0.001 : R) v6 (Mat3.one : Mat3 R))
  bad := ck bad 359 (Mat3.isInitialized v6)
  bad := ck bad 360 (Mat3.isNormal v6)
  bad := ck bad 361 (Mat3.isOrthogonal v6)
  bad := ck bad 362 (Mat3.isOrthonormal v6)
  bad := ck bad 363 (Mat3.isIdentity v6)
  let v7 : Mat3 R := (← Mat3.ofExactApprox Coord.Z (Vec3.oneZ : Vec3 R) Coord.Y (Vec3.oneY : Vec3 R))
  bad := ck bad 366 (Near.near (0.001 : R) v7 (Mat3.one : Mat3 R))
  bad := ck bad 367 (Mat3.isInitialized v7)
  bad := ck bad 368 (Mat3.isNormal v7)
  bad := ck bad 369 (Mat3.isOrthogonal v7)
  bad := ck bad 370 (Mat3.isOrthonormal v7)
  bad := ck bad 371 (Mat3.isIdentity v7)
  return bad
end Mat3_15
#guard passes Mat3_15.run

namespace Mat3_16
abbrev R := Float32
def run : Res (List Nat) := do
  let mut bad : List Nat := []
  let v1 : Mat3 R := (Mat3.ofScalar (3 : R))
  let v2 : Mat3 R := (Mat3.ofAxisAngle (Vec3.oneZ : Vec3 R) ((MathFns.pi : R) / 4))
  bad := ck bad 378 (Near.near (0.001 : R) v2 (Mat3.ofCols (⟨(0.70711 : R), (0.70711 : R), (0 : R)⟩ : Vec3 R) (⟨(-(0.70711 : R)), (0.70711 : R), (0 : R)⟩ : Vec3 R) (⟨(0 : R), (0 : R), (1 : R)⟩ : Vec3 R)))
  bad := ck bad 379 (Mat3.isInitialized v2)
  bad := ck bad 380 (Mat3.isNormal v2)
  bad := ck bad 381 (Mat3.isOrthogonal v2)
  bad := ck bad 382 (Mat3.isOrthonormal v2)
  bad := ck bad 383 (!(Mat3.isIdentity v2))
  return bad
end Mat3_16
#guard passes Mat3_16.run

namespace Mat3_17
abbrev R := Float32
def run : Res (List Nat) := do
  let mut bad : List Nat := []
  let v1 : Mat3 R := (Mat3.ofScalar (3 : R))
  let v2 : Mat3 R := (← Mat3.ofCoordAngle Coord.X ((MathFns.pi : R) / 3))
  bad := ck bad 390 (Near.near (0.001 : R) v2 (Mat3.ofAxisAngle (Vec3.oneX : Vec3 R) ((MathFns.pi : R) / 3)))
  bad := ck bad 391 (Mat3.isInitialized v2)
  bad := ck bad 392 (Mat3.isNormal v2)
  bad := ck bad 393 (Mat3.isOrthogonal v2)
  bad := ck bad 394 (Mat3.isOrthonormal v2)
  bad := ck bad 395 (!(Mat3.isIdentity v2))
  let v3 : Mat3 R := (← Mat3.ofCoordAngle Coord.Y ((MathFns.pi : R) / 3))
  bad := ck bad 397 (Near.near (0.001 : R) v3 (Mat3.ofAxisAngle (Vec3.oneY : Vec3 R) ((MathFns.pi : R) / 3)))
  bad := ck bad 398 (Mat3.isInitialized v3)
  bad := ck bad 399 (Mat3.isNormal v3)
  bad := ck bad 400 (Mat3.isOrthogonal v3)
  bad := ck bad 401 (Mat3.isOrthonormal v3)
  bad := ck bad 402 (!(Mat3.isIdentity v3))
  let v4 : Mat3 R := (← Mat3.ofCoordAngle Coord.Z ((MathFns.pi : R) / 3))
  bad := ck bad 404 (Near.near (0.001 : R) v4 (Mat3.ofAxisAngle (Vec3.oneZ : Vec3 R) ((MathFns.pi : R) / 3)))
  bad := ck bad 405 (Mat3.isInitialized v4)
  bad := ck bad 406 (Mat3.isNormal v4)
  bad := ck bad 407 (Mat3.isOrthogonal v4)
  bad := ck bad 408 (Mat3.isOrthonormal v4)
  bad := ck bad 409 (!(Mat3.isIdentity v4))
  return bad
end Mat3_17
#guard passes Mat3_17.run

namespace Mat3_18
abbrev R := Float32
def run : Res (List Nat) := do
  let mut bad : List Nat := []
  let v1 : Mat3 R := (Mat3.one : Mat3 R)
  let v2 : Mat3 R := (Mat3.ofAxisAngle (Vec3.oneZ : Vec3 R) ((MathFns.pi : R) / 3))
  let v3 : Mat3 R := (Mat3.ofAxisAngle (Vec3.oneZ : Vec3 R) ((MathFns.pi : R) / 6))
  let v4 : Mat3 R := (← Mat3.slerp v1 v2 (0.0 : R))
  let v5 : Mat3 R := (← Mat3.slerp v1 v2 (0.5 : R))
  let v6 : Mat3 R := (← Mat3.slerp v1 v2 (1.0 : R))
  bad := ck bad 421 (Near.near (0.001 : R) v4 v1)
  bad := ck bad 422 (Mat3.isInitialized v4)
  bad := ck bad 423 (Mat3.isNormal v4)
  bad := ck bad 424 (Mat3.isOrthogonal v4)
  bad := ck bad 425 (Mat3.isOrthonormal v4)
  bad := ck bad 426 (Mat3.isIdentity v4)
  bad := ck bad 427 (Near.near (0.001 : R) v5 v3)
  bad := ck bad 428 (Mat3.isInitialized v5)
  bad := ck bad 429 (Mat3.isNormal v5)
  bad := ck bad 430 (Mat3.isOrthogonal v5)
  bad := ck bad 431 (Mat3.isOrthonormal v5)
  bad := ck bad 432 (!(Mat3.isIdentity v5))
  bad := ck bad 433 (Near.near (0.001 : R) v6 v2)
  bad := ck bad 434 (Mat3.isInitialized v6)
  bad := ck bad 435 (Mat3.isNormal v6)
  bad := ck bad 436 (Mat3.isOrthogonal v6)
  bad := ck bad 437 (Mat3.isOrthonormal v6)
  bad := ck bad 438 (!(Mat3.isIdentity v6))
  return bad
end Mat3_18
#guard passes Mat3_18.run

namespace Mat3_19
abbrev R := Float32
def run : Res (List Nat) := do
  let mut bad : List Nat := []
  let v1 : Mat3 R := (Mat3.one : Mat3 R)
  let v2 : Mat3 R := (Mat3.ofAxisAngle (Vec3.oneZ : Vec3 R) ((MathFns.pi : R) / 3))
  let v3 : Mat3 R := (Mat3.ofAxisAngle (Vec3.oneZ : Vec3 R) ((MathFns.pi : R) / 8))
  let v4 : Mat3 R := (← Mat3.slerpMaxAngle v1 v2 (0.0 : R))
  let v5 : Mat3 R := (← Mat3.slerpMaxAngle v1 v2 ((MathFns.pi : R) / 8))
  let v6 : Mat3 R := (← Mat3.slerpMaxAngle v1 v2 ((MathFns.pi : R) / 3))
  bad := ck bad 450 (Near.near (0.001 : R) v4 v1)
  bad := ck bad 451 (Mat3.isInitialized v4)
  bad := ck bad 452 (Mat3.isNormal v4)
  bad := ck bad 453 (Mat3.isOrthogonal v4)
  bad := ck bad 454 (Mat3.isOrthonormal v4)
  bad := ck bad 455 (Mat3.isIdentity v4)
  bad := ck bad 456 (Near.near (0.001 : R) v5 v3)
  bad := ck bad 457 (Mat3.isInitialized v5)
  bad := ck bad 458 (Mat3.isNormal v5)
  bad := ck bad 459 (Mat3.isOrthogonal v5)
  bad := ck bad 460 (Mat3.isOrthonormal v5)
  bad := ck bad 461 (!(Mat3.isIdentity v5))
  bad := ck bad 462 (Near.near (0.001 : R) v6 v2)
  bad := ck bad 463 (Mat3.isInitialized v6)
  bad := ck bad 464 (Mat3.isNormal v6)
  bad := ck bad 465 (Mat3.isOrthogonal v6)
  bad := ck bad 466 (Mat3.isOrthonormal v6)
  bad := ck bad 467 (!(Mat3.isIdentity v6))
  return bad
end Mat3_19
#guard passes Mat3_19.run

namespace Mat3_20
abbrev R := Float32
def run : Res (List Nat) := do
  let mut bad : List Nat := []
  let v1 : Mat3 R := (Mat3.one : Mat3 R)
  let v2 : Mat3 R := (Mat3.smulAssign v1 (42.0 : R))
  bad := ck bad 477 (Near.near (0.001 : R) v2 (Mat3.ofScalar (42.0 : R)))
  bad := ck bad 478 (Mat3.isInitialized v2)
  bad := ck bad 479 (!(Mat3.isNormal v2))
  bad := ck bad 480 (Mat3.isOrthogonal v2)
  bad := ck bad 481 (!(Mat3.isOrthonormal v2))
  bad := ck bad 482 (!(Mat3.isIdentity v2))
  return bad
end Mat3_20
#guard passes Mat3_20.run

namespace Mat3_21
abbrev R := Float32
def run : Res (List Nat) := do
  let mut bad : List Nat := []
  let v1 : Mat3 R := (Mat3.ofCols (⟨(1 : R), (2 : R), (3 : R)⟩ : Vec3 R) (⟨(4 : R), (5 : R), (6 : R)⟩ : Vec3 R) (⟨(7 : R), (8 : R), (9 : R)⟩ : Vec3 R))
  let v2 : Mat3 R := (Mat3.ofCols (⟨(9 : R), (8 : R), (7 : R)⟩ : Vec3 R) (⟨(6 : R), (5 : R), (4 : R)⟩ : Vec3 R) (⟨(3 : R), (2 : R), (1 : R)⟩ : Vec3 R))
  let v3 : Mat3 R := (Mat3.mulAssign v1 v2)
  bad := ck bad 490 (Near.near (0.001 : R) v3 (Mat3.ofCols (⟨(90 : R), (114 : R), (138 : R)⟩ : Vec3 R) (⟨(54 : R), (69 : R), (84 : R)⟩ : Vec3 R) (⟨(18 : R), (24 : R), (30 : R)⟩ : Vec3 R)))
  bad := ck bad 495 (Mat3.isInitialized v3)
  bad := ck bad 496 (!(Mat3.isNormal v3))
  bad := ck bad 497 (!(Mat3.isOrthogonal v3))
  bad := ck bad 498 (!(Mat3.isOrthonormal v3))
  bad := ck bad 499 (!(Mat3.isIdentity v3))
  return bad
end Mat3_21
#guard passes Mat3_21.run

namespace Mat3_22
abbrev R := Float32
def run : Res (List Nat) := do
  let mut bad : List Nat := []
  let v1 : Mat3 R := (Mat3.ofCols (⟨(10 : R), (10 : R), (10 : R)⟩ : Vec3 R) (⟨(10 : R), (10 : R), (10 : R)⟩ : Vec3 R) (⟨(10 : R), (10 : R), (10 : R)⟩ : Vec3 R))
  let v2 : Mat3 R := (← Mat3.sdivAssign v1 (5.0 : R))
  bad := ck bad 509 (Near.near (0.001 : R) v2 (Mat3.ofCols (⟨(2 : R), (2 : R), (2 : R)⟩ : Vec3 R) (⟨(2 : R), (2 : R), (2 : R)⟩ : Vec3 R) (⟨(2 : R), (2 : R), (2 : R)⟩ : Vec3 R)))
  bad := ck bad 510 (Mat3.isInitialized v2)
  bad := ck bad 511 (!(Mat3.isNormal v2))
  bad := ck bad 512 (!(Mat3.isOrthogonal v2))
  bad := ck bad 513 (!(Mat3.isOrthonormal v2))
  bad := ck bad 514 (!(Mat3.isIdentity v2))
  return bad
end Mat3_22
#guard passes Mat3_22.run

namespace Mat3_23
abbrev R := Float32
def run : Res (List Nat) := do
  let mut bad : List Nat := []
  let v1 : Mat3 R := (Mat3.ofCols (⟨(1 : R), (2 : R), (3 : R)⟩ : Vec3 R) (⟨(4 : R), (5 : R), (6 : R)⟩ : Vec3 R) (⟨(7 : R), (8 : R), (9 : R)⟩ : Vec3 R))
  let v2 : Mat3 R := (Mat3.neg v1)
  bad := ck bad 521 (Near.near (0.001 : R) v2 (Mat3.ofCols (⟨(-1 : R), (-2 : R), (-3 : R)⟩ : Vec3 R) (⟨(-4 : R), (-5 : R), (-6 : R)⟩ : Vec3 R) (⟨(-7 : R), (-8 : R), (-9 : R)⟩ : Vec3 R)))
  bad := ck bad 522 (Mat3.isInitialized v2)
  bad := ck bad 523 (!(Mat3.isNormal v2))
  bad := ck bad 524 (!(Mat3.isOrthogonal v2))
  bad := ck bad 525 (!(Mat3.isOrthonormal v2))
  bad := ck bad 526 (!(Mat3.isIdentity v2))
  return bad
end Mat3_23
#guard passes Mat3_23.run

namespace Mat3_24
abbrev R := Float32
def run : Res (List Nat) := do
  let mut bad : List Nat := []
  let v1 : Mat3 R := (Mat3.ofCols (⟨(1 : R), (2 : R), (3 : R)⟩ : Vec3 R) (⟨(4 : R), (5 : R), (6 : R)⟩ : Vec3 R) (⟨(7 : R), (8 : R), (9 : R)⟩ : Vec3 R))
  let v2 : Mat3 R := (Mat3.ofCols (⟨(9 : R), (8 : R), (7 : R)⟩ : Vec3 R) (⟨(6 : R), (5 : R), (4 : R)⟩ : Vec3 R) (⟨(3 : R), (2 : R), (1 : R)⟩ : Vec3 R))
  let v3 : Mat3 R := (Mat3.mul v1 v2)
  bad := ck bad 534 (Near.near (0.001 : R) v3 (Mat3.ofCols (⟨(90 : R), (114 : R), (138 : R)⟩ : Vec3 R) (⟨(54 : R), (69 : R), (84 : R)⟩ : Vec3 R) (⟨(18 : R), (24 : R), (30 : R)⟩ : Vec3 R)))
  bad := ck bad 535 (Mat3.isInitialized v3)
  bad := ck bad 536 (!(Mat3.isNormal v3))
  bad := ck bad 537 (!(Mat3.isOrthogonal v3))
  bad := ck bad 538 (!(Mat3.isOrthonormal v3))
  bad := ck bad 539 (!(Mat3.isIdentity v3))
  return bad
end Mat3_24
#guard passes Mat3_24.run

namespace Mat3_25
abbrev R := Float32
def run : Res (List Nat) := do
  let mut bad : List Nat := []
  let v1 : Mat3 R := (Mat3.ofCols (⟨(10 : R), (10 : R), (10 : R)⟩ : Vec3 R) (⟨(10 : R), (10 : R), (10 : R)⟩ : Vec3 R) (⟨(10 : R), (10 : R), (10 : R)⟩ : Vec3 R))
  let v2 : Mat3 R := (Mat3.smul v1 (0.2 : R))
  bad := ck bad 546 (Near.near (0.001 : R) v2 (Mat3.ofCols (⟨(2 : R), (2 : R), (2 : R)⟩ : Vec3 R) (⟨(2 : R), (2 : R), (2 : R)⟩ : Vec3 R) (⟨(2 : R), (2 : R), (2 : R)⟩ : Vec3 R)))
  bad := ck bad 547 (Mat3.isInitialized v2)
  bad := ck bad 548 (!(Mat3.isNormal v2))
  bad := ck bad 549 (!(Mat3.isOrthogonal v2))
  bad := ck bad 550 (!(Mat3.isOrthonormal v2))
  bad := ck bad 551 (!(Mat3.isIdentity v2))
  return bad
end Mat3_25
#guard passes Mat3_25.run

namespace Mat3_26
abbrev R := Float32
def run : Res (List Nat) := do
  let mut bad : List Nat := []
  let v1 : Mat3 R := (Mat3.ofCols (⟨(1 : R), (2 : R), (3 : R)⟩ : Vec3 R) (⟨(4 : R), (5 : R), (6 : R)⟩ : Vec3 R) (⟨(7 : R), (8 : R), (9 : R)⟩ : Vec3 R))
  bad := ck bad 557 (Near.near (0.001 : R) (Mat3.mulVec v1 (Vec3.oneX : Vec3 R)) (⟨(1 : R), (2 : R), (3 : R)⟩ : Vec3 R))
  bad := ck bad 558 (Near.near (0.001 : R) (Mat3.mulVec v1 (Vec3.oneY : Vec3 R)) (⟨(4 : R), (5 : R), (6 : R)⟩ : Vec3 R))
  bad := ck bad 559 (Near.near (0.001 : R) (Mat3.mulVec v1 (Vec3.oneZ : Vec3 R)) (⟨(7 : R), (8 : R), (9 : R)⟩ : Vec3 R))
  return bad
end Mat3_26
#guard passes Mat3_26.run

namespace Mat3_27
abbrev R := Float32
def run : Res (List Nat) := do
  let mut bad : List Nat := []
  let v1 : Mat3 R := (Mat3.ofCols (⟨(10 : R), (10 : R), (10 : R)⟩ : Vec3 R) (⟨(10 : R), (10 : R), (10 : R)⟩ : Vec3 R) (⟨(10 : R), (10 : R), (10 : R)⟩ : Vec3 R))
  let v2 : Mat3 R := (← Mat3.sdiv v1 (5.0 : R))
  bad := ck bad 566 (Near.near (0.001 : R) v2 (Mat3.ofCols (⟨(2 : R), (2 : R), (2 : R)⟩ : Vec3 R) (⟨(2 : R), (2 : R), (2 : R)⟩ : Vec3 R) (⟨(2 : R), (2 : R), (2 : R)⟩ : Vec3 R)))
  bad := ck bad 567 (Mat3.isInitialized v2)
  bad := ck bad 568 (!(Mat3.isNormal v2))
  bad := ck bad 569 (!(Mat3.isOrthogonal v2))
  bad := ck bad 570 (!(Mat3.isOrthonormal v2))
  bad := ck bad 571 (!(Mat3.isIdentity v2))
  return bad
end Mat3_27
#guard passes Mat3_27.run

namespace Mat3_28
abbrev R := Float32
def run : Res (List Nat) := do
  let mut bad : List Nat := []
  let v1 : Mat3 R := (Mat3.ofCols (⟨(1 : R), (2 : R), (3 : R)⟩ : Vec3 R) (⟨(4 : R), (5 : R), (6 : R)⟩ : Vec3 R) (⟨(7 : R), (8 : R), (9 : R)⟩ : Vec3 R))
  bad := ck bad 591 (Mat3.ne v1 (Mat3.ofCols (⟨(1.1 : R), (2 : R), (3 : R)⟩ : Vec3 R) (⟨(4 : R), (5 : R), (6 : R)⟩ : Vec3 R) (⟨(7 : R), (8 : R), (9 : R)⟩ : Vec3 R)))
  bad := ck bad 592 (Mat3.ne v1 (Mat3.ofCols (⟨(1 : R), (2.1 : R), (3 : R)⟩ : Vec3 R) (⟨(4 : R), (5 : R), (6 : R)⟩ : Vec3 R) (⟨(7 : R), (8 : R), (9 : R)⟩ : Vec3 R)))
  bad := ck bad 593 (Mat3.ne v1 (Mat3.ofCols (⟨(1 : R), (2 : R), (3.1 : R)⟩ : Vec3 R) (⟨(4 : R), (5 : R), (6 : R)⟩ : Vec3 R) (⟨(7 : R), (8 : R), (9 : R)⟩ : Vec3 R)))
  bad := ck bad 594 (Mat3.ne v1 (Mat3.ofCols (⟨(1 : R), (2 : R), (3 : R)⟩ : Vec3 R) (⟨(4.1 : R), (5 : R), (6 : R)⟩ : Vec3 R) (⟨(7 : R), (8 : R), (9 : R)⟩ : Vec3 R)))
  bad := ck bad 595 (Mat3.ne v1 (Mat3.ofCols (⟨(1 : R), (2 : R), (3 : R)⟩ : Vec3 R) (⟨(4 : R), (5.1 : R), (6 : R)⟩ : Vec3 R) (⟨(7 : R), (8 : R), (9 : R)⟩ : Vec3 R)))
  bad := ck bad 596 (Mat3.ne v1 (Mat3.ofCols (⟨(1 : R), (2 : R), (3 : R)⟩ : Vec3 R) (⟨(4 : R), (5 : R), (6.1 : R)⟩ : Vec3 R) (⟨(7 : R), (8 : R), (9 : R)⟩ : Vec3 R)))
  bad := ck bad 597 (Mat3.ne v1 (Mat3.ofCols (⟨(1 : R), (2 : R), (3 : R)⟩ : Vec3 R) (⟨(4 : R), (5 : R), (6 : R)⟩ : Vec3 R) (⟨(7.1 : R), (8 : R), (9 : R)⟩ : Vec3 R)))
  bad := ck bad 598 (Mat3.ne v1 (Mat3.ofCols (⟨(1 : R), (2 : R), (3 : R)⟩ : Vec3 R) (⟨(4 : R), (5 : R), (6 : R)⟩ : Vec3 R) (⟨(7 : R), (8.1 : R), (9 : R)⟩ : Vec3 R)))
  bad := ck bad 599 (Mat3.ne v1 (Mat3.ofCols (⟨(1 : R), (2 : R), (3 : R)⟩ : Vec3 R) (⟨(4 : R), (5 : R), (6 : R)⟩ : Vec3 R) (⟨(7 : R), (8 : R), (9.1 : R)⟩ : Vec3 R)))
  return bad
end Mat3_28
#guard passes Mat3_28.run

namespace Mat3_29
abbrev R := Float32
def run : Res (List Nat) := do
  let mut bad : List Nat := []
  let v1 : Mat3 R := (Mat3.ofCols (⟨(10 : R), (10 : R), (10 : R)⟩ : Vec3 R) (⟨(10 : R), (10 : R), (10 : R)⟩ : Vec3 R) (⟨(10 : R), (10 : R), (10 : R)⟩ : Vec3 R))
  let v2 : Mat3 R := (Mat3.scale v1 (⟨(2 : R), (3 : R), (4 : R)⟩ : Vec3 R))
  bad := ck bad 608 (Near.near (0.001 : R) v2 (Mat3.ofCols (⟨(20 : R), (20 : R), (20 : R)⟩ : Vec3 R) (⟨(30 : R), (30 : R), (30 : R)⟩ : Vec3 R) (⟨(40 : R), (40 : R), (40 : R)⟩ : Vec3 R)))
  bad := ck bad 614 (Mat3.isInitialized v2)
  bad := ck bad 615 (!(Mat3.isNormal v2))
  bad := ck bad 616 (!(Mat3.isOrthogonal v2))
  bad := ck bad 617 (!(Mat3.isOrthonormal v2))
  bad := ck bad 618 (!(Mat3.isIdentity v2))
  return bad
end Mat3_29
#guard passes Mat3_29.run

namespace Mat3_30
abbrev R := Float32
def run : Res (List Nat) := do
  let mut bad : List Nat := []
  let v1 : Mat3 R := (Mat3.ofAxisAngle (Vec3.oneZ : Vec3 R) ((MathFns.pi : R) / 3))
  let v2 : Mat3 R := (Mat3.rotate v1 (Mat3.ofAxisAngle (Vec3.oneX : Vec3 R) ((MathFns.pi : R) / 6)))
  bad := ck bad 626 (Near.near (0.001 : R) v2 (Mat3.mul (Mat3.ofAxisAngle (Vec3.oneX : Vec3 R) ((MathFns.pi : R) / 6)) (Mat3.ofAxisAngle (Vec3.oneZ : Vec3 R) ((MathFns.pi : R) / 3))))
  bad := ck bad 629 (Mat3.isInitialized v2)
  bad := ck bad 630 (Mat3.isNormal v2)
  bad := ck bad 631 (Mat3.isOrthogonal v2)
  bad := ck bad 632 (Mat3.isOrthonormal v2)
  bad := ck bad 633 (!(Mat3.isIdentity v2))
  return bad
end Mat3_30
#guard passes Mat3_30.run

namespace Mat3_31
abbrev R := Float32
def run : Res (List Nat) := do
  let mut bad : List Nat := []
  let v1 : Mat3 R := (Mat3.ofAxisAngle (Vec3.oneZ : Vec3 R) ((MathFns.pi : R) / 3))
  let v2 : Mat3 R := (Mat3.rotateQuat v1 (Quat.ofAxisAngle (Vec3.oneX : Vec3 R) ((MathFns.pi : R) / 6)))
  bad := ck bad 641 (Near.near (0.001 : R) v2 (Mat3.mul (Mat3.ofAxisAngle (Vec3.oneX : Vec3 R) ((MathFns.pi : R) / 6)) (Mat3.ofAxisAngle (Vec3.oneZ : Vec3 R) ((MathFns.pi : R) / 3))))
  bad := ck bad 644 (Mat3.isInitialized v2)
  bad := ck bad 645 (Mat3.isNormal v2)
  bad := ck bad 646 (Mat3.isOrthogonal v2)
  bad := ck bad 647 (Mat3.isOrthonormal v2)
  bad := ck bad 648 (!(Mat3.isIdentity v2))
  return bad
end Mat3_31
#guard passes Mat3_31.run

namespace Mat3_32
abbrev R := Float32
def run : Res (List Nat) := do
  let mut bad : List Nat := []
  let v1 : Mat3 R := (Mat3.ofAxisAngle (Vec3.oneZ : Vec3 R) ((MathFns.pi : R) / 3))
  let v2 : Mat3 R := (Mat3.rotateAxis v1 (Vec3.oneX : Vec3 R) ((MathFns.pi : R) / 6))
  bad := ck bad 656 (Near.near (0.001 : R) v2 (Mat3.mul (Mat3.ofAxisAngle (Vec3.oneX : Vec3 R) ((MathFns.pi : R) / 6)) (Mat3.ofAxisAngle (Vec3.oneZ : Vec3 R) ((MathFns.pi : R) / 3))))
  bad := ck bad 659 (Mat3.isInitialized v2)
  bad := ck bad 660 (Mat3.isNormal v2)
  bad := ck bad 661 (Mat3.isOrthogonal v2)
  bad := ck bad 662 (Mat3.isOrthonormal v2)
  bad := ck bad 663 (!(Mat3.isIdentity v2))
  return bad
end Mat3_32
#guard passes Mat3_32.run

namespace Mat3_33
abbrev R := Float32
def run : Res (List Nat) := do
  let mut bad : List Nat := []
  let v1 : Mat3 R := (Mat3.ofAxisAngle (Vec3.oneZ : Vec3 R) ((MathFns.pi : R) / 3))
  let v2 : Mat3 R := (← Mat3.rotateCoord v1 Coord.X ((MathFns.pi : R) / 6))
  bad := ck bad 671 (Near.near (0.001 : R) v2 (Mat3.mul (Mat3.ofAxisAngle (Vec3.oneX : Vec3 R) ((MathFns.pi : R) / 6)) (Mat3.ofAxisAngle (Vec3.oneZ : Vec3 R) ((MathFns.pi : R) / 3))))
  bad := ck bad 674 (Mat3.isInitialized v2)
  bad := ck bad 675 (Mat3.isNormal v2)
  bad := ck bad 676 (Mat3.isOrthogonal v2)
  bad := ck bad 677 (Mat3.isOrthonormal v2)
  bad := ck bad 678 (!(Mat3.isIdentity v2))
  return bad
end Mat3_33
#guard passes Mat3_33.run

namespace Mat3_34
abbrev R := Float32
def run : Res (List Nat) := do
  let mut bad : List Nat := []
  let v1 : Mat3 R := (Mat3.ofAxisAngle (Vec3.oneZ : Vec3 R) ((MathFns.pi : R) / 3))
  let v2 : Mat3 R := (Mat3.rotatePre v1 (Mat3.ofAxisAngle (Vec3.oneX : Vec3 R) ((MathFns.pi : R) / 6)))
  bad := ck bad 686 (Near.near (0.001 : R) v2 (Mat3.mul (Mat3.ofAxisAngle (Vec3.oneZ : Vec3 R) ((MathFns.pi : R) / 3)) (Mat3.ofAxisAngle (Vec3.oneX : Vec3 R) ((MathFns.pi : R) / 6))))
  bad := ck bad 689 (Mat3.isInitialized v2)
  bad := ck bad 690 (Mat3.isNormal v2)
  bad := ck bad 691 (Mat3.isOrthogonal v2)
  bad := ck bad 692 (Mat3.isOrthonormal v2)
  bad := ck bad 693 (!(Mat3.isIdentity v2))
  return bad
end Mat3_34
#guard passes Mat3_34.run

namespace Mat3_35
abbrev R := Float32
def run : Res (List Nat) := do
  let mut bad : List Nat := []
  let v1 : Mat3 R := (Mat3.ofAxisAngle (Vec3.oneZ : Vec3 R) ((MathFns.pi : R) / 3))
  let v2 : Mat3 R := (Mat3.rotatePreQuat v1 (Quat.ofAxisAngle (Vec3.oneX : Vec3 R) ((MathFns.pi : R) / 6)))
  bad := ck bad 701 (Near.near (0.001 : R) v2 (Mat3.mul (Mat3.ofAxisAngle (Vec3.oneZ : Vec3 R) ((MathFns.pi : R) / 3)) (Mat3.ofAxisAngle (Vec3.oneX : Vec3 R) ((MathFns.pi : R) / 6))))
  bad := ck bad 704 (Mat3.isInitialized v2)
  bad := ck bad 705 (Mat3.isNormal v2)
  bad := ck bad 706 (Mat3.isOrthogonal v2)
  bad := ck bad 707 (Mat3.isOrthonormal v2)
  bad := ck bad 708 (!(Mat3.isIdentity v2))
  return bad
end Mat3_35
#guard passes Mat3_35.run

namespace Mat3_36
abbrev R := Float32
def run : Res (List Nat) := do
  let mut bad : List Nat := []
  let v1 : Mat3 R := (Mat3.ofAxisAngle (Vec3.oneZ : Vec3 R) ((MathFns.pi : R) / 3))
  let v2 : Mat3 R := (Mat3.rotatePreAxis v1 (Vec3.oneX : Vec3 R) ((MathFns.pi : R) / 6))
  bad := ck bad 716 (Near.near (0.001 : R) v2 (Mat3.mul (Mat3.ofAxisAngle (Vec3.oneZ : Vec3 R) ((MathFns.pi : R) / 3)) (Mat3.ofAxisAngle (Vec3.oneX : Vec3 R) ((MathFns.pi : R) / 6))))
  bad := ck bad 719 (Mat3.isInitialized v2)
  bad := ck bad 720 (Mat3.isNormal v2)
  bad := ck bad 721 (Mat3.isOrthogonal v2)
  bad := ck bad 722 (Mat3.isOrthonormal v2)
  bad := ck bad 723 (!(Mat3.isIdentity v2))
  return bad
end Mat3_36
#guard passes Mat3_36.run

namespace Mat3_37
abbrev R := Float32
def run : Res (List Nat) := do
  let mut bad : List Nat := []
  let v1 : Mat3 R := (Mat3.ofAxisAngle (Vec3.oneZ : Vec3 R) ((MathFns.pi : R) / 3))
  let v2 : Mat3 R := (← Mat3.rotatePreCoord v1 Coord.X ((MathFns.pi : R) / 6))
  bad := ck bad 731 (Near.near (0.001 : R) v2 (Mat3.mul (Mat3.ofAxisAngle (Vec3.oneZ : Vec3 R) ((MathFns.pi : R) / 3)) (Mat3.ofAxisAngle (Vec3.oneX : Vec3 R) ((MathFns.pi : R) / 6))))
  bad := ck bad 734 (Mat3.isInitialized v2)
  bad := ck bad 735 (Mat3.isNormal v2)
  bad := ck bad 736 (Mat3.isOrthogonal v2)
  bad := ck bad 737 (Mat3.isOrthonormal v2)
  bad := ck bad 738 (!(Mat3.isIdentity v2))
  return bad
end Mat3_37
#guard passes Mat3_37.run

namespace Mat3_38
abbrev R := Float32
def run : Res (List Nat) := do
  let mut bad : List Nat := []
  let v1 : Mat3 R := (Mat3.ofCols (⟨(1 : R), (2 : R), (3 : R)⟩ : Vec3 R) (⟨(4 : R), (5 : R), (6 : R)⟩ : Vec3 R) (⟨(7 : R), (8 : R), (9 : R)⟩ : Vec3 R))
  let v2 : Mat3 R := (Mat3.orthonormalise v1)
  bad := ck bad 745 (Mat3.isOrthonormal v2)
  bad := ck bad 746 (Mat3.isInitialized v2)
  bad := ck bad 747 (Mat3.isNormal v2)
  bad := ck bad 748 (Mat3.isOrthogonal v2)
  bad := ck bad 749 (Mat3.isOrthonormal v2)
  bad := ck bad 750 (!(Mat3.isIdentity v2))
  return bad
end Mat3_38
#guard passes Mat3_38.run

namespace Mat3_39
abbrev R := Float32
def run : Res (List Nat) := do
  let mut bad : List Nat := []
  let v1 : Mat3 R := (Mat3.ofCols (⟨(1 : R), (2 : R), (3 : R)⟩ : Vec3 R) (⟨(4 : R), (5 : R), (6 : R)⟩ : Vec3 R) (⟨(7 : R), (8 : R), (9 : R)⟩ : Vec3 R))
  let v2 : Mat3 R := (Mat3.transpose v1)
  bad := ck bad 757 (Near.near (0.001 : R) v2 (Mat3.ofCols (⟨(1 : R), (4 : R), (7 : R)⟩ : Vec3 R) (⟨(2 : R), (5 : R), (8 : R)⟩ : Vec3 R) (⟨(3 : R), (6 : R), (9 : R)⟩ : Vec3 R)))
  bad := ck bad 763 (Mat3.isInitialized v2)
  bad := ck bad 764 (!(Mat3.isNormal v2))
  bad := ck bad 765 (!(Mat3.isOrthogonal v2))
  bad := ck bad 766 (!(Mat3.isOrthonormal v2))
  bad := ck bad 767 (!(Mat3.isIdentity v2))
  return bad
end Mat3_39
#guard passes Mat3_39.run

namespace Mat3_40
abbrev R := Float32
def run : Res (List Nat) := do
  let mut bad : List Nat := []
  let v1 : Mat3 R := (← Mat3.ofCoordAngle Coord.X ((MathFns.pi : R) / 6))
  let v2 : Mat3 R := (← Mat3.rotateCoord v1 Coord.Y ((MathFns.pi : R) / 3))
  let v3 : Mat3 R := v2
  let v4 : Mat3 R := (← Mat3.invert v3)
  bad := ck bad 776 (Near.near (0.001 : R) (Mat3.mul v2 v4) (Mat3.one : Mat3 R))
  bad := ck bad 777 (Mat3.isInitialized v2)
  bad := ck bad 778 (Mat3.isNormal v2)
  bad := ck bad 779 (Mat3.isOrthogonal v2)
  bad := ck bad 780 (Mat3.isOrthonormal v2)
  bad := ck bad 781 (!(Mat3.isIdentity v2))
  let v5 : Mat3 R := (Mat3.ofCols (⟨(1 : R), (7 : R), (8 : R)⟩ : Vec3 R) (⟨(4 : R), (2 : R), (9 : R)⟩ : Vec3 R) (⟨(5 : R), (6 : R), (3 : R)⟩ : Vec3 R))
  let v6 : Mat3 R := v5
  let v7 : Mat3 R := (← Mat3.invert v6)
  bad := ck bad 785 (Near.near (0.001 : R) (Mat3.mul v5 v7) (Mat3.one : Mat3 R))
  bad := ck bad 786 (Near.near (0.001 : R) v7 (Mat3.ofCols (⟨((-48 : R) / (295.0 : R)), ((27 : R) / (295.0 : R)), ((47 : R) / (295.0 : R))⟩ : Vec3 R) (⟨((33 : R) / (295.0 : R)), ((-37 : R) / (295.0 : R)), ((23 : R) / (295.0 : R))⟩ : Vec3 R) (⟨((14 : R) / (295.0 : R)), ((29 : R) / (295.0 : R)), ((-26 : R) / (295.0 : R))⟩ : Vec3 R)))
  bad := ck bad 792 (Mat3.isInitialized v5)
  bad := ck bad 793 (!(Mat3.isNormal v5))
  bad := ck bad 794 (!(Mat3.isOrthogonal v5))
  bad := ck bad 795 (!(Mat3.isOrthonormal v5))
  bad := ck bad 796 (!(Mat3.isIdentity v5))
  return bad
end Mat3_40
#guard passes Mat3_40.run

namespace Mat3_41
abbrev R := Float32
def run : Res (List Nat) := do
  let mut bad : List Nat := []
  let v1 : Mat3 R := (Mat3.ofAxisAngle (Vec3.oneZ : Vec3 R) ((MathFns.pi : R) / 3))
  let v2 : Mat3 R := (Mat3.rotated v1 (Mat3.ofAxisAngle (Vec3.oneX : Vec3 R) ((MathFns.pi : R) / 6)))
  bad := ck bad 806 (Near.near (0.001 : R) v2 (Mat3.mul (Mat3.ofAxisAngle (Vec3.oneX : Vec3 R) ((MathFns.pi : R) / 6)) (Mat3.ofAxisAngle (Vec3.oneZ : Vec3 R) ((MathFns.pi : R) / 3))))
  bad := ck bad 809 (Mat3.isInitialized v2)
  bad := ck bad 810 (Mat3.isNormal v2)
  bad := ck bad 811 (Mat3.isOrthogonal v2)
  bad := ck bad 812 (Mat3.isOrthonormal v2)
  bad := ck bad 813 (!(Mat3.isIdentity v2))
  return bad
end Mat3_41
#guard passes Mat3_41.run

namespace Mat3_42
abbrev R := Float32
def run : Res (List Nat) := do
  let mut bad : List Nat := []
  let v1 : Mat3 R := (Mat3.ofAxisAngle (Vec3.oneZ : Vec3 R) ((MathFns.pi : R) / 3))
  let v2 : Mat3 R := (Mat3.rotatedQuat v1 (Quat.ofAxisAngle (Vec3.oneX : Vec3 R) ((MathFns.pi : R) / 6)))
  bad := ck bad 821 (Near.near (0.001 : R) v2 (Mat3.mul (Mat3.ofAxisAngle (Vec3.oneX : Vec3 R) ((MathFns.pi : R) / 6)) (Mat3.ofAxisAngle (Vec3.oneZ : Vec3 R) ((MathFns.pi : R) / 3))))
  bad := ck bad 824 (Mat3.isInitialized v2)
  bad := ck bad 825 (Mat3.isNormal v2)
  bad := ck bad 826 (Mat3.isOrthogonal v2)
  bad := ck bad 827 (Mat3.isOrthonormal v2)
  bad := ck bad 828 (!(Mat3.isIdentity v2))
  return bad
end Mat3_42
#guard passes Mat3_42.run

namespace Mat3_43
abbrev R := Float32
def run : Res (List Nat) := do
  let mut bad : List Nat := []
  let v1 : Mat3 R := (Mat3.ofAxisAngle (Vec3.oneZ : Vec3 R) ((MathFns.pi : R) / 3))
  let v2 : Mat3 R := (Mat3.rotatedAxis v1 (Vec3.oneX : Vec3 R) ((MathFns.pi : R) / 6))
  bad := ck bad 836 (Near.near (0.001 : R) v2 (Mat3.mul (Mat3.ofAxisAngle (Vec3.oneX : Vec3 R) ((MathFns.pi : R) / 6)) (Mat3.ofAxisAngle (Vec3.oneZ : Vec3 R) ((MathFns.pi : R) / 3))))
  bad := ck bad 839 (Mat3.isInitialized v2)
  bad := ck bad 840 (Mat3.isNormal v2)
  bad := ck bad 841 (Mat3.isOrthogonal v2)
  bad := ck bad 842 (Mat3.isOrthonormal v2)
  bad := ck bad 843 (!(Mat3.isIdentity v2))
  return bad
end Mat3_43
#guard passes Mat3_43.run

namespace Mat3_44
abbrev R := Float32
def run : Res (List Nat) := do
  let mut bad : List Nat := []
  let v1 : Mat3 R := (Mat3.ofAxisAngle (Vec3.oneZ : Vec3 R) ((MathFns.pi : R) / 3))
  let v2 : Mat3 R := (← Mat3.rotatedCoord v1 Coord.X ((MathFns.pi : R) / 6))
  bad := ck bad 851 (Near.near (0.001 : R) v2 (Mat3.mul (Mat3.ofAxisAngle (Vec3.oneX : Vec3 R) ((MathFns.pi : R) / 6)) (Mat3.ofAxisAngle (Vec3.oneZ : Vec3 R) ((MathFns.pi : R) / 3))))
  bad := ck bad 854 (Mat3.isInitialized v2)
  bad := ck bad 855 (Mat3.isNormal v2)
  bad := ck bad 856 (Mat3.isOrthogonal v2)
  bad := ck bad 857 (Mat3.isOrthonormal v2)
  bad := ck bad 858 (!(Mat3.isIdentity v2))
  return bad
end Mat3_44
#guard passes Mat3_44.run

namespace Mat3_45
abbrev R := Float32
def run : Res (List Nat) := do
  let mut bad : List Nat := []
  let v1 : Mat3 R := (Mat3.ofAxisAngle (Vec3.oneZ : Vec3 R) ((MathFns.pi : R) / 3))
  let v2 : Mat3 R := (Mat3.rotatedPre v1 (Mat3.ofAxisAngle (Vec3.oneX : Vec3 R) ((MathFns.pi : R) / 6)))
  bad := ck bad 866 (Near.near (0.001 : R) v2 (Mat3.mul (Mat3.ofAxisAngle (Vec3.oneZ : Vec3 R) ((MathFns.pi : R) / 3)) (Mat3.ofAxisAngle (Vec3.oneX : Vec3 R) ((MathFns.pi : R) / 6))))
  bad := ck bad 869 (Mat3.isInitialized v2)
  bad := ck bad 870 (Mat3.isNormal v2)
  bad := ck bad 871 (Mat3.isOrthogonal v2)
  bad := ck bad 872 (Mat3.isOrthonormal v2)
  bad := ck bad 873 (!(Mat3.isIdentity v2))
  return bad
end Mat3_45
#guard passes Mat3_45.run

namespace Mat3_46
abbrev R := Float32
def run : Res (List Nat) := do
  let mut bad : List Nat := []
  let v1 : Mat3 R := (Mat3.ofAxisAngle (Vec3.oneZ : Vec3 R) ((MathFns.pi : R) / 3))
  let v2 : Mat3 R := (Mat3.rotatedPreQuat v1 (Quat.ofAxisAngle (Vec3.oneX : Vec3 R) ((MathFns.pi : R) / 6)))
  bad := ck bad 881 (Near.near (0.001 : R) v2 (Mat3.mul (Mat3.ofAxisAngle (Vec3.oneZ : Vec3 R) ((MathFns.pi : R) / 3)) (Mat3.ofAxisAngle (Vec3.oneX : Vec3 R) ((MathFns.pi : R) / 6))))
  bad := ck bad 884 (Mat3.isInitialized v2)
  bad := ck bad 885 (Mat3.isNormal v2)
  bad := ck bad 886 (Mat3.isOrthogonal v2)
  bad := ck bad 887 (Mat3.isOrthonormal v2)
  bad := ck bad 888 (!(Mat3.isIdentity v2))
  return bad
end Mat3_46
#guard passes Mat3_46.run

namespace Mat3_47
abbrev R := Float32
def run : Res (List Nat) := do
  let mut bad : List Nat := []
  let v1 : Mat3 R := (Mat3.ofAxisAngle (Vec3.oneZ : Vec3 R) ((MathFns.pi : R) / 3))
  let v2 : Mat3 R := (Mat3.rotatedPreAxis v1 (Vec3.oneX : Vec3 R) ((MathFns.pi : R) / 6))
  bad := ck bad 896 (Near.near (0.001 : R) v2 (Mat3.mul (Mat3.ofAxisAngle (Vec3.oneZ : Vec3 R) ((MathFns.pi : R) / 3)) (Mat3.ofAxisAngle (Vec3.oneX : Vec3 R) ((MathFns.pi : R) / 6))))
  bad := ck bad 899 (Mat3.isInitialized v2)
  bad := ck bad 900 (Mat3.isNormal v2)
  bad := ck bad 901 (Mat3.isOrthogonal v2)
  bad := ck bad 902 (Mat3.isOrthonormal v2)
  bad := ck bad 903 (!(Mat3.isIdentity v2))
  return bad
end Mat3_47
#guard passes Mat3_47.run

namespace Mat3_48
abbrev R := Float32
def run : Res (List Nat) := do
  let mut bad : List Nat := []
  let v1 : Mat3 R := (Mat3.ofAxisAngle (Vec3.oneZ : Vec3 R) ((MathFns.pi : R) / 3))
  let v2 : Mat3 R := (← Mat3.rotatedPreCoord v1 Coord.X ((MathFns.pi : R) / 6))
  bad := ck bad 911 (Near.near (0.001 : R) v2 (Mat3.mul (Mat3.ofAxisAngle (Vec3.oneZ : Vec3 R) ((MathFns.pi : R) / 3)) (Mat3.ofAxisAngle (Vec3.oneX : Vec3 R) ((MathFns.pi : R) / 6))))
  bad := ck bad 914 (Mat3.isInitialized v2)
  bad := ck bad 915 (Mat3.isNormal v2)
  bad := ck bad 916 (Mat3.isOrthogonal v2)
  bad := ck bad 917 (Mat3.isOrthonormal v2)
  bad := ck bad 918 (!(Mat3.isIdentity v2))
  return bad
end Mat3_48
#guard passes Mat3_48.run

namespace Mat3_49
abbrev R := Float32
def run : Res (List Nat) := do
  let mut bad : List Nat := []
  let v1 : Mat3 R := (Mat3.ofCols (⟨(10 : R), (10 : R), (10 : R)⟩ : Vec3 R) (⟨(10 : R), (10 : R), (10 : R)⟩ : Vec3 R) (⟨(10 : R), (10 : R), (10 : R)⟩ : Vec3 R))
  let v2 : Mat3 R := (Mat3.scaled v1 (⟨(2 : R), (3 : R), (4 : R)⟩ : Vec3 R))
  bad := ck bad 925 (Near.near (0.001 : R) v2 (Mat3.ofCols (⟨(20 : R), (20 : R), (20 : R)⟩ : Vec3 R) (⟨(30 : R), (30 : R), (30 : R)⟩ : Vec3 R) (⟨(40 : R), (40 : R), (40 : R)⟩ : Vec3 R)))
  bad := ck bad 931 (Mat3.isInitialized v2)
  bad := ck bad 932 (!(Mat3.isNormal v2))
  bad := ck bad 933 (!(Mat3.isOrthogonal v2))
  bad := ck bad 934 (!(Mat3.isOrthonormal v2))
  bad := ck bad 935 (!(Mat3.isIdentity v2))
  return bad
end Mat3_49
#guard passes Mat3_49.run

namespace Mat3_50
abbrev R := Float32
def run : Res (List Nat) := do
  let mut bad : List Nat := []
  let v1 : Mat3 R := (Mat3.ofCols (⟨(1 : R), (2 : R), (3 : R)⟩ : Vec3 R) (⟨(4 : R), (5 : R), (6 : R)⟩ : Vec3 R) (⟨(7 : R), (8 : R), (9 : R)⟩ : Vec3 R))
  let v2 : Mat3 R := (Mat3.transposed v1)
  bad := ck bad 942 (Near.near (0.001 : R) v2 (Mat3.ofCols (⟨(1 : R), (4 : R), (7 : R)⟩ : Vec3 R) (⟨(2 : R), (5 : R), (8 : R)⟩ : Vec3 R) (⟨(3 : R), (6 : R), (9 : R)⟩ : Vec3 R)))
  bad := ck bad 943 (Mat3.isInitialized v2)
  bad := ck bad 944 (!(Mat3.isNormal v2))
  bad := ck bad 945 (!(Mat3.isOrthogonal v2))
  bad := ck bad 946 (!(Mat3.isOrthonormal v2))
  bad := ck bad 947 (!(Mat3.isIdentity v2))
  return bad
end Mat3_50
#guard passes Mat3_50.run

namespace Mat3_51
abbrev R := Float32
def run : Res (List Nat) := do
  let mut bad : List Nat := []
  let v1 : Mat3 R := (Mat3.ofCols (⟨(1 : R), (7 : R), (8 : R)⟩ : Vec3 R) (⟨(4 : R), (2 : R), (9 : R)⟩ : Vec3 R) (⟨(5 : R), (6 : R), (3 : R)⟩ : Vec3 R))
  let v2 : Mat3 R := (Mat3.cofactors v1)
  bad := ck bad 954 (Near.near (0.001 : R) v2 (Mat3.ofCols (⟨(-48 : R), (33 : R), (14 : R)⟩ : Vec3 R) (⟨(27 : R), (-37 : R), (29 : R)⟩ : Vec3 R) (⟨(47 : R), (23 : R), (-26 : R)⟩ : Vec3 R)))
  bad := ck bad 955 (Mat3.isInitialized v2)
  bad := ck bad 956 (!(Mat3.isNormal v2))
  bad := ck bad 957 (!(Mat3.isOrthogonal v2))
  bad := ck bad 958 (!(Mat3.isOrthonormal v2))
  bad := ck bad 959 (!(Mat3.isIdentity v2))
  return bad
end Mat3_51
#guard passes Mat3_51.run

namespace Mat3_52
abbrev R := Float32
def run : Res (List Nat) := do
  let mut bad : List Nat := []
  let v1 : Mat3 R := (Mat3.ofCols (⟨(1 : R), (7 : R), (8 : R)⟩ : Vec3 R) (⟨(4 : R), (2 : R), (9 : R)⟩ : Vec3 R) (⟨(5 : R), (6 : R), (3 : R)⟩ : Vec3 R))
  let v2 : Mat3 R := (Mat3.adjoint v1)
  bad := ck bad 966 (Near.near (0.001 : R) v2 (Mat3.ofCols (⟨(-48 : R), (27 : R), (47 : R)⟩ : Vec3 R) (⟨(33 : R), (-37 : R), (23 : R)⟩ : Vec3 R) (⟨(14 : R), (29 : R), (-26 : R)⟩ : Vec3 R)))
  bad := ck bad 967 (Mat3.isInitialized v2)
  bad := ck bad 968 (!(Mat3.isNormal v2))
  bad := ck bad 969 (!(Mat3.isOrthogonal v2))
  bad := ck bad 970 (!(Mat3.isOrthonormal v2))
  bad := ck bad 971 (!(Mat3.isIdentity v2))
  return bad
end Mat3_52
#guard passes Mat3_52.run

namespace Mat3_53
abbrev R := Float32
def run : Res (List Nat) := do
  let mut bad : List Nat := []
  let v1 : Mat3 R := (Mat3.ofCols (⟨(1 : R), (7 : R), (8 : R)⟩ : Vec3 R) (⟨(4 : R), (2 : R), (9 : R)⟩ : Vec3 R) (⟨(5 : R), (6 : R), (3 : R)⟩ : Vec3 R))
  bad := ck bad 977 ((Mat3.trace v1) == (6.0 : R))
  return bad
end Mat3_53
#guard passes Mat3_53.run

namespace Mat3_54
abbrev R := Float32
def run : Res (List Nat) := do
  let mut bad : List Nat := []
  let v1 : Mat3 R := (Mat3.ofCols (⟨(1 : R), (7 : R), (8 : R)⟩ : Vec3 R) (⟨(4 : R), (2 : R), (9 : R)⟩ : Vec3 R) (⟨(5 : R), (6 : R), (3 : R)⟩ : Vec3 R))
  bad := ck bad 983 ((Mat3.determinant v1) == (295.0 : R))
  return bad
end Mat3_54
#guard passes Mat3_54.run

namespace Mat3_55
abbrev R := Float32
def run : Res (List Nat) := do
  let mut bad : List Nat := []
  let v1 : Mat3 R := (Mat3.ofCols (⟨(1 : R), (7 : R), (8 : R)⟩ : Vec3 R) (⟨(4 : R), (2 : R), (9 : R)⟩ : Vec3 R) (⟨(5 : R), (6 : R), (3 : R)⟩ : Vec3 R))
  let v2 : Mat3 R := (← Mat3.inversed v1)
  bad := ck bad 990 (Near.near (0.001 : R) v2 (Mat3.ofCols (⟨((-48 : R) / (295.0 : R)), ((27 : R) / (295.0 : R)), ((47 : R) / (295.0 : R))⟩ : Vec3 R) (⟨((33 : R) / (295.0 : R)), ((-37 : R) / (295.0 : R)), ((23 : R) / (295.0 : R))⟩ : Vec3 R) (⟨((14 : R) / (295.0 : R)), ((29 : R) / (295.0 : R)), ((-26 : R) / (295.0 : R))⟩ : Vec3 R)))
  bad := ck bad 996 (Mat3.isInitialized v2)
  bad := ck bad 997 (!(Mat3.isNormal v2))
  bad := ck bad 998 (Mat3.isOrthogonal v2)
  bad := ck bad 999 (!(Mat3.isOrthonormal v2))
  bad := ck bad 1000 (!(Mat3.isIdentity v2))
  return bad
end Mat3_55
#guard passes Mat3_55.run

namespace Mat3_56
abbrev R := Float32
def run : Res (List Nat) := do
  let mut bad : List Nat := []
  bad := ck bad 1005 (Mat3.isIdentity (Mat3.one : Mat3 R))
  bad := ck bad 1006 (!(Mat3.isIdentity (Mat3.ofCols (Vec3.oneZ : Vec3 R) (Vec3.oneY : Vec3 R) (Vec3.oneX : Vec3 R))))
  bad := ck bad 1007 (!(Mat3.isIdentity (Mat3.ofCols (⟨(1 : R), (7 : R), (8 : R)⟩ : Vec3 R) (⟨(4 : R), (2 : R), (9 : R)⟩ : Vec3 R) (⟨(5 : R), (6 : R), (3 : R)⟩ : Vec3 R))))
  bad := ck bad 1008 (!(Mat3.isIdentity (Mat3.ofScalar (1.1 : R))))
  return bad
end Mat3_56
#guard passes Mat3_56.run

namespace Mat3_57
abbrev R := Float32
def run : Res (List Nat) := do
  let mut bad : List Nat := []
  bad := ck bad 1013 (Mat3.isOrthonormal (Mat3.one : Mat3 R))
  bad := ck bad 1014 (Mat3.isOrthonormal (Mat3.ofCols (Vec3.oneZ : Vec3 R) (Vec3.oneY : Vec3 R) (Vec3.oneX : Vec3 R)))
  bad := ck bad 1015 (!(Mat3.isOrthonormal (Mat3.ofCols (⟨(1 : R), (7 : R), (8 : R)⟩ : Vec3 R) (⟨(4 : R), (2 : R), (9 : R)⟩ : Vec3 R) (⟨(5 : R), (6 : R), (3 : R)⟩ : Vec3 R))))
  bad := ck bad 1016 (!(Mat3.isOrthonormal (Mat3.ofScalar (1.1 : R))))
  return bad
end Mat3_57
#guard passes Mat3_57.run

namespace Mat3_58
abbrev R := Float32
def run : Res (List Nat) := do
  let mut bad : List Nat := []
  bad := ck bad 1021 ((Mat3.normalError (Mat3.one : Mat3 R)) == (0.0 : R))
  bad := ck bad 1022 ((Mat3.normalError (Mat3.ofCols (Vec3.oneZ : Vec3 R) (Vec3.oneY : Vec3 R) (Vec3.oneX : Vec3 R))) == (0.0 : R))
  bad := ck bad 1023 (Near.near (0.001 : R) (Mat3.normalError (Mat3.ofCols (⟨(1 : R), (7 : R), (8 : R)⟩ : Vec3 R) (⟨(4 : R), (2 : R), (9 : R)⟩ : Vec3 R) (⟨(5 : R), (6 : R), (3 : R)⟩ : Vec3 R))) (27530.0 : R))
  bad := ck bad 1025 (Near.near (0.001 : R) (Mat3.normalError (Mat3.ofScalar (1.1 : R))) (0.1323 : R))
  return bad
end Mat3_58
#guard passes Mat3_58.run

namespace Mat3_59
abbrev R := Float32
def run : Res (List Nat) := do
  let mut bad : List Nat := []
  bad := ck bad 1031 ((Mat3.orthogonalError (Mat3.one : Mat3 R)) == (0.0 : R))
  bad := ck bad 1032 ((Mat3.orthogonalError (Mat3.ofCols (Vec3.oneZ : Vec3 R) (Vec3.oneY : Vec3 R) (Vec3.oneX : Vec3 R))) == (0.0 : R))
  bad := ck bad 1033 (Near.near (0.001 : R) (Mat3.orthogonalError (Mat3.ofCols (⟨(1 : R), (7 : R), (8 : R)⟩ : Vec3 R) (⟨(4 : R), (2 : R), (9 : R)⟩ : Vec3 R) (⟨(5 : R), (6 : R), (3 : R)⟩ : Vec3 R))) (16622.0 : R))
  bad := ck bad 1035 ((Mat3.orthogonalError (Mat3.ofScalar (1.1 : R))) == (0.0 : R))
  return bad
end Mat3_59
#guard passes Mat3_59.run

namespace Mat3_60
abbrev R := Float32
def run : Res (List Nat) := do
  let mut bad : List Nat := []
  bad := ck bad 1040 ((Mat3.identityError (Mat3.one : Mat3 R)) == (0.0 : R))
  bad := ck bad 1041 ((Mat3.identityError (Mat3.ofCols (Vec3.oneZ : Vec3 R) (Vec3.oneY : Vec3 R) (Vec3.oneX : Vec3 R))) == (4.0 : R))
  bad := ck bad 1042 (Near.near (0.001 : R) (Mat3.identityError (Mat3.ofCols (⟨(1 : R), (7 : R), (8 : R)⟩ : Vec3 R) (⟨(4 : R), (2 : R), (9 : R)⟩ : Vec3 R) (⟨(5 : R), (6 : R), (3 : R)⟩ : Vec3 R))) (276.0 : R))
  bad := ck bad 1044 (Near.near (0.001 : R) (Mat3.identityError (Mat3.ofScalar (1.1 : R))) (0.03 : R))
  return bad
end Mat3_60
#guard passes Mat3_60.run

namespace Mat3_61
abbrev R := Float32
def run : Res (List Nat) := do
  let mut bad : List Nat := []
  bad := ck bad 1133 (Near.near (0.001 : R) (Mat3.one : Mat3 R) (Mat3.one : Mat3 R))
  return bad
end Mat3_61
#guard passes Mat3_61.run

end MathLib.Conformance
