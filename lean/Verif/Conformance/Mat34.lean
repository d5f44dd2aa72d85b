import Verif.Conformance.Base

/-!
# Unit tests of `tests/tests/src/test_mat34.cpp`, replayed on the model

Generated by `tools/conform.py`; the numbers are the source lines of the checks.  366 checks;
72 checks of that file are not translated (casts, random draws, `sizeof`, `data()`, and
functions outside the model).
-/

namespace MathLib.Conformance
set_option linter.all false

namespace Mat34_0
abbrev R := Float32
def run : Res (List Nat) := do
  let mut bad : List Nat := []
  bad := ck bad 19 (Mat3.eq (Mat34.zero : Mat34 R).rs (Mat3.zero : Mat3 R))
  bad := ck bad 20 (Vec3.eq (Mat34.zero : Mat34 R).t (Vec3.zero : Vec3 R))
  return bad
end Mat34_0
#guard passes Mat34_0.run

namespace Mat34_1
abbrev R := Float32
def run : Res (List Nat) := do
  let mut bad : List Nat := []
  bad := ck bad 25 (Mat3.eq (Mat34.one : Mat34 R).rs (Mat3.one : Mat3 R))
  bad := ck bad 26 (Vec3.eq (Mat34.one : Mat34 R).t (Vec3.zero : Vec3 R))
  return bad
end Mat34_1
#guard passes Mat34_1.run

namespace Mat34_2
abbrev R := Float32
def run : Res (List Nat) := do
  let mut bad : List Nat := []
  let v1 : Mat34 R := (Mat34.ofScalar (3.0 : R))
  bad := ck bad 44 (Mat3.eq v1.rs (Mat3.ofScalar (3 : R)))
  bad := ck bad 45 (Vec3.eq v1.t (Vec3.zero : Vec3 R))
  bad := ck bad 46 (Mat34.isInitialized v1)
  bad := ck bad 47 (!(Mat34.isNormal v1))
  bad := ck bad 48 (Mat34.isOrthogonal v1)
  bad := ck bad 49 (!(Mat34.isOrthonormal v1))
  bad := ck bad 50 (!(Mat34.isIdentity v1))
  return bad
end Mat34_2
#guard passes Mat34_2.run

namespace Mat34_3
abbrev R := Float32
def run : Res (List Nat) := do
  let mut bad : List Nat := []
  let v1 : Mat34 R := (Mat34.ofCols (⟨(1 : R), (2 : R), (3 : R)⟩ : Vec3 R) (⟨(4 : R), (5 : R), (6 : R)⟩ : Vec3 R) (⟨(7 : R), (8 : R), (9 : R)⟩ : Vec3 R) (⟨(10 : R), (11 : R), (12 : R)⟩ : Vec3 R))
  bad := ck bad 56 (Vec3.eq v1.rs.x (⟨(1 : R), (2 : R), (3 : R)⟩ : Vec3 R))
  bad := ck bad 57 (Vec3.eq v1.rs.y (⟨(4 : R), (5 : R), (6 : R)⟩ : Vec3 R))
  bad := ck bad 58 (Vec3.eq v1.rs.z (⟨(7 : R), (8 : R), (9 : R)⟩ : Vec3 R))
  bad := ck bad 59 (Vec3.eq v1.t (⟨(10 : R), (11 : R), (12 : R)⟩ : Vec3 R))
  bad := ck bad 60 (Mat34.isInitialized v1)
  bad := ck bad 61 (!(Mat34.isNormal v1))
  bad := ck bad 62 (!(Mat34.isOrthogonal v1))
  bad := ck bad 63 (!(Mat34.isOrthonormal v1))
  bad := ck bad 64 (!(Mat34.isIdentity v1))
  return bad
end Mat34_3
#guard passes Mat34_3.run

namespace Mat34_4
abbrev R := Float32
def run : Res (List Nat) := do
  let mut bad : List Nat := []
  let v1 : Mat34 R := (Mat34.ofScalar (3 : R))
  let v2 : Mat34 R := (Mat34.setIdentity : Mat34 R)
  bad := ck bad 73 (Mat34.eq v2 (Mat34.one : Mat34 R))
  bad := ck bad 74 (Mat34.isInitialized v2)
  bad := ck bad 75 (Mat34.isNormal v2)
  bad := ck bad 76 (Mat34.isOrthogonal v2)
  bad := ck bad 77 (Mat34.isOrthonormal v2)
  bad := ck bad 78 (Mat34.isIdentity v2)
  return bad
end Mat34_4
#guard passes Mat34_4.run

namespace Mat34_5
abbrev R := Float32
def run : Res (List Nat) := do
  let mut bad : List Nat := []
  let v1 : Mat34 R := (Mat34.ofScalar (3 : R))
  let v2 : Mat34 R := (Mat34.ofScalar (42 : R))
  let v3 : Mat34 R := v2
  bad := ck bad 86 (Mat34.eq v3 v2)
  bad := ck bad 87 (Mat34.isInitialized v3)
  bad := ck bad 88 (!(Mat34.isNormal v3))
  bad := ck bad 89 (Mat34.isOrthogonal v3)
  bad := ck bad 90 (!(Mat34.isOrthonormal v3))
  bad := ck bad 91 (!(Mat34.isIdentity v3))
  return bad
end Mat34_5
#guard passes Mat34_5.run

namespace Mat34_6
abbrev R := Float32
def run : Res (List Nat) := do
  let mut bad : List Nat := []
  let v1 : Quat R := (Quat.ofAxisAngle (Vec3.oneZ : Vec3 R) ((MathFns.pi : R) / 4))
  let v2 : Mat34 R := (Mat34.ofScalar (3 : R))
  let v3 : Mat34 R := (Mat34.ofQuat v1 (Vec3.zero : Vec3 R))
  bad := ck bad 99 (Near.near (0.001 : R) v3.rs (Mat3.ofCols (⟨(0.70711 : R), (0.70711 : R), (0 : R)⟩ : Vec3 R) (⟨(-(0.70711 : R)), (0.70711 : R), (0 : R)⟩ : Vec3 R) (⟨(0 : R), (0 : R), (1 : R)⟩ : Vec3 R)))
  bad := ck bad 100 (Near.near (0.001 : R) v3.t (Vec3.zero : Vec3 R))
  bad := ck bad 101 (Mat34.isInitialized v3)
  bad := ck bad 102 (Mat34.isNormal v3)
  bad := ck bad 103 (Mat34.isOrthogonal v3)
  bad := ck bad 104 (Mat34.isOrthonormal v3)
  bad := ck bad 105 (!(Mat34.isIdentity v3))
  return bad
end Mat34_6
#guard passes Mat34_6.run

namespace Mat34_7
abbrev R := Float32
def run : Res (List Nat) := do
  let mut bad : List Nat := []
  let v1 : Mat34 R := (Mat34.ofScalar (3 : R))
  let v2 : Mat34 R := (Mat34.ofCols (⟨(1 : R), (2 : R), (3 : R)⟩ : Vec3 R) (⟨(4 : R), (5 : R), (6 : R)⟩ : Vec3 R) (⟨(7 : R), (8 : R), (9 : R)⟩ : Vec3 R) (⟨(10 : R), (11 : R), (12 : R)⟩ : Vec3 R))
  bad := ck bad 112 (Near.near (0.001 : R) v2 (Mat34.ofCols (⟨(1 : R), (2 : R), (3 : R)⟩ : Vec3 R) (⟨(4 : R), (5 : R), (6 : R)⟩ : Vec3 R) (⟨(7 : R), (8 : R), (9 : R)⟩ : Vec3 R) (⟨(10 : R), (11 : R), (12 : R)⟩ : Vec3 R)))
  bad := ck bad 119 (Mat34.isInitialized v2)
  bad := ck bad 120 (!(Mat34.isNormal v2))
  bad := ck bad 121 (!(Mat34.isOrthogonal v2))
  bad := ck bad 122 (!(Mat34.isOrthonormal v2))
  bad := ck bad 123 (!(Mat34.isIdentity v2))
  return bad
end Mat34_7
#guard passes Mat34_7.run

namespace Mat34_8
abbrev R := Float32
def run : Res (List Nat) := do
  let mut bad : List Nat := []
  let v1 : Mat34 R := (Mat34.ofScalar (3 : R))
  let v2 : Mat34 R := (← Mat34.ofExactApprox Coord.X (Vec3.oneX : Vec3 R) Coord.Z (Vec3.oneZ : Vec3 R))
  bad := ck bad 130 (Near.near (0.001 : R) v2.rs (Mat3.one : Mat3 R))
  bad := ck bad 131 (Near.near (0.001 : R) v2.t (Vec3.zero : Vec3 R))
  bad := ck bad 132 (Mat34.isInitialized v2)
  bad := ck bad 133 (Mat34.isNormal v2)
  bad := ck bad 134 (Mat34.isOrthogonal v2)
  bad := ck bad 135 (Mat34.isOrthonormal v2)
  bad := ck bad 136 (Mat34.isIdentity v2)
  let v3 : Mat34 R := (← Mat34.ofExactApprox Coord.X (Vec3.oneX : Vec3 R) Coord.Y (Vec3.oneY : Vec3 R))
  bad := ck bad 139 (Near.near (0.001 : R) v3.rs (Mat3.one : Mat3 R))
  bad := ck bad 140 (Near.near (0.001 : R) v3.t (Vec3.zero : Vec3 R))
  bad := ck bad 141 (Mat34.isInitialized v3)
  bad := ck bad 142 (Mat34.isNormal v3)
  bad := ck bad 143 (Mat34.isOrthogonal v3)
  bad := ck bad 144 (Mat34.isOrthonormal v3)
  bad := ck bad 145 (Mat34.isIdentity v3)
  let v4 : Mat34 R := (← Mat34.ofExactApprox Coord.Y (Vec3.oneY : Vec3 R) Coord.X (Vec3.oneX : Vec3 R))
  bad := ck bad 148 (Near.near (0.001 : R) v4.rs (Mat3.one : Mat3 R))
  bad := ck bad 149 (Near.near (0.001 : R) v4.t (Vec3.zero : Vec3 R))
  bad := ck bad 150 (Mat34.isInitialized v4)
  bad := ck bad 151 (Mat34.isNormal v4)
  bad := ck bad 152 (Mat34.isOrthogonal v4)
  bad := ck bad 153 (Mat34.isOrthonormal v4)
  bad := ck bad 154 (Mat34.isIdentity v4)
  let v5 : Mat34 R := (← Mat34.ofExactApprox Coord.Y (Vec3.oneY : Vec3 R) Coord.Z (Vec3.oneZ : Vec3 R))
  bad := ck bad 157 (Near.near (0.001 : R) v5.rs (Mat3.one : Mat3 R))
  bad := ck bad 158 (Near.near (0.001 : R) v5.t (Vec3.zero : Vec3 R))
  bad := ck bad 159 (Mat34.isInitialized v5)
  bad := ck bad 160 (Mat34.isNormal v5)
  bad := ck bad 161 (Mat34.isOrthogonal v5)
  bad := ck bad 162 (Mat34.isOrthonormal v5)
  bad := ck bad 163 (Mat34.isIdentity v5)
  let v6 : Mat34 R := (← Mat34.ofExactApprox Coord.Z (Vec3.oneZ : Vec3 R) Coord.X (Vec3.oneX : Vec3 R))
  bad := ck bad 166 (Near.near (0.001 : R) v6.rs (Mat3.one : Mat3 R))
  bad := ck bad 167 (Near.near (0.001 : R) v6.t (Vec3.zero : Vec3 R))
  bad := ck bad 168 (Mat34.isInitialized v6)
  bad := ck bad 169 (Mat34.isNormal v6)
  bad := ck bad 170 (Mat34.isOrthogonal v6)
  bad := ck bad 171 (Mat34.isOrthonormal v6)
  bad := ck bad 172 (Mat34.isIdentity v6)
  let v7 : Mat34 R := (← Mat34.ofExactApprox Coord.Z (Vec3.oneZ : Vec3 R) Coord.Y (Vec3.oneY : Vec3 R))
  bad := ck bad 175 (Near.near (0.001 : R) v7.rs (Mat3.one : Mat3 R))
  bad := ck bad 176 (Near.near (0.001 : R) v7.t (Vec3.zero : Vec3 R))
  bad := ck bad 177 (Mat34.isInitialized v7)
  bad := ck bad 178 (Mat34.isNormal v7)
  bad := ck bad 179 (Mat34.isOrthogonal v7)
  bad := ck bad 180 (Mat34.isOrthonormal v7)
  bad := ck bad 181 (Mat34.isIdentity v7)
  return bad
end Mat34_8
#guard passes Mat34_8.run

namespace Mat34_9
abbrev R := Float32
def run : Res (List Nat) := do
  let mut bad : List Nat := []
  let v1 : Mat34 R := (Mat34.ofScalar (3 : R))
  let v2 : Mat34 R := (Mat34.ofAxisAngle (Vec3.oneZ : Vec3 R) ((MathFns.pi : R) / 4) (Vec3.zero : Vec3 R))
  bad := ck bad 188 (Near.near (0.001 : R) v2.rs (Mat3.ofCols (⟨(0.70711 : R), (0.70711 : R), (0 : R)⟩ : Vec3 R) (⟨(-(0.70711 : R)), (0.70711 : R), (0 : R)⟩ : Vec3 R) (⟨(0 : R), (0 : R), (1 : R)⟩ : Vec3 R)))
  bad := ck bad 189 (Near.near (0.001 : R) v2.t (Vec3.zero : Vec3 R))
  bad := ck bad 190 (Mat34.isInitialized v2)
  bad := ck bad 191 (Mat34.isNormal v2)
  bad := ck bad 192 (Mat34.isOrthogonal v2)
  bad := ck bad 193 (Mat34.isOrthonormal v2)
  bad := ck bad 194 (!(Mat34.isIdentity v2))
  return bad
end Mat34_9
#guard passes Mat34_9.run

namespace Mat34_10
abbrev R := Float32
def run : Res (List Nat) := do
  let mut bad : List Nat := []
  let v1 : Mat34 R := (Mat34.one : Mat34 R)
  let v2 : Mat34 R := (Mat34.ofAxisAngle (Vec3.oneZ : Vec3 R) ((MathFns.pi : R) / 3) (Vec3.zero : Vec3 R))
  let v3 : Mat34 R := (Mat34.ofAxisAngle (Vec3.oneZ : Vec3 R) ((MathFns.pi : R) / 6) (Vec3.zero : Vec3 R))
  let v4 : Mat34 R := (← Mat34.slerp v1 v2 (0.0 : R))
  let v5 : Mat34 R := (← Mat34.slerp v1 v2 (0.5 : R))
  let v6 : Mat34 R := (← Mat34.slerp v1 v2 (1.0 : R))
  bad := ck bad 206 (Near.near (0.001 : R) v4 v1)
  bad := ck bad 207 (Mat34.isInitialized v4)
  bad := ck bad 208 (Mat34.isNormal v4)
  bad := ck bad 209 (Mat34.isOrthogonal v4)
  bad := ck bad 210 (Mat34.isOrthonormal v4)
  bad := ck bad 211 (Mat34.isIdentity v4)
  bad := ck bad 212 (Near.near (0.001 : R) v5 v3)
  bad := ck bad 213 (Mat34.isInitialized v5)
  bad := ck bad 214 (Mat34.isNormal v5)
  bad := ck bad 215 (Mat34.isOrthogonal v5)
  bad := ck bad 216 (Mat34.isOrthonormal v5)
  bad := ck bad 217 (!(Mat34.isIdentity v5))
  bad := ck bad 218 (Near.near (0.001 : R) v6 v2)
  bad := ck bad 219 (Mat34.isInitialized v6)
  bad := ck bad 220 (Mat34.isNormal v6)
  bad := ck bad 221 (Mat34.isOrthogonal v6)
  bad := ck bad 222 (Mat34.isOrthonormal v6)
  bad := ck bad 223 (!(Mat34.isIdentity v6))
  return bad
end Mat34_10
#guard passes Mat34_10.run

namespace Mat34_11
abbrev R := Float32
def run : Res (List Nat) := do
  let mut bad : List Nat := []
  let v1 : Mat34 R := (Mat34.one : Mat34 R)
  let v2 : Mat34 R := (Mat34.ofAxisAngle (Vec3.oneZ : Vec3 R) ((MathFns.pi : R) / 3) (Vec3.zero : Vec3 R))
  let v3 : Mat34 R := (Mat34.ofAxisAngle (Vec3.oneZ : Vec3 R) ((MathFns.pi : R) / 8) (Vec3.zero : Vec3 R))
  let v4 : Mat34 R := (← Mat34.slerpMaxAngle v1 v2 (0.0 : R))
  let v5 : Mat34 R := (← Mat34.slerpMaxAngle v1 v2 ((MathFns.pi : R) / 8))
  let v6 : Mat34 R := (← Mat34.slerpMaxAngle v1 v2 ((MathFns.pi : R) / 3))
  bad := ck bad 235 (Near.near (0.001 : R) v4 v1)
  bad := ck bad 236 (Mat34.isInitialized v4)
  bad := ck bad 237 (Mat34.isNormal v4)
  bad := ck bad 238 (Mat34.isOrthogonal v4)
  bad := ck bad 239 (Mat34.isOrthonormal v4)
  bad := ck bad 240 (Mat34.isIdentity v4)
  bad := ck bad 241 (Near.near (0.001 : R) v5 v3)
  bad := ck bad 242 (Mat34.isInitialized v5)
  bad := ck bad 243 (Mat34.isNormal v5)
  bad := ck bad 244 (Mat34.isOrthogonal v5)
  bad := ck bad 245 (Mat34.isOrthonormal v5)
  bad := ck bad 246 (!(Mat34.isIdentity v5))
  bad := ck bad 247 (Near.near (0.001 : R) v6 v2)
  bad := ck bad 248 (Mat34.isInitialized v6)
  bad := ck bad 249 (Mat34.isNormal v6)
  bad := ck bad 250 (Mat34.isOrthogonal v6)
  bad := ck bad 251 (Mat34.isOrthonormal v6)
  bad := ck bad 252 (!(Mat34.isIdentity v6))
  return bad
end Mat34_11
#guard passes Mat34_11.run

namespace Mat34_12
abbrev R := Float32
def run : Res (List Nat) := do
  let mut bad : List Nat := []
  let v1 : Quat R := (Quat.ofAxisAngle (Vec3.oneZ : Vec3 R) ((MathFns.pi : R) / 4))
  let v2 : Mat34 R := (Mat34.ofScalar (3 : R))
  let v3 : Mat34 R := (Mat34.ofQuat v1 (Vec3.zero : Vec3 R))
  bad := ck bad 262 (Near.near (0.001 : R) v3.rs (Mat3.ofCols (⟨(0.70711 : R), (0.70711 : R), (0 : R)⟩ : Vec3 R) (⟨(-(0.70711 : R)), (0.70711 : R), (0 : R)⟩ : Vec3 R) (⟨(0 : R), (0 : R), (1 : R)⟩ : Vec3 R)))
  bad := ck bad 263 (Near.near (0.001 : R) v3.t (Vec3.zero : Vec3 R))
  bad := ck bad 264 (Mat34.isInitialized v3)
  bad := ck bad 265 (Mat34.isNormal v3)
  bad := ck bad 266 (Mat34.isOrthogonal v3)
  bad := ck bad 267 (Mat34.isOrthonormal v3)
  bad := ck bad 268 (!(Mat34.isIdentity v3))
  return bad
end Mat34_12
#guard passes Mat34_12.run

namespace Mat34_13
abbrev R := Float32
def run : Res (List Nat) := do
  let mut bad : List Nat := []
  let v1 : Mat34 R := (Mat34.ofScalar (3 : R))
  let v2 : Mat34 R := (Mat34.ofCols (⟨(1 : R), (2 : R), (3 : R)⟩ : Vec3 R) (⟨(4 : R), (5 : R), (6 : R)⟩ : Vec3 R) (⟨(7 : R), (8 : R), (9 : R)⟩ : Vec3 R) (⟨(10 : R), (11 : R), (12 : R)⟩ : Vec3 R))
  bad := ck bad 275 (Near.near (0.001 : R) v2.rs (Mat3.ofCols (⟨(1 : R), (2 : R), (3 : R)⟩ : Vec3 R) (⟨(4 : R), (5 : R), (6 : R)⟩ : Vec3 R) (⟨(7 : R), (8 : R), (9 : R)⟩ : Vec3 R)))
  bad := ck bad 281 (Near.near (0.001 : R) v2.t (⟨(10 : R), (11 : R), (12 : R)⟩ : Vec3 R))
  bad := ck bad 282 (Mat34.isInitialized v2)
  bad := ck bad 283 (!(Mat34.isNormal v2))
  bad := ck bad 284 (!(Mat34.isOrthogonal v2))
  bad := ck bad 285 (!(Mat34.isOrthonormal v2))
  bad := ck bad 286 (!(Mat34.isIdentity v2))
  return bad
end Mat34_13
#guard passes Mat34_13.run

namespace Mat34_14
abbrev R := Float32
def run : Res (List Nat) := do
  let mut bad : List Nat := []
  let v1 : Mat34 R := (Mat34.ofScalar (3 : R))
  let v2 : Mat34 R := (← Mat34.ofExactApprox Coord.X (Vec3.oneX : Vec3 R) Coord.Z (Vec3.oneZ : Vec3 R))
  bad := ck bad 294 (Near.near (0.001 : R) v2.rs (Mat3.one : Mat3 R))
  bad := ck bad 295 (Near.near (0.001 : R) v2.t (Vec3.zero : Vec3 R))
  bad := ck bad 296 (Mat34.isInitialized v2)
  bad := ck bad 297 (Mat34.isNormal v2)
  bad := ck bad 298 (Mat34.isOrthogonal v2)
  bad := ck bad 299 (Mat34.isOrthonormal v2)
  bad := ck bad 300 (Mat34.isIdentity v2)
  let v3 : Mat34 R := (← Mat34.ofExactApprox Coord.X (Vec3.oneX : Vec3 R) Coord.Y (Vec3.oneY : Vec3 R))
  bad := ck bad 303 (Near.near (0.001 : R) v3.rs (Mat3.one : Mat3 R))
  bad := ck bad 304 (Near.near (0.001 : R) v3.t (Vec3.zero : Vec3 R))
  bad := ck bad 305 (Mat34.isInitialized v3)
  bad := ck bad 306 (Mat34.isNormal v3)
  bad := ck bad 307 (Mat34.isOrthogonal v3)
  bad := ck bad 308 (Mat34.isOrthonormal v3)
  bad := ck bad 309 (Mat34.isIdentity v3)
  let v4 : Mat34 R := (← Mat34.ofExactApprox Coord.Y (Vec3.oneY : Vec3 R) Coord.X (Vec3.oneX : Vec3 R))
  bad := ck bad 312 (Near.near (0.001 : R) v4.rs (Mat3.one : Mat3 R))
  bad := ck bad 313 (Near.near (0.001 : R) v4.t (Vec3.zero : Vec3 R))
  bad := ck bad 314 (Mat34.isInitialized v4)
  bad := ck bad 315 (Mat34.isNormal v4)
  bad := ck bad 316 (Mat34.isOrthogonal v4)
  bad := ck bad 317 (Mat34.isOrthonormal v4)
  bad := ck bad 318 (Mat34.isIdentity v4)
  let v5 : Mat34 R := (← Mat34.ofExactApprox Coord.Y (Vec3.oneY : Vec3 R) Coord.Z (Vec3.oneZ : Vec3 R))
  bad := ck bad 321 (Near.near (0.001 : R) v5.rs (Mat3.one : Mat3 R))
  bad := ck bad 322 (Near.near (0.001 : R) v5.t (Vec3.zero : Vec3 R))
  bad := ck bad 323 (Mat34.isInitialized v5)
  bad := ck bad 324 (Mat34.isNormal v5)
  bad := ck bad 325 (Mat34.isOrthogonal v5)
  bad := ck bad 326 (Mat34.isOrthonormal v5)
  bad := ck bad 327 (Mat34.isIdentity v5)
  let v6 : Mat34 R := (← Mat34.ofExactApprox Coord.Z (Vec3.oneZ : Vec3 R) Coord.X (Vec3.oneX : Vec3 R))
  bad := ck bad 330 (Near.near (0.001 : R) v6.rs (Mat3.one : Mat3 R))
  bad := ck bad 331 (Near.near (0.001 : R) v6.t (Vec3.zero : Vec3 R))
  bad := ck bad 332 (Mat34.isInitialized v6)
  bad := ck bad 333 (Mat34.isNormal v6)
  bad := ck bad 334 (Mat34.isOrthogonal v6)
  bad := ck bad 335 (Mat34.isOrthonormal v6)
  bad := ck bad 336 (Mat34.isIdentity v6)
  let v7 : Mat34 R := (← Mat34.ofExactApprox Coord.Z (Vec3.oneZ : Vec3 R) Coord.Y (Vec3.oneY : Vec3 R))
  bad := ck bad 339 (Near.near (0.001 : R) v7.rs (Mat3.one : Mat3 R))
  bad := ck bad 340 (Near.near (0.001 : R) v7.t (Vec3.zero : Vec3 R))
  bad := ck bad 341 (Mat34.isInitialized v7)
  bad := ck bad 342 (Mat34.isNormal v7)
  bad := ck bad 343 (Mat34.isOrthogonal v7)
  bad := ck bad 344 (Mat34.isOrthonormal v7)
  bad := ck bad 345 (Mat34.isIdentity v7)
  return bad
end Mat34_14
#guard passes Mat34_14.run

namespace Mat34_15
abbrev R := Float32
def run : Res (List Nat) := do
  let mut bad : List Nat := []
  let v1 : Mat34 R := (Mat34.ofScalar (3 : R))
  let v2 : Mat34 R := (Mat34.ofAxisAngle (Vec3.oneZ : Vec3 R) ((MathFns.pi : R) / 4) (Vec3.zero : Vec3 R))
  bad := ck bad 352 (Near.near (0.001 : R) v2.rs (Mat3.ofCols (⟨(0.70711 : R), (0.70711 : R), (0 : R)⟩ : Vec3 R) (⟨(-(0.70711 : R)), (0.70711 : R), (0 : R)⟩ : Vec3 R) (⟨(0 : R), (0 : R), (1 : R)⟩ : Vec3 R)))
  bad := ck bad 353 (Near.near (0.001 : R) v2.t (Vec3.zero : Vec3 R))
  bad := ck bad 354 (Mat34.isInitialized v2)
  bad := ck bad 355 (Mat34.isNormal v2)
  bad := ck bad 356 (Mat34.isOrthogonal v2)
  bad := ck bad 357 (Mat34.isOrthonormal v2)
  bad := ck bad 358 (!(Mat34.isIdentity v2))
  return bad
end Mat34_15
#guard passes Mat34_15.run

namespace Mat34_16
abbrev R := Float32
def run : Res (List Nat) := do
  let mut bad : List Nat := []
  let v1 : Mat34 R := (Mat34.one : Mat34 R)
  let v2 : Mat34 R := (Mat34.ofAxisAngle (Vec3.oneZ : Vec3 R) ((MathFns.pi : R) / 3) (Vec3.zero : Vec3 R))
  let v3 : Mat34 R := (Mat34.ofAxisAngle (Vec3.oneZ : Vec3 R) ((MathFns.pi : R) / 6) (Vec3.zero : Vec3 R))
  let v4 : Mat34 R := (← Mat34.slerp v1 v2 (0.0 : R))
  let v5 : Mat34 R := (← Mat34.slerp v1 v2 (0.5 : R))
  let v6 : Mat34 R := (← Mat34.slerp v1 v2 (1.0 : R))
  bad := ck bad 370 (Near.near (0.001 : R) v4 v1)
  bad := ck bad 371 (Mat34.isInitialized v4)
  bad := ck bad 372 (Mat34.isNormal v4)
  bad := ck bad 373 (Mat34.isOrthogonal v4)
  bad := ck bad 374 (Mat34.isOrthonormal v4)
  bad := ck bad 375 (Mat34.isIdentity v4)
  bad := ck bad 376 (Near.near (0.001 : R) v5 v3)
  bad := ck bad 377 (Mat34.isInitialized v5)
  bad := ck bad 378 (Mat34.isNormal v5)
  bad := ck bad 379 (Mat34.isOrthogonal v5)
  bad := ck bad 380 (Mat34.isOrthonormal v5)
  bad := ck bad 381 (!(Mat34.isIdentity v5))
  bad := ck bad 382 (Near.near (0.001 : R) v6 v2)
  bad := ck bad 383 (Mat34.isInitialized v6)
  bad := ck bad 384 (Mat34.isNormal v6)
  bad := ck bad 385 (Mat34.isOrthogonal v6)
  bad := ck bad 386 (Mat34.isOrthonormal v6)
  bad := ck bad 387 (!(Mat34.isIdentity v6))
  return bad
end Mat34_16
#guard passes Mat34_16.run

namespace Mat34_17
abbrev R := Float32
def run : Res (List Nat) := do
  let mut bad : List Nat := []
  let v1 : Mat34 R := (Mat34.one : Mat34 R)
  let v2 : Mat34 R := (Mat34.ofAxisAngle (Vec3.oneZ : Vec3 R) ((MathFns.pi : R) / 3) (Vec3.zero : Vec3 R))
  let v3 : Mat34 R := (Mat34.ofAxisAngle (Vec3.oneZ : Vec3 R) ((MathFns.pi : R) / 8) (Vec3.zero : Vec3 R))
  let v4 : Mat34 R := (← Mat34.slerpMaxAngle v1 v2 (0.0 : R))
  let v5 : Mat34 R := (← Mat34.slerpMaxAngle v1 v2 ((MathFns.pi : R) / 8))
  let v6 : Mat34 R := (← Mat34.slerpMaxAngle v1 v2 ((MathFns.pi : R) / 3))
  bad := ck bad 399 (Near.near (0.001 : R) v4 v1)
  bad := ck bad 400 (Mat34.isInitialized v4)
  bad := ck bad 401 (Mat34.isNormal v4)
  bad := ck bad 402 (Mat34.isOrthogonal v4)
  bad := ck bad 403 (Mat34.isOrthonormal v4)
  bad := ck bad 404 (Mat34.isIdentity v4)
  bad := ck bad 405 (Near.near (0.001 : R) v5 v3)
  bad := ck bad 406 (Mat34.isInitialized v5)
  bad := ck bad 407 (Mat34.isNormal v5)
  bad := ck bad 408 (Mat34.isOrthogonal v5)
  bad := ck bad 409 (Mat34.isOrthonormal v5)
  bad := ck bad 410 (!(Mat34.isIdentity v5))
  bad := ck bad 411 (Near.near (0.001 : R) v6 v2)
  bad := ck bad 412 (Mat34.isInitialized v6)
  bad := ck bad 413 (Mat34.isNormal v6)
  bad := ck bad 414 (Mat34.isOrthogonal v6)
  bad := ck bad 415 (Mat34.isOrthonormal v6)
  bad := ck bad 416 (!(Mat34.isIdentity v6))
  return bad
end Mat34_17
#guard passes Mat34_17.run

namespace Mat34_18
abbrev R := Float32
def run : Res (List Nat) := do
  let mut bad : List Nat := []
  let v1 : Mat34 R := (Mat34.ofCols (⟨(1 : R), (2 : R), (3 : R)⟩ : Vec3 R) (⟨(4 : R), (5 : R), (6 : R)⟩ : Vec3 R) (⟨(7 : R), (8 : R), (9 : R)⟩ : Vec3 R) (⟨(10 : R), (11 : R), (12 : R)⟩ : Vec3 R))
  bad := ck bad 425 (Near.near (0.001 : R) (← Mat34.get v1 Coord.X) (⟨(1 : R), (2 : R), (3 : R)⟩ : Vec3 R))
  bad := ck bad 426 (Near.near (0.001 : R) (← Mat34.get v1 Coord.Y) (⟨(4 : R), (5 : R), (6 : R)⟩ : Vec3 R))
  bad := ck bad 427 (Near.near (0.001 : R) (← Mat34.get v1 Coord.Z) (⟨(7 : R), (8 : R), (9 : R)⟩ : Vec3 R))
  return bad
end Mat34_18
#guard passes Mat34_18.run

namespace Mat34_19
abbrev R := Float32
def run : Res (List Nat) := do
  let mut bad : List Nat := []
  let v1 : Mat34 R := (Mat34.ofCols (⟨(1 : R), (2 : R), (3 : R)⟩ : Vec3 R) (⟨(4 : R), (5 : R), (6 : R)⟩ : Vec3 R) (⟨(7 : R), (8 : R), (9 : R)⟩ : Vec3 R) (⟨(10 : R), (11 : R), (12 : R)⟩ : Vec3 R))
  let v2 : Mat3 R := (Mat3.ofCols (⟨(9 : R), (8 : R), (7 : R)⟩ : Vec3 R) (⟨(6 : R), (5 : R), (4 : R)⟩ : Vec3 R) (⟨(3 : R), (2 : R), (1 : R)⟩ : Vec3 R))
  let v3 : Mat34 R := (Mat34.transformPreMat3 v1 v2)
  bad := ck bad 449 (Near.near (0.001 : R) v3 (Mat34.ofCols (⟨(90 : R), (114 : R), (138 : R)⟩ : Vec3 R) (⟨(54 : R), (69 : R), (84 : R)⟩ : Vec3 R) (⟨(18 : R), (24 : R), (30 : R)⟩ : Vec3 R) (⟨(10 : R), (11 : R), (12 : R)⟩ : Vec3 R)))
  bad := ck bad 455 (Mat34.isInitialized v3)
  bad := ck bad 456 (!(Mat34.isNormal v3))
  bad := ck bad 457 (!(Mat34.isOrthogonal v3))
  bad := ck bad 458 (!(Mat34.isOrthonormal v3))
  bad := ck bad 459 (!(Mat34.isIdentity v3))
  return bad
end Mat34_19
#guard passes Mat34_19.run

namespace Mat34_20
abbrev R := Float32
def run : Res (List Nat) := do
  let mut bad : List Nat := []
  let v1 : Mat34 R := (Mat34.ofCols (⟨(1 : R), (2 : R), (3 : R)⟩ : Vec3 R) (⟨(4 : R), (5 : R), (6 : R)⟩ : Vec3 R) (⟨(7 : R), (8 : R), (9 : R)⟩ : Vec3 R) (⟨(10 : R), (11 : R), (12 : R)⟩ : Vec3 R))
  let v2 : Mat34 R := (Mat34.ofCols (⟨(9 : R), (8 : R), (7 : R)⟩ : Vec3 R) (⟨(6 : R), (5 : R), (4 : R)⟩ : Vec3 R) (⟨(3 : R), (2 : R), (1 : R)⟩ : Vec3 R) (⟨(20 : R), (21 : R), (22 : R)⟩ : Vec3 R))
  let v3 : Mat34 R := (Mat34.transformPre v1 v2)
  bad := ck bad 467 (Near.near (0.001 : R) v3 (Mat34.ofCols (⟨(90 : R), (114 : R), (138 : R)⟩ : Vec3 R) (⟨(54 : R), (69 : R), (84 : R)⟩ : Vec3 R) (⟨(18 : R), (24 : R), (30 : R)⟩ : Vec3 R) (⟨(268 : R), (332 : R), (396 : R)⟩ : Vec3 R)))
  bad := ck bad 473 (Mat34.isInitialized v3)
  bad := ck bad 474 (!(Mat34.isNormal v3))
  bad := ck bad 475 (!(Mat34.isOrthogonal v3))
  bad := ck bad 476 (!(Mat34.isOrthonormal v3))
  bad := ck bad 477 (!(Mat34.isIdentity v3))
  return bad
end Mat34_20
#guard passes Mat34_20.run

namespace Mat34_21
abbrev R := Float32
def run : Res (List Nat) := do
  let mut bad : List Nat := []
  let v1 : Mat34 R := (Mat34.ofCols (⟨(1 : R), (2 : R), (3 : R)⟩ : Vec3 R) (⟨(4 : R), (5 : R), (6 : R)⟩ : Vec3 R) (⟨(7 : R), (8 : R), (9 : R)⟩ : Vec3 R) (⟨(10 : R), (11 : R), (12 : R)⟩ : Vec3 R))
  let v2 : Mat34 R := (Mat34.neg v1)
  bad := ck bad 487 (Near.near (0.001 : R) v2 (Mat34.ofCols (⟨(-1 : R), (-2 : R), (-3 : R)⟩ : Vec3 R) (⟨(-4 : R), (-5 : R), (-6 : R)⟩ : Vec3 R) (⟨(-7 : R), (-8 : R), (-9 : R)⟩ : Vec3 R) (⟨(-10 : R), (-11 : R), (-12 : R)⟩ : Vec3 R)))
  bad := ck bad 493 (Mat34.isInitialized v2)
  bad := ck bad 494 (!(Mat34.isNormal v2))
  bad := ck bad 495 (!(Mat34.isOrthogonal v2))
  bad := ck bad 496 (!(Mat34.isOrthonormal v2))
  bad := ck bad 497 (!(Mat34.isIdentity v2))
  return bad
end Mat34_21
#guard passes Mat34_21.run

namespace Mat34_22
abbrev R := Float32
def run : Res (List Nat) := do
  let mut bad : List Nat := []
  let v1 : Mat34 R := (Mat34.ofCols (⟨(1 : R), (2 : R), (3 : R)⟩ : Vec3 R) (⟨(4 : R), (5 : R), (6 : R)⟩ : Vec3 R) (⟨(7 : R), (8 : R), (9 : R)⟩ : Vec3 R) (⟨(10 : R), (11 : R), (12 : R)⟩ : Vec3 R))
  let v2 : Mat3 R := (Mat3.ofCols (⟨(9 : R), (8 : R), (7 : R)⟩ : Vec3 R) (⟨(6 : R), (5 : R), (4 : R)⟩ : Vec3 R) (⟨(3 : R), (2 : R), (1 : R)⟩ : Vec3 R))
  let v3 : Mat34 R := (Mat34.mulMat3 v1 v2)
  bad := ck bad 505 (Near.near (0.001 : R) v3 (Mat34.ofCols (⟨(90 : R), (114 : R), (138 : R)⟩ : Vec3 R) (⟨(54 : R), (69 : R), (84 : R)⟩ : Vec3 R) (⟨(18 : R), (24 : R), (30 : R)⟩ : Vec3 R) (⟨(10 : R), (11 : R), (12 : R)⟩ : Vec3 R)))
  bad := ck bad 511 (Mat34.isInitialized v3)
  bad := ck bad 512 (!(Mat34.isNormal v3))
  bad := ck bad 513 (!(Mat34.isOrthogonal v3))
  bad := ck bad 514 (!(Mat34.isOrthonormal v3))
  bad := ck bad 515 (!(Mat34.isIdentity v3))
  return bad
end Mat34_22
#guard passes Mat34_22.run

namespace Mat34_23
abbrev R := Float32
def run : Res (List Nat) := do
  let mut bad : List Nat := []
  let v1 : Mat34 R := (Mat34.ofCols (⟨(1 : R), (2 : R), (3 : R)⟩ : Vec3 R) (⟨(4 : R), (5 : R), (6 : R)⟩ : Vec3 R) (⟨(7 : R), (8 : R), (9 : R)⟩ : Vec3 R) (⟨(10 : R), (11 : R), (12 : R)⟩ : Vec3 R))
  let v2 : Mat34 R := (Mat34.ofCols (⟨(9 : R), (8 : R), (7 : R)⟩ : Vec3 R) (⟨(6 : R), (5 : R), (4 : R)⟩ : Vec3 R) (⟨(3 : R), (2 : R), (1 : R)⟩ : Vec3 R) (⟨(20 : R), (21 : R), (22 : R)⟩ : Vec3 R))
  let v3 : Mat34 R := (Mat34.mul v1 v2)
  bad := ck bad 523 (Near.near (0.001 : R) v3 (Mat34.ofCols (⟨(90 : R), (114 : R), (138 : R)⟩ : Vec3 R) (⟨(54 : R), (69 : R), (84 : R)⟩ : Vec3 R) (⟨(18 : R), (24 : R), (30 : R)⟩ : Vec3 R) (⟨(268 : R), (332 : R), (396 : R)⟩ : Vec3 R)))
  bad := ck bad 529 (Mat34.isInitialized v3)
  bad := ck bad 530 (!(Mat34.isNormal v3))
  bad := ck bad 531 (!(Mat34.isOrthogonal v3))
  bad := ck bad 532 (!(Mat34.isOrthonormal v3))
  bad := ck bad 533 (!(Mat34.isIdentity v3))
  return bad
end Mat34_23
#guard passes Mat34_23.run

namespace Mat34_24
abbrev R := Float32
def run : Res (List Nat) := do
  let mut bad : List Nat := []
  let v1 : Mat34 R := (Mat34.ofCols (⟨(1 : R), (2 : R), (3 : R)⟩ : Vec3 R) (⟨(4 : R), (5 : R), (6 : R)⟩ : Vec3 R) (⟨(7 : R), (8 : R), (9 : R)⟩ : Vec3 R) (⟨(10 : R), (11 : R), (12 : R)⟩ : Vec3 R))
  bad := ck bad 539 (Near.near (0.001 : R) (Mat34.mulVec v1 (Vec3.oneX : Vec3 R)) (⟨(11 : R), (13 : R), (15 : R)⟩ : Vec3 R))
  bad := ck bad 540 (Near.near (0.001 : R) (Mat34.mulVec v1 (Vec3.oneY : Vec3 R)) (⟨(14 : R), (16 : R), (18 : R)⟩ : Vec3 R))
  bad := ck bad 541 (Near.near (0.001 : R) (Mat34.mulVec v1 (Vec3.oneZ : Vec3 R)) (⟨(17 : R), (19 : R), (21 : R)⟩ : Vec3 R))
  return bad
end Mat34_24
#guard passes Mat34_24.run

namespace Mat34_25
abbrev R := Float32
def run : Res (List Nat) := do
  let mut bad : List Nat := []
  let v1 : Mat34 R := (Mat34.ofCols (⟨(1 : R), (2 : R), (3 : R)⟩ : Vec3 R) (⟨(4 : R), (5 : R), (6 : R)⟩ : Vec3 R) (⟨(7 : R), (8 : R), (9 : R)⟩ : Vec3 R) (⟨(10 : R), (11 : R), (12 : R)⟩ : Vec3 R))
  let v2 : Mat34 R := (Mat34.ofCols (⟨(1 : R), (2 : R), (3 : R)⟩ : Vec3 R) (⟨(4 : R), (5 : R), (6 : R)⟩ : Vec3 R) (⟨(7 : R), (8 : R), (9 : R)⟩ : Vec3 R) (⟨(10 : R), (11 : R), (12 : R)⟩ : Vec3 R))
  bad := ck bad 551 (Mat34.eq v1 v1)
  bad := ck bad 552 (Mat34.eq v1 v2)
  return bad
end Mat34_25
#guard passes Mat34_25.run

namespace Mat34_26
abbrev R := Float32
def run : Res (List Nat) := do
  let mut bad : List Nat := []
  let v1 : Mat34 R := (Mat34.ofCols (⟨(1 : R), (2 : R), (3 : R)⟩ : Vec3 R) (⟨(4 : R), (5 : R), (6 : R)⟩ : Vec3 R) (⟨(7 : R), (8 : R), (9 : R)⟩ : Vec3 R) (⟨(10 : R), (11 : R), (12 : R)⟩ : Vec3 R))
  bad := ck bad 558 (Mat34.ne v1 (Mat34.ofCols (⟨(1.1 : R), (2 : R), (3 : R)⟩ : Vec3 R) (⟨(4 : R), (5 : R), (6 : R)⟩ : Vec3 R) (⟨(7 : R), (8 : R), (9 : R)⟩ : Vec3 R) (⟨(10 : R), (11 : R), (12 : R)⟩ : Vec3 R)))
  bad := ck bad 559 (Mat34.ne v1 (Mat34.ofCols (⟨(1 : R), (2.1 : R), (3 : R)⟩ : Vec3 R) (⟨(4 : R), (5 : R), (6 : R)⟩ : Vec3 R) (⟨(7 : R), (8 : R), (9 : R)⟩ : Vec3 R) (⟨(10 : R), (11 : R), (12 : R)⟩ : Vec3 R)))
  bad := ck bad 560 (Mat34.ne v1 (Mat34.ofCols (⟨(1 : R), (2 : R), (3.1 : R)⟩ : Vec3 R) (⟨(4 : R), (5 : R), (6 : R)⟩ : Vec3 R) (⟨(7 : R), (8 : R), (9 : R)⟩ : Vec3 R) (⟨(10 : R), (11 : R), (12 : R)⟩ : Vec3 R)))
  bad := ck bad 561 (Mat34.ne v1 (Mat34.ofCols (⟨(1 : R), (2 : R), (3 : R)⟩ : Vec3 R) (⟨(4.1 : R), (5 : R), (6 : R)⟩ : Vec3 R) (⟨(7 : R), (8 : R), (9 : R)⟩ : Vec3 R) (⟨(10 : R), (11 : R), (12 : R)⟩ : Vec3 R)))
  bad := ck bad 562 (Mat34.ne v1 (Mat34.ofCols (⟨(1 : R), (2 : R), (3 : R)⟩ : Vec3 R) (⟨(4 : R), (5.1 : R), (6 : R)⟩ : Vec3 R) (⟨(7 : R), (8 : R), (9 : R)⟩ : Vec3 R) (⟨(10 : R), (11 : R), (12 : R)⟩ : Vec3 R)))
  bad := ck bad 563 (Mat34.ne v1 (Mat34.ofCols (⟨(1 : R), (2 : R), (3 : R)⟩ : Vec3 R) (⟨(4 : R), (5 : R), (6.1 : R)⟩ : Vec3 R) (⟨(7 : R), (8 : R), (9 : R)⟩ : Vec3 R) (⟨(10 : R), (11 : R), (12 : R)⟩ : Vec3 R)))
  bad := ck bad 564 (Mat34.ne v1 (Mat34.ofCols (⟨(1 : R), (2 : R), (3 : R)⟩ : Vec3 R) (⟨(4 : R), (5 : R), (6 : R)⟩ : Vec3 R) (⟨(7.1 : R), (8 : R), (9 : R)⟩ : Vec3 R) (⟨(10 : R), (11 : R), (12 : R)⟩ : Vec3 R)))
  bad := ck bad 565 (Mat34.ne v1 (Mat34.ofCols (⟨(1 : R), (2 : R), (3 : R)⟩ : Vec3 R) (⟨(4 : R), (5 : R), (6 : R)⟩ : Vec3 R) (⟨(7 : R), (8.1 : R), (9 : R)⟩ : Vec3 R) (⟨(10 : R), (11 : R), (12 : R)⟩ : Vec3 R)))
  bad := ck bad 566 (Mat34.ne v1 (Mat34.ofCols (⟨(1 : R), (2 : R), (3 : R)⟩ : Vec3 R) (⟨(4 : R), (5 : R), (6 : R)⟩ : Vec3 R) (⟨(7 : R), (8 : R), (9.1 : R)⟩ : Vec3 R) (⟨(10 : R), (11 : R), (12 : R)⟩ : Vec3 R)))
  bad := ck bad 567 (Mat34.ne v1 (Mat34.ofCols (⟨(1 : R), (2 : R), (3 : R)⟩ : Vec3 R) (⟨(4 : R), (5 : R), (6 : R)⟩ : Vec3 R) (⟨(7 : R), (8 : R), (9 : R)⟩ : Vec3 R) (⟨(10.1 : R), (11 : R), (12 : R)⟩ : Vec3 R)))
  bad := ck bad 568 (Mat34.ne v1 (Mat34.ofCols (⟨(1 : R), (2 : R), (3 : R)⟩ : Vec3 R) (⟨(4 : R), (5 : R), (6 : R)⟩ : Vec3 R) (⟨(7 : R), (8 : R), (9 : R)⟩ : Vec3 R) (⟨(10 : R), (11.1 : R), (12 : R)⟩ : Vec3 R)))
  bad := ck bad 569 (Mat34.ne v1 (Mat34.ofCols (⟨(1 : R), (2 : R), (3 : R)⟩ : Vec3 R) (⟨(4 : R), (5 : R), (6 : R)⟩ : Vec3 R) (⟨(7 : R), (8 : R), (9 : R)⟩ : Vec3 R) (⟨(10 : R), (11 : R), (12.1 : R)⟩ : Vec3 R)))
  return bad
end Mat34_26
#guard passes Mat34_26.run

namespace Mat34_27
abbrev R := Float32
def run : Res (List Nat) := do
  let mut bad : List Nat := []
  let v1 : Mat34 R := (Mat34.ofAxisAngle (Vec3.oneZ : Vec3 R) ((MathFns.pi : R) / 3) (Vec3.zero : Vec3 R))
  let v2 : Mat34 R := (Mat34.rotateQuat v1 (Quat.ofAxisAngle (Vec3.oneX : Vec3 R) ((MathFns.pi : R) / 6)))
  bad := ck bad 580 (Near.near (0.001 : R) v2 (Mat34.mulMat3 (Mat34.ofAxisAngle (Vec3.oneX : Vec3 R) ((MathFns.pi : R) / 6) (Vec3.zero : Vec3 R)) (Mat3.ofAxisAngle (Vec3.oneZ : Vec3 R) ((MathFns.pi : R) / 3))))
  bad := ck bad 583 (Mat34.isInitialized v2)
  bad := ck bad 584 (Mat34.isNormal v2)
  bad := ck bad 585 (Mat34.isOrthogonal v2)
  bad := ck bad 586 (Mat34.isOrthonormal v2)
  bad := ck bad 587 (!(Mat34.isIdentity v2))
  return bad
end Mat34_27
#guard passes Mat34_27.run

namespace Mat34_28
abbrev R := Float32
def run : Res (List Nat) := do
  let mut bad : List Nat := []
  let v1 : Mat34 R := (Mat34.ofAxisAngle (Vec3.oneZ : Vec3 R) ((MathFns.pi : R) / 3) (Vec3.zero : Vec3 R))
  let v2 : Mat34 R := (Mat34.rotateAxis v1 (Vec3.oneX : Vec3 R) ((MathFns.pi : R) / 6))
  bad := ck bad 595 (Near.near (0.001 : R) v2 (Mat34.mulMat3 (Mat34.ofAxisAngle (Vec3.oneX : Vec3 R) ((MathFns.pi : R) / 6) (Vec3.zero : Vec3 R)) (Mat3.ofAxisAngle (Vec3.oneZ : Vec3 R) ((MathFns.pi : R) / 3))))
  bad := ck bad 598 (Mat34.isInitialized v2)
  bad := ck bad 599 (Mat34.isNormal v2)
  bad := ck bad 600 (Mat34.isOrthogonal v2)
  bad := ck bad 601 (Mat34.isOrthonormal v2)
  bad := ck bad 602 (!(Mat34.isIdentity v2))
  return bad
end Mat34_28
#guard passes Mat34_28.run

namespace Mat34_29
abbrev R := Float32
def run : Res (List Nat) := do
  let mut bad : List Nat := []
  let v1 : Mat34 R := (Mat34.ofAxisAngle (Vec3.oneZ : Vec3 R) ((MathFns.pi : R) / 3) (Vec3.zero : Vec3 R))
  let v2 : Mat34 R := (← Mat34.rotateCoord v1 Coord.X ((MathFns.pi : R) / 6))
  bad := ck bad 610 (Near.near (0.001 : R) v2 (Mat34.mulMat3 (Mat34.ofAxisAngle (Vec3.oneX : Vec3 R) ((MathFns.pi : R) / 6) (Vec3.zero : Vec3 R)) (Mat3.ofAxisAngle (Vec3.oneZ : Vec3 R) ((MathFns.pi : R) / 3))))
  bad := ck bad 613 (Mat34.isInitialized v2)
  bad := ck bad 614 (Mat34.isNormal v2)
  bad := ck bad 615 (Mat34.isOrthogonal v2)
  bad := ck bad 616 (Mat34.isOrthonormal v2)
  bad := ck bad 617 (!(Mat34.isIdentity v2))
  return bad
end Mat34_29
#guard passes Mat34_29.run

namespace Mat34_30
abbrev R := Float32
def run : Res (List Nat) := do
  let mut bad : List Nat := []
  let v1 : Mat34 R := (Mat34.ofCols (⟨(1 : R), (2 : R), (3 : R)⟩ : Vec3 R) (⟨(4 : R), (5 : R), (6 : R)⟩ : Vec3 R) (⟨(7 : R), (8 : R), (9 : R)⟩ : Vec3 R) (⟨(10 : R), (11 : R), (12 : R)⟩ : Vec3 R))
  let v2 : Mat34 R := (Mat34.translate v1 (⟨(2 : R), (3 : R), (4 : R)⟩ : Vec3 R))
  bad := ck bad 624 (Near.near (0.001 : R) v2 (Mat34.ofCols (⟨(1 : R), (2 : R), (3 : R)⟩ : Vec3 R) (⟨(4 : R), (5 : R), (6 : R)⟩ : Vec3 R) (⟨(7 : R), (8 : R), (9 : R)⟩ : Vec3 R) (⟨(12 : R), (14 : R), (16 : R)⟩ : Vec3 R)))
  bad := ck bad 631 (Mat34.isInitialized v2)
  bad := ck bad 632 (!(Mat34.isNormal v2))
  bad := ck bad 633 (!(Mat34.isOrthogonal v2))
  bad := ck bad 634 (!(Mat34.isOrthonormal v2))
  bad := ck bad 635 (!(Mat34.isIdentity v2))
  return bad
end Mat34_30
#guard passes Mat34_30.run

namespace Mat34_31
abbrev R := Float32
def run : Res (List Nat) := do
  let mut bad : List Nat := []
  let v1 : Mat34 R := (Mat34.ofCols (⟨(1 : R), (2 : R), (3 : R)⟩ : Vec3 R) (⟨(4 : R), (5 : R), (6 : R)⟩ : Vec3 R) (⟨(7 : R), (8 : R), (9 : R)⟩ : Vec3 R) (⟨(10 : R), (11 : R), (12 : R)⟩ : Vec3 R))
  let v2 : Mat34 R := (Mat34.scale v1 (⟨(10 : R), (100 : R), (1000 : R)⟩ : Vec3 R))
  bad := ck bad 642 (Near.near (0.001 : R) v2 (Mat34.ofCols (⟨(10 : R), (20 : R), (30 : R)⟩ : Vec3 R) (⟨(400 : R), (500 : R), (600 : R)⟩ : Vec3 R) (⟨(7000 : R), (8000 : R), (9000 : R)⟩ : Vec3 R) (⟨(100 : R), (1100 : R), (12000 : R)⟩ : Vec3 R)))
  bad := ck bad 649 (Mat34.isInitialized v2)
  bad := ck bad 650 (!(Mat34.isNormal v2))
  bad := ck bad 651 (!(Mat34.isOrthogonal v2))
  bad := ck bad 652 (!(Mat34.isOrthonormal v2))
  bad := ck bad 653 (!(Mat34.isIdentity v2))
  return bad
end Mat34_31
#guard passes Mat34_31.run

namespace Mat34_32
abbrev R := Float32
def run : Res (List Nat) := do
  let mut bad : List Nat := []
  let v1 : Mat34 R := (Mat34.ofAxisAngle (Vec3.oneZ : Vec3 R) ((MathFns.pi : R) / 3) (Vec3.zero : Vec3 R))
  let v2 : Mat34 R := (Mat34.rotatePreQuat v1 (Quat.ofAxisAngle (Vec3.oneX : Vec3 R) ((MathFns.pi : R) / 6)))
  bad := ck bad 698 (Near.near (0.001 : R) v2 (Mat34.mul (Mat34.ofAxisAngle (Vec3.oneZ : Vec3 R) ((MathFns.pi : R) / 3) (Vec3.zero : Vec3 R)) (Mat34.ofAxisAngle (Vec3.oneX : Vec3 R) ((MathFns.pi : R) / 6) (Vec3.zero : Vec3 R))))
  bad := ck bad 702 (Mat34.isInitialized v2)
  bad := ck bad 703 (Mat34.isNormal v2)
  bad := ck bad 704 (Mat34.isOrthogonal v2)
  bad := ck bad 705 (Mat34.isOrthonormal v2)
  bad := ck bad 706 (!(Mat34.isIdentity v2))
  return bad
end Mat34_32
#guard passes Mat34_32.run

namespace Mat34_33
abbrev R := Float32
def run : Res (List Nat) := do
  let mut bad : List Nat := []
  let v1 : Mat34 R := (Mat34.ofAxisAngle (Vec3.oneZ : Vec3 R) ((MathFns.pi : R) / 3) (Vec3.zero : Vec3 R))
  let v2 : Mat34 R := (Mat34.rotatePreAxis v1 (Vec3.oneX : Vec3 R) ((MathFns.pi : R) / 6))
  bad := ck bad 714 (Near.near (0.001 : R) v2 (Mat34.mul (Mat34.ofAxisAngle (Vec3.oneZ : Vec3 R) ((MathFns.pi : R) / 3) (Vec3.zero : Vec3 R)) (Mat34.ofAxisAngle (Vec3.oneX : Vec3 R) ((MathFns.pi : R) / 6) (Vec3.zero : Vec3 R))))
  bad := ck bad 718 (Mat34.isInitialized v2)
  bad := ck bad 719 (Mat34.isNormal v2)
  bad := ck bad 720 (Mat34.isOrthogonal v2)
  bad := ck bad 721 (Mat34.isOrthonormal v2)
  bad := ck bad 722 (!(Mat34.isIdentity v2))
  return bad
end Mat34_33
#guard passes Mat34_33.run

namespace Mat34_34
abbrev R := Float32
def run : Res (List Nat) := do
  let mut bad : List Nat := []
  let v1 : Mat34 R := (Mat34.ofAxisAngle (Vec3.oneZ : Vec3 R) ((MathFns.pi : R) / 3) (Vec3.zero : Vec3 R))
  let v2 : Mat34 R := (← Mat34.rotatePreCoord v1 Coord.X ((MathFns.pi : R) / 6))
  bad := ck bad 730 (Near.near (0.001 : R) v2 (Mat34.mul (Mat34.ofAxisAngle (Vec3.oneZ : Vec3 R) ((MathFns.pi : R) / 3) (Vec3.zero : Vec3 R)) (Mat34.ofAxisAngle (Vec3.oneX : Vec3 R) ((MathFns.pi : R) / 6) (Vec3.zero : Vec3 R))))
  bad := ck bad 734 (Mat34.isInitialized v2)
  bad := ck bad 735 (Mat34.isNormal v2)
  bad := ck bad 736 (Mat34.isOrthogonal v2)
  bad := ck bad 737 (Mat34.isOrthonormal v2)
  bad := ck bad 738 (!(Mat34.isIdentity v2))
  return bad
end Mat34_34
#guard passes Mat34_34.run

namespace Mat34_35
abbrev R := Float32
def run : Res (List Nat) := do
  let mut bad : List Nat := []
  let v1 : Mat34 R := (Mat34.ofCols (⟨(1 : R), (2 : R), (3 : R)⟩ : Vec3 R) (⟨(4 : R), (5 : R), (6 : R)⟩ : Vec3 R) (⟨(7 : R), (8 : R), (9 : R)⟩ : Vec3 R) (⟨(10 : R), (11 : R), (12 : R)⟩ : Vec3 R))
  let v2 : Mat34 R := (Mat34.translatePre v1 (⟨(2 : R), (3 : R), (4 : R)⟩ : Vec3 R))
  bad := ck bad 745 (Near.near (0.001 : R) v2 (Mat34.ofCols (⟨(1 : R), (2 : R), (3 : R)⟩ : Vec3 R) (⟨(4 : R), (5 : R), (6 : R)⟩ : Vec3 R) (⟨(7 : R), (8 : R), (9 : R)⟩ : Vec3 R) (⟨(52 : R), (62 : R), (72 : R)⟩ : Vec3 R)))
  bad := ck bad 752 (Mat34.isInitialized v2)
  bad := ck bad 753 (!(Mat34.isNormal v2))
  bad := ck bad 754 (!(Mat34.isOrthogonal v2))
  bad := ck bad 755 (!(Mat34.isOrthonormal v2))
  bad := ck bad 756 (!(Mat34.isIdentity v2))
  return bad
end Mat34_35
#guard passes Mat34_35.run

namespace Mat34_36
abbrev R := Float32
def run : Res (List Nat) := do
  let mut bad : List Nat := []
  let v1 : Mat34 R := (Mat34.ofCols (⟨(1 : R), (2 : R), (3 : R)⟩ : Vec3 R) (⟨(4 : R), (5 : R), (6 : R)⟩ : Vec3 R) (⟨(7 : R), (8 : R), (9 : R)⟩ : Vec3 R) (⟨(10 : R), (11 : R), (12 : R)⟩ : Vec3 R))
  let v2 : Mat34 R := (Mat34.scalePre v1 (⟨(10 : R), (100 : R), (1000 : R)⟩ : Vec3 R))
  bad := ck bad 763 (Near.near (0.001 : R) v2 (Mat34.ofCols (⟨(10 : R), (20 : R), (30 : R)⟩ : Vec3 R) (⟨(400 : R), (500 : R), (600 : R)⟩ : Vec3 R) (⟨(7000 : R), (8000 : R), (9000 : R)⟩ : Vec3 R) (⟨(10 : R), (11 : R), (12 : R)⟩ : Vec3 R)))
  bad := ck bad 770 (Mat34.isInitialized v2)
  bad := ck bad 771 (!(Mat34.isNormal v2))
  bad := ck bad 772 (!(Mat34.isOrthogonal v2))
  bad := ck bad 773 (!(Mat34.isOrthonormal v2))
  bad := ck bad 774 (!(Mat34.isIdentity v2))
  return bad
end Mat34_36
#guard passes Mat34_36.run

namespace Mat34_37
abbrev R := Float32
def run : Res (List Nat) := do
  let mut bad : List Nat := []
  let v1 : Mat34 R := (Mat34.ofCols (⟨(1 : R), (2 : R), (3 : R)⟩ : Vec3 R) (⟨(4 : R), (5 : R), (6 : R)⟩ : Vec3 R) (⟨(7 : R), (8 : R), (9 : R)⟩ : Vec3 R) (⟨(10 : R), (11 : R), (12 : R)⟩ : Vec3 R))
  let v2 : Mat34 R := (Mat34.transpose v1)
  bad := ck bad 818 (Near.near (0.001 : R) v2 (Mat34.ofCols (⟨(1 : R), (4 : R), (7 : R)⟩ : Vec3 R) (⟨(2 : R), (5 : R), (8 : R)⟩ : Vec3 R) (⟨(3 : R), (6 : R), (9 : R)⟩ : Vec3 R) (⟨(10 : R), (11 : R), (12 : R)⟩ : Vec3 R)))
  bad := ck bad 825 (Mat34.isInitialized v2)
  bad := ck bad 826 (!(Mat34.isNormal v2))
  bad := ck bad 827 (!(Mat34.isOrthogonal v2))
  bad := ck bad 828 (!(Mat34.isOrthonormal v2))
  bad := ck bad 829 (!(Mat34.isIdentity v2))
  return bad
end Mat34_37
#guard passes Mat34_37.run

namespace Mat34_38
abbrev R := Float32
def run : Res (List Nat) := do
  let mut bad : List Nat := []
  let v1 : Mat34 R := (← Mat34.ofCoordAngle Coord.X ((MathFns.pi : R) / 6) (⟨(10 : R), (11 : R), (12 : R)⟩ : Vec3 R))
  let v2 : Mat34 R := (← Mat34.rotateCoord v1 Coord.Y ((MathFns.pi : R) / 3))
  let v3 : Mat34 R := v2
  let v4 : Mat34 R := (← Mat34.invert v3)
  bad := ck bad 838 (Near.near (0.001 : R) (Mat34.mul v2 v4) (Mat34.one : Mat34 R))
  bad := ck bad 839 (Mat34.isInitialized v2)
  bad := ck bad 840 (Mat34.isNormal v2)
  bad := ck bad 841 (Mat34.isOrthogonal v2)
  bad := ck bad 842 (Mat34.isOrthonormal v2)
  bad := ck bad 843 (!(Mat34.isIdentity v2))
  let v5 : Mat34 R := (Mat34.ofCols (⟨(1 : R), (7 : R), (8 : R)⟩ : Vec3 R) (⟨(4 : R), (2 : R), (9 : R)⟩ : Vec3 R) (⟨(5 : R), (6 : R), (3 : R)⟩ : Vec3 R) (⟨(10 : R), (11 : R), (12 : R)⟩ : Vec3 R))
  let v6 : Mat34 R := v5
  let v7 : Mat34 R := (← Mat34.invert v6)
  bad := ck bad 847 (Near.near (0.001 : R) (Mat34.mul v5 v7) (Mat34.one : Mat34 R))
  bad := ck bad 848 (Mat34.isInitialized v5)
  bad := ck bad 849 (!(Mat34.isNormal v5))
  bad := ck bad 850 (!(Mat34.isOrthogonal v5))
  bad := ck bad 851 (!(Mat34.isOrthonormal v5))
  bad := ck bad 852 (!(Mat34.isIdentity v5))
  return bad
end Mat34_38
#guard passes Mat34_38.run

namespace Mat34_39
abbrev R := Float32
def run : Res (List Nat) := do
  let mut bad : List Nat := []
  bad := ck bad 900 (Mat34.isIdentity (Mat34.one : Mat34 R))
  bad := ck bad 901 (!(Mat34.isIdentity (Mat34.ofCols (Vec3.oneZ : Vec3 R) (Vec3.oneY : Vec3 R) (Vec3.oneX : Vec3 R) (Vec3.zero : Vec3 R))))
  bad := ck bad 902 (!(Mat34.isIdentity (Mat34.ofCols (⟨(1 : R), (7 : R), (8 : R)⟩ : Vec3 R) (⟨(4 : R), (2 : R), (9 : R)⟩ : Vec3 R) (⟨(5 : R), (6 : R), (3 : R)⟩ : Vec3 R) (Vec3.zero : Vec3 R))))
  bad := ck bad 903 (!(Mat34.isIdentity (Mat34.ofScalar (1.1 : R))))
  return bad
end Mat34_39
#guard passes Mat34_39.run

namespace Mat34_40
abbrev R := Float32
def run : Res (List Nat) := do
  let mut bad : List Nat := []
  bad := ck bad 908 (Mat34.isOrthonormal (Mat34.one : Mat34 R))
  bad := ck bad 909 (Mat34.isOrthonormal (Mat34.ofCols (Vec3.oneZ : Vec3 R) (Vec3.oneY : Vec3 R) (Vec3.oneX : Vec3 R) (Vec3.zero : Vec3 R)))
  bad := ck bad 910 (!(Mat34.isOrthonormal (Mat34.ofCols (⟨(1 : R), (7 : R), (8 : R)⟩ : Vec3 R) (⟨(4 : R), (2 : R), (9 : R)⟩ : Vec3 R) (⟨(5 : R), (6 : R), (3 : R)⟩ : Vec3 R) (Vec3.zero : Vec3 R))))
  bad := ck bad 911 (!(Mat34.isOrthonormal (Mat34.ofScalar (1.1 : R))))
  return bad
end Mat34_40
#guard passes Mat34_40.run

namespace Mat34_41
abbrev R := Float32
def run : Res (List Nat) := do
  let mut bad : List Nat := []
  bad := ck bad 1003 (Near.near (0.001 : R) (Mat34.one : Mat34 R) (Mat34.one : Mat34 R))
  return bad
end Mat34_41
#guard passes Mat34_41.run

end MathLib.Conformance
