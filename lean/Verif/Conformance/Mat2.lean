import Verif.Conformance.Base

/-!
# Unit tests of `tests/tests/src/test_mat2.cpp`, replayed on the model

Generated by `tools/conform.py`; the numbers are the source lines of the checks.  225 checks;
27 checks of that file are not translated (casts, random draws, `sizeof`, `data()`, and
functions outside the model).
-/

namespace MathLib.Conformance
set_option linter.all false

namespace Mat2_0
abbrev R := Float32
def run : Res (List Nat) := do
  let mut bad : List Nat := []
  bad := ck bad 19 (Vec2.eq (Mat2.zero : Mat2 R).x (Vec2.zero : Vec2 R))
  bad := ck bad 20 (Vec2.eq (Mat2.zero : Mat2 R).y (Vec2.zero : Vec2 R))
  bad := ck bad 21 (Mat2.isInitialized (Mat2.zero : Mat2 R))
  bad := ck bad 22 (!(Mat2.isNormal (Mat2.zero : Mat2 R)))
  bad := ck bad 23 (Mat2.isOrthogonal (Mat2.zero : Mat2 R))
  bad := ck bad 24 (!(Mat2.isOrthonormal (Mat2.zero : Mat2 R)))
  bad := ck bad 25 (!(Mat2.isIdentity (Mat2.zero : Mat2 R)))
  return bad
end Mat2_0
#guard passes Mat2_0.run

namespace Mat2_1
abbrev R := Float32
def run : Res (List Nat) := do
  let mut bad : List Nat := []
  bad := ck bad 30 (Vec2.eq (Mat2.one : Mat2 R).x (Vec2.oneX : Vec2 R))
  bad := ck bad 31 (Vec2.eq (Mat2.one : Mat2 R).y (Vec2.oneY : Vec2 R))
  bad := ck bad 32 (Mat2.isInitialized (Mat2.one : Mat2 R))
  bad := ck bad 33 (Mat2.isNormal (Mat2.one : Mat2 R))
  bad := ck bad 34 (Mat2.isOrthogonal (Mat2.one : Mat2 R))
  bad := ck bad 35 (Mat2.isOrthonormal (Mat2.one : Mat2 R))
  bad := ck bad 36 (Mat2.isIdentity (Mat2.one : Mat2 R))
  return bad
end Mat2_1
#guard passes Mat2_1.run

namespace Mat2_2
abbrev R := Float32
def run : Res (List Nat) := do
  let mut bad : List Nat := []
  let v1 : Mat2 R := (Mat2.ofScalar (3 : R))
  bad := ck bad 44 (Vec2.eq v1.x (⟨(3 : R), (0 : R)⟩ : Vec2 R))
  bad := ck bad 45 (Vec2.eq v1.y (⟨(0 : R), (3 : R)⟩ : Vec2 R))
  bad := ck bad 46 (Mat2.isInitialized v1)
  bad := ck bad 47 (!(Mat2.isNormal v1))
  bad := ck bad 48 (Mat2.isOrthogonal v1)
  bad := ck bad 49 (!(Mat2.isOrthonormal v1))
  bad := ck bad 50 (!(Mat2.isIdentity v1))
  return bad
end Mat2_2
#guard passes Mat2_2.run

namespace Mat2_3
abbrev R := Float32
def run : Res (List Nat) := do
  let mut bad : List Nat := []
  let v1 : Mat2 R := (Mat2.ofCols (⟨(1 : R), (2 : R)⟩ : Vec2 R) (⟨(4 : R), (5 : R)⟩ : Vec2 R))
  bad := ck bad 56 (Vec2.eq v1.x (⟨(1 : R), (2 : R)⟩ : Vec2 R))
  bad := ck bad 57 (Vec2.eq v1.y (⟨(4 : R), (5 : R)⟩ : Vec2 R))
  bad := ck bad 58 (Mat2.isInitialized v1)
  bad := ck bad 59 (!(Mat2.isNormal v1))
  bad := ck bad 60 (!(Mat2.isOrthogonal v1))
  bad := ck bad 61 (!(Mat2.isOrthonormal v1))
  bad := ck bad 62 (!(Mat2.isIdentity v1))
  return bad
end Mat2_3
#guard passes Mat2_3.run

namespace Mat2_4
abbrev R := Float32
def run : Res (List Nat) := do
  let mut bad : List Nat := []
  let v1 : Mat2 R := (Mat2.ofScalar (3 : R))
  let v2 : Mat2 R := (Mat2.setIdentity : Mat2 R)
  bad := ck bad 71 (Mat2.eq v2 (Mat2.one : Mat2 R))
  bad := ck bad 72 (Mat2.isInitialized v2)
  bad := ck bad 73 (Mat2.isNormal v2)
  bad := ck bad 74 (Mat2.isOrthogonal v2)
  bad := ck bad 75 (Mat2.isOrthonormal v2)
  bad := ck bad 76 (Mat2.isIdentity v2)
  return bad
end Mat2_4
#guard passes Mat2_4.run

namespace Mat2_5
abbrev R := Float32
def run : Res (List Nat) := do
  let mut bad : List Nat := []
  let v1 : Mat2 R := (Mat2.ofScalar (3 : R))
  let v2 : Mat2 R := (Mat2.ofScalar (42 : R))
  let v3 : Mat2 R := v2
  bad := ck bad 84 (Mat2.eq v3 v2)
  bad := ck bad 85 (Mat2.isInitialized v3)
  bad := ck bad 86 (!(Mat2.isNormal v3))
  bad := ck bad 87 (Mat2.isOrthogonal v3)
  bad := ck bad 88 (!(Mat2.isOrthonormal v3))
  bad := ck bad 89 (!(Mat2.isIdentity v3))
  return bad
end Mat2_5
#guard passes Mat2_5.run

namespace Mat2_6
abbrev R := Float32
def run : Res (List Nat) := do
  let mut bad : List Nat := []
  let v1 : Mat2 R := (Mat2.ofScalar (3 : R))
  let v2 : Mat2 R := (Mat2.ofCols (⟨(1 : R), (2 : R)⟩ : Vec2 R) (⟨(4 : R), (5 : R)⟩ : Vec2 R))
  bad := ck bad 96 (Near.near (0.001 : R) (Mat2.scaled v2 (⟨(2 : R), (3 : R)⟩ : Vec2 R)) (Mat2.ofCols (⟨(2 : R), (4 : R)⟩ : Vec2 R) (⟨(12 : R), (15 : R)⟩ : Vec2 R)))
  bad := ck bad 101 (Mat2.isInitialized v2)
  bad := ck bad 102 (!(Mat2.isNormal v2))
  bad := ck bad 103 (!(Mat2.isOrthogonal v2))
  bad := ck bad 104 (!(Mat2.isOrthonormal v2))
  bad := ck bad 105 (!(Mat2.isIdentity v2))
  return bad
end Mat2_6
#guard passes Mat2_6.run

namespace Mat2_7
abbrev R := Float32
def run : Res (List Nat) := do
  let mut bad : List Nat := []
  let v1 : Mat2 R := (Mat2.ofScalar (3 : R))
  let v2 : Mat2 R := (Mat2.ofAngle ((MathFns.pi : R) / 4))
  bad := ck bad 112 (Near.near (0.001 : R) v2 (Mat2.ofCols (⟨(0.70711 : R), (0.70711 : R)⟩ : Vec2 R) (⟨(-(0.70711 : R)), (0.70711 : R)⟩ : Vec2 R)))
  bad := ck bad 116 (Mat2.isInitialized v2)
  bad := ck bad 117 (Mat2.isNormal v2)
  bad := ck bad 118 (Mat2.isOrthogonal v2)
  bad := ck bad 119 (Mat2.isOrthonormal v2)
  bad := ck bad 120 (!(Mat2.isIdentity v2))
  return bad
end Mat2_7
#guard passes Mat2_7.run

namespace Mat2_8
abbrev R := Float32
def run : Res (List Nat) := do
  let mut bad : List Nat := []
  let v1 : Mat2 R := (Mat2.one : Mat2 R)
  let v2 : Mat2 R := (Mat2.ofAngle ((MathFns.pi : R) / 3))
  let v3 : Mat2 R := (Mat2.ofAngle ((MathFns.pi : R) / 6))
  let v4 : Mat2 R := (Mat2.slerp v1 v2 (0.0 : R))
  let v5 : Mat2 R := (Mat2.slerp v1 v2 (0.5 : R))
  let v6 : Mat2 R := (Mat2.slerp v1 v2 (1.0 : R))
  bad := ck bad 132 (Near.near (0.001 : R) v4 v1)
  bad := ck bad 133 (Mat2.isInitialized v4)
  bad := ck bad 134 (Mat2.isNormal v4)
  bad := ck bad 135 (Mat2.isOrthogonal v4)
  bad := ck bad 136 (Mat2.isOrthonormal v4)
  bad := ck bad 137 (Mat2.isIdentity v4)
  bad := ck bad 138 (Near.near (0.001 : R) v5 v3)
  bad := ck bad 139 (Mat2.isInitialized v5)
  bad := ck bad 140 (Mat2.isNormal v5)
  bad := ck bad 141 (Mat2.isOrthogonal v5)
  bad := ck bad 142 (Mat2.isOrthonormal v5)
  bad := ck bad 143 (!(Mat2.isIdentity v5))
  bad := ck bad 144 (Near.near (0.001 : R) v6 v2)
  bad := ck bad 145 (Mat2.isInitialized v6)
  bad := ck bad 146 (Mat2.isNormal v6)
  bad := ck bad 147 (Mat2.isOrthogonal v6)
  bad := ck bad 148 (Mat2.isOrthonormal v6)
  bad := ck bad 149 (!(Mat2.isIdentity v6))
  return bad
end Mat2_8
#guard passes Mat2_8.run

namespace Mat2_9
abbrev R := Float32
def run : Res (List Nat) := do
  let mut bad : List Nat := []
  let v1 : Mat2 R := (Mat2.one : Mat2 R)
  let v2 : Mat2 R := (Mat2.ofAngle ((MathFns.pi : R) / 3))
  let v3 : Mat2 R := (Mat2.ofAngle ((MathFns.pi : R) / 8))
  let v4 : Mat2 R := (Mat2.slerpMaxAngle v1 v2 (0.0 : R))
  let v5 : Mat2 R := (Mat2.slerpMaxAngle v1 v2 ((MathFns.pi : R) / 8))
  let v6 : Mat2 R := (Mat2.slerpMaxAngle v1 v2 ((MathFns.pi : R) / 3))
  bad := ck bad 161 (Near.near (0.001 : R) v4 v1)
  bad := ck bad 162 (Mat2.isInitialized v4)
  bad := ck bad 163 (Mat2.isNormal v4)
  bad := ck bad 164 (Mat2.isOrthogonal v4)
  bad := ck bad 165 (Mat2.isOrthonormal v4)
  bad := ck bad 166 (Mat2.isIdentity v4)
  bad := ck bad 167 (Near.near (0.001 : R) v5 v3)
  bad := ck bad 168 (Mat2.isInitialized v5)
  bad := ck bad 169 (Mat2.isNormal v5)
  bad := ck bad 170 (Mat2.isOrthogonal v5)
  bad := ck bad 171 (Mat2.isOrthonormal v5)
  bad := ck bad 172 (!(Mat2.isIdentity v5))
  bad := ck bad 173 (Near.near (0.001 : R) v6 v2)
  bad := ck bad 174 (Mat2.isInitialized v6)
  bad := ck bad 175 (Mat2.isNormal v6)
  bad := ck bad 176 (Mat2.isOrthogonal v6)
  bad := ck bad 177 (Mat2.isOrthonormal v6)
  bad := ck bad 178 (!(Mat2.isIdentity v6))
  return bad
end Mat2_9
#guard passes Mat2_9.run

namespace Mat2_10
abbrev R := Float32
def run : Res (List Nat) := do
  let mut bad : List Nat := []
  let v1 : Mat2 R := (Mat2.one : Mat2 R)
  let v2 : Mat2 R := (Mat2.smulAssign v1 (42.0 : R))
  bad := ck bad 187 (Near.near (0.001 : R) v2 (Mat2.ofScalar (42.0 : R)))
  bad := ck bad 188 (Mat2.isInitialized v2)
  bad := ck bad 189 (!(Mat2.isNormal v2))
  bad := ck bad 190 (Mat2.isOrthogonal v2)
  bad := ck bad 191 (!(Mat2.isOrthonormal v2))
  bad := ck bad 192 (!(Mat2.isIdentity v2))
  return bad
end Mat2_10
#guard passes Mat2_10.run

namespace Mat2_11
abbrev R := Float32
def run : Res (List Nat) := do
  let mut bad : List Nat := []
  let v1 : Mat2 R := (Mat2.ofCols (⟨(1 : R), (2 : R)⟩ : Vec2 R) (⟨(4 : R), (5 : R)⟩ : Vec2 R))
  let v2 : Mat2 R := (Mat2.ofCols (⟨(9 : R), (8 : R)⟩ : Vec2 R) (⟨(6 : R), (5 : R)⟩ : Vec2 R))
  let v3 : Mat2 R := (Mat2.mulAssign v1 v2)
  bad := ck bad 200 (Near.near (0.001 : R) v3 (Mat2.ofCols (⟨(41 : R), (58 : R)⟩ : Vec2 R) (⟨(26 : R), (37 : R)⟩ : Vec2 R)))
  bad := ck bad 204 (Mat2.isInitialized v3)
  bad := ck bad 205 (!(Mat2.isNormal v3))
  bad := ck bad 206 (!(Mat2.isOrthogonal v3))
  bad := ck bad 207 (!(Mat2.isOrthonormal v3))
  bad := ck bad 208 (!(Mat2.isIdentity v3))
  return bad
end Mat2_11
#guard passes Mat2_11.run

namespace Mat2_12
abbrev R := Float32
def run : Res (List Nat) := do
  let mut bad : List Nat := []
  let v1 : Mat2 R := (Mat2.ofCols (⟨(10 : R), (10 : R)⟩ : Vec2 R) (⟨(10 : R), (10 : R)⟩ : Vec2 R))
  let v2 : Mat2 R := (← Mat2.sdivAssign v1 (5.0 : R))
  bad := ck bad 215 (Near.near (0.001 : R) v2 (Mat2.ofCols (⟨(2 : R), (2 : R)⟩ : Vec2 R) (⟨(2 : R), (2 : R)⟩ : Vec2 R)))
  bad := ck bad 219 (Mat2.isInitialized v2)
  bad := ck bad 220 (!(Mat2.isNormal v2))
  bad := ck bad 221 (!(Mat2.isOrthogonal v2))
  bad := ck bad 222 (!(Mat2.isOrthonormal v2))
  bad := ck bad 223 (!(Mat2.isIdentity v2))
  return bad
end Mat2_12
#guard passes Mat2_12.run

namespace Mat2_13
abbrev R := Float32
def run : Res (List Nat) := do
  let mut bad : List Nat := []
  let v1 : Mat2 R := (Mat2.ofCols (⟨(1 : R), (2 : R)⟩ : Vec2 R) (⟨(4 : R), (5 : R)⟩ : Vec2 R))
  let v2 : Mat2 R := (Mat2.neg v1)
  bad := ck bad 230 (Near.near (0.001 : R) v2 (Mat2.ofCols (⟨(-1 : R), (-2 : R)⟩ : Vec2 R) (⟨(-4 : R), (-5 : R)⟩ : Vec2 R)))
  bad := ck bad 234 (Mat2.isInitialized v2)
  bad := ck bad 235 (!(Mat2.isNormal v2))
  bad := ck bad 236 (!(Mat2.isOrthogonal v2))
  bad := ck bad 237 (!(Mat2.isOrthonormal v2))
  bad := ck bad 238 (!(Mat2.isIdentity v2))
  return bad
end Mat2_13
#guard passes Mat2_13.run

namespace Mat2_14
abbrev R := Float32
def run : Res (List Nat) := do
  let mut bad : List Nat := []
  let v1 : Mat2 R := (Mat2.ofCols (⟨(1 : R), (2 : R)⟩ : Vec2 R) (⟨(4 : R), (5 : R)⟩ : Vec2 R))
  let v2 : Mat2 R := (Mat2.ofCols (⟨(9 : R), (8 : R)⟩ : Vec2 R) (⟨(6 : R), (5 : R)⟩ : Vec2 R))
  let v3 : Mat2 R := (Mat2.mul v1 v2)
  bad := ck bad 246 (Near.near (0.001 : R) v3 (Mat2.ofCols (⟨(41 : R), (58 : R)⟩ : Vec2 R) (⟨(26 : R), (37 : R)⟩ : Vec2 R)))
  bad := ck bad 250 (Mat2.isInitialized v3)
  bad := ck bad 251 (!(Mat2.isNormal v3))
  bad := ck bad 252 (!(Mat2.isOrthogonal v3))
  bad := ck bad 253 (!(Mat2.isOrthonormal v3))
  bad := ck bad 254 (!(Mat2.isIdentity v3))
  return bad
end Mat2_14
#guard passes Mat2_14.run

namespace Mat2_15
abbrev R := Float32
def run : Res (List Nat) := do
  let mut bad : List Nat := []
  let v1 : Mat2 R := (Mat2.ofCols (⟨(10 : R), (10 : R)⟩ : Vec2 R) (⟨(10 : R), (10 : R)⟩ : Vec2 R))
  let v2 : Mat2 R := (Mat2.smul v1 (0.2 : R))
  bad := ck bad 261 (Near.near (0.001 : R) v2 (Mat2.ofCols (⟨(2 : R), (2 : R)⟩ : Vec2 R) (⟨(2 : R), (2 : R)⟩ : Vec2 R)))
  bad := ck bad 265 (Mat2.isInitialized v2)
  bad := ck bad 266 (!(Mat2.isNormal v2))
  bad := ck bad 267 (!(Mat2.isOrthogonal v2))
  bad := ck bad 268 (!(Mat2.isOrthonormal v2))
  bad := ck bad 269 (!(Mat2.isIdentity v2))
  return bad
end Mat2_15
#guard passes Mat2_15.run

namespace Mat2_16
abbrev R := Float32
def run : Res (List Nat) := do
  let mut bad : List Nat := []
  let v1 : Mat2 R := (Mat2.ofCols (⟨(1 : R), (2 : R)⟩ : Vec2 R) (⟨(4 : R), (5 : R)⟩ : Vec2 R))
  bad := ck bad 275 (Near.near (0.001 : R) (Mat2.mulVec v1 (Vec2.oneX : Vec2 R)) (⟨(1 : R), (2 : R)⟩ : Vec2 R))
  bad := ck bad 276 (Near.near (0.001 : R) (Mat2.mulVec v1 (Vec2.oneY : Vec2 R)) (⟨(4 : R), (5 : R)⟩ : Vec2 R))
  return bad
end Mat2_16
#guard passes Mat2_16.run

namespace Mat2_17
abbrev R := Float32
def run : Res (List Nat) := do
  let mut bad : List Nat := []
  let v1 : Mat2 R := (Mat2.ofCols (⟨(10 : R), (10 : R)⟩ : Vec2 R) (⟨(10 : R), (10 : R)⟩ : Vec2 R))
  let v2 : Mat2 R := (← Mat2.sdiv v1 (5.0 : R))
  bad := ck bad 283 (Near.near (0.001 : R) v2 (Mat2.ofCols (⟨(2 : R), (2 : R)⟩ : Vec2 R) (⟨(2 : R), (2 : R)⟩ : Vec2 R)))
  bad := ck bad 287 (Mat2.isInitialized v2)
  bad := ck bad 288 (!(Mat2.isNormal v2))
  bad := ck bad 289 (!(Mat2.isOrthogonal v2))
  bad := ck bad 290 (!(Mat2.isOrthonormal v2))
  bad := ck bad 291 (!(Mat2.isIdentity v2))
  return bad
end Mat2_17
#guard passes Mat2_17.run

namespace Mat2_18
abbrev R := Float32
def run : Res (List Nat) := do
  let mut bad : List Nat := []
  let v1 : Mat2 R := (Mat2.ofCols (⟨(1 : R), (2 : R)⟩ : Vec2 R) (⟨(4 : R), (5 : R)⟩ : Vec2 R))
  bad := ck bad 309 (Mat2.ne v1 (Mat2.ofCols (⟨(1.1 : R), (2 : R)⟩ : Vec2 R) (⟨(4 : R), (5 : R)⟩ : Vec2 R)))
  bad := ck bad 310 (Mat2.ne v1 (Mat2.ofCols (⟨(1 : R), (2.1 : R)⟩ : Vec2 R) (⟨(4 : R), (5 : R)⟩ : Vec2 R)))
  bad := ck bad 311 (Mat2.ne v1 (Mat2.ofCols (⟨(1 : R), (2 : R)⟩ : Vec2 R) (⟨(4.1 : R), (5 : R)⟩ : Vec2 R)))
  bad := ck bad 312 (Mat2.ne v1 (Mat2.ofCols (⟨(1 : R), (2 : R)⟩ : Vec2 R) (⟨(4 : R), (5.1 : R)⟩ : Vec2 R)))
  return bad
end Mat2_18
#guard passes Mat2_18.run

namespace Mat2_19
abbrev R := Float32
def run : Res (List Nat) := do
  let mut bad : List Nat := []
  let v1 : Mat2 R := (Mat2.ofCols (⟨(10 : R), (10 : R)⟩ : Vec2 R) (⟨(10 : R), (10 : R)⟩ : Vec2 R))
  let v2 : Mat2 R := (Mat2.scale v1 (⟨(2 : R), (3 : R)⟩ : Vec2 R))
  bad := ck bad 321 (Near.near (0.001 : R) v2 (Mat2.ofCols (⟨(20 : R), (20 : R)⟩ : Vec2 R) (⟨(30 : R), (30 : R)⟩ : Vec2 R)))
  bad := ck bad 326 (Mat2.isInitialized v2)
  bad := ck bad 327 (!(Mat2.isNormal v2))
  bad := ck bad 328 (!(Mat2.isOrthogonal v2))
  bad := ck bad 329 (!(Mat2.isOrthonormal v2))
  bad := ck bad 330 (!(Mat2.isIdentity v2))
  return bad
end Mat2_19
#guard passes Mat2_19.run

namespace Mat2_20
abbrev R := Float32
def run : Res (List Nat) := do
  let mut bad : List Nat := []
  let v1 : Mat2 R := (Mat2.ofCols (⟨(1 : R), (2 : R)⟩ : Vec2 R) (⟨(4 : R), (5 : R)⟩ : Vec2 R))
  let v2 : Mat2 R := (Mat2.transpose v1)
  bad := ck bad 337 (Near.near (0.001 : R) v2 (Mat2.ofCols (⟨(1 : R), (4 : R)⟩ : Vec2 R) (⟨(2 : R), (5 : R)⟩ : Vec2 R)))
  bad := ck bad 342 (Mat2.isInitialized v2)
  bad := ck bad 343 (!(Mat2.isNormal v2))
  bad := ck bad 344 (!(Mat2.isOrthogonal v2))
  bad := ck bad 345 (!(Mat2.isOrthonormal v2))
  bad := ck bad 346 (!(Mat2.isIdentity v2))
  return bad
end Mat2_20
#guard passes Mat2_20.run

namespace Mat2_21
abbrev R := Float32
def run : Res (List Nat) := do
  let mut bad : List Nat := []
  let v1 : Mat2 R := (Mat2.ofAngle ((MathFns.pi : R) / 3))
  let v2 : Mat2 R := (Mat2.rotate v1 ((MathFns.pi : R) / 6))
  bad := ck bad 354 (Near.near (0.001 : R) v2 (Mat2.mul (Mat2.ofAngle ((MathFns.pi : R) / 6)) (Mat2.ofAngle ((MathFns.pi : R) / 3))))
  bad := ck bad 355 (Mat2.isInitialized v2)
  bad := ck bad 356 (Mat2.isNormal v2)
  bad := ck bad 357 (Mat2.isOrthogonal v2)
  bad := ck bad 358 (Mat2.isOrthonormal v2)
  bad := ck bad 359 (!(Mat2.isIdentity v2))
  return bad
end Mat2_21
#guard passes Mat2_21.run

namespace Mat2_22
abbrev R := Float32
def run : Res (List Nat) := do
  let mut bad : List Nat := []
  let v1 : Mat2 R := (Mat2.ofAngle ((MathFns.pi : R) / 3))
  let v2 : Mat2 R := (Mat2.rotatePre v1 ((MathFns.pi : R) / 6))
  bad := ck bad 367 (Near.near (0.001 : R) v2 (Mat2.mul (Mat2.ofAngle ((MathFns.pi : R) / 3)) (Mat2.ofAngle ((MathFns.pi : R) / 6))))
  bad := ck bad 368 (Mat2.isInitialized v2)
  bad := ck bad 369 (Mat2.isNormal v2)
  bad := ck bad 370 (Mat2.isOrthogonal v2)
  bad := ck bad 371 (Mat2.isOrthonormal v2)
  bad := ck bad 372 (!(Mat2.isIdentity v2))
  return bad
end Mat2_22
#guard passes Mat2_22.run

namespace Mat2_23
abbrev R := Float32
def run : Res (List Nat) := do
  let mut bad : List Nat := []
  let v1 : Mat2 R := (Mat2.ofCols (⟨(1 : R), (2 : R)⟩ : Vec2 R) (⟨(4 : R), (5 : R)⟩ : Vec2 R))
  let v2 : Mat2 R := (Mat2.orthonormalise v1)
  bad := ck bad 379 (Mat2.isOrthonormal v2)
  bad := ck bad 380 (Mat2.isInitialized v2)
  bad := ck bad 381 (Mat2.isNormal v2)
  bad := ck bad 382 (Mat2.isOrthogonal v2)
  bad := ck bad 383 (Mat2.isOrthonormal v2)
  bad := ck bad 384 (!(Mat2.isIdentity v2))
  return bad
end Mat2_23
#guard passes Mat2_23.run

namespace Mat2_24
abbrev R := Float32
def run : Res (List Nat) := do
  let mut bad : List Nat := []
  let v1 : Mat2 R := (Mat2.ofAngle ((MathFns.pi : R) / 3))
  let v2 : Mat2 R := (Mat2.rotated v1 ((MathFns.pi : R) / 6))
  bad := ck bad 394 (Near.near (0.001 : R) v2 (Mat2.mul (Mat2.ofAngle ((MathFns.pi : R) / 6)) (Mat2.ofAngle ((MathFns.pi : R) / 3))))
  bad := ck bad 395 (Mat2.isInitialized v2)
  bad := ck bad 396 (Mat2.isNormal v2)
  bad := ck bad 397 (Mat2.isOrthogonal v2)
  bad := ck bad 398 (Mat2.isOrthonormal v2)
  bad := ck bad 399 (!(Mat2.isIdentity v2))
  return bad
end Mat2_24
#guard passes Mat2_24.run

namespace Mat2_25
abbrev R := Float32
def run : Res (List Nat) := do
  let mut bad : List Nat := []
  let v1 : Mat2 R := (Mat2.ofCols (⟨(10 : R), (10 : R)⟩ : Vec2 R) (⟨(10 : R), (10 : R)⟩ : Vec2 R))
  let v2 : Mat2 R := (Mat2.scaled v1 (⟨(2 : R), (3 : R)⟩ : Vec2 R))
  bad := ck bad 406 (Near.near (0.001 : R) v2 (Mat2.ofCols (⟨(20 : R), (20 : R)⟩ : Vec2 R) (⟨(30 : R), (30 : R)⟩ : Vec2 R)))
  bad := ck bad 411 (Mat2.isInitialized v2)
  bad := ck bad 412 (!(Mat2.isNormal v2))
  bad := ck bad 413 (!(Mat2.isOrthogonal v2))
  bad := ck bad 414 (!(Mat2.isOrthonormal v2))
  bad := ck bad 415 (!(Mat2.isIdentity v2))
  return bad
end Mat2_25
#guard passes Mat2_25.run

namespace Mat2_26
abbrev R := Float32
def run : Res (List Nat) := do
  let mut bad : List Nat := []
  let v1 : Mat2 R := (Mat2.ofCols (⟨(1 : R), (2 : R)⟩ : Vec2 R) (⟨(4 : R), (5 : R)⟩ : Vec2 R))
  let v2 : Mat2 R := (Mat2.transposed v1)
  bad := ck bad 422 (Near.near (0.001 : R) v2 (Mat2.ofCols (⟨(1 : R), (4 : R)⟩ : Vec2 R) (⟨(2 : R), (5 : R)⟩ : Vec2 R)))
  bad := ck bad 426 (Mat2.isInitialized v2)
  bad := ck bad 427 (!(Mat2.isNormal v2))
  bad := ck bad 428 (!(Mat2.isOrthogonal v2))
  bad := ck bad 429 (!(Mat2.isOrthonormal v2))
  bad := ck bad 430 (!(Mat2.isIdentity v2))
  return bad
end Mat2_26
#guard passes Mat2_26.run

namespace Mat2_27
abbrev R := Float32
def run : Res (List Nat) := do
  let mut bad : List Nat := []
  let v1 : Mat2 R := (Mat2.ofCols (⟨(1 : R), (7 : R)⟩ : Vec2 R) (⟨(4 : R), (2 : R)⟩ : Vec2 R))
  let v2 : Mat2 R := (Mat2.cofactors v1)
  bad := ck bad 437 (Near.near (0.001 : R) v2 (Mat2.ofCols (⟨(2 : R), (-4 : R)⟩ : Vec2 R) (⟨(-7 : R), (1 : R)⟩ : Vec2 R)))
  bad := ck bad 441 (Mat2.isInitialized v2)
  bad := ck bad 442 (!(Mat2.isNormal v2))
  bad := ck bad 443 (!(Mat2.isOrthogonal v2))
  bad := ck bad 444 (!(Mat2.isOrthonormal v2))
  bad := ck bad 445 (!(Mat2.isIdentity v2))
  return bad
end Mat2_27
#guard passes Mat2_27.run

namespace Mat2_28
abbrev R := Float32
def run : Res (List Nat) := do
  let mut bad : List Nat := []
  let v1 : Mat2 R := (Mat2.ofCols (⟨(1 : R), (7 : R)⟩ : Vec2 R) (⟨(4 : R), (2 : R)⟩ : Vec2 R))
  let v2 : Mat2 R := (Mat2.adjoint v1)
  bad := ck bad 452 (Near.near (0.001 : R) v2 (Mat2.ofCols (⟨(2 : R), (-7 : R)⟩ : Vec2 R) (⟨(-4 : R), (1 : R)⟩ : Vec2 R)))
  bad := ck bad 456 (Mat2.isInitialized v2)
  bad := ck bad 457 (!(Mat2.isNormal v2))
  bad := ck bad 458 (!(Mat2.isOrthogonal v2))
  bad := ck bad 459 (!(Mat2.isOrthonormal v2))
  bad := ck bad 460 (!(Mat2.isIdentity v2))
  return bad
end Mat2_28
#guard passes Mat2_28.run

namespace Mat2_29
abbrev R := Float32
def run : Res (List Nat) := do
  let mut bad : List Nat := []
  let v1 : Mat2 R := (Mat2.ofCols (⟨(1 : R), (7 : R)⟩ : Vec2 R) (⟨(4 : R), (2 : R)⟩ : Vec2 R))
  bad := ck bad 466 ((Mat2.trace v1) == (3.0 : R))
  return bad
end Mat2_29
#guard passes Mat2_29.run

namespace Mat2_30
abbrev R := Float32
def run : Res (List Nat) := do
  let mut bad : List Nat := []
  let v1 : Mat2 R := (Mat2.ofCols (⟨(1 : R), (7 : R)⟩ : Vec2 R) (⟨(4 : R), (2 : R)⟩ : Vec2 R))
  bad := ck bad 472 ((Mat2.determinant v1) == (-(26.0 : R)))
  return bad
end Mat2_30
#guard passes Mat2_30.run

namespace Mat2_31
abbrev R := Float32
def run : Res (List Nat) := do
  let mut bad : List Nat := []
  let v1 : Mat2 R := (Mat2.ofCols (⟨(1 : R), (7 : R)⟩ : Vec2 R) (⟨(4 : R), (2 : R)⟩ : Vec2 R))
  let v2 : Mat2 R := (← Mat2.inversed v1)
  bad := ck bad 479 (Near.near (0.001 : R) v2 (Mat2.ofCols (⟨((-2 : R) / (26.0 : R)), ((7 : R) / (26.0 : R))⟩ : Vec2 R) (⟨((4 : R) / (26.0 : R)), ((-1 : R) / (26.0 : R))⟩ : Vec2 R)))
  bad := ck bad 484 (Mat2.isInitialized v2)
  bad := ck bad 485 (!(Mat2.isNormal v2))
  bad := ck bad 486 (Mat2.isOrthogonal v2)
  bad := ck bad 487 (!(Mat2.isOrthonormal v2))
  bad := ck bad 488 (!(Mat2.isIdentity v2))
  return bad
end Mat2_31
#guard passes Mat2_31.run

namespace Mat2_32
abbrev R := Float32
def run : Res (List Nat) := do
  let mut bad : List Nat := []
  bad := ck bad 493 (Mat2.isIdentity (Mat2.one : Mat2 R))
  bad := ck bad 494 (!(Mat2.isIdentity (Mat2.ofCols (Vec2.oneY : Vec2 R) (Vec2.oneX : Vec2 R))))
  bad := ck bad 495 (!(Mat2.isIdentity (Mat2.ofCols (⟨(1 : R), (7 : R)⟩ : Vec2 R) (⟨(4 : R), (2 : R)⟩ : Vec2 R))))
  bad := ck bad 496 (!(Mat2.isIdentity (Mat2.ofScalar (1.1 : R))))
  return bad
end Mat2_32
#guard passes Mat2_32.run

namespace Mat2_33
abbrev R := Float32
def run : Res (List Nat) := do
  let mut bad : List Nat := []
  bad := ck bad 501 (Mat2.isOrthonormal (Mat2.one : Mat2 R))
  bad := ck bad 502 (Mat2.isOrthonormal (Mat2.ofCols (Vec2.oneY : Vec2 R) (Vec2.oneX : Vec2 R)))
  bad := ck bad 503 (!(Mat2.isOrthonormal (Mat2.ofCols (⟨(1 : R), (7 : R)⟩ : Vec2 R) (⟨(4 : R), (2 : R)⟩ : Vec2 R))))
  bad := ck bad 504 (!(Mat2.isOrthonormal (Mat2.ofScalar (1.1 : R))))
  return bad
end Mat2_33
#guard passes Mat2_33.run

namespace Mat2_34
abbrev R := Float32
def run : Res (List Nat) := do
  let mut bad : List Nat := []
  bad := ck bad 509 ((Mat2.normalError (Mat2.one : Mat2 R)) == (0.0 : R))
  bad := ck bad 510 ((Mat2.normalError (Mat2.ofCols (Vec2.oneY : Vec2 R) (Vec2.oneX : Vec2 R))) == (0.0 : R))
  bad := ck bad 511 (Near.near (0.001 : R) (Mat2.normalError (Mat2.ofCols (⟨(1 : R), (7 : R)⟩ : Vec2 R) (⟨(4 : R), (2 : R)⟩ : Vec2 R))) (2762.0 : R))
  bad := ck bad 513 (Near.near (0.001 : R) (Mat2.normalError (Mat2.ofScalar (1.1 : R))) (0.0882 : R))
  return bad
end Mat2_34
#guard passes Mat2_34.run

namespace Mat2_35
abbrev R := Float32
def run : Res (List Nat) := do
  let mut bad : List Nat := []
  bad := ck bad 519 ((Mat2.orthogonalError (Mat2.one : Mat2 R)) == (0.0 : R))
  bad := ck bad 520 ((Mat2.orthogonalError (Mat2.ofCols (Vec2.oneY : Vec2 R) (Vec2.oneX : Vec2 R))) == (0.0 : R))
  bad := ck bad 521 (Near.near (0.001 : R) (Mat2.orthogonalError (Mat2.ofCols (⟨(1 : R), (7 : R)⟩ : Vec2 R) (⟨(4 : R), (2 : R)⟩ : Vec2 R))) (324.0 : R))
  bad := ck bad 523 ((Mat2.orthogonalError (Mat2.ofScalar (1.1 : R))) == (0.0 : R))
  return bad
end Mat2_35
#guard passes Mat2_35.run

namespace Mat2_36
abbrev R := Float32
def run : Res (List Nat) := do
  let mut bad : List Nat := []
  bad := ck bad 528 ((Mat2.identityError (Mat2.one : Mat2 R)) == (0.0 : R))
  bad := ck bad 529 ((Mat2.identityError (Mat2.ofCols (Vec2.oneY : Vec2 R) (Vec2.oneX : Vec2 R))) == (4.0 : R))
  bad := ck bad 530 (Near.near (0.001 : R) (Mat2.identityError (Mat2.ofCols (⟨(1 : R), (7 : R)⟩ : Vec2 R) (⟨(4 : R), (2 : R)⟩ : Vec2 R))) (66.0 : R))
  bad := ck bad 532 (Near.near (0.001 : R) (Mat2.identityError (Mat2.ofScalar (1.1 : R))) (0.02 : R))
  return bad
end Mat2_36
#guard passes Mat2_36.run

namespace Mat2_37
abbrev R := Float32
def run : Res (List Nat) := do
  let mut bad : List Nat := []
  bad := ck bad 613 (Near.near (0.001 : R) (Mat2.one : Mat2 R) (Mat2.one : Mat2 R))
  return bad
end Mat2_37
#guard passes Mat2_37.run

end MathLib.Conformance
