import Verif.Conformance.Base

/-!
# Unit tests of `tests/tests/src/test_frustum.cpp`, replayed on the model

Generated by `tools/conform.py`; the numbers are the source lines of the checks.  103 checks;
2 checks of that file are not translated (casts, random draws, `sizeof`, `data()`, and
functions outside the model).
-/

namespace MathLib.Conformance
set_option linter.all false

namespace Frustum_0
abbrev R := Float32
def run : Res (List Nat) := do
  let mut bad : List Nat := []
  let v1 : Vec3 R := (⟨(1 : R), (1 : R), (1 : R)⟩ : Vec3 R)
  let v2 : Vec3 R := (⟨(1 : R), (-1 : R), (1 : R)⟩ : Vec3 R)
  let v3 : Vec3 R := (⟨(-1 : R), (-1 : R), (1 : R)⟩ : Vec3 R)
  let v4 : Vec3 R := (⟨(-1 : R), (1 : R), (1 : R)⟩ : Vec3 R)
  let v5 : Vec3 R := (⟨(1 : R), (1 : R), (-1 : R)⟩ : Vec3 R)
  let v6 : Vec3 R := (⟨(1 : R), (-1 : R), (-1 : R)⟩ : Vec3 R)
  let v7 : Vec3 R := (⟨(-1 : R), (-1 : R), (-1 : R)⟩ : Vec3 R)
  let v8 : Vec3 R := (⟨(-1 : R), (1 : R), (-1 : R)⟩ : Vec3 R)
  let v9 : Frustum R := (Frustum.set (fnOf [v1, v2, v3, v4, v5, v6, v7, v8]))
  bad := ck bad 35 (Near.near (0.001 : R) (v9.planes 0).normal (-(Vec3.oneZ : Vec3 R)))
  bad := ck bad 38 (Near.near (0.001 : R) (v9.planes 1).normal (Vec3.oneZ : Vec3 R))
  bad := ck bad 41 (Near.near (0.001 : R) (v9.planes 2).normal (-(Vec3.oneX : Vec3 R)))
  bad := ck bad 44 (Near.near (0.001 : R) (v9.planes 3).normal (Vec3.oneY : Vec3 R))
  bad := ck bad 47 (Near.near (0.001 : R) (v9.planes 4).normal (Vec3.oneX : Vec3 R))
  bad := ck bad 50 (Near.near (0.001 : R) (v9.planes 5).normal (-(Vec3.oneY : Vec3 R)))
  return bad
end Frustum_0
#guard passes Frustum_0.run

namespace Frustum_1
abbrev R := Float32
def run : Res (List Nat) := do
  let mut bad : List Nat := []
  let v1 : Vec3 R := (⟨(1 : R), (1 : R), (1 : R)⟩ : Vec3 R)
  let v2 : Vec3 R := (⟨(1 : R), (-1 : R), (1 : R)⟩ : Vec3 R)
  let v3 : Vec3 R := (⟨(-1 : R), (-1 : R), (1 : R)⟩ : Vec3 R)
  let v4 : Vec3 R := (⟨(-1 : R), (1 : R), (1 : R)⟩ : Vec3 R)
  let v5 : Vec3 R := (⟨(1 : R), (1 : R), (-1 : R)⟩ : Vec3 R)
  let v6 : Vec3 R := (⟨(1 : R), (-1 : R), (-1 : R)⟩ : Vec3 R)
  let v7 : Vec3 R := (⟨(-1 : R), (-1 : R), (-1 : R)⟩ : Vec3 R)
  let v8 : Vec3 R := (⟨(-1 : R), (1 : R), (-1 : R)⟩ : Vec3 R)
  let v9 : Frustum R := (Frustum.set (fnOf [v1, v2, v3, v4, v5, v6, v7, v8]))
  bad := ck bad 58 (Near.near (0.0001 : R) (Plane.distance (v9.planes 0) (v9.corners 4)) (0.0 : R))
  bad := ck bad 59 (Near.near (0.0001 : R) (Plane.distance (v9.planes 0) (v9.corners 5)) (0.0 : R))
  bad := ck bad 60 (Near.near (0.0001 : R) (Plane.distance (v9.planes 0) (v9.corners 6)) (0.0 : R))
  bad := ck bad 61 (Near.near (0.0001 : R) (Plane.distance (v9.planes 0) (v9.corners 7)) (0.0 : R))
  bad := ck bad 64 (Near.near (0.0001 : R) (Plane.distance (v9.planes 1) (v9.corners 0)) (0.0 : R))
  bad := ck bad 65 (Near.near (0.0001 : R) (Plane.distance (v9.planes 1) (v9.corners 1)) (0.0 : R))
  bad := ck bad 66 (Near.near (0.0001 : R) (Plane.distance (v9.planes 1) (v9.corners 2)) (0.0 : R))
  bad := ck bad 67 (Near.near (0.0001 : R) (Plane.distance (v9.planes 1) (v9.corners 3)) (0.0 : R))
  bad := ck bad 70 (Near.near (0.0001 : R) (Plane.distance (v9.planes 2) (v9.corners 2)) (0.0 : R))
  bad := ck bad 71 (Near.near (0.0001 : R) (Plane.distance (v9.planes 2) (v9.corners 3)) (0.0 : R))
  bad := ck bad 72 (Near.near (0.0001 : R) (Plane.distance (v9.planes 2) (v9.corners 6)) (0.0 : R))
  bad := ck bad 73 (Near.near (0.0001 : R) (Plane.distance (v9.planes 2) (v9.corners 7)) (0.0 : R))
  bad := ck bad 76 (Near.near (0.0001 : R) (Plane.distance (v9.planes 3) (v9.corners 0)) (0.0 : R))
  bad := ck bad 77 (Near.near (0.0001 : R) (Plane.distance (v9.planes 3) (v9.corners 3)) (0.0 : R))
  bad := ck bad 78 (Near.near (0.0001 : R) (Plane.distance (v9.planes 3) (v9.corners 4)) (0.0 : R))
  bad := ck bad 79 (Near.near (0.0001 : R) (Plane.distance (v9.planes 3) (v9.corners 7)) (0.0 : R))
  bad := ck bad 82 (Near.near (0.0001 : R) (Plane.distance (v9.planes 4) (v9.corners 0)) (0.0 : R))
  bad := ck bad 83 (Near.near (0.0001 : R) (Plane.distance (v9.planes 4) (v9.corners 1)) (0.0 : R))
  bad := ck bad 84 (Near.near (0.0001 : R) (Plane.distance (v9.planes 4) (v9.corners 4)) (0.0 : R))
  bad := ck bad 85 (Near.near (0.0001 : R) (Plane.distance (v9.planes 4) (v9.corners 5)) (0.0 : R))
  bad := ck bad 88 (Near.near (0.0001 : R) (Plane.distance (v9.planes 5) (v9.corners 1)) (0.0 : R))
  bad := ck bad 89 (Near.near (0.0001 : R) (Plane.distance (v9.planes 5) (v9.corners 2)) (0.0 : R))
  bad := ck bad 90 (Near.near (0.0001 : R) (Plane.distance (v9.planes 5) (v9.corners 5)) (0.0 : R))
  bad := ck bad 91 (Near.near (0.0001 : R) (Plane.distance (v9.planes 5) (v9.corners 6)) (0.0 : R))
  return bad
end Frustum_1
#guard passes Frustum_1.run

namespace Frustum_2
abbrev R := Float32
def run : Res (List Nat) := do
  let mut bad : List Nat := []
  let v1 : Vec3 R := (⟨(1 : R), (1 : R), (1 : R)⟩ : Vec3 R)
  let v2 : Vec3 R := (⟨(1 : R), (-1 : R), (1 : R)⟩ : Vec3 R)
  let v3 : Vec3 R := (⟨(-1 : R), (-1 : R), (1 : R)⟩ : Vec3 R)
  let v4 : Vec3 R := (⟨(-1 : R), (1 : R), (1 : R)⟩ : Vec3 R)
  let v5 : Vec3 R := (⟨(1 : R), (1 : R), (-1 : R)⟩ : Vec3 R)
  let v6 : Vec3 R := (⟨(1 : R), (-1 : R), (-1 : R)⟩ : Vec3 R)
  let v7 : Vec3 R := (⟨(-1 : R), (-1 : R), (-1 : R)⟩ : Vec3 R)
  let v8 : Vec3 R := (⟨(-1 : R), (1 : R), (-1 : R)⟩ : Vec3 R)
  let v9 : Mat34 R := (← Mat34.ofCoordAngle Coord.Z (MathFns.pi : R) (Vec3.zero : Vec3 R))
  let v10 : Frustum R := (Frustum.setMat34 v9 (fnOf [v1, v2, v3, v4, v5, v6, v7, v8]))
  bad := ck bad 104 (Near.near (0.001 : R) (v10.planes 0).normal (-(Vec3.oneZ : Vec3 R)))
  bad := ck bad 107 (Near.near (0.001 : R) (v10.planes 1).normal (Vec3.oneZ : Vec3 R))
  bad := ck bad 110 (Near.near (0.001 : R) (v10.planes 2).normal (Vec3.oneX : Vec3 R))
  bad := ck bad 113 (Near.near (0.001 : R) (v10.planes 3).normal (-(Vec3.oneY : Vec3 R)))
  bad := ck bad 116 (Near.near (0.001 : R) (v10.planes 4).normal (-(Vec3.oneX : Vec3 R)))
  bad := ck bad 119 (Near.near (0.001 : R) (v10.planes 5).normal (Vec3.oneY : Vec3 R))
  return bad
end Frustum_2
#guard passes Frustum_2.run

namespace Frustum_3
abbrev R := Float32
def run : Res (List Nat) := do
  let mut bad : List Nat := []
  let v1 : Vec3 R := (⟨(1 : R), (1 : R), (1 : R)⟩ : Vec3 R)
  let v2 : Vec3 R := (⟨(1 : R), (-1 : R), (1 : R)⟩ : Vec3 R)
  let v3 : Vec3 R := (⟨(-1 : R), (-1 : R), (1 : R)⟩ : Vec3 R)
  let v4 : Vec3 R := (⟨(-1 : R), (1 : R), (1 : R)⟩ : Vec3 R)
  let v5 : Vec3 R := (⟨(1 : R), (1 : R), (-1 : R)⟩ : Vec3 R)
  let v6 : Vec3 R := (⟨(1 : R), (-1 : R), (-1 : R)⟩ : Vec3 R)
  let v7 : Vec3 R := (⟨(-1 : R), (-1 : R), (-1 : R)⟩ : Vec3 R)
  let v8 : Vec3 R := (⟨(-1 : R), (1 : R), (-1 : R)⟩ : Vec3 R)
  let v9 : Mat34 R := (← Mat34.ofCoordAngle Coord.Z (MathFns.pi : R) (Vec3.zero : Vec3 R))
  let v10 : Frustum R := (Frustum.setMat34 v9 (fnOf [v1, v2, v3, v4, v5, v6, v7, v8]))
  bad := ck bad 127 (Near.near (0.0001 : R) (Plane.distance (v10.planes 0) (v10.corners 4)) (0.0 : R))
  bad := ck bad 128 (Near.near (0.0001 : R) (Plane.distance (v10.planes 0) (v10.corners 5)) (0.0 : R))
  bad := ck bad 129 (Near.near (0.0001 : R) (Plane.distance (v10.planes 0) (v10.corners 6)) (0.0 : R))
  bad := ck bad 130 (Near.near (0.0001 : R) (Plane.distance (v10.planes 0) (v10.corners 7)) (0.0 : R))
  bad := ck bad 133 (Near.near (0.0001 : R) (Plane.distance (v10.planes 1) (v10.corners 0)) (0.0 : R))
  bad := ck bad 134 (Near.near (0.0001 : R) (Plane.distance (v10.planes 1) (v10.corners 1)) (0.0 : R))
  bad := ck bad 135 (Near.near (0.0001 : R) (Plane.distance (v10.planes 1) (v10.corners 2)) (0.0 : R))
  bad := ck bad 136 (Near.near (0.0001 : R) (Plane.distance (v10.planes 1) (v10.corners 3)) (0.0 : R))
  bad := ck bad 139 (Near.near (0.0001 : R) (Plane.distance (v10.planes 2) (v10.corners 2)) (0.0 : R))
  bad := ck bad 140 (Near.near (0.0001 : R) (Plane.distance (v10.planes 2) (v10.corners 3)) (0.0 : R))
  bad := ck bad 141 (Near.near (0.0001 : R) (Plane.distance (v10.planes 2) (v10.corners 6)) (0.0 : R))
  bad := ck bad 142 (Near.near (0.0001 : R) (Plane.distance (v10.planes 2) (v10.corners 7)) (0.0 : R))
  bad := ck bad 145 (Near.near (0.0001 : R) (Plane.distance (v10.planes 3) (v10.corners 0)) (0.0 : R))
  bad := ck bad 146 (Near.near (0.0001 : R) (Plane.distance (v10.planes 3) (v10.corners 3)) (0.0 : R))
  bad := ck bad 147 (Near.near (0.0001 : R) (Plane.distance (v10.planes 3) (v10.corners 4)) (0.0 : R))
  bad := ck bad 148 (Near.near (0.0001 : R) (Plane.distance (v10.planes 3) (v10.corners 7)) (0.0 : R))
  bad := ck bad 151 (Near.near (0.0001 : R) (Plane.distance (v10.planes 4) (v10.corners 0)) (0.0 : R))
  bad := ck bad 152 (Near.near (0.0001 : R) (Plane.distance (v10.planes 4) (v10.corners 1)) (0.0 : R))
  bad := ck bad 153 (Near.near (0.0001 : R) (Plane.distance (v10.planes 4) (v10.corners 4)) (0.0 : R))
  bad := ck bad 154 (Near.near (0.0001 : R) (Plane.distance (v10.planes 4) (v10.corners 5)) (0.0 : R))
  bad := ck bad 157 (Near.near (0.0001 : R) (Plane.distance (v10.planes 5) (v10.corners 1)) (0.0 : R))
  bad := ck bad 158 (Near.near (0.0001 : R) (Plane.distance (v10.planes 5) (v10.corners 2)) (0.0 : R))
  bad := ck bad 159 (Near.near (0.0001 : R) (Plane.distance (v10.planes 5) (v10.corners 5)) (0.0 : R))
  bad := ck bad 160 (Near.near (0.0001 : R) (Plane.distance (v10.planes 5) (v10.corners 6)) (0.0 : R))
  return bad
end Frustum_3
#guard passes Frustum_3.run

namespace Frustum_4
abbrev R := Float32
def run : Res (List Nat) := do
  let mut bad : List Nat := []
  let v1 : Vec3 R := (⟨(1 : R), (1 : R), (1 : R)⟩ : Vec3 R)
  let v2 : Vec3 R := (⟨(1 : R), (-1 : R), (1 : R)⟩ : Vec3 R)
  let v3 : Vec3 R := (⟨(-1 : R), (-1 : R), (1 : R)⟩ : Vec3 R)
  let v4 : Vec3 R := (⟨(-1 : R), (1 : R), (1 : R)⟩ : Vec3 R)
  let v5 : Vec3 R := (⟨(1 : R), (1 : R), (-1 : R)⟩ : Vec3 R)
  let v6 : Vec3 R := (⟨(1 : R), (-1 : R), (-1 : R)⟩ : Vec3 R)
  let v7 : Vec3 R := (⟨(-1 : R), (-1 : R), (-1 : R)⟩ : Vec3 R)
  let v8 : Vec3 R := (⟨(-1 : R), (1 : R), (-1 : R)⟩ : Vec3 R)
  let v9 : Mat4 R := (← Mat4.ofCoordAngle Coord.Z (MathFns.pi : R))
  let v10 : Frustum R := (Frustum.setMat4 v9 (fnOf [v1, v2, v3, v4, v5, v6, v7, v8]))
  bad := ck bad 173 (Near.near (0.001 : R) (v10.planes 0).normal (-(Vec3.oneZ : Vec3 R)))
  bad := ck bad 176 (Near.near (0.001 : R) (v10.planes 1).normal (Vec3.oneZ : Vec3 R))
  bad := ck bad 179 (Near.near (0.001 : R) (v10.planes 2).normal (Vec3.oneX : Vec3 R))
  bad := ck bad 182 (Near.near (0.001 : R) (v10.planes 3).normal (-(Vec3.oneY : Vec3 R)))
  bad := ck bad 185 (Near.near (0.001 : R) (v10.planes 4).normal (-(Vec3.oneX : Vec3 R)))
  bad := ck bad 188 (Near.near (0.001 : R) (v10.planes 5).normal (Vec3.oneY : Vec3 R))
  return bad
end Frustum_4
#guard passes Frustum_4.run

namespace Frustum_5
abbrev R := Float32
def run : Res (List Nat) := do
  let mut bad : List Nat := []
  let v1 : Vec3 R := (⟨(1 : R), (1 : R), (1 : R)⟩ : Vec3 R)
  let v2 : Vec3 R := (⟨(1 : R), (-1 : R), (1 : R)⟩ : Vec3 R)
  let v3 : Vec3 R := (⟨(-1 : R), (-1 : R), (1 : R)⟩ : Vec3 R)
  let v4 : Vec3 R := (⟨(-1 : R), (1 : R), (1 : R)⟩ : Vec3 R)
  let v5 : Vec3 R := (⟨(1 : R), (1 : R), (-1 : R)⟩ : Vec3 R)
  let v6 : Vec3 R := (⟨(1 : R), (-1 : R), (-1 : R)⟩ : Vec3 R)
  let v7 : Vec3 R := (⟨(-1 : R), (-1 : R), (-1 : R)⟩ : Vec3 R)
  let v8 : Vec3 R := (⟨(-1 : R), (1 : R), (-1 : R)⟩ : Vec3 R)
  let v9 : Mat4 R := (← Mat4.ofCoordAngle Coord.Z (MathFns.pi : R))
  let v10 : Frustum R := (Frustum.setMat4 v9 (fnOf [v1, v2, v3, v4, v5, v6, v7, v8]))
  bad := ck bad 196 (Near.near (0.0001 : R) (Plane.distance (v10.planes 0) (v10.corners 4)) (0.0 : R))
  bad := ck bad 197 (Near.near (0.0001 : R) (Plane.distance (v10.planes 0) (v10.corners 5)) (0.0 : R))
  bad := ck bad 198 (Near.near (0.0001 : R) (Plane.distance (v10.planes 0) (v10.corners 6)) (0.0 : R))
  bad := ck bad 199 (Near.near (0.0001 : R) (Plane.distance (v10.planes 0) (v10.corners 7)) (0.0 : R))
  bad := ck bad 202 (Near.near (0.0001 : R) (Plane.distance (v10.planes 1) (v10.corners 0)) (0.0 : R))
  bad := ck bad 203 (Near.near (0.0001 : R) (Plane.distance (v10.planes 1) (v10.corners 1)) (0.0 : R))
  bad := ck bad 204 (Near.near (0.0001 : R) (Plane.distance (v10.planes 1) (v10.corners 2)) (0.0 : R))
  bad := ck bad 205 (Near.near (0.0001 : R) (Plane.distance (v10.planes 1) (v10.corners 3)) (0.0 : R))
  bad := ck bad 208 (Near.near (0.0001 : R) (Plane.distance (v10.planes 2) (v10.corners 2)) (0.0 : R))
  bad := ck bad 209 (Near.near (0.0001 : R) (Plane.distance (v10.planes 2) (v10.corners 3)) (0.0 : R))
  bad := ck bad 210 (Near.near (0.0001 : R) (Plane.distance (v10.planes 2) (v10.corners 6)) (0.0 : R))
  bad := ck bad 211 (Near.near (0.0001 : R) (Plane.distance (v10.planes 2) (v10.corners 7)) (0.0 : R))
  bad := ck bad 214 (Near.near (0.0001 : R) (Plane.distance (v10.planes 3) (v10.corners 0)) (0.0 : R))
  bad := ck bad 215 (Near.near (0.0001 : R) (Plane.distance (v10.planes 3) (v10.corners 3)) (0.0 : R))
  bad := ck bad 216 (Near.near (0.0001 : R) (Plane.distance (v10.planes 3) (v10.corners 4)) (0.0 : R))
  bad := ck bad 217 (Near.near (0.0001 : R) (Plane.distance (v10.planes 3) (v10.corners 7)) (0.0 : R))
  bad := ck bad 220 (Near.near (0.0001 : R) (Plane.distance (v10.planes 4) (v10.corners 0)) (0.0 : R))
  bad := ck bad 221 (Near.near (0.0001 : R) (Plane.distance (v10.planes 4) (v10.corners 1)) (0.0 : R))
  bad := ck bad 222 (Near.near (0.0001 : R) (Plane.distance (v10.planes 4) (v10.corners 4)) (0.0 : R))
  bad := ck bad 223 (Near.near (0.0001 : R) (Plane.distance (v10.planes 4) (v10.corners 5)) (0.0 : R))
  bad := ck bad 226 (Near.near (0.0001 : R) (Plane.distance (v10.planes 5) (v10.corners 1)) (0.0 : R))
  bad := ck bad 227 (Near.near (0.0001 : R) (Plane.distance (v10.planes 5) (v10.corners 2)) (0.0 : R))
  bad := ck bad 228 (Near.near (0.0001 : R) (Plane.distance (v10.planes 5) (v10.corners 5)) (0.0 : R))
  bad := ck bad 229 (Near.near (0.0001 : R) (Plane.distance (v10.planes 5) (v10.corners 6)) (0.0 : R))
  return bad
end Frustum_5
#guard passes Frustum_5.run

namespace Frustum_6
abbrev R := Float32
def run : Res (List Nat) := do
  let mut bad : List Nat := []
  let v1 : Vec3 R := (⟨(1 : R), (1 : R), (1 : R)⟩ : Vec3 R)
  let v2 : Vec3 R := (⟨(1 : R), (-1 : R), (1 : R)⟩ : Vec3 R)
  let v3 : Vec3 R := (⟨(-1 : R), (-1 : R), (1 : R)⟩ : Vec3 R)
  let v4 : Vec3 R := (⟨(-1 : R), (1 : R), (1 : R)⟩ : Vec3 R)
  let v5 : Vec3 R := (⟨(1 : R), (1 : R), (-1 : R)⟩ : Vec3 R)
  let v6 : Vec3 R := (⟨(1 : R), (-1 : R), (-1 : R)⟩ : Vec3 R)
  let v7 : Vec3 R := (⟨(-1 : R), (-1 : R), (-1 : R)⟩ : Vec3 R)
  let v8 : Vec3 R := (⟨(-1 : R), (1 : R), (-1 : R)⟩ : Vec3 R)
  let v9 : Frustum R := (Frustum.set (fnOf [v1, v2, v3, v4, v5, v6, v7, v8]))
  bad := ck bad 240 (Frustum.contains id v9 v1)
  bad := ck bad 240 (Frustum.contains id v9 v2)
  bad := ck bad 240 (Frustum.contains id v9 v3)
  bad := ck bad 240 (Frustum.contains id v9 v4)
  bad := ck bad 240 (Frustum.contains id v9 v5)
  bad := ck bad 240 (Frustum.contains id v9 v6)
  bad := ck bad 240 (Frustum.contains id v9 v7)
  bad := ck bad 240 (Frustum.contains id v9 v8)
  return bad
end Frustum_6
#guard passes Frustum_6.run

namespace Frustum_7
abbrev R := Float32
def run : Res (List Nat) := do
  let mut bad : List Nat := []
  let v1 : Vec3 R := (⟨(1 : R), (1 : R), (1 : R)⟩ : Vec3 R)
  let v2 : Vec3 R := (⟨(1 : R), (-1 : R), (1 : R)⟩ : Vec3 R)
  let v3 : Vec3 R := (⟨(-1 : R), (-1 : R), (1 : R)⟩ : Vec3 R)
  let v4 : Vec3 R := (⟨(-1 : R), (1 : R), (1 : R)⟩ : Vec3 R)
  let v5 : Vec3 R := (⟨(1 : R), (1 : R), (-1 : R)⟩ : Vec3 R)
  let v6 : Vec3 R := (⟨(1 : R), (-1 : R), (-1 : R)⟩ : Vec3 R)
  let v7 : Vec3 R := (⟨(-1 : R), (-1 : R), (-1 : R)⟩ : Vec3 R)
  let v8 : Vec3 R := (⟨(-1 : R), (1 : R), (-1 : R)⟩ : Vec3 R)
  let v9 : Frustum R := (Frustum.set (fnOf [v1, v2, v3, v4, v5, v6, v7, v8]))
  bad := ck bad 249 (Frustum.contains id v9 (v1 * (0.5 : R)))
  bad := ck bad 249 (Frustum.contains id v9 (v2 * (0.5 : R)))
  bad := ck bad 249 (Frustum.contains id v9 (v3 * (0.5 : R)))
  bad := ck bad 249 (Frustum.contains id v9 (v4 * (0.5 : R)))
  bad := ck bad 249 (Frustum.contains id v9 (v5 * (0.5 : R)))
  bad := ck bad 249 (Frustum.contains id v9 (v6 * (0.5 : R)))
  bad := ck bad 249 (Frustum.contains id v9 (v7 * (0.5 : R)))
  bad := ck bad 249 (Frustum.contains id v9 (v8 * (0.5 : R)))
  return bad
end Frustum_7
#guard passes Frustum_7.run

namespace Frustum_8
abbrev R := Float32
def run : Res (List Nat) := do
  let mut bad : List Nat := []
  let v1 : Vec3 R := (⟨(1 : R), (1 : R), (1 : R)⟩ : Vec3 R)
  let v2 : Vec3 R := (⟨(1 : R), (-1 : R), (1 : R)⟩ : Vec3 R)
  let v3 : Vec3 R := (⟨(-1 : R), (-1 : R), (1 : R)⟩ : Vec3 R)
  let v4 : Vec3 R := (⟨(-1 : R), (1 : R), (1 : R)⟩ : Vec3 R)
  let v5 : Vec3 R := (⟨(1 : R), (1 : R), (-1 : R)⟩ : Vec3 R)
  let v6 : Vec3 R := (⟨(1 : R), (-1 : R), (-1 : R)⟩ : Vec3 R)
  let v7 : Vec3 R := (⟨(-1 : R), (-1 : R), (-1 : R)⟩ : Vec3 R)
  let v8 : Vec3 R := (⟨(-1 : R), (1 : R), (-1 : R)⟩ : Vec3 R)
  let v9 : Frustum R := (Frustum.set (fnOf [v1, v2, v3, v4, v5, v6, v7, v8]))
  bad := ck bad 258 (!(Frustum.contains id v9 (v1 * (1.5 : R))))
  bad := ck bad 258 (!(Frustum.contains id v9 (v2 * (1.5 : R))))
  bad := ck bad 258 (!(Frustum.contains id v9 (v3 * (1.5 : R))))
  bad := ck bad 258 (!(Frustum.contains id v9 (v4 * (1.5 : R))))
  bad := ck bad 258 (!(Frustum.contains id v9 (v5 * (1.5 : R))))
  bad := ck bad 258 (!(Frustum.contains id v9 (v6 * (1.5 : R))))
  bad := ck bad 258 (!(Frustum.contains id v9 (v7 * (1.5 : R))))
  bad := ck bad 258 (!(Frustum.contains id v9 (v8 * (1.5 : R))))
  return bad
end Frustum_8
#guard passes Frustum_8.run

namespace Frustum_9
abbrev R := Float32
def run : Res (List Nat) := do
  let mut bad : List Nat := []
  let v1 : Vec3 R := (⟨(1 : R), (1 : R), (1 : R)⟩ : Vec3 R)
  let v2 : Vec3 R := (⟨(1 : R), (-1 : R), (1 : R)⟩ : Vec3 R)
  let v3 : Vec3 R := (⟨(-1 : R), (-1 : R), (1 : R)⟩ : Vec3 R)
  let v4 : Vec3 R := (⟨(-1 : R), (1 : R), (1 : R)⟩ : Vec3 R)
  let v5 : Vec3 R := (⟨(1 : R), (1 : R), (-1 : R)⟩ : Vec3 R)
  let v6 : Vec3 R := (⟨(1 : R), (-1 : R), (-1 : R)⟩ : Vec3 R)
  let v7 : Vec3 R := (⟨(-1 : R), (-1 : R), (-1 : R)⟩ : Vec3 R)
  let v8 : Vec3 R := (⟨(-1 : R), (1 : R), (-1 : R)⟩ : Vec3 R)
  let v9 : Frustum R := (Frustum.set (fnOf [v1, v2, v3, v4, v5, v6, v7, v8]))
  bad := ck bad 270 (Frustum.contains4 id v9 (Vec4.ofVec3 v1 (1 : R)))
  bad := ck bad 270 (Frustum.contains4 id v9 (Vec4.ofVec3 v2 (1 : R)))
  bad := ck bad 270 (Frustum.contains4 id v9 (Vec4.ofVec3 v3 (1 : R)))
  bad := ck bad 270 (Frustum.contains4 id v9 (Vec4.ofVec3 v4 (1 : R)))
  bad := ck bad 270 (Frustum.contains4 id v9 (Vec4.ofVec3 v5 (1 : R)))
  bad := ck bad 270 (Frustum.contains4 id v9 (Vec4.ofVec3 v6 (1 : R)))
  bad := ck bad 270 (Frustum.contains4 id v9 (Vec4.ofVec3 v7 (1 : R)))
  bad := ck bad 270 (Frustum.contains4 id v9 (Vec4.ofVec3 v8 (1 : R)))
  return bad
end Frustum_9
#guard passes Frustum_9.run

namespace Frustum_10
abbrev R := Float32
def run : Res (List Nat) := do
  let mut bad : List Nat := []
  let v1 : Vec3 R := (⟨(1 : R), (1 : R), (1 : R)⟩ : Vec3 R)
  let v2 : Vec3 R := (⟨(1 : R), (-1 : R), (1 : R)⟩ : Vec3 R)
  let v3 : Vec3 R := (⟨(-1 : R), (-1 : R), (1 : R)⟩ : Vec3 R)
  let v4 : Vec3 R := (⟨(-1 : R), (1 : R), (1 : R)⟩ : Vec3 R)
  let v5 : Vec3 R := (⟨(1 : R), (1 : R), (-1 : R)⟩ : Vec3 R)
  let v6 : Vec3 R := (⟨(1 : R), (-1 : R), (-1 : R)⟩ : Vec3 R)
  let v7 : Vec3 R := (⟨(-1 : R), (-1 : R), (-1 : R)⟩ : Vec3 R)
  let v8 : Vec3 R := (⟨(-1 : R), (1 : R), (-1 : R)⟩ : Vec3 R)
  let v9 : Frustum R := (Frustum.set (fnOf [v1, v2, v3, v4, v5, v6, v7, v8]))
  bad := ck bad 279 (Frustum.contains4 id v9 (Vec4.ofVec3 (v1 * (0.5 : R)) (1 : R)))
  bad := ck bad 279 (Frustum.contains4 id v9 (Vec4.ofVec3 (v2 * (0.5 : R)) (1 : R)))
  bad := ck bad 279 (Frustum.contains4 id v9 (Vec4.ofVec3 (v3 * (0.5 : R)) (1 : R)))
  bad := ck bad 279 (Frustum.contains4 id v9 (Vec4.ofVec3 (v4 * (0.5 : R)) (1 : R)))
  bad := ck bad 279 (Frustum.contains4 id v9 (Vec4.ofVec3 (v5 * (0.5 : R)) (1 : R)))
  bad := ck bad 279 (Frustum.contains4 id v9 (Vec4.ofVec3 (v6 * (0.5 : R)) (1 : R)))
  bad := ck bad 279 (Frustum.contains4 id v9 (Vec4.ofVec3 (v7 * (0.5 : R)) (1 : R)))
  bad := ck bad 279 (Frustum.contains4 id v9 (Vec4.ofVec3 (v8 * (0.5 : R)) (1 : R)))
  return bad
end Frustum_10
#guard passes Frustum_10.run

namespace Frustum_11
abbrev R := Float32
def run : Res (List Nat) := do
  let mut bad : List Nat := []
  let v1 : Vec3 R := (⟨(1 : R), (1 : R), (1 : R)⟩ : Vec3 R)
  let v2 : Vec3 R := (⟨(1 : R), (-1 : R), (1 : R)⟩ : Vec3 R)
  let v3 : Vec3 R := (⟨(-1 : R), (-1 : R), (1 : R)⟩ : Vec3 R)
  let v4 : Vec3 R := (⟨(-1 : R), (1 : R), (1 : R)⟩ : Vec3 R)
  let v5 : Vec3 R := (⟨(1 : R), (1 : R), (-1 : R)⟩ : Vec3 R)
  let v6 : Vec3 R := (⟨(1 : R), (-1 : R), (-1 : R)⟩ : Vec3 R)
  let v7 : Vec3 R := (⟨(-1 : R), (-1 : R), (-1 : R)⟩ : Vec3 R)
  let v8 : Vec3 R := (⟨(-1 : R), (1 : R), (-1 : R)⟩ : Vec3 R)
  let v9 : Frustum R := (Frustum.set (fnOf [v1, v2, v3, v4, v5, v6, v7, v8]))
  bad := ck bad 288 (!(Frustum.contains4 id v9 (Vec4.ofVec3 (v1 * (1.5 : R)) (1 : R))))
  bad := ck bad 288 (!(Frustum.contains4 id v9 (Vec4.ofVec3 (v2 * (1.5 : R)) (1 : R))))
  bad := ck bad 288 (!(Frustum.contains4 id v9 (Vec4.ofVec3 (v3 * (1.5 : R)) (1 : R))))
  bad := ck bad 288 (!(Frustum.contains4 id v9 (Vec4.ofVec3 (v4 * (1.5 : R)) (1 : R))))
  bad := ck bad 288 (!(Frustum.contains4 id v9 (Vec4.ofVec3 (v5 * (1.5 : R)) (1 : R))))
  bad := ck bad 288 (!(Frustum.contains4 id v9 (Vec4.ofVec3 (v6 * (1.5 : R)) (1 : R))))
  bad := ck bad 288 (!(Frustum.contains4 id v9 (Vec4.ofVec3 (v7 * (1.5 : R)) (1 : R))))
  bad := ck bad 288 (!(Frustum.contains4 id v9 (Vec4.ofVec3 (v8 * (1.5 : R)) (1 : R))))
  return bad
end Frustum_11
#guard passes Frustum_11.run

namespace Frustum_12
abbrev R := Float32
def run : Res (List Nat) := do
  let mut bad : List Nat := []
  let v1 : Vec3 R := (⟨(1 : R), (1 : R), (1 : R)⟩ : Vec3 R)
  let v2 : Vec3 R := (⟨(1 : R), (-1 : R), (1 : R)⟩ : Vec3 R)
  let v3 : Vec3 R := (⟨(-1 : R), (-1 : R), (1 : R)⟩ : Vec3 R)
  let v4 : Vec3 R := (⟨(-1 : R), (1 : R), (1 : R)⟩ : Vec3 R)
  let v5 : Vec3 R := (⟨(1 : R), (1 : R), (-1 : R)⟩ : Vec3 R)
  let v6 : Vec3 R := (⟨(1 : R), (-1 : R), (-1 : R)⟩ : Vec3 R)
  let v7 : Vec3 R := (⟨(-1 : R), (-1 : R), (-1 : R)⟩ : Vec3 R)
  let v8 : Vec3 R := (⟨(-1 : R), (1 : R), (-1 : R)⟩ : Vec3 R)
  let v9 : Frustum R := (Frustum.set (fnOf [v1, v2, v3, v4, v5, v6, v7, v8]))
  let v10 : Sphere R := (⟨v1, (0.0 : R)⟩ : Sphere R)
  bad := ck bad 301 (Frustum.containsSphere id v9 v10)
  let v11 : Sphere R := (⟨v2, (0.0 : R)⟩ : Sphere R)
  bad := ck bad 301 (Frustum.containsSphere id v9 v11)
  let v12 : Sphere R := (⟨v3, (0.0 : R)⟩ : Sphere R)
  bad := ck bad 301 (Frustum.containsSphere id v9 v12)
  let v13 : Sphere R := (⟨v4, (0.0 : R)⟩ : Sphere R)
  bad := ck bad 301 (Frustum.containsSphere id v9 v13)
  let v14 : Sphere R := (⟨v5, (0.0 : R)⟩ : Sphere R)
  bad := ck bad 301 (Frustum.containsSphere id v9 v14)
  let v15 : Sphere R := (⟨v6, (0.0 : R)⟩ : Sphere R)
  bad := ck bad 301 (Frustum.containsSphere id v9 v15)
  let v16 : Sphere R := (⟨v7, (0.0 : R)⟩ : Sphere R)
  bad := ck bad 301 (Frustum.containsSphere id v9 v16)
  let v17 : Sphere R := (⟨v8, (0.0 : R)⟩ : Sphere R)
  bad := ck bad 301 (Frustum.containsSphere id v9 v17)
  return bad
end Frustum_12
#guard passes Frustum_12.run

namespace Frustum_13
abbrev R := Float32
def run : Res (List Nat) := do
  let mut bad : List Nat := []
  let v1 : Vec3 R := (⟨(1 : R), (1 : R), (1 : R)⟩ : Vec3 R)
  let v2 : Vec3 R := (⟨(1 : R), (-1 : R), (1 : R)⟩ : Vec3 R)
  let v3 : Vec3 R := (⟨(-1 : R), (-1 : R), (1 : R)⟩ : Vec3 R)
  let v4 : Vec3 R := (⟨(-1 : R), (1 : R), (1 : R)⟩ : Vec3 R)
  let v5 : Vec3 R := (⟨(1 : R), (1 : R), (-1 : R)⟩ : Vec3 R)
  let v6 : Vec3 R := (⟨(1 : R), (-1 : R), (-1 : R)⟩ : Vec3 R)
  let v7 : Vec3 R := (⟨(-1 : R), (-1 : R), (-1 : R)⟩ : Vec3 R)
  let v8 : Vec3 R := (⟨(-1 : R), (1 : R), (-1 : R)⟩ : Vec3 R)
  let v9 : Frustum R := (Frustum.set (fnOf [v1, v2, v3, v4, v5, v6, v7, v8]))
  let v10 : Sphere R := (⟨(v1 * (0.9 : R)), (0.1 : R)⟩ : Sphere R)
  bad := ck bad 311 (Frustum.containsSphere id v9 v10)
  let v11 : Sphere R := (⟨(v2 * (0.9 : R)), (0.1 : R)⟩ : Sphere R)
  bad := ck bad 311 (Frustum.containsSphere id v9 v11)
  let v12 : Sphere R := (⟨(v3 * (0.9 : R)), (0.1 : R)⟩ : Sphere R)
  bad := ck bad 311 (Frustum.containsSphere id v9 v12)
  let v13 : Sphere R := (⟨(v4 * (0.9 : R)), (0.1 : R)⟩ : Sphere R)
  bad := ck bad 311 (Frustum.containsSphere id v9 v13)
  let v14 : Sphere R := (⟨(v5 * (0.9 : R)), (0.1 : R)⟩ : Sphere R)
  bad := ck bad 311 (Frustum.containsSphere id v9 v14)
  let v15 : Sphere R := (⟨(v6 * (0.9 : R)), (0.1 : R)⟩ : Sphere R)
  bad := ck bad 311 (Frustum.containsSphere id v9 v15)
  let v16 : Sphere R := (⟨(v7 * (0.9 : R)), (0.1 : R)⟩ : Sphere R)
  bad := ck bad 311 (Frustum.containsSphere id v9 v16)
  let v17 : Sphere R := (⟨(v8 * (0.9 : R)), (0.1 : R)⟩ : Sphere R)
  bad := ck bad 311 (Frustum.containsSphere id v9 v17)
  return bad
end Frustum_13
#guard passes Frustum_13.run

namespace Frustum_14
abbrev R := Float32
def run : Res (List Nat) := do
  let mut bad : List Nat := []
  let v1 : Vec3 R := (⟨(1 : R), (1 : R), (1 : R)⟩ : Vec3 R)
  let v2 : Vec3 R := (⟨(1 : R), (-1 : R), (1 : R)⟩ : Vec3 R)
  let v3 : Vec3 R := (⟨(-1 : R), (-1 : R), (1 : R)⟩ : Vec3 R)
  let v4 : Vec3 R := (⟨(-1 : R), (1 : R), (1 : R)⟩ : Vec3 R)
  let v5 : Vec3 R := (⟨(1 : R), (1 : R), (-1 : R)⟩ : Vec3 R)
  let v6 : Vec3 R := (⟨(1 : R), (-1 : R), (-1 : R)⟩ : Vec3 R)
  let v7 : Vec3 R := (⟨(-1 : R), (-1 : R), (-1 : R)⟩ : Vec3 R)
  let v8 : Vec3 R := (⟨(-1 : R), (1 : R), (-1 : R)⟩ : Vec3 R)
  let v9 : Frustum R := (Frustum.set (fnOf [v1, v2, v3, v4, v5, v6, v7, v8]))
  let v10 : Sphere R := (⟨(v1 * (0.91 : R)), (0.1 : R)⟩ : Sphere R)
  bad := ck bad 321 (!(Frustum.containsSphere id v9 v10))
  let v11 : Sphere R := (⟨(v2 * (0.91 : R)), (0.1 : R)⟩ : Sphere R)
  bad := ck bad 321 (!(Frustum.containsSphere id v9 v11))
  let v12 : Sphere R := (⟨(v3 * (0.91 : R)), (0.1 : R)⟩ : Sphere R)
  bad := ck bad 321 (!(Frustum.containsSphere id v9 v12))
  let v13 : Sphere R := (⟨(v4 * (0.91 : R)), (0.1 : R)⟩ : Sphere R)
  bad := ck bad 321 (!(Frustum.containsSphere id v9 v13))
  let v14 : Sphere R := (⟨(v5 * (0.91 : R)), (0.1 : R)⟩ : Sphere R)
  bad := ck bad 321 (!(Frustum.containsSphere id v9 v14))
  let v15 : Sphere R := (⟨(v6 * (0.91 : R)), (0.1 : R)⟩ : Sphere R)
  bad := ck bad 321 (!(Frustum.containsSphere id v9 v15))
  let v16 : Sphere R := (⟨(v7 * (0.91 : R)), (0.1 : R)⟩ : Sphere R)
  bad := ck bad 321 (!(Frustum.containsSphere id v9 v16))
  let v17 : Sphere R := (⟨(v8 * (0.91 : R)), (0.1 : R)⟩ : Sphere R)
  bad := ck bad 321 (!(Frustum.containsSphere id v9 v17))
  return bad
end Frustum_14
#guard passes Frustum_14.run

namespace Frustum_15
abbrev R := Float32
def run : Res (List Nat) := do
  let mut bad : List Nat := []
  let v1 : Vec3 R := (⟨(1 : R), (1 : R), (1 : R)⟩ : Vec3 R)
  let v2 : Vec3 R := (⟨(1 : R), (-1 : R), (1 : R)⟩ : Vec3 R)
  let v3 : Vec3 R := (⟨(-1 : R), (-1 : R), (1 : R)⟩ : Vec3 R)
  let v4 : Vec3 R := (⟨(-1 : R), (1 : R), (1 : R)⟩ : Vec3 R)
  let v5 : Vec3 R := (⟨(1 : R), (1 : R), (-1 : R)⟩ : Vec3 R)
  let v6 : Vec3 R := (⟨(1 : R), (-1 : R), (-1 : R)⟩ : Vec3 R)
  let v7 : Vec3 R := (⟨(-1 : R), (-1 : R), (-1 : R)⟩ : Vec3 R)
  let v8 : Vec3 R := (⟨(-1 : R), (1 : R), (-1 : R)⟩ : Vec3 R)
  let v9 : Frustum R := (Frustum.set (fnOf [v1, v2, v3, v4, v5, v6, v7, v8]))
  let v10 : Sphere R := (⟨v1, (0.0 : R)⟩ : Sphere R)
  bad := ck bad 334 (Frustum.intersectsSphere id v9 v10)
  let v11 : Sphere R := (⟨v2, (0.0 : R)⟩ : Sphere R)
  bad := ck bad 334 (Frustum.intersectsSphere id v9 v11)
  let v12 : Sphere R := (⟨v3, (0.0 : R)⟩ : Sphere R)
  bad := ck bad 334 (Frustum.intersectsSphere id v9 v12)
  let v13 : Sphere R := (⟨v4, (0.0 : R)⟩ : Sphere R)
  bad := ck bad 334 (Frustum.intersectsSphere id v9 v13)
  let v14 : Sphere R := (⟨v5, (0.0 : R)⟩ : Sphere R)
  bad := ck bad 334 (Frustum.intersectsSphere id v9 v14)
  let v15 : Sphere R := (⟨v6, (0.0 : R)⟩ : Sphere R)
  bad := ck bad 334 (Frustum.intersectsSphere id v9 v15)
  let v16 : Sphere R := (⟨v7, (0.0 : R)⟩ : Sphere R)
  bad := ck bad 334 (Frustum.intersectsSphere id v9 v16)
  let v17 : Sphere R := (⟨v8, (0.0 : R)⟩ : Sphere R)
  bad := ck bad 334 (Frustum.intersectsSphere id v9 v17)
  return bad
end Frustum_15
#guard passes Frustum_15.run

namespace Frustum_16
abbrev R := Float32
def run : Res (List Nat) := do
  let mut bad : List Nat := []
  let v1 : Vec3 R := (⟨(1 : R), (1 : R), (1 : R)⟩ : Vec3 R)
  let v2 : Vec3 R := (⟨(1 : R), (-1 : R), (1 : R)⟩ : Vec3 R)
  let v3 : Vec3 R := (⟨(-1 : R), (-1 : R), (1 : R)⟩ : Vec3 R)
  let v4 : Vec3 R := (⟨(-1 : R), (1 : R), (1 : R)⟩ : Vec3 R)
  let v5 : Vec3 R := (⟨(1 : R), (1 : R), (-1 : R)⟩ : Vec3 R)
  let v6 : Vec3 R := (⟨(1 : R), (-1 : R), (-1 : R)⟩ : Vec3 R)
  let v7 : Vec3 R := (⟨(-1 : R), (-1 : R), (-1 : R)⟩ : Vec3 R)
  let v8 : Vec3 R := (⟨(-1 : R), (1 : R), (-1 : R)⟩ : Vec3 R)
  let v9 : Frustum R := (Frustum.set (fnOf [v1, v2, v3, v4, v5, v6, v7, v8]))
  let v10 : Sphere R := (⟨(v1 * (1.5 : R)), (0.5 : R)⟩ : Sphere R)
  bad := ck bad 344 (Frustum.intersectsSphere id v9 v10)
  let v11 : Sphere R := (⟨(v2 * (1.5 : R)), (0.5 : R)⟩ : Sphere R)
  bad := ck bad 344 (Frustum.intersectsSphere id v9 v11)
  let v12 : Sphere R := (⟨(v3 * (1.5 : R)), (0.5 : R)⟩ : Sphere R)
  bad := ck bad 344 (Frustum.intersectsSphere id v9 v12)
  let v13 : Sphere R := (⟨(v4 * (1.5 : R)), (0.5 : R)⟩ : Sphere R)
  bad := ck bad 344 (Frustum.intersectsSphere id v9 v13)
  let v14 : Sphere R := (⟨(v5 * (1.5 : R)), (0.5 : R)⟩ : Sphere R)
  bad := ck bad 344 (Frustum.intersectsSphere id v9 v14)
  let v15 : Sphere R := (⟨(v6 * (1.5 : R)), (0.5 : R)⟩ : Sphere R)
  bad := ck bad 344 (Frustum.intersectsSphere id v9 v15)
  let v16 : Sphere R := (⟨(v7 * (1.5 : R)), (0.5 : R)⟩ : Sphere R)
  bad := ck bad 344 (Frustum.intersectsSphere id v9 v16)
  let v17 : Sphere R := (⟨(v8 * (1.5 : R)), (0.5 : R)⟩ : Sphere R)
  bad := ck bad 344 (Frustum.intersectsSphere id v9 v17)
  return bad
end Frustum_16
#guard passes Frustum_16.run

namespace Frustum_17
abbrev R := Float32
def run : Res (List Nat) := do
  let mut bad : List Nat := []
  let v1 : Vec3 R := (⟨(1 : R), (1 : R), (1 : R)⟩ : Vec3 R)
  let v2 : Vec3 R := (⟨(1 : R), (-1 : R), (1 : R)⟩ : Vec3 R)
  let v3 : Vec3 R := (⟨(-1 : R), (-1 : R), (1 : R)⟩ : Vec3 R)
  let v4 : Vec3 R := (⟨(-1 : R), (1 : R), (1 : R)⟩ : Vec3 R)
  let v5 : Vec3 R := (⟨(1 : R), (1 : R), (-1 : R)⟩ : Vec3 R)
  let v6 : Vec3 R := (⟨(1 : R), (-1 : R), (-1 : R)⟩ : Vec3 R)
  let v7 : Vec3 R := (⟨(-1 : R), (-1 : R), (-1 : R)⟩ : Vec3 R)
  let v8 : Vec3 R := (⟨(-1 : R), (1 : R), (-1 : R)⟩ : Vec3 R)
  let v9 : Frustum R := (Frustum.set (fnOf [v1, v2, v3, v4, v5, v6, v7, v8]))
  let v10 : Sphere R := (⟨(v1 * (1.51 : R)), (0.5 : R)⟩ : Sphere R)
  bad := ck bad 354 (!(Frustum.intersectsSphere id v9 v10))
  let v11 : Sphere R := (⟨(v2 * (1.51 : R)), (0.5 : R)⟩ : Sphere R)
  bad := ck bad 354 (!(Frustum.intersectsSphere id v9 v11))
  let v12 : Sphere R := (⟨(v3 * (1.51 : R)), (0.5 : R)⟩ : Sphere R)
  bad := ck bad 354 (!(Frustum.intersectsSphere id v9 v12))
  let v13 : Sphere R := (⟨(v4 * (1.51 : R)), (0.5 : R)⟩ : Sphere R)
  bad := ck bad 354 (!(Frustum.intersectsSphere id v9 v13))
  let v14 : Sphere R := (⟨(v5 * (1.51 : R)), (0.5 : R)⟩ : Sphere R)
  bad := ck bad 354 (!(Frustum.intersectsSphere id v9 v14))
  let v15 : Sphere R := (⟨(v6 * (1.51 : R)), (0.5 : R)⟩ : Sphere R)
  bad := ck bad 354 (!(Frustum.intersectsSphere id v9 v15))
  let v16 : Sphere R := (⟨(v7 * (1.51 : R)), (0.5 : R)⟩ : Sphere R)
  bad := ck bad 354 (!(Frustum.intersectsSphere id v9 v16))
  let v17 : Sphere R := (⟨(v8 * (1.51 : R)), (0.5 : R)⟩ : Sphere R)
  bad := ck bad 354 (!(Frustum.intersectsSphere id v9 v17))
  return bad
end Frustum_17
#guard passes Frustum_17.run

namespace Frustum_18
abbrev R := Float32
def run : Res (List Nat) := do
  let mut bad : List Nat := []
  let v1 : Vec3 R := (⟨(1 : R), (1 : R), (1 : R)⟩ : Vec3 R)
  let v2 : Vec3 R := (⟨(1 : R), (-1 : R), (1 : R)⟩ : Vec3 R)
  let v3 : Vec3 R := (⟨(-1 : R), (-1 : R), (1 : R)⟩ : Vec3 R)
  let v4 : Vec3 R := (⟨(-1 : R), (1 : R), (1 : R)⟩ : Vec3 R)
  let v5 : Vec3 R := (⟨(1 : R), (1 : R), (-1 : R)⟩ : Vec3 R)
  let v6 : Vec3 R := (⟨(1 : R), (-1 : R), (-1 : R)⟩ : Vec3 R)
  let v7 : Vec3 R := (⟨(-1 : R), (-1 : R), (-1 : R)⟩ : Vec3 R)
  let v8 : Vec3 R := (⟨(-1 : R), (1 : R), (-1 : R)⟩ : Vec3 R)
  let v9 : Frustum R := (Frustum.set (fnOf [v1, v2, v3, v4, v5, v6, v7, v8]))
  bad := ck bad 361 (Near.near (0.001 : R) v9 v9)
  return bad
end Frustum_18
#guard passes Frustum_18.run

end MathLib.Conformance
