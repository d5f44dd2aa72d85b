import Verif.Conformance.Base

/-!
# Unit tests of `tests/tests/src/test_plane.cpp`, replayed on the model

Generated by `tools/conform.py`; the numbers are the source lines of the checks.  147 checks;
13 checks of that file are not translated (casts, random draws, `sizeof`, `data()`, and
functions outside the model).
-/

namespace MathLib.Conformance
set_option linter.all false

namespace Plane_0
abbrev R := Float32
def run : Res (List Nat) := do
  let mut bad : List Nat := []
  bad := ck bad 19 (Vec3.eq (Plane.XY : Plane R).normal (Vec3.oneZ : Vec3 R))
  bad := ck bad 20 ((Plane.XY : Plane R).d == (0.0 : R))
  return bad
end Plane_0
#guard passes Plane_0.run

namespace Plane_1
abbrev R := Float32
def run : Res (List Nat) := do
  let mut bad : List Nat := []
  bad := ck bad 25 (Vec3.eq (Plane.YZ : Plane R).normal (Vec3.oneX : Vec3 R))
  bad := ck bad 26 ((Plane.YZ : Plane R).d == (0.0 : R))
  return bad
end Plane_1
#guard passes Plane_1.run

namespace Plane_2
abbrev R := Float32
def run : Res (List Nat) := do
  let mut bad : List Nat := []
  bad := ck bad 31 (Vec3.eq (Plane.ZX : Plane R).normal (Vec3.oneY : Vec3 R))
  bad := ck bad 32 ((Plane.ZX : Plane R).d == (0.0 : R))
  return bad
end Plane_2
#guard passes Plane_2.run

namespace Plane_3
abbrev R := Float32
def run : Res (List Nat) := do
  let mut bad : List Nat := []
  let v1 : Plane R := (Plane.fromNormal (Vec3.oneZ : Vec3 R) (10.0 : R))
  bad := ck bad 45 (Vec3.eq v1.normal (Vec3.oneZ : Vec3 R))
  bad := ck bad 46 (v1.d == (10.0 : R))
  return bad
end Plane_3
#guard passes Plane_3.run

namespace Plane_4
abbrev R := Float32
def run : Res (List Nat) := do
  let mut bad : List Nat := []
  let v1 : Plane R := (Plane.fromNormal (Vec3.oneZ : Vec3 R) (0.0 : R))
  bad := ck bad 56 (Plane.eq v1 (Plane.XY : Plane R))
  let v2 : Plane R := (Plane.fromNormal (Vec3.oneY : Vec3 R) (0.0 : R))
  bad := ck bad 59 (Plane.eq v2 (Plane.ZX : Plane R))
  let v3 : Plane R := (Plane.fromNormal (Vec3.oneX : Vec3 R) (0.0 : R))
  bad := ck bad 62 (Plane.eq v3 (Plane.YZ : Plane R))
  let v4 : Plane R := (Plane.fromNormal (Vec3.oneX : Vec3 R) (2.0 : R))
  bad := ck bad 65 (Vec3.eq v4.normal (Vec3.oneX : Vec3 R))
  bad := ck bad 66 (v4.d == (2.0 : R))
  let v5 : Plane R := (Plane.fromNormal (Vec3.oneY : Vec3 R) (2.0 : R))
  bad := ck bad 69 (Vec3.eq v5.normal (Vec3.oneY : Vec3 R))
  bad := ck bad 70 (v5.d == (2.0 : R))
  let v6 : Plane R := (Plane.fromNormal (Vec3.oneZ : Vec3 R) (2.0 : R))
  bad := ck bad 73 (Vec3.eq v6.normal (Vec3.oneZ : Vec3 R))
  bad := ck bad 74 (v6.d == (2.0 : R))
  return bad
end Plane_4
#guard passes Plane_4.run

namespace Plane_5
abbrev R := Float32
def run : Res (List Nat) := do
  let mut bad : List Nat := []
  let v1 : Plane R := (Plane.fromPoint (Vec3.zero : Vec3 R) (Vec3.oneZ : Vec3 R))
  bad := ck bad 82 (Plane.eq v1 (Plane.XY : Plane R))
  let v2 : Plane R := (Plane.fromPoint (Vec3.zero : Vec3 R) (Vec3.oneY : Vec3 R))
  bad := ck bad 85 (Plane.eq v2 (Plane.ZX : Plane R))
  let v3 : Plane R := (Plane.fromPoint (Vec3.zero : Vec3 R) (Vec3.oneX : Vec3 R))
  bad := ck bad 88 (Plane.eq v3 (Plane.YZ : Plane R))
  let v4 : Plane R := (Plane.fromPoint (⟨(2.0 : R), (0.0 : R), (0.0 : R)⟩ : Vec3 R) (Vec3.oneX : Vec3 R))
  bad := ck bad 91 (Vec3.eq v4.normal (Vec3.oneX : Vec3 R))
  bad := ck bad 92 (v4.d == (2.0 : R))
  let v5 : Plane R := (Plane.fromPoint (⟨(0.0 : R), (2.0 : R), (0.0 : R)⟩ : Vec3 R) (Vec3.oneY : Vec3 R))
  bad := ck bad 95 (Vec3.eq v5.normal (Vec3.oneY : Vec3 R))
  bad := ck bad 96 (v5.d == (2.0 : R))
  let v6 : Plane R := (Plane.fromPoint (⟨(0.0 : R), (0.0 : R), (2.0 : R)⟩ : Vec3 R) (Vec3.oneZ : Vec3 R))
  bad := ck bad 99 (Vec3.eq v6.normal (Vec3.oneZ : Vec3 R))
  bad := ck bad 100 (v6.d == (2.0 : R))
  return bad
end Plane_5
#guard passes Plane_5.run

namespace Plane_6
abbrev R := Float32
def run : Res (List Nat) := do
  let mut bad : List Nat := []
  let v1 : Plane R := (Plane.fromTangents (Vec3.zero : Vec3 R) (Vec3.oneX : Vec3 R) (Vec3.oneY : Vec3 R))
  bad := ck bad 108 (Plane.eq v1 (Plane.XY : Plane R))
  let v2 : Plane R := (Plane.fromTangents (Vec3.zero : Vec3 R) (Vec3.oneZ : Vec3 R) (Vec3.oneX : Vec3 R))
  bad := ck bad 111 (Plane.eq v2 (Plane.ZX : Plane R))
  let v3 : Plane R := (Plane.fromTangents (Vec3.zero : Vec3 R) (Vec3.oneY : Vec3 R) (Vec3.oneZ : Vec3 R))
  bad := ck bad 114 (Plane.eq v3 (Plane.YZ : Plane R))
  let v4 : Plane R := (Plane.fromTangents (⟨(2.0 : R), (0.0 : R), (0.0 : R)⟩ : Vec3 R) (Vec3.oneY : Vec3 R) (Vec3.oneZ : Vec3 R))
  bad := ck bad 117 (Vec3.eq v4.normal (Vec3.oneX : Vec3 R))
  bad := ck bad 118 (v4.d == (2.0 : R))
  let v5 : Plane R := (Plane.fromTangents (⟨(0.0 : R), (2.0 : R), (0.0 : R)⟩ : Vec3 R) (Vec3.oneZ : Vec3 R) (Vec3.oneX : Vec3 R))
  bad := ck bad 121 (Vec3.eq v5.normal (Vec3.oneY : Vec3 R))
  bad := ck bad 122 (v5.d == (2.0 : R))
  let v6 : Plane R := (Plane.fromTangents (⟨(0.0 : R), (0.0 : R), (2.0 : R)⟩ : Vec3 R) (Vec3.oneX : Vec3 R) (Vec3.oneY : Vec3 R))
  bad := ck bad 125 (Vec3.eq v6.normal (Vec3.oneZ : Vec3 R))
  bad := ck bad 126 (v6.d == (2.0 : R))
  return bad
end Plane_6
#guard passes Plane_6.run

namespace Plane_7
abbrev R := Float32
def run : Res (List Nat) := do
  let mut bad : List Nat := []
  let v1 : Plane R := (Plane.fromNormal (Vec3.oneZ : Vec3 R) (0.0 : R))
  bad := ck bad 136 (Plane.eq v1 (Plane.XY : Plane R))
  let v2 : Plane R := (Plane.fromNormal (Vec3.oneY : Vec3 R) (0.0 : R))
  bad := ck bad 139 (Plane.eq v2 (Plane.ZX : Plane R))
  let v3 : Plane R := (Plane.fromNormal (Vec3.oneX : Vec3 R) (0.0 : R))
  bad := ck bad 142 (Plane.eq v3 (Plane.YZ : Plane R))
  let v4 : Plane R := (Plane.fromNormal (Vec3.oneX : Vec3 R) (2.0 : R))
  bad := ck bad 145 (Vec3.eq v4.normal (Vec3.oneX : Vec3 R))
  bad := ck bad 146 (v4.d == (2.0 : R))
  let v5 : Plane R := (Plane.fromNormal (Vec3.oneY : Vec3 R) (2.0 : R))
  bad := ck bad 149 (Vec3.eq v5.normal (Vec3.oneY : Vec3 R))
  bad := ck bad 150 (v5.d == (2.0 : R))
  let v6 : Plane R := (Plane.fromNormal (Vec3.oneZ : Vec3 R) (2.0 : R))
  bad := ck bad 153 (Vec3.eq v6.normal (Vec3.oneZ : Vec3 R))
  bad := ck bad 154 (v6.d == (2.0 : R))
  return bad
end Plane_7
#guard passes Plane_7.run

namespace Plane_8
abbrev R := Float32
def run : Res (List Nat) := do
  let mut bad : List Nat := []
  let v1 : Plane R := (Plane.fromPoint (Vec3.zero : Vec3 R) (Vec3.oneZ : Vec3 R))
  bad := ck bad 162 (Plane.eq v1 (Plane.XY : Plane R))
  let v2 : Plane R := (Plane.fromPoint (Vec3.zero : Vec3 R) (Vec3.oneY : Vec3 R))
  bad := ck bad 165 (Plane.eq v2 (Plane.ZX : Plane R))
  let v3 : Plane R := (Plane.fromPoint (Vec3.zero : Vec3 R) (Vec3.oneX : Vec3 R))
  bad := ck bad 168 (Plane.eq v3 (Plane.YZ : Plane R))
  let v4 : Plane R := (Plane.fromPoint (⟨(2.0 : R), (0.0 : R), (0.0 : R)⟩ : Vec3 R) (Vec3.oneX : Vec3 R))
  bad := ck bad 171 (Vec3.eq v4.normal (Vec3.oneX : Vec3 R))
  bad := ck bad 172 (v4.d == (2.0 : R))
  let v5 : Plane R := (Plane.fromPoint (⟨(0.0 : R), (2.0 : R), (0.0 : R)⟩ : Vec3 R) (Vec3.oneY : Vec3 R))
  bad := ck bad 175 (Vec3.eq v5.normal (Vec3.oneY : Vec3 R))
  bad := ck bad 176 (v5.d == (2.0 : R))
  let v6 : Plane R := (Plane.fromPoint (⟨(0.0 : R), (0.0 : R), (2.0 : R)⟩ : Vec3 R) (Vec3.oneZ : Vec3 R))
  bad := ck bad 179 (Vec3.eq v6.normal (Vec3.oneZ : Vec3 R))
  bad := ck bad 180 (v6.d == (2.0 : R))
  return bad
end Plane_8
#guard passes Plane_8.run

namespace Plane_9
abbrev R := Float32
def run : Res (List Nat) := do
  let mut bad : List Nat := []
  let v1 : Plane R := (Plane.fromTangents (Vec3.zero : Vec3 R) (Vec3.oneX : Vec3 R) (Vec3.oneY : Vec3 R))
  bad := ck bad 188 (Plane.eq v1 (Plane.XY : Plane R))
  let v2 : Plane R := (Plane.fromTangents (Vec3.zero : Vec3 R) (Vec3.oneZ : Vec3 R) (Vec3.oneX : Vec3 R))
  bad := ck bad 191 (Plane.eq v2 (Plane.ZX : Plane R))
  let v3 : Plane R := (Plane.fromTangents (Vec3.zero : Vec3 R) (Vec3.oneY : Vec3 R) (Vec3.oneZ : Vec3 R))
  bad := ck bad 194 (Plane.eq v3 (Plane.YZ : Plane R))
  let v4 : Plane R := (Plane.fromTangents (⟨(2.0 : R), (0.0 : R), (0.0 : R)⟩ : Vec3 R) (Vec3.oneY : Vec3 R) (Vec3.oneZ : Vec3 R))
  bad := ck bad 197 (Vec3.eq v4.normal (Vec3.oneX : Vec3 R))
  bad := ck bad 198 (v4.d == (2.0 : R))
  let v5 : Plane R := (Plane.fromTangents (⟨(0.0 : R), (2.0 : R), (0.0 : R)⟩ : Vec3 R) (Vec3.oneZ : Vec3 R) (Vec3.oneX : Vec3 R))
  bad := ck bad 201 (Vec3.eq v5.normal (Vec3.oneY : Vec3 R))
  bad := ck bad 202 (v5.d == (2.0 : R))
  let v6 : Plane R := (Plane.fromTangents (⟨(0.0 : R), (0.0 : R), (2.0 : R)⟩ : Vec3 R) (Vec3.oneX : Vec3 R) (Vec3.oneY : Vec3 R))
  bad := ck bad 205 (Vec3.eq v6.normal (Vec3.oneZ : Vec3 R))
  bad := ck bad 206 (v6.d == (2.0 : R))
  return bad
end Plane_9
#guard passes Plane_9.run

namespace Plane_10
abbrev R := Float32
def run : Res (List Nat) := do
  let mut bad : List Nat := []
  let v1 : Plane R := (Plane.fromNormal (Vec3.oneZ : Vec3 R) (2.0 : R))
  bad := ck bad 214 (Plane.eq v1 v1)
  bad := ck bad 215 (Plane.eq v1 (Plane.fromNormal (Vec3.oneZ : Vec3 R) (2.0 : R)))
  return bad
end Plane_10
#guard passes Plane_10.run

namespace Plane_11
abbrev R := Float32
def run : Res (List Nat) := do
  let mut bad : List Nat := []
  let v1 : Plane R := (Plane.fromNormal (Vec3.oneZ : Vec3 R) (2.0 : R))
  bad := ck bad 221 (!(Plane.ne v1 v1))
  bad := ck bad 222 (!(Plane.ne v1 (Plane.fromNormal (Vec3.oneZ : Vec3 R) (2.0 : R))))
  return bad
end Plane_11
#guard passes Plane_11.run

namespace Plane_12
abbrev R := Float32
def run : Res (List Nat) := do
  let mut bad : List Nat := []
  let v1 : Plane R := (Plane.XY : Plane R)
  let v2 : Plane R := (Plane.move v1 (1.0 : R))
  bad := ck bad 232 (Plane.contains v2 (⟨(0.0 : R), (0.0 : R), (1.0 : R)⟩ : Vec3 R) (0.0 : R))
  return bad
end Plane_12
#guard passes Plane_12.run

namespace Plane_13
abbrev R := Float32
def run : Res (List Nat) := do
  let mut bad : List Nat := []
  let v1 : Plane R := (Plane.moved (Plane.XY : Plane R) (1 : R))
  let v2 : Plane R := (Plane.flip v1)
  bad := ck bad 240 ((Plane.distance v2 (Vec3.zero : Vec3 R)) == (1.0 : R))
  bad := ck bad 241 (Plane.contains v2 (⟨(0.0 : R), (0.0 : R), (1.0 : R)⟩ : Vec3 R) (0.0 : R))
  return bad
end Plane_13
#guard passes Plane_13.run

namespace Plane_14
abbrev R := Float32
def run : Res (List Nat) := do
  let mut bad : List Nat := []
  let v1 : Plane R := (Plane.moved (Plane.XY : Plane R) (1.0 : R))
  bad := ck bad 250 (Plane.contains v1 (⟨(0.0 : R), (0.0 : R), (1.0 : R)⟩ : Vec3 R) (0.0 : R))
  return bad
end Plane_14
#guard passes Plane_14.run

namespace Plane_15
abbrev R := Float32
def run : Res (List Nat) := do
  let mut bad : List Nat := []
  let v1 : Plane R := (Plane.flipped (Plane.moved (Plane.XY : Plane R) (1.0 : R)))
  bad := ck bad 257 ((Plane.distance v1 (Vec3.zero : Vec3 R)) == (1.0 : R))
  bad := ck bad 258 (Plane.contains v1 (⟨(0.0 : R), (0.0 : R), (1.0 : R)⟩ : Vec3 R) (0.0 : R))
  return bad
end Plane_15
#guard passes Plane_15.run

namespace Plane_16
abbrev R := Float32
def run : Res (List Nat) := do
  let mut bad : List Nat := []
  let v1 : Plane R := (Plane.XY : Plane R)
  bad := ck bad 265 (Plane.contains v1 (Vec3.zero : Vec3 R) (1e-10 : R))
  bad := ck bad 266 (Plane.contains v1 (Vec3.oneX : Vec3 R) (1e-10 : R))
  bad := ck bad 267 (Plane.contains v1 (Vec3.oneY : Vec3 R) (1e-10 : R))
  bad := ck bad 268 (Plane.contains v1 (⟨(0.0 : R), (0.0 : R), (1.0 : R)⟩ : Vec3 R) (1.0 : R))
  bad := ck bad 269 (Plane.contains v1 (⟨(0.0 : R), (0.0 : R), (-(1.0 : R))⟩ : Vec3 R) (1.0 : R))
  bad := ck bad 270 (!(Plane.contains v1 (⟨(0.0 : R), (0.0 : R), (1.01 : R)⟩ : Vec3 R) (1.0 : R)))
  bad := ck bad 271 (!(Plane.contains v1 (⟨(0.0 : R), (0.0 : R), (-(1.01 : R))⟩ : Vec3 R) (1.0 : R)))
  return bad
end Plane_16
#guard passes Plane_16.run

namespace Plane_17
abbrev R := Float32
def run : Res (List Nat) := do
  let mut bad : List Nat := []
  let v1 : Plane R := (Plane.XY : Plane R)
  bad := ck bad 278 ((Plane.distance v1 (Vec3.zero : Vec3 R)) == (0.0 : R))
  bad := ck bad 279 ((Plane.distance v1 (Vec3.oneX : Vec3 R)) == (0.0 : R))
  bad := ck bad 280 ((Plane.distance v1 (Vec3.oneY : Vec3 R)) == (0.0 : R))
  bad := ck bad 281 ((Plane.distance v1 (⟨(0.0 : R), (0.0 : R), (1.0 : R)⟩ : Vec3 R)) == (1.0 : R))
  bad := ck bad 282 ((Plane.distance v1 (⟨(0.0 : R), (0.0 : R), (-(1.0 : R))⟩ : Vec3 R)) == (-(1.0 : R)))
  return bad
end Plane_17
#guard passes Plane_17.run

namespace Plane_18
abbrev R := Float32
def run : Res (List Nat) := do
  let mut bad : List Nat := []
  let v1 : Plane R := (Plane.XY : Plane R)
  let o2 := (Plane.hitsRay v1 (Ray3.from (⟨(0.0 : R), (0.0 : R), (2.0 : R)⟩ : Vec3 R) (-(Vec3.oneZ : Vec3 R))))
  bad := ck bad 292 o2.isSome
  bad := ck bad 293 (Vec3.eq (o2.getD (⟨0, 0, 0⟩, 0)).1 (⟨(0.0 : R), (0.0 : R), (0.0 : R)⟩ : Vec3 R))
  bad := ck bad 294 ((o2.getD (⟨0, 0, 0⟩, 0)).2 == (2.0 : R))
  let o3 := (Plane.hitsLine v1 (⟨(⟨(0.0 : R), (0.0 : R), (-(2.0 : R))⟩ : Vec3 R), (Vec3.oneZ : Vec3 R)⟩ : Line3 R))
  bad := ck bad 296 (!o3.isSome)
  let o4 := (Plane.hitsLine v1 (⟨(⟨(0.0 : R), (0.0 : R), (2.0 : R)⟩ : Vec3 R), (Vec3.oneZ : Vec3 R)⟩ : Line3 R))
  bad := ck bad 297 (!o4.isSome)
  let o5 := (Plane.hitsLine v1 (⟨(⟨(0.0 : R), (0.0 : R), (2.0 : R)⟩ : Vec3 R), (Vec3.oneX : Vec3 R)⟩ : Line3 R))
  bad := ck bad 298 (!o5.isSome)
  let o6 := (Plane.hitsLine v1 (⟨(⟨(0.0 : R), (0.0 : R), (2.0 : R)⟩ : Vec3 R), (Vec3.oneY : Vec3 R)⟩ : Line3 R))
  bad := ck bad 299 (!o6.isSome)
  return bad
end Plane_18
#guard passes Plane_18.run

namespace Plane_19
abbrev R := Float32
def run : Res (List Nat) := do
  let mut bad : List Nat := []
  let v1 : Plane R := (Plane.XY : Plane R)
  let o2 := (Plane.hitsLine v1 (⟨(⟨(0.0 : R), (0.0 : R), (2.0 : R)⟩ : Vec3 R), (⟨(0.0 : R), (0.0 : R), (-(2.0 : R))⟩ : Vec3 R)⟩ : Line3 R))
  bad := ck bad 309 o2.isSome
  bad := ck bad 310 (Vec3.eq (o2.getD (⟨0, 0, 0⟩, 0)).1 (⟨(0.0 : R), (0.0 : R), (0.0 : R)⟩ : Vec3 R))
  bad := ck bad 311 ((o2.getD (⟨0, 0, 0⟩, 0)).2 == (0.5 : R))
  let o3 := (Plane.hitsLine v1 (⟨(⟨(0.0 : R), (0.0 : R), (-(2.0 : R))⟩ : Vec3 R), (⟨(0.0 : R), (0.0 : R), (2.0 : R)⟩ : Vec3 R)⟩ : Line3 R))
  bad := ck bad 313 (!o3.isSome)
  let o4 := (Plane.hitsLine v1 (⟨(⟨(0.0 : R), (0.0 : R), (-(2.0 : R))⟩ : Vec3 R), (⟨(1.0 : R), (0.0 : R), (-(2.0 : R))⟩ : Vec3 R)⟩ : Line3 R))
  bad := ck bad 314 (!o4.isSome)
  let o5 := (Plane.hitsLine v1 (⟨(⟨(0.0 : R), (0.0 : R), (2.0 : R)⟩ : Vec3 R), (⟨(0.0 : R), (1.0 : R), (2.0 : R)⟩ : Vec3 R)⟩ : Line3 R))
  bad := ck bad 315 (!o5.isSome)
  return bad
end Plane_19
#guard passes Plane_19.run

namespace Plane_20
abbrev R := Float32
def run : Res (List Nat) := do
  let mut bad : List Nat := []
  let v1 : Plane R := (Plane.XY : Plane R)
  let o2 := (Plane.hitsLineRadius v1 (⟨(⟨(0.0 : R), (0.0 : R), (2.0 : R)⟩ : Vec3 R), (⟨(0.0 : R), (0.0 : R), (-(2.0 : R))⟩ : Vec3 R)⟩ : Line3 R) (1.0 : R))
  bad := ck bad 325 o2.isSome
  bad := ck bad 326 (Vec3.eq (o2.getD (⟨0, 0, 0⟩, 0)).1 (⟨(0.0 : R), (0.0 : R), (1.0 : R)⟩ : Vec3 R))
  bad := ck bad 327 ((o2.getD (⟨0, 0, 0⟩, 0)).2 == (0.25 : R))
  let o3 := (Plane.hitsLineRadius v1 (⟨(⟨(0.0 : R), (0.0 : R), (-(2.0 : R))⟩ : Vec3 R), (⟨(0.0 : R), (0.0 : R), (2.0 : R)⟩ : Vec3 R)⟩ : Line3 R) (1.0 : R))
  bad := ck bad 329 (!o3.isSome)
  let o4 := (Plane.hitsLineRadius v1 (⟨(⟨(0.0 : R), (0.0 : R), (-(2.0 : R))⟩ : Vec3 R), (⟨(1.0 : R), (0.0 : R), (-(2.0 : R))⟩ : Vec3 R)⟩ : Line3 R) (1.0 : R))
  bad := ck bad 330 (!o4.isSome)
  let o5 := (Plane.hitsLineRadius v1 (⟨(⟨(0.0 : R), (0.0 : R), (2.0 : R)⟩ : Vec3 R), (⟨(0.0 : R), (1.0 : R), (2.0 : R)⟩ : Vec3 R)⟩ : Line3 R) (1.0 : R))
  bad := ck bad 331 (!o5.isSome)
  return bad
end Plane_20
#guard passes Plane_20.run

namespace Plane_21
abbrev R := Float32
def run : Res (List Nat) := do
  let mut bad : List Nat := []
  let v1 : Plane R := (Plane.XY : Plane R)
  let o2 := (Plane.hitsSphere v1 (⟨(⟨(0.0 : R), (0.0 : R), (1.0 : R)⟩ : Vec3 R), (1.0 : R)⟩ : Sphere R))
  bad := ck bad 340 o2.isSome
  bad := ck bad 341 ((o2.getD (0)) == (0.0 : R))
  let o3 := (Plane.hitsSphere v1 (⟨(⟨(0.0 : R), (0.0 : R), (0.5 : R)⟩ : Vec3 R), (1.0 : R)⟩ : Sphere R))
  bad := ck bad 343 o3.isSome
  bad := ck bad 344 ((o3.getD (0)) == (0.5 : R))
  let o4 := (Plane.hitsSphere v1 (⟨(⟨(0.0 : R), (0.0 : R), (0.0 : R)⟩ : Vec3 R), (1.0 : R)⟩ : Sphere R))
  bad := ck bad 346 o4.isSome
  bad := ck bad 347 ((o4.getD (0)) == (1.0 : R))
  let o5 := (Plane.hitsSphere v1 (⟨(⟨(0.0 : R), (0.0 : R), (-(0.1 : R))⟩ : Vec3 R), (1.0 : R)⟩ : Sphere R))
  bad := ck bad 349 (!o5.isSome)
  return bad
end Plane_21
#guard passes Plane_21.run

namespace Plane_22
abbrev R := Float32
def run : Res (List Nat) := do
  let mut bad : List Nat := []
  let v1 : Plane R := (Plane.XY : Plane R)
  let o2 := (Plane.intersectsRay v1 (Ray3.from (⟨(0.0 : R), (0.0 : R), (2.0 : R)⟩ : Vec3 R) (-(Vec3.oneZ : Vec3 R))))
  bad := ck bad 359 o2.isSome
  bad := ck bad 360 (Vec3.eq (o2.getD (⟨0, 0, 0⟩, 0)).1 (⟨(0.0 : R), (0.0 : R), (0.0 : R)⟩ : Vec3 R))
  bad := ck bad 361 ((o2.getD (⟨0, 0, 0⟩, 0)).2 == (2.0 : R))
  let o3 := (Plane.intersectsRay v1 (Ray3.from (⟨(0.0 : R), (0.0 : R), (-(2.0 : R))⟩ : Vec3 R) (Vec3.oneZ : Vec3 R)))
  bad := ck bad 363 o3.isSome
  bad := ck bad 364 (Vec3.eq (o3.getD (⟨0, 0, 0⟩, 0)).1 (⟨(0.0 : R), (0.0 : R), (0.0 : R)⟩ : Vec3 R))
  bad := ck bad 365 ((o3.getD (⟨0, 0, 0⟩, 0)).2 == (2.0 : R))
  let o4 := (Plane.intersectsRay v1 (Ray3.from (⟨(0.0 : R), (0.0 : R), (2.0 : R)⟩ : Vec3 R) (Vec3.oneZ : Vec3 R)))
  bad := ck bad 367 (!o4.isSome)
  let o5 := (Plane.intersectsRay v1 (Ray3.from (⟨(0.0 : R), (0.0 : R), (-(2.0 : R))⟩ : Vec3 R) (Vec3.oneX : Vec3 R)))
  bad := ck bad 368 (!o5.isSome)
  let o6 := (Plane.intersectsRay v1 (Ray3.from (⟨(0.0 : R), (0.0 : R), (-(2.0 : R))⟩ : Vec3 R) (Vec3.oneY : Vec3 R)))
  bad := ck bad 369 (!o6.isSome)
  return bad
end Plane_22
#guard passes Plane_22.run

namespace Plane_23
abbrev R := Float32
def run : Res (List Nat) := do
  let mut bad : List Nat := []
  let v1 : Plane R := (Plane.XY : Plane R)
  let o2 := (Plane.intersectsLine v1 (⟨(⟨(0.0 : R), (0.0 : R), (2.0 : R)⟩ : Vec3 R), (⟨(0.0 : R), (0.0 : R), (-(2.0 : R))⟩ : Vec3 R)⟩ : Line3 R))
  bad := ck bad 379 o2.isSome
  bad := ck bad 380 (Vec3.eq (o2.getD (⟨0, 0, 0⟩, 0)).1 (⟨(0.0 : R), (0.0 : R), (0.0 : R)⟩ : Vec3 R))
  bad := ck bad 381 ((o2.getD (⟨0, 0, 0⟩, 0)).2 == (0.5 : R))
  let o3 := (Plane.intersectsLine v1 (⟨(⟨(0.0 : R), (0.0 : R), (-(2.0 : R))⟩ : Vec3 R), (⟨(0.0 : R), (0.0 : R), (2.0 : R)⟩ : Vec3 R)⟩ : Line3 R))
  bad := ck bad 383 o3.isSome
  bad := ck bad 384 (Vec3.eq (o3.getD (⟨0, 0, 0⟩, 0)).1 (⟨(0.0 : R), (0.0 : R), (0.0 : R)⟩ : Vec3 R))
  bad := ck bad 385 ((o3.getD (⟨0, 0, 0⟩, 0)).2 == (0.5 : R))
  let o4 := (Plane.intersectsLine v1 (⟨(⟨(0.0 : R), (0.0 : R), (-(2.0 : R))⟩ : Vec3 R), (⟨(1.0 : R), (0.0 : R), (-(2.0 : R))⟩ : Vec3 R)⟩ : Line3 R))
  bad := ck bad 387 (!o4.isSome)
  let o5 := (Plane.intersectsLine v1 (⟨(⟨(0.0 : R), (0.0 : R), (2.0 : R)⟩ : Vec3 R), (⟨(0.0 : R), (1.0 : R), (2.0 : R)⟩ : Vec3 R)⟩ : Line3 R))
  bad := ck bad 388 (!o5.isSome)
  return bad
end Plane_23
#guard passes Plane_23.run

namespace Plane_24
abbrev R := Float32
def run : Res (List Nat) := do
  let mut bad : List Nat := []
  let v1 : Plane R := (Plane.XY : Plane R)
  let o2 := (Plane.intersectsSphere v1 (⟨(⟨(0.0 : R), (0.0 : R), (1.0 : R)⟩ : Vec3 R), (1.0 : R)⟩ : Sphere R))
  bad := ck bad 397 o2.isSome
  bad := ck bad 398 ((o2.getD (0)) == (0.0 : R))
  let o3 := (Plane.intersectsSphere v1 (⟨(⟨(0.0 : R), (0.0 : R), (0.5 : R)⟩ : Vec3 R), (1.0 : R)⟩ : Sphere R))
  bad := ck bad 400 o3.isSome
  bad := ck bad 401 ((o3.getD (0)) == (0.5 : R))
  let o4 := (Plane.intersectsSphere v1 (⟨(⟨(0.0 : R), (0.0 : R), (0.0 : R)⟩ : Vec3 R), (1.0 : R)⟩ : Sphere R))
  bad := ck bad 403 o4.isSome
  bad := ck bad 404 ((o4.getD (0)) == (1.0 : R))
  let o5 := (Plane.intersectsSphere v1 (⟨(⟨(0.0 : R), (0.0 : R), (-(0.5 : R))⟩ : Vec3 R), (1.0 : R)⟩ : Sphere R))
  bad := ck bad 406 o5.isSome
  bad := ck bad 407 ((o5.getD (0)) == (1.5 : R))
  let o6 := (Plane.intersectsSphere v1 (⟨(⟨(0.0 : R), (0.0 : R), (-(1.0 : R))⟩ : Vec3 R), (1.0 : R)⟩ : Sphere R))
  bad := ck bad 409 o6.isSome
  bad := ck bad 410 ((o6.getD (0)) == (2.0 : R))
  let o7 := (Plane.intersectsSphere v1 (⟨(⟨(0.0 : R), (0.0 : R), (-(1.1 : R))⟩ : Vec3 R), (1.0 : R)⟩ : Sphere R))
  bad := ck bad 412 (!o7.isSome)
  return bad
end Plane_24
#guard passes Plane_24.run

namespace Plane_25
abbrev R := Float32
def run : Res (List Nat) := do
  let mut bad : List Nat := []
  let o1 ← Plane.intersectAtSinglePoint (Plane.XY : Plane R) (Plane.XY : Plane R) (Plane.XY : Plane R)
  bad := ck bad 445 (!o1.1)
  return bad
end Plane_25
#guard passes Plane_25.run

namespace Plane_26
abbrev R := Float32
def run : Res (List Nat) := do
  let mut bad : List Nat := []
  let o1 ← Plane.intersectAtSinglePoint (Plane.YZ : Plane R) (Plane.XY : Plane R) (Plane.XY : Plane R)
  bad := ck bad 450 (!o1.1)
  return bad
end Plane_26
#guard passes Plane_26.run

namespace Plane_27
abbrev R := Float32
def run : Res (List Nat) := do
  let mut bad : List Nat := []
  let o1 ← Plane.intersectAtSinglePoint (Plane.XY : Plane R) (Plane.YZ : Plane R) (Plane.XY : Plane R)
  bad := ck bad 455 (!o1.1)
  return bad
end Plane_27
#guard passes Plane_27.run

namespace Plane_28
abbrev R := Float32
def run : Res (List Nat) := do
  let mut bad : List Nat := []
  let o1 ← Plane.intersectAtSinglePoint (Plane.XY : Plane R) (Plane.XY : Plane R) (Plane.YZ : Plane R)
  bad := ck bad 460 (!o1.1)
  return bad
end Plane_28
#guard passes Plane_28.run

namespace Plane_29
abbrev R := Float32
def run : Res (List Nat) := do
  let mut bad : List Nat := []
  let o1 ← Plane.intersectAtSinglePoint (Plane.XY : Plane R) (Plane.YZ : Plane R) (Plane.ZX : Plane R)
  bad := ck bad 465 o1.1
  bad := ck bad 466 (Vec3.eq o1.2 (Vec3.zero : Vec3 R))
  return bad
end Plane_29
#guard passes Plane_29.run

namespace Plane_30
abbrev R := Float32
def run : Res (List Nat) := do
  let mut bad : List Nat := []
  let o1 ← Plane.intersectAtSinglePoint (Plane.fromPlane (Plane.YZ : Plane R) (1.0 : R)) (Plane.fromPlane (Plane.ZX : Plane R) (2.0 : R)) (Plane.fromPlane (Plane.XY : Plane R) (3.0 : R))
  bad := ck bad 471 o1.1
  bad := ck bad 475 (Vec3.eq o1.2 (⟨(1.0 : R), (2.0 : R), (3.0 : R)⟩ : Vec3 R))
  return bad
end Plane_30
#guard passes Plane_30.run

namespace Plane_31
abbrev R := Float32
def run : Res (List Nat) := do
  let mut bad : List Nat := []
  let v1 : Plane R := (Plane.fromPoint (⟨(0.0 : R), (0.0 : R), (2.0 : R)⟩ : Vec3 R) (Vec3.oneZ : Vec3 R))
  bad := ck bad 483 (Near.near (0.001 : R) v1 v1)
  return bad
end Plane_31
#guard passes Plane_31.run

end MathLib.Conformance
