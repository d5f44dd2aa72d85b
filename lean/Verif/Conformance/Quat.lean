import Verif.Conformance.Base

/-!
# Unit tests of `tests/tests/src/test_quat.cpp`, replayed on the model

Generated by `tools/conform.py`; the numbers are the source lines of the checks.  25 checks;
10 checks of that file are not translated (casts, random draws, `sizeof`, `data()`, and
functions outside the model).
-/

namespace MathLib.Conformance
set_option linter.all false

namespace Quat_0
abbrev R := Float32
def run : Res (List Nat) := do
  let mut bad : List Nat := []
  bad := ck bad 19 ((Quat.identity : Quat R).x == (0.0 : R))
  bad := ck bad 20 ((Quat.identity : Quat R).y == (0.0 : R))
  bad := ck bad 21 ((Quat.identity : Quat R).z == (0.0 : R))
  bad := ck bad 22 ((Quat.identity : Quat R).w == (1.0 : R))
  return bad
end Quat_0
#guard passes Quat_0.run

namespace Quat_1
abbrev R := Float32
def run : Res (List Nat) := do
  let mut bad : List Nat := []
  let v1 : Quat R := (Quat.ofAxisAngle (Vec3.oneZ : Vec3 R) ((MathFns.pi : R) / 3))
  let v2 : Quat R := v1
  bad := ck bad 37 (Quat.eq v2 v1)
  return bad
end Quat_1
#guard passes Quat_1.run

namespace Quat_2
abbrev R := Float32
def run : Res (List Nat) := do
  let mut bad : List Nat := []
  let v1 : Quat R := (Quat.ofAxisAngle (Vec3.oneZ : Vec3 R) ((MathFns.pi : R) / 3))
  let v2 : Mat3 R := (Mat3.ofAxisAngle (Vec3.oneZ : Vec3 R) ((MathFns.pi : R) / 3))
  let v3 : Quat R := (Quat.ofMat3 v2)
  bad := ck bad 46 (Near.near (0.001 : R) v3 v1)
  return bad
end Quat_2
#guard passes Quat_2.run

namespace Quat_3
abbrev R := Float32
def run : Res (List Nat) := do
  let mut bad : List Nat := []
  let v1 : Quat R := (Quat.ofAxisAngle (Vec3.oneZ : Vec3 R) ((MathFns.pi : R) / 3))
  let v2 : Quat R := (⟨(0 : R), (0 : R), (0.5 : R), (0.86602 : R)⟩ : Quat R)
  bad := ck bad 54 (Near.near (0.001 : R) v1 v2)
  return bad
end Quat_3
#guard passes Quat_3.run

namespace Quat_4
abbrev R := Float32
def run : Res (List Nat) := do
  let mut bad : List Nat := []
  let v1 : Quat R := (Quat.ofVecs (Vec3.oneX : Vec3 R) (Vec3.oneY : Vec3 R))
  let v2 : Quat R := (Quat.ofAxisAngle (Vec3.oneZ : Vec3 R) ((MathFns.pi : R) / 2))
  bad := ck bad 62 (Near.near (0.001 : R) v1 v2)
  return bad
end Quat_4
#guard passes Quat_4.run

namespace Quat_5
abbrev R := Float32
def run : Res (List Nat) := do
  let mut bad : List Nat := []
  let v1 : Quat R := (Quat.identity : Quat R)
  let v2 : Quat R := (Quat.ofAxisAngle (Vec3.oneZ : Vec3 R) ((MathFns.pi : R) / 3))
  let v3 : Quat R := (← Quat.lerp v1 v2 (0.0 : R))
  let v4 : Quat R := (← Quat.lerp v1 v2 (0.5 : R))
  let v5 : Quat R := (← Quat.lerp v1 v2 (1.0 : R))
  let v6 : Quat R := (Quat.ofAxisAngle (Vec3.oneZ : Vec3 R) ((MathFns.pi : R) / 6))
  bad := ck bad 74 (Near.near (0.001 : R) v3 v1)
  bad := ck bad 75 (Near.near (0.001 : R) v4 v6)
  bad := ck bad 76 (Near.near (0.001 : R) v5 v2)
  return bad
end Quat_5
#guard passes Quat_5.run

namespace Quat_6
abbrev R := Float32
def run : Res (List Nat) := do
  let mut bad : List Nat := []
  let v1 : Quat R := (Quat.identity : Quat R)
  let v2 : Quat R := (Quat.ofAxisAngle (Vec3.oneZ : Vec3 R) ((MathFns.pi : R) / 3))
  let v3 : Quat R := (← Quat.slerp v1 v2 (0.0 : R))
  let v4 : Quat R := (← Quat.slerp v1 v2 (0.25 : R))
  let v5 : Quat R := (← Quat.slerp v1 v2 (0.5 : R))
  let v6 : Quat R := (← Quat.slerp v1 v2 (0.75 : R))
  let v7 : Quat R := (← Quat.slerp v1 v2 (1.0 : R))
  bad := ck bad 89 (Near.near (0.001 : R) v3 v1)
  bad := ck bad 90 (Near.near (0.001 : R) v4 (Quat.ofAxisAngle (Vec3.oneZ : Vec3 R) (((MathFns.pi : R) / 3) * (0.25 : R))))
  bad := ck bad 91 (Near.near (0.001 : R) v5 (Quat.ofAxisAngle (Vec3.oneZ : Vec3 R) (((MathFns.pi : R) / 3) * (0.5 : R))))
  bad := ck bad 92 (Near.near (0.001 : R) v6 (Quat.ofAxisAngle (Vec3.oneZ : Vec3 R) (((MathFns.pi : R) / 3) * (0.75 : R))))
  bad := ck bad 93 (Near.near (0.001 : R) v7 v2)
  return bad
end Quat_6
#guard passes Quat_6.run

namespace Quat_7
abbrev R := Float32
def run : Res (List Nat) := do
  let mut bad : List Nat := []
  let v1 : Quat R := (Quat.identity : Quat R)
  let v2 : Quat R := (Quat.ofAxisAngle (Vec3.oneZ : Vec3 R) ((MathFns.pi : R) / 3))
  let v3 : Quat R := (← Quat.slerpMaxAngle v1 v2 (0.0 : R))
  bad := ck bad 102 (Near.near (0.001 : R) v3 v1)
  let v4 : Quat R := (← Quat.slerpMaxAngle v1 v2 ((MathFns.pi : R) / 2))
  bad := ck bad 104 (Near.near (0.001 : R) v4 v2)
  let v5 : Quat R := (← Quat.slerpMaxAngle v1 v2 ((MathFns.pi : R) / 6))
  bad := ck bad 106 (Near.near (0.001 : R) v5 (Quat.ofAxisAngle (Vec3.oneZ : Vec3 R) ((MathFns.pi : R) / 6)))
  return bad
end Quat_7
#guard passes Quat_7.run

namespace Quat_8
abbrev R := Float32
def run : Res (List Nat) := do
  let mut bad : List Nat := []
  let v1 : Quat R := (Quat.identity : Quat R)
  let v2 : Quat R := (Quat.ofAxisAngle (Vec3.oneZ : Vec3 R) (((MathFns.pi : R) / 2) * (3 : R)))
  let v3 : Quat R := (← Quat.slerpNoInvert v1 v2 (0.0 : R))
  let v4 : Quat R := (← Quat.slerpNoInvert v1 v2 (0.25 : R))
  let v5 : Quat R := (← Quat.slerpNoInvert v1 v2 (0.5 : R))
  let v6 : Quat R := (← Quat.slerpNoInvert v1 v2 (0.75 : R))
  let v7 : Quat R := (← Quat.slerpNoInvert v1 v2 (1.0 : R))
  bad := ck bad 119 (Near.near (0.001 : R) v3 v1)
  bad := ck bad 120 (Near.near (0.001 : R) v4 (Quat.ofAxisAngle (Vec3.oneZ : Vec3 R) ((((MathFns.pi : R) / 2) * (3 : R)) * (0.25 : R))))
  bad := ck bad 121 (Near.near (0.001 : R) v5 (Quat.ofAxisAngle (Vec3.oneZ : Vec3 R) ((((MathFns.pi : R) / 2) * (3 : R)) * (0.5 : R))))
  bad := ck bad 122 (Near.near (0.001 : R) v6 (Quat.ofAxisAngle (Vec3.oneZ : Vec3 R) ((((MathFns.pi : R) / 2) * (3 : R)) * (0.75 : R))))
  bad := ck bad 123 (Near.near (0.001 : R) v7 v2)
  return bad
end Quat_8
#guard passes Quat_8.run

namespace Quat_9
abbrev R := Float32
def run : Res (List Nat) := do
  let mut bad : List Nat := []
  let v1 : Quat R := (Quat.identity : Quat R)
  bad := ck bad 149 (Near.near (0.001 : R) v1 v1)
  return bad
end Quat_9
#guard passes Quat_9.run

end MathLib.Conformance
