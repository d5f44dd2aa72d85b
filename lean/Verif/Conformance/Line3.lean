import Verif.Conformance.Base

/-!
# Unit tests of `tests/tests/src/test_line3.cpp`, replayed on the model

Generated by `tools/conform.py`; the numbers are the source lines of the checks.  34 checks;
8 checks of that file are not translated (casts, random draws, `sizeof`, `data()`, and
functions outside the model).
-/

namespace MathLib.Conformance
set_option linter.all false

namespace Line3_0
abbrev R := Float32
def run : Res (List Nat) := do
  let mut bad : List Nat := []
  let v1 : Line3 R := (⟨(Vec3.zero : Vec3 R), (Vec3.oneX : Vec3 R)⟩ : Line3 R)
  bad := ck bad 22 (Vec3.eq v1.start (Vec3.zero : Vec3 R))
  bad := ck bad 23 (Vec3.eq v1.end (Vec3.oneX : Vec3 R))
  let v2 : Line3 R := (⟨(Vec3.oneX : Vec3 R), (Vec3.oneY : Vec3 R)⟩ : Line3 R)
  bad := ck bad 26 (Vec3.eq v2.start (Vec3.oneX : Vec3 R))
  bad := ck bad 27 (Vec3.eq v2.end (Vec3.oneY : Vec3 R))
  return bad
end Line3_0
#guard passes Line3_0.run

namespace Line3_1
abbrev R := Float32
def run : Res (List Nat) := do
  let mut bad : List Nat := []
  let v1 : Line3 R := (⟨(Vec3.zero : Vec3 R), (Vec3.oneX : Vec3 R)⟩ : Line3 R)
  bad := ck bad 35 (Line3.eq v1 v1)
  bad := ck bad 36 (Line3.eq v1 (⟨(Vec3.zero : Vec3 R), (Vec3.oneX : Vec3 R)⟩ : Line3 R))
  return bad
end Line3_1
#guard passes Line3_1.run

namespace Line3_2
abbrev R := Float32
def run : Res (List Nat) := do
  let mut bad : List Nat := []
  let v1 : Line3 R := (⟨(Vec3.zero : Vec3 R), (Vec3.oneX : Vec3 R)⟩ : Line3 R)
  bad := ck bad 42 (!(Line3.ne v1 v1))
  bad := ck bad 43 (Line3.ne v1 (⟨(Vec3.zero : Vec3 R), (Vec3.zero : Vec3 R)⟩ : Line3 R))
  return bad
end Line3_2
#guard passes Line3_2.run

namespace Line3_3
abbrev R := Float32
def run : Res (List Nat) := do
  let mut bad : List Nat := []
  let v1 : Line3 R := (⟨(Vec3.oneX : Vec3 R), (Vec3.oneX : Vec3 R)⟩ : Line3 R)
  bad := ck bad 53 (Near.near (1e-10 : R) (Line3.length v1) (0.0 : R))
  let v2 : Line3 R := (⟨(Vec3.zero : Vec3 R), (Vec3.oneX : Vec3 R)⟩ : Line3 R)
  bad := ck bad 55 (Near.near (1e-10 : R) (Line3.length v2) (1.0 : R))
  let v3 : Line3 R := (⟨(Vec3.zero : Vec3 R), (Vec3.oneY : Vec3 R)⟩ : Line3 R)
  bad := ck bad 57 (Near.near (1e-10 : R) (Line3.length v3) (1.0 : R))
  let v4 : Line3 R := (⟨(Vec3.oneX : Vec3 R), (Vec3.oneY : Vec3 R)⟩ : Line3 R)
  bad := ck bad 59 (Near.near (1e-6 : R) (Line3.length v4) (MathFns.sqrt (2.0 : R)))
  return bad
end Line3_3
#guard passes Line3_3.run

namespace Line3_4
abbrev R := Float32
def run : Res (List Nat) := do
  let mut bad : List Nat := []
  let v1 : Line3 R := (⟨(Vec3.oneX : Vec3 R), (Vec3.oneX : Vec3 R)⟩ : Line3 R)
  bad := ck bad 67 (Near.near (1e-10 : R) (Line3.lengthSqr v1) (0.0 : R))
  let v2 : Line3 R := (⟨(Vec3.zero : Vec3 R), (Vec3.oneX : Vec3 R)⟩ : Line3 R)
  bad := ck bad 69 (Near.near (1e-10 : R) (Line3.lengthSqr v2) (1.0 : R))
  let v3 : Line3 R := (⟨(Vec3.zero : Vec3 R), (Vec3.oneY : Vec3 R)⟩ : Line3 R)
  bad := ck bad 71 (Near.near (1e-10 : R) (Line3.lengthSqr v3) (1.0 : R))
  let v4 : Line3 R := (⟨(Vec3.oneX : Vec3 R), (Vec3.oneY : Vec3 R)⟩ : Line3 R)
  bad := ck bad 73 (Near.near (1e-6 : R) (Line3.lengthSqr v4) (2.0 : R))
  return bad
end Line3_4
#guard passes Line3_4.run

namespace Line3_5
abbrev R := Float32
def run : Res (List Nat) := do
  let mut bad : List Nat := []
  let v1 : Line3 R := (⟨(Vec3.oneX : Vec3 R), (Vec3.oneX : Vec3 R)⟩ : Line3 R)
  bad := ck bad 81 (Line3.isNull v1)
  let v2 : Line3 R := (⟨(Vec3.zero : Vec3 R), (Vec3.oneX : Vec3 R)⟩ : Line3 R)
  bad := ck bad 83 (!(Line3.isNull v2))
  let v3 : Line3 R := (⟨(Vec3.zero : Vec3 R), (Vec3.oneY : Vec3 R)⟩ : Line3 R)
  bad := ck bad 85 (!(Line3.isNull v3))
  let v4 : Line3 R := (⟨(Vec3.oneX : Vec3 R), (Vec3.oneY : Vec3 R)⟩ : Line3 R)
  bad := ck bad 87 (!(Line3.isNull v4))
  return bad
end Line3_5
#guard passes Line3_5.run

namespace Line3_6
abbrev R := Float32
def run : Res (List Nat) := do
  let mut bad : List Nat := []
  let v1 : Line3 R := (⟨(Vec3.zero : Vec3 R), (Vec3.oneX : Vec3 R)⟩ : Line3 R)
  bad := ck bad 95 (Near.near (1e-10 : R) (Line3.pointAt v1 (0.0 : R)) (Vec3.zero : Vec3 R))
  bad := ck bad 96 (Near.near (1e-10 : R) (Line3.pointAt v1 (1.0 : R)) (Vec3.oneX : Vec3 R))
  bad := ck bad 97 (Near.near (1e-10 : R) (Line3.pointAt v1 (0.5 : R)) ((Vec3.oneX : Vec3 R) * (0.5 : R)))
  let v2 : Line3 R := (⟨(Vec3.zero : Vec3 R), (Vec3.oneY : Vec3 R)⟩ : Line3 R)
  bad := ck bad 100 (Near.near (1e-10 : R) (Line3.pointAt v2 (0.0 : R)) (Vec3.zero : Vec3 R))
  bad := ck bad 101 (Near.near (1e-10 : R) (Line3.pointAt v2 (1.0 : R)) (Vec3.oneY : Vec3 R))
  bad := ck bad 102 (Near.near (1e-10 : R) (Line3.pointAt v2 (0.5 : R)) ((Vec3.oneY : Vec3 R) * (0.5 : R)))
  let v3 : Line3 R := (⟨(Vec3.zero : Vec3 R), (Vec3.oneZ : Vec3 R)⟩ : Line3 R)
  bad := ck bad 105 (Near.near (1e-10 : R) (Line3.pointAt v3 (0.0 : R)) (Vec3.zero : Vec3 R))
  bad := ck bad 106 (Near.near (1e-10 : R) (Line3.pointAt v3 (1.0 : R)) (Vec3.oneZ : Vec3 R))
  bad := ck bad 107 (Near.near (1e-10 : R) (Line3.pointAt v3 (0.5 : R)) ((Vec3.oneZ : Vec3 R) * (0.5 : R)))
  return bad
end Line3_6
#guard passes Line3_6.run

namespace Line3_7
abbrev R := Float32
def run : Res (List Nat) := do
  let mut bad : List Nat := []
  let v1 : Line3 R := (⟨(Vec3.oneX : Vec3 R), (Vec3.oneX : Vec3 R)⟩ : Line3 R)
  bad := ck bad 115 (Near.near (1e-10 : R) (Line3.distance v1 (Vec3.zero : Vec3 R)) (1.0 : R))
  let v2 : Line3 R := (⟨(Vec3.zero : Vec3 R), (Vec3.oneX : Vec3 R)⟩ : Line3 R)
  bad := ck bad 117 (Near.near (1e-10 : R) (Line3.distance v2 (⟨(10.0 : R), (3.0 : R), (0.0 : R)⟩ : Vec3 R)) (3.0 : R))
  let v3 : Line3 R := (⟨(Vec3.zero : Vec3 R), (Vec3.oneY : Vec3 R)⟩ : Line3 R)
  bad := ck bad 119 (Near.near (1e-10 : R) (Line3.distance v3 (⟨(3.0 : R), (10.0 : R), (0.0 : R)⟩ : Vec3 R)) (3.0 : R))
  let v4 : Line3 R := (⟨(Vec3.oneX : Vec3 R), (Vec3.oneY : Vec3 R)⟩ : Line3 R)
  bad := ck bad 121 (Near.near (1e-6 : R) (Line3.distance v4 (Vec3.zero : Vec3 R)) ((MathFns.sqrt (2.0 : R)) / (2.0 : R)))
  return bad
end Line3_7
#guard passes Line3_7.run

namespace Line3_8
abbrev R := Float32
def run : Res (List Nat) := do
  let mut bad : List Nat := []
  let v1 : Line3 R := (⟨(Vec3.oneX : Vec3 R), (Vec3.oneY : Vec3 R)⟩ : Line3 R)
  bad := ck bad 138 (Near.near (0.001 : R) v1 v1)
  return bad
end Line3_8
#guard passes Line3_8.run

end MathLib.Conformance
