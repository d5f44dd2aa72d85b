import Verif.Conformance.Base

/-!
# Unit tests of `tests/tests/src/test_line2.cpp`, replayed on the model

Generated by `tools/conform.py`; the numbers are the source lines of the checks.  31 checks;
8 checks of that file are not translated (casts, random draws, `sizeof`, `data()`, and
functions outside the model).
-/

namespace MathLib.Conformance
set_option linter.all false

namespace Line2_0
abbrev R := Float32
def run : Res (List Nat) := do
  let mut bad : List Nat := []
  let v1 : Line2 R := (⟨(Vec2.zero : Vec2 R), (Vec2.oneX : Vec2 R)⟩ : Line2 R)
  bad := ck bad 22 (Vec2.eq v1.start (Vec2.zero : Vec2 R))
  bad := ck bad 23 (Vec2.eq v1.end (Vec2.oneX : Vec2 R))
  let v2 : Line2 R := (⟨(Vec2.oneX : Vec2 R), (Vec2.oneY : Vec2 R)⟩ : Line2 R)
  bad := ck bad 26 (Vec2.eq v2.start (Vec2.oneX : Vec2 R))
  bad := ck bad 27 (Vec2.eq v2.end (Vec2.oneY : Vec2 R))
  return bad
end Line2_0
#guard passes Line2_0.run

namespace Line2_1
abbrev R := Float32
def run : Res (List Nat) := do
  let mut bad : List Nat := []
  let v1 : Line2 R := (⟨(Vec2.zero : Vec2 R), (Vec2.oneX : Vec2 R)⟩ : Line2 R)
  bad := ck bad 35 (Line2.eq v1 v1)
  bad := ck bad 36 (Line2.eq v1 (⟨(Vec2.zero : Vec2 R), (Vec2.oneX : Vec2 R)⟩ : Line2 R))
  return bad
end Line2_1
#guard passes Line2_1.run

namespace Line2_2
abbrev R := Float32
def run : Res (List Nat) := do
  let mut bad : List Nat := []
  let v1 : Line2 R := (⟨(Vec2.zero : Vec2 R), (Vec2.oneX : Vec2 R)⟩ : Line2 R)
  bad := ck bad 42 (!(Line2.ne v1 v1))
  bad := ck bad 43 (Line2.ne v1 (⟨(Vec2.zero : Vec2 R), (Vec2.zero : Vec2 R)⟩ : Line2 R))
  return bad
end Line2_2
#guard passes Line2_2.run

namespace Line2_3
abbrev R := Float32
def run : Res (List Nat) := do
  let mut bad : List Nat := []
  let v1 : Line2 R := (⟨(Vec2.oneX : Vec2 R), (Vec2.oneX : Vec2 R)⟩ : Line2 R)
  bad := ck bad 53 (Near.near (1e-10 : R) (Line2.length v1) (0.0 : R))
  let v2 : Line2 R := (⟨(Vec2.zero : Vec2 R), (Vec2.oneX : Vec2 R)⟩ : Line2 R)
  bad := ck bad 55 (Near.near (1e-10 : R) (Line2.length v2) (1.0 : R))
  let v3 : Line2 R := (⟨(Vec2.zero : Vec2 R), (Vec2.oneY : Vec2 R)⟩ : Line2 R)
  bad := ck bad 57 (Near.near (1e-10 : R) (Line2.length v3) (1.0 : R))
  let v4 : Line2 R := (⟨(Vec2.oneX : Vec2 R), (Vec2.oneY : Vec2 R)⟩ : Line2 R)
  bad := ck bad 59 (Near.near (1e-6 : R) (Line2.length v4) (MathFns.sqrt (2.0 : R)))
  return bad
end Line2_3
#guard passes Line2_3.run

namespace Line2_4
abbrev R := Float32
def run : Res (List Nat) := do
  let mut bad : List Nat := []
  let v1 : Line2 R := (⟨(Vec2.oneX : Vec2 R), (Vec2.oneX : Vec2 R)⟩ : Line2 R)
  bad := ck bad 67 (Near.near (1e-10 : R) (Line2.lengthSqr v1) (0.0 : R))
  let v2 : Line2 R := (⟨(Vec2.zero : Vec2 R), (Vec2.oneX : Vec2 R)⟩ : Line2 R)
  bad := ck bad 69 (Near.near (1e-10 : R) (Line2.lengthSqr v2) (1.0 : R))
  let v3 : Line2 R := (⟨(Vec2.zero : Vec2 R), (Vec2.oneY : Vec2 R)⟩ : Line2 R)
  bad := ck bad 71 (Near.near (1e-10 : R) (Line2.lengthSqr v3) (1.0 : R))
  let v4 : Line2 R := (⟨(Vec2.oneX : Vec2 R), (Vec2.oneY : Vec2 R)⟩ : Line2 R)
  bad := ck bad 73 (Near.near (1e-6 : R) (Line2.lengthSqr v4) (2.0 : R))
  return bad
end Line2_4
#guard passes Line2_4.run

namespace Line2_5
abbrev R := Float32
def run : Res (List Nat) := do
  let mut bad : List Nat := []
  let v1 : Line2 R := (⟨(Vec2.oneX : Vec2 R), (Vec2.oneX : Vec2 R)⟩ : Line2 R)
  bad := ck bad 81 (Line2.isNull v1)
  let v2 : Line2 R := (⟨(Vec2.zero : Vec2 R), (Vec2.oneX : Vec2 R)⟩ : Line2 R)
  bad := ck bad 83 (!(Line2.isNull v2))
  let v3 : Line2 R := (⟨(Vec2.zero : Vec2 R), (Vec2.oneY : Vec2 R)⟩ : Line2 R)
  bad := ck bad 85 (!(Line2.isNull v3))
  let v4 : Line2 R := (⟨(Vec2.oneX : Vec2 R), (Vec2.oneY : Vec2 R)⟩ : Line2 R)
  bad := ck bad 87 (!(Line2.isNull v4))
  return bad
end Line2_5
#guard passes Line2_5.run

namespace Line2_6
abbrev R := Float32
def run : Res (List Nat) := do
  let mut bad : List Nat := []
  let v1 : Line2 R := (⟨(Vec2.zero : Vec2 R), (Vec2.oneX : Vec2 R)⟩ : Line2 R)
  bad := ck bad 95 (Near.near (1e-10 : R) (Line2.pointAt v1 (0.0 : R)) (Vec2.zero : Vec2 R))
  bad := ck bad 96 (Near.near (1e-10 : R) (Line2.pointAt v1 (1.0 : R)) (Vec2.oneX : Vec2 R))
  bad := ck bad 97 (Near.near (1e-10 : R) (Line2.pointAt v1 (0.5 : R)) ((Vec2.oneX : Vec2 R) * (0.5 : R)))
  let v2 : Line2 R := (⟨(Vec2.zero : Vec2 R), (Vec2.oneY : Vec2 R)⟩ : Line2 R)
  bad := ck bad 100 (Near.near (1e-10 : R) (Line2.pointAt v2 (0.0 : R)) (Vec2.zero : Vec2 R))
  bad := ck bad 101 (Near.near (1e-10 : R) (Line2.pointAt v2 (1.0 : R)) (Vec2.oneY : Vec2 R))
  bad := ck bad 102 (Near.near (1e-10 : R) (Line2.pointAt v2 (0.5 : R)) ((Vec2.oneY : Vec2 R) * (0.5 : R)))
  return bad
end Line2_6
#guard passes Line2_6.run

namespace Line2_7
abbrev R := Float32
def run : Res (List Nat) := do
  let mut bad : List Nat := []
  let v1 : Line2 R := (⟨(Vec2.oneX : Vec2 R), (Vec2.oneX : Vec2 R)⟩ : Line2 R)
  bad := ck bad 110 (Near.near (1e-10 : R) (Line2.distance v1 (Vec2.zero : Vec2 R)) (1.0 : R))
  let v2 : Line2 R := (⟨(Vec2.zero : Vec2 R), (Vec2.oneX : Vec2 R)⟩ : Line2 R)
  bad := ck bad 112 (Near.near (1e-10 : R) (Line2.distance v2 (⟨(10.0 : R), (3.0 : R)⟩ : Vec2 R)) (3.0 : R))
  let v3 : Line2 R := (⟨(Vec2.zero : Vec2 R), (Vec2.oneY : Vec2 R)⟩ : Line2 R)
  bad := ck bad 114 (Near.near (1e-10 : R) (Line2.distance v3 (⟨(3.0 : R), (10.0 : R)⟩ : Vec2 R)) (3.0 : R))
  let v4 : Line2 R := (⟨(Vec2.oneX : Vec2 R), (Vec2.oneY : Vec2 R)⟩ : Line2 R)
  bad := ck bad 116 (Near.near (1e-6 : R) (Line2.distance v4 (Vec2.zero : Vec2 R)) ((MathFns.sqrt (2.0 : R)) / (2.0 : R)))
  return bad
end Line2_7
#guard passes Line2_7.run

namespace Line2_8
abbrev R := Float32
def run : Res (List Nat) := do
  let mut bad : List Nat := []
  let v1 : Line2 R := (⟨(Vec2.oneX : Vec2 R), (Vec2.oneY : Vec2 R)⟩ : Line2 R)
  bad := ck bad 133 (Near.near (0.001 : R) v1 v1)
  return bad
end Line2_8
#guard passes Line2_8.run

end MathLib.Conformance
