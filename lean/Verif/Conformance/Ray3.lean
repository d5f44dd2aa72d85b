import Verif.Conformance.Base

/-!
# Unit tests of `tests/tests/src/test_ray3.cpp`, replayed on the model

Generated by `tools/conform.py`; the numbers are the source lines of the checks.  24 checks;
8 checks of that file are not translated (casts, random draws, `sizeof`, `data()`, and
functions outside the model).
-/

namespace MathLib.Conformance
set_option linter.all false

namespace Ray3_0
abbrev R := Float32
def run : Res (List Nat) := do
  let mut bad : List Nat := []
  let v1 : Ray3 R := (Ray3.from (Vec3.zero : Vec3 R) (Vec3.oneX : Vec3 R))
  bad := ck bad 22 (Vec3.eq v1.start (Vec3.zero : Vec3 R))
  bad := ck bad 23 (Vec3.eq v1.direction (Vec3.oneX : Vec3 R))
  let v2 : Ray3 R := (Ray3.from (Vec3.oneX : Vec3 R) (Vec3.oneY : Vec3 R))
  bad := ck bad 26 (Vec3.eq v2.start (Vec3.oneX : Vec3 R))
  bad := ck bad 27 (Vec3.eq v2.direction (Vec3.oneY : Vec3 R))
  let v3 : Ray3 R := (Ray3.from (Vec3.zero : Vec3 R) ((Vec3.oneX : Vec3 R) * (2.0 : R)))
  bad := ck bad 30 (Vec3.eq v3.start (Vec3.zero : Vec3 R))
  bad := ck bad 31 (Vec3.eq v3.direction (Vec3.oneX : Vec3 R))
  return bad
end Ray3_0
#guard passes Ray3_0.run

namespace Ray3_1
abbrev R := Float32
def run : Res (List Nat) := do
  let mut bad : List Nat := []
  let v1 : Ray3 R := (Ray3.from (Vec3.zero : Vec3 R) (Vec3.oneX : Vec3 R))
  bad := ck bad 39 (Ray3.eq v1 v1)
  bad := ck bad 40 (Ray3.eq v1 (Ray3.from (Vec3.zero : Vec3 R) (Vec3.oneX : Vec3 R)))
  return bad
end Ray3_1
#guard passes Ray3_1.run

namespace Ray3_2
abbrev R := Float32
def run : Res (List Nat) := do
  let mut bad : List Nat := []
  let v1 : Ray3 R := (Ray3.from (Vec3.zero : Vec3 R) (Vec3.oneX : Vec3 R))
  bad := ck bad 46 (!(Ray3.ne v1 v1))
  bad := ck bad 47 (Ray3.ne v1 (Ray3.from (Vec3.zero : Vec3 R) (Vec3.zero : Vec3 R)))
  return bad
end Ray3_2
#guard passes Ray3_2.run

namespace Ray3_3
abbrev R := Float32
def run : Res (List Nat) := do
  let mut bad : List Nat := []
  let v1 : Ray3 R := (Ray3.from (Vec3.zero : Vec3 R) (Vec3.oneX : Vec3 R))
  bad := ck bad 57 (Near.near (1e-10 : R) (Ray3.pointAt v1 (0.0 : R)) (Vec3.zero : Vec3 R))
  bad := ck bad 58 (Near.near (1e-10 : R) (Ray3.pointAt v1 (1.0 : R)) (Vec3.oneX : Vec3 R))
  bad := ck bad 59 (Near.near (1e-10 : R) (Ray3.pointAt v1 (0.5 : R)) ((Vec3.oneX : Vec3 R) * (0.5 : R)))
  let v2 : Ray3 R := (Ray3.from (Vec3.zero : Vec3 R) (Vec3.oneY : Vec3 R))
  bad := ck bad 62 (Near.near (1e-10 : R) (Ray3.pointAt v2 (0.0 : R)) (Vec3.zero : Vec3 R))
  bad := ck bad 63 (Near.near (1e-10 : R) (Ray3.pointAt v2 (1.0 : R)) (Vec3.oneY : Vec3 R))
  bad := ck bad 64 (Near.near (1e-10 : R) (Ray3.pointAt v2 (0.5 : R)) ((Vec3.oneY : Vec3 R) * (0.5 : R)))
  let v3 : Ray3 R := (Ray3.from (Vec3.zero : Vec3 R) (Vec3.oneZ : Vec3 R))
  bad := ck bad 67 (Near.near (1e-10 : R) (Ray3.pointAt v3 (0.0 : R)) (Vec3.zero : Vec3 R))
  bad := ck bad 68 (Near.near (1e-10 : R) (Ray3.pointAt v3 (1.0 : R)) (Vec3.oneZ : Vec3 R))
  bad := ck bad 69 (Near.near (1e-10 : R) (Ray3.pointAt v3 (0.5 : R)) ((Vec3.oneZ : Vec3 R) * (0.5 : R)))
  return bad
end Ray3_3
#guard passes Ray3_3.run

namespace Ray3_4
abbrev R := Float32
def run : Res (List Nat) := do
  let mut bad : List Nat := []
  let v1 : Ray3 R := (Ray3.from (Vec3.oneX : Vec3 R) (Vec3.oneX : Vec3 R))
  bad := ck bad 77 (Near.near (1e-10 : R) (Ray3.distance v1 (Vec3.zero : Vec3 R)) (1.0 : R))
  let v2 : Ray3 R := (Ray3.from (Vec3.zero : Vec3 R) (Vec3.oneX : Vec3 R))
  bad := ck bad 79 (Near.near (1e-10 : R) (Ray3.distance v2 (⟨(10.0 : R), (3.0 : R), (0.0 : R)⟩ : Vec3 R)) (3.0 : R))
  let v3 : Ray3 R := (Ray3.from (Vec3.zero : Vec3 R) (Vec3.oneY : Vec3 R))
  bad := ck bad 81 (Near.near (1e-10 : R) (Ray3.distance v3 (⟨(3.0 : R), (10.0 : R), (0.0 : R)⟩ : Vec3 R)) (3.0 : R))
  let v4 : Ray3 R := (Ray3.from (Vec3.oneX : Vec3 R) ((Vec3.oneY : Vec3 R) - (Vec3.oneX : Vec3 R)))
  bad := ck bad 83 (Near.near (1e-6 : R) (Ray3.distance v4 (Vec3.zero : Vec3 R)) ((MathFns.sqrt (2.0 : R)) / (2.0 : R)))
  return bad
end Ray3_4
#guard passes Ray3_4.run

namespace Ray3_5
abbrev R := Float32
def run : Res (List Nat) := do
  let mut bad : List Nat := []
  let v1 : Ray3 R := (Ray3.from (Vec3.zero : Vec3 R) (Vec3.oneX : Vec3 R))
  bad := ck bad 100 (Near.near (0.001 : R) v1 v1)
  return bad
end Ray3_5
#guard passes Ray3_5.run

end MathLib.Conformance
