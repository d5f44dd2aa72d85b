import Verif.Conformance.Base

/-!
# Unit tests of `tests/tests/src/test_ray2.cpp`, replayed on the model

Generated by `tools/conform.py`; the numbers are the source lines of the checks.  20 checks;
8 checks of that file are not translated (casts, random draws, `sizeof`, `data()`, and
functions outside the model).
-/

namespace MathLib.Conformance
set_option linter.all false

namespace Ray2_0
abbrev R := Float32
def run : Res (List Nat) := do
  let mut bad : List Nat := []
  let v1 : Ray2 R := (Ray2.from (Vec2.zero : Vec2 R) (Vec2.oneX : Vec2 R))
  bad := ck bad 22 (Vec2.eq v1.start (Vec2.zero : Vec2 R))
  bad := ck bad 23 (Vec2.eq v1.direction (Vec2.oneX : Vec2 R))
  let v2 : Ray2 R := (Ray2.from (Vec2.oneX : Vec2 R) (Vec2.oneY : Vec2 R))
  bad := ck bad 26 (Vec2.eq v2.start (Vec2.oneX : Vec2 R))
  bad := ck bad 27 (Vec2.eq v2.direction (Vec2.oneY : Vec2 R))
  let v3 : Ray2 R := (Ray2.from (Vec2.zero : Vec2 R) ((Vec2.oneX : Vec2 R) * (2.0 : R)))
  bad := ck bad 30 (Vec2.eq v3.start (Vec2.zero : Vec2 R))
  bad := ck bad 31 (Vec2.eq v3.direction (Vec2.oneX : Vec2 R))
  return bad
end Ray2_0
#guard passes Ray2_0.run

namespace Ray2_1
abbrev R := Float32
def run : Res (List Nat) := do
  let mut bad : List Nat := []
  let v1 : Ray2 R := (Ray2.from (Vec2.zero : Vec2 R) (Vec2.oneX : Vec2 R))
  bad := ck bad 39 (Ray2.eq v1 v1)
  bad := ck bad 40 (Ray2.eq v1 (Ray2.from (Vec2.zero : Vec2 R) (Vec2.oneX : Vec2 R)))
  return bad
end Ray2_1
#guard passes Ray2_1.run

namespace Ray2_2
abbrev R := Float32
def run : Res (List Nat) := do
  let mut bad : List Nat := []
  let v1 : Ray2 R := (Ray2.from (Vec2.zero : Vec2 R) (Vec2.oneX : Vec2 R))
  bad := ck bad 46 (!(Ray2.ne v1 v1))
  bad := ck bad 47 (Ray2.ne v1 (Ray2.from (Vec2.zero : Vec2 R) (Vec2.zero : Vec2 R)))
  return bad
end Ray2_2
#guard passes Ray2_2.run

namespace Ray2_3
abbrev R := Float32
def run : Res (List Nat) := do
  let mut bad : List Nat := []
  let v1 : Ray2 R := (Ray2.from (Vec2.zero : Vec2 R) (Vec2.oneX : Vec2 R))
  bad := ck bad 57 (Near.near (1e-10 : R) (Ray2.pointAt v1 (0.0 : R)) (Vec2.zero : Vec2 R))
  bad := ck bad 58 (Near.near (1e-10 : R) (Ray2.pointAt v1 (1.0 : R)) (Vec2.oneX : Vec2 R))
  bad := ck bad 59 (Near.near (1e-10 : R) (Ray2.pointAt v1 (0.5 : R)) ((Vec2.oneX : Vec2 R) * (0.5 : R)))
  let v2 : Ray2 R := (Ray2.from (Vec2.zero : Vec2 R) (Vec2.oneY : Vec2 R))
  bad := ck bad 62 (Near.near (1e-10 : R) (Ray2.pointAt v2 (0.0 : R)) (Vec2.zero : Vec2 R))
  bad := ck bad 63 (Near.near (1e-10 : R) (Ray2.pointAt v2 (1.0 : R)) (Vec2.oneY : Vec2 R))
  bad := ck bad 64 (Near.near (1e-10 : R) (Ray2.pointAt v2 (0.5 : R)) ((Vec2.oneY : Vec2 R) * (0.5 : R)))
  return bad
end Ray2_3
#guard passes Ray2_3.run

namespace Ray2_4
abbrev R := Float32
def run : Res (List Nat) := do
  let mut bad : List Nat := []
  let v1 : Ray2 R := (Ray2.from (Vec2.zero : Vec2 R) (Vec2.oneX : Vec2 R))
  bad := ck bad 72 (Near.near (1e-10 : R) (Ray2.distance v1 (⟨(10.0 : R), (3.0 : R)⟩ : Vec2 R)) (3.0 : R))
  let v2 : Ray2 R := (Ray2.from (Vec2.zero : Vec2 R) (Vec2.oneY : Vec2 R))
  bad := ck bad 74 (Near.near (1e-10 : R) (Ray2.distance v2 (⟨(3.0 : R), (10.0 : R)⟩ : Vec2 R)) (3.0 : R))
  let v3 : Ray2 R := (Ray2.from (Vec2.oneX : Vec2 R) ((Vec2.oneY : Vec2 R) - (Vec2.oneX : Vec2 R)))
  bad := ck bad 76 (Near.near (1e-6 : R) (Ray2.distance v3 (Vec2.zero : Vec2 R)) ((MathFns.sqrt (2.0 : R)) / (2.0 : R)))
  return bad
end Ray2_4
#guard passes Ray2_4.run

namespace Ray2_5
abbrev R := Float32
def run : Res (List Nat) := do
  let mut bad : List Nat := []
  let v1 : Ray2 R := (Ray2.from (Vec2.zero : Vec2 R) (Vec2.oneX : Vec2 R))
  bad := ck bad 93 (Near.near (0.001 : R) v1 v1)
  return bad
end Ray2_5
#guard passes Ray2_5.run

end MathLib.Conformance
