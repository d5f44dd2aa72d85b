import Verif.Conformance.Base

/-!
# Unit tests of `tests/tests/src/test_tri2.cpp`, replayed on the model

Generated by `tools/conform.py`; the numbers are the source lines of the checks.  19 checks;
4 checks of that file are not translated (casts, random draws, `sizeof`, `data()`, and
functions outside the model).
-/

namespace MathLib.Conformance
set_option linter.all false

namespace Tri2_0
abbrev R := Float32
def run : Res (List Nat) := do
  let mut bad : List Nat := []
  let v1 : Tri2 R := (⟨(Vec2.zero : Vec2 R), (Vec2.oneX : Vec2 R), (Vec2.oneY : Vec2 R)⟩ : Tri2 R)
  bad := ck bad 22 (Vec2.eq v1.a (Vec2.zero : Vec2 R))
  bad := ck bad 23 (Vec2.eq v1.b (Vec2.oneX : Vec2 R))
  bad := ck bad 24 (Vec2.eq v1.c (Vec2.oneY : Vec2 R))
  return bad
end Tri2_0
#guard passes Tri2_0.run

namespace Tri2_1
abbrev R := Float32
def run : Res (List Nat) := do
  let mut bad : List Nat := []
  let v1 : Tri2 R := (⟨(Vec2.zero : Vec2 R), (Vec2.oneX : Vec2 R), (Vec2.oneY : Vec2 R)⟩ : Tri2 R)
  bad := ck bad 32 (Tri2.eq v1 v1)
  bad := ck bad 33 (Tri2.eq v1 (⟨(Vec2.zero : Vec2 R), (Vec2.oneX : Vec2 R), (Vec2.oneY : Vec2 R)⟩ : Tri2 R))
  return bad
end Tri2_1
#guard passes Tri2_1.run

namespace Tri2_2
abbrev R := Float32
def run : Res (List Nat) := do
  let mut bad : List Nat := []
  let v1 : Tri2 R := (⟨(Vec2.zero : Vec2 R), (Vec2.oneX : Vec2 R), (Vec2.oneY : Vec2 R)⟩ : Tri2 R)
  bad := ck bad 39 (!(Tri2.ne v1 v1))
  bad := ck bad 40 (Tri2.ne v1 (⟨(Vec2.zero : Vec2 R), (Vec2.zero : Vec2 R), (Vec2.zero : Vec2 R)⟩ : Tri2 R))
  return bad
end Tri2_2
#guard passes Tri2_2.run

namespace Tri2_3
abbrev R := Float32
def run : Res (List Nat) := do
  let mut bad : List Nat := []
  let v1 : Tri2 R := (⟨(Vec2.zero : Vec2 R), (Vec2.oneX : Vec2 R), (Vec2.oneY : Vec2 R)⟩ : Tri2 R)
  bad := ck bad 50 (Tri2.contains v1 (Vec2.zero : Vec2 R))
  bad := ck bad 51 (Tri2.contains v1 (Vec2.oneX : Vec2 R))
  bad := ck bad 52 (Tri2.contains v1 (Vec2.oneY : Vec2 R))
  bad := ck bad 53 (Tri2.contains v1 (⟨(0.99 : R), (0.0 : R)⟩ : Vec2 R))
  bad := ck bad 54 (Tri2.contains v1 (⟨(0.0 : R), (0.99 : R)⟩ : Vec2 R))
  bad := ck bad 55 (Tri2.contains v1 (⟨(0.5 : R), (0.5 : R)⟩ : Vec2 R))
  bad := ck bad 57 (!(Tri2.contains v1 (⟨(1.01 : R), (0.0 : R)⟩ : Vec2 R)))
  bad := ck bad 58 (!(Tri2.contains v1 (⟨(0.0 : R), (1.01 : R)⟩ : Vec2 R)))
  bad := ck bad 59 (!(Tri2.contains v1 (⟨(-(0.01 : R)), (0.0 : R)⟩ : Vec2 R)))
  bad := ck bad 60 (!(Tri2.contains v1 (⟨(0.0 : R), (-(0.01 : R))⟩ : Vec2 R)))
  bad := ck bad 61 (!(Tri2.contains v1 (⟨(-(0.01 : R)), (-(0.01 : R))⟩ : Vec2 R)))
  bad := ck bad 62 (!(Tri2.contains v1 (⟨(10.0 : R), (3.0 : R)⟩ : Vec2 R)))
  return bad
end Tri2_3
#guard passes Tri2_3.run

end MathLib.Conformance
