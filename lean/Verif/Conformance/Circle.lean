import Verif.Conformance.Base

/-!
# Unit tests of `tests/tests/src/test_circle.cpp`, replayed on the model

Generated by `tools/conform.py`; the numbers are the source lines of the checks.  60 checks;
71 checks of that file are not translated (casts, random draws, `sizeof`, `data()`, and
functions outside the model).
-/

namespace MathLib.Conformance
set_option linter.all false

namespace Circle_0
abbrev R := Float32
def run : Res (List Nat) := do
  let mut bad : List Nat := []
  bad := ck bad 19 (Vec2.eq (constCircleOne : Circle R).center (Vec2.zero : Vec2 R))
  bad := ck bad 20 ((constCircleOne : Circle R).radius == (1.0 : R))
  return bad
end Circle_0
#guard passes Circle_0.run

namespace Circle_1
abbrev R := Float32
def run : Res (List Nat) := do
  let mut bad : List Nat := []
  let v1 : Circle R := (⟨(Vec2.zero : Vec2 R), (10.0 : R)⟩ : Circle R)
  bad := ck bad 28 (Vec2.eq v1.center (Vec2.zero : Vec2 R))
  bad := ck bad 29 (v1.radius == (10.0 : R))
  return bad
end Circle_1
#guard passes Circle_1.run

namespace Circle_2
abbrev R := Float32
def run : Res (List Nat) := do
  let mut bad : List Nat := []
  let v1 : Circle R := (⟨(Vec2.zero : Vec2 R), (2.0 : R)⟩ : Circle R)
  bad := ck bad 39 (Vec2.eq v1.center (Vec2.zero : Vec2 R))
  bad := ck bad 40 (v1.radius == (2.0 : R))
  let v2 : Circle R := (⟨(Vec2.oneX : Vec2 R), (3.0 : R)⟩ : Circle R)
  bad := ck bad 43 (Vec2.eq v2.center (Vec2.oneX : Vec2 R))
  bad := ck bad 44 (v2.radius == (3.0 : R))
  return bad
end Circle_2
#guard passes Circle_2.run

namespace Circle_3
abbrev R := Float32
def run : Res (List Nat) := do
  let mut bad : List Nat := []
  let v1 : Circle R := (⟨(Vec2.zero : Vec2 R), (2.0 : R)⟩ : Circle R)
  bad := ck bad 142 (Vec2.eq v1.center (Vec2.zero : Vec2 R))
  bad := ck bad 143 (v1.radius == (2.0 : R))
  let v2 : Circle R := (⟨(Vec2.oneX : Vec2 R), (3.0 : R)⟩ : Circle R)
  bad := ck bad 146 (Vec2.eq v2.center (Vec2.oneX : Vec2 R))
  bad := ck bad 147 (v2.radius == (3.0 : R))
  return bad
end Circle_3
#guard passes Circle_3.run

namespace Circle_4
abbrev R := Float32
def run : Res (List Nat) := do
  let mut bad : List Nat := []
  let v1 : Circle R := (constCircleOne : Circle R)
  let v2 : Circle R := (Circle.addAssign v1 (Vec2.oneX : Vec2 R))
  bad := ck bad 240 (Vec2.eq v2.center (Vec2.oneX : Vec2 R))
  bad := ck bad 241 (v2.radius == (1.0 : R))
  return bad
end Circle_4
#guard passes Circle_4.run

namespace Circle_5
abbrev R := Float32
def run : Res (List Nat) := do
  let mut bad : List Nat := []
  let v1 : Circle R := (constCircleOne : Circle R)
  let v2 : Circle R := (Circle.subAssign v1 (Vec2.oneX : Vec2 R))
  bad := ck bad 248 (Vec2.eq v2.center (-(Vec2.oneX : Vec2 R)))
  bad := ck bad 249 (v2.radius == (1.0 : R))
  return bad
end Circle_5
#guard passes Circle_5.run

namespace Circle_6
abbrev R := Float32
def run : Res (List Nat) := do
  let mut bad : List Nat := []
  let v1 : Circle R := (constCircleOne : Circle R)
  let v2 : Circle R := (Circle.mulAssign v1 (2.0 : R))
  bad := ck bad 256 (Vec2.eq v2.center (Vec2.zero : Vec2 R))
  bad := ck bad 257 (v2.radius == (2.0 : R))
  return bad
end Circle_6
#guard passes Circle_6.run

namespace Circle_7
abbrev R := Float32
def run : Res (List Nat) := do
  let mut bad : List Nat := []
  let v1 : Circle R := (constCircleOne : Circle R)
  let v2 : Circle R := (← Circle.divAssign v1 (2.0 : R))
  bad := ck bad 264 (Vec2.eq v2.center (Vec2.zero : Vec2 R))
  bad := ck bad 265 (v2.radius == (0.5 : R))
  return bad
end Circle_7
#guard passes Circle_7.run

namespace Circle_8
abbrev R := Float32
def run : Res (List Nat) := do
  let mut bad : List Nat := []
  let v1 : Circle R := (← Circle.add (constCircleOne : Circle R) (Vec2.oneX : Vec2 R))
  bad := ck bad 274 (Vec2.eq v1.center (Vec2.oneX : Vec2 R))
  bad := ck bad 275 (v1.radius == (1.0 : R))
  return bad
end Circle_8
#guard passes Circle_8.run

namespace Circle_9
abbrev R := Float32
def run : Res (List Nat) := do
  let mut bad : List Nat := []
  let v1 : Circle R := (← Circle.sub (constCircleOne : Circle R) (Vec2.oneX : Vec2 R))
  bad := ck bad 281 (Vec2.eq v1.center (-(Vec2.oneX : Vec2 R)))
  bad := ck bad 282 (v1.radius == (1.0 : R))
  return bad
end Circle_9
#guard passes Circle_9.run

namespace Circle_10
abbrev R := Float32
def run : Res (List Nat) := do
  let mut bad : List Nat := []
  let v1 : Circle R := (← Circle.mul (constCircleOne : Circle R) (2.0 : R))
  bad := ck bad 288 (Vec2.eq v1.center (Vec2.zero : Vec2 R))
  bad := ck bad 289 (v1.radius == (2.0 : R))
  return bad
end Circle_10
#guard passes Circle_10.run

namespace Circle_11
abbrev R := Float32
def run : Res (List Nat) := do
  let mut bad : List Nat := []
  let v1 : Circle R := (← Circle.div (constCircleOne : Circle R) (2.0 : R))
  bad := ck bad 295 (Vec2.eq v1.center (Vec2.zero : Vec2 R))
  bad := ck bad 296 (v1.radius == (0.5 : R))
  return bad
end Circle_11
#guard passes Circle_11.run

namespace Circle_12
abbrev R := Float32
def run : Res (List Nat) := do
  let mut bad : List Nat := []
  let v1 : Circle R := (⟨(Vec2.zero : Vec2 R), (2.0 : R)⟩ : Circle R)
  bad := ck bad 305 (Circle.eq v1 v1)
  bad := ck bad 306 (Circle.eq v1 (⟨(Vec2.zero : Vec2 R), (2.0 : R)⟩ : Circle R))
  return bad
end Circle_12
#guard passes Circle_12.run

namespace Circle_13
abbrev R := Float32
def run : Res (List Nat) := do
  let mut bad : List Nat := []
  let v1 : Circle R := (⟨(Vec2.zero : Vec2 R), (2.0 : R)⟩ : Circle R)
  bad := ck bad 312 (!(Circle.ne v1 v1))
  bad := ck bad 313 (!(Circle.ne v1 (⟨(Vec2.zero : Vec2 R), (2.0 : R)⟩ : Circle R)))
  return bad
end Circle_13
#guard passes Circle_13.run

namespace Circle_14
abbrev R := Float32
def run : Res (List Nat) := do
  let mut bad : List Nat := []
  let v1 : Circle R := (constCircleOne : Circle R)
  bad := ck bad 322 (Circle.contains v1 (Vec2.zero : Vec2 R))
  bad := ck bad 323 (Circle.contains v1 (Vec2.oneX : Vec2 R))
  bad := ck bad 324 (Circle.contains v1 (Vec2.oneY : Vec2 R))
  bad := ck bad 325 (!(Circle.contains v1 (⟨(1.01 : R), (0.0 : R)⟩ : Vec2 R)))
  bad := ck bad 326 (!(Circle.contains v1 (⟨(-(1.01 : R)), (0.0 : R)⟩ : Vec2 R)))
  bad := ck bad 327 (!(Circle.contains v1 (⟨(0.0 : R), (1.01 : R)⟩ : Vec2 R)))
  bad := ck bad 328 (!(Circle.contains v1 (⟨(0.0 : R), (-(1.01 : R))⟩ : Vec2 R)))
  return bad
end Circle_14
#guard passes Circle_14.run

namespace Circle_15
abbrev R := Float32
def run : Res (List Nat) := do
  let mut bad : List Nat := []
  let v1 : Circle R := (constCircleOne : Circle R)
  bad := ck bad 335 (Circle.containsCircle v1 (constCircleOne : Circle R))
  bad := ck bad 336 (Circle.containsCircle v1 (← Circle.mul (constCircleOne : Circle R) (0.5 : R)))
  bad := ck bad 337 (Circle.containsCircle v1 (← Circle.add (← Circle.mul (constCircleOne : Circle R) (0.5 : R)) ((Vec2.oneX : Vec2 R) * (0.5 : R))))
  bad := ck bad 338 (!(Circle.containsCircle v1 (← Circle.mul (constCircleOne : Circle R) (1.01 : R))))
  bad := ck bad 339 (!(Circle.containsCircle v1 (← Circle.add (← Circle.mul (constCircleOne : Circle R) (0.51 : R)) ((Vec2.oneX : Vec2 R) * (0.5 : R)))))
  bad := ck bad 340 (!(Circle.containsCircle v1 (← Circle.add (← Circle.mul (constCircleOne : Circle R) (0.5 : R)) ((Vec2.oneX : Vec2 R) * (0.51 : R)))))
  return bad
end Circle_15
#guard passes Circle_15.run

namespace Circle_16
abbrev R := Float32
def run : Res (List Nat) := do
  let mut bad : List Nat := []
  let v1 : Circle R := (constCircleOne : Circle R)
  bad := ck bad 381 (Circle.intersects v1 (constCircleOne : Circle R))
  bad := ck bad 383 (Circle.intersects v1 (← Circle.add (constCircleOne : Circle R) (Vec2.oneX : Vec2 R)))
  bad := ck bad 385 (Circle.intersects v1 (← Circle.add (constCircleOne : Circle R) ((Vec2.oneX : Vec2 R) * (2.0 : R))))
  bad := ck bad 387 (!(Circle.intersects v1 (← Circle.add (constCircleOne : Circle R) ((Vec2.oneX : Vec2 R) * (2.01 : R)))))
  return bad
end Circle_16
#guard passes Circle_16.run

namespace Circle_17
abbrev R := Float32
def run : Res (List Nat) := do
  let mut bad : List Nat := []
  let v1 : Circle R := (constCircleOne : Circle R)
  let o2 := (Circle.intersectsHit v1 (constCircleOne : Circle R))
  bad := ck bad 418 o2.isSome
  bad := ck bad 419 (Vec2.eq (o2.getD (⟨0, 0⟩, 0)).1 (Vec2.zero : Vec2 R))
  bad := ck bad 420 ((o2.getD (⟨0, 0⟩, 0)).2 == (2.0 : R))
  let o3 := (Circle.intersectsHit v1 (← Circle.add (constCircleOne : Circle R) (Vec2.oneX : Vec2 R)))
  bad := ck bad 422 o3.isSome
  bad := ck bad 423 (Vec2.eq (o3.getD (⟨0, 0⟩, 0)).1 (Vec2.zero : Vec2 R))
  bad := ck bad 424 ((o3.getD (⟨0, 0⟩, 0)).2 == (1.0 : R))
  let o4 := (Circle.intersectsHit v1 (← Circle.add (constCircleOne : Circle R) ((Vec2.oneX : Vec2 R) * (2.0 : R))))
  bad := ck bad 426 o4.isSome
  bad := ck bad 427 (Vec2.eq (o4.getD (⟨0, 0⟩, 0)).1 (Vec2.oneX : Vec2 R))
  bad := ck bad 428 ((o4.getD (⟨0, 0⟩, 0)).2 == (0.0 : R))
  let o5 := (Circle.intersectsHit v1 (← Circle.add (constCircleOne : Circle R) ((Vec2.oneX : Vec2 R) * (2.01 : R))))
  bad := ck bad 430 (!o5.isSome)
  return bad
end Circle_17
#guard passes Circle_17.run

namespace Circle_18
abbrev R := Float32
def run : Res (List Nat) := do
  let mut bad : List Nat := []
  bad := ck bad 488 (Near.near (0.001 : R) (constCircleOne : Circle R) (constCircleOne : Circle R))
  return bad
end Circle_18
#guard passes Circle_18.run

end MathLib.Conformance
