import Verif.Conformance.Base

/-!
# Unit tests of `tests/tests/src/test_sphere.cpp`, replayed on the model

Generated by `tools/conform.py`; the numbers are the source lines of the checks.  103 checks;
52 checks of that file are not translated (casts, random draws, `sizeof`, `data()`, and
functions outside the model).
-/

namespace MathLib.Conformance
set_option linter.all false

namespace Sphere_0
abbrev R := Float32
def run : Res (List Nat) := do
  let mut bad : List Nat := []
  bad := ck bad 19 (Vec3.eq (constSphereOne : Sphere R).center (Vec3.zero : Vec3 R))
  bad := ck bad 20 ((constSphereOne : Sphere R).radius == (1.0 : R))
  return bad
end Sphere_0
#guard passes Sphere_0.run

namespace Sphere_1
abbrev R := Float32
def run : Res (List Nat) := do
  let mut bad : List Nat := []
  let v1 : Sphere R := (⟨(Vec3.zero : Vec3 R), (10.0 : R)⟩ : Sphere R)
  bad := ck bad 28 (Vec3.eq v1.center (Vec3.zero : Vec3 R))
  bad := ck bad 29 (v1.radius == (10.0 : R))
  return bad
end Sphere_1
#guard passes Sphere_1.run

namespace Sphere_2
abbrev R := Float32
def run : Res (List Nat) := do
  let mut bad : List Nat := []
  let v1 : Sphere R := (⟨(Vec3.zero : Vec3 R), (2.0 : R)⟩ : Sphere R)
  bad := ck bad 39 (Vec3.eq v1.center (Vec3.zero : Vec3 R))
  bad := ck bad 40 (v1.radius == (2.0 : R))
  let v2 : Sphere R := (⟨(Vec3.oneX : Vec3 R), (3.0 : R)⟩ : Sphere R)
  bad := ck bad 43 (Vec3.eq v2.center (Vec3.oneX : Vec3 R))
  bad := ck bad 44 (v2.radius == (3.0 : R))
  return bad
end Sphere_2
#guard passes Sphere_2.run

namespace Sphere_3
abbrev R := Float32
def run : Res (List Nat) := do
  let mut bad : List Nat := []
  let v1 : Sphere R := (⟨(Vec3.zero : Vec3 R), (2.0 : R)⟩ : Sphere R)
  bad := ck bad 142 (Vec3.eq v1.center (Vec3.zero : Vec3 R))
  bad := ck bad 143 (v1.radius == (2.0 : R))
  let v2 : Sphere R := (⟨(Vec3.oneX : Vec3 R), (3.0 : R)⟩ : Sphere R)
  bad := ck bad 146 (Vec3.eq v2.center (Vec3.oneX : Vec3 R))
  bad := ck bad 147 (v2.radius == (3.0 : R))
  return bad
end Sphere_3
#guard passes Sphere_3.run

namespace Sphere_4
abbrev R := Float32
def run : Res (List Nat) := do
  let mut bad : List Nat := []
  let v1 : Sphere R := (constSphereOne : Sphere R)
  let v2 : Sphere R := (Sphere.addAssign v1 (Vec3.oneX : Vec3 R))
  bad := ck bad 240 (Vec3.eq v2.center (Vec3.oneX : Vec3 R))
  bad := ck bad 241 (v2.radius == (1.0 : R))
  return bad
end Sphere_4
#guard passes Sphere_4.run

namespace Sphere_5
abbrev R := Float32
def run : Res (List Nat) := do
  let mut bad : List Nat := []
  let v1 : Sphere R := (constSphereOne : Sphere R)
  let v2 : Sphere R := (Sphere.subAssign v1 (Vec3.oneX : Vec3 R))
  bad := ck bad 248 (Vec3.eq v2.center (-(Vec3.oneX : Vec3 R)))
  bad := ck bad 249 (v2.radius == (1.0 : R))
  return bad
end Sphere_5
#guard passes Sphere_5.run

namespace Sphere_6
abbrev R := Float32
def run : Res (List Nat) := do
  let mut bad : List Nat := []
  let v1 : Sphere R := (constSphereOne : Sphere R)
  let v2 : Sphere R := (Sphere.mulAssign v1 (2.0 : R))
  bad := ck bad 256 (Vec3.eq v2.center (Vec3.zero : Vec3 R))
  bad := ck bad 257 (v2.radius == (2.0 : R))
  return bad
end Sphere_6
#guard passes Sphere_6.run

namespace Sphere_7
abbrev R := Float32
def run : Res (List Nat) := do
  let mut bad : List Nat := []
  let v1 : Sphere R := (constSphereOne : Sphere R)
  let v2 : Sphere R := (← Sphere.divAssign v1 (2.0 : R))
  bad := ck bad 264 (Vec3.eq v2.center (Vec3.zero : Vec3 R))
  bad := ck bad 265 (v2.radius == (0.5 : R))
  return bad
end Sphere_7
#guard passes Sphere_7.run

namespace Sphere_8
abbrev R := Float32
def run : Res (List Nat) := do
  let mut bad : List Nat := []
  let v1 : Sphere R := (← Sphere.add (constSphereOne : Sphere R) (Vec3.oneX : Vec3 R))
  bad := ck bad 274 (Vec3.eq v1.center (Vec3.oneX : Vec3 R))
  bad := ck bad 275 (v1.radius == (1.0 : R))
  return bad
end Sphere_8
#guard passes Sphere_8.run

namespace Sphere_9
abbrev R := Float32
def run : Res (List Nat) := do
  let mut bad : List Nat := []
  let v1 : Sphere R := (← Sphere.sub (constSphereOne : Sphere R) (Vec3.oneX : Vec3 R))
  bad := ck bad 281 (Vec3.eq v1.center (-(Vec3.oneX : Vec3 R)))
  bad := ck bad 282 (v1.radius == (1.0 : R))
  return bad
end Sphere_9
#guard passes Sphere_9.run

namespace Sphere_10
abbrev R := Float32
def run : Res (List Nat) := do
  let mut bad : List Nat := []
  let v1 : Sphere R := (← Sphere.mul (constSphereOne : Sphere R) (2.0 : R))
  bad := ck bad 288 (Vec3.eq v1.center (Vec3.zero : Vec3 R))
  bad := ck bad 289 (v1.radius == (2.0 : R))
  return bad
end Sphere_10
#guard passes Sphere_10.run

namespace Sphere_11
abbrev R := Float32
def run : Res (List Nat) := do
  let mut bad : List Nat := []
  let v1 : Sphere R := (← Sphere.div (constSphereOne : Sphere R) (2.0 : R))
  bad := ck bad 295 (Vec3.eq v1.center (Vec3.zero : Vec3 R))
  bad := ck bad 296 (v1.radius == (0.5 : R))
  return bad
end Sphere_11
#guard passes Sphere_11.run

namespace Sphere_12
abbrev R := Float32
def run : Res (List Nat) := do
  let mut bad : List Nat := []
  let v1 : Sphere R := (⟨(Vec3.zero : Vec3 R), (2.0 : R)⟩ : Sphere R)
  bad := ck bad 305 (Sphere.eq v1 v1)
  bad := ck bad 306 (Sphere.eq v1 (⟨(Vec3.zero : Vec3 R), (2.0 : R)⟩ : Sphere R))
  return bad
end Sphere_12
#guard passes Sphere_12.run

namespace Sphere_13
abbrev R := Float32
def run : Res (List Nat) := do
  let mut bad : List Nat := []
  let v1 : Sphere R := (⟨(Vec3.zero : Vec3 R), (2.0 : R)⟩ : Sphere R)
  bad := ck bad 312 (!(Sphere.ne v1 v1))
  bad := ck bad 313 (!(Sphere.ne v1 (⟨(Vec3.zero : Vec3 R), (2.0 : R)⟩ : Sphere R)))
  return bad
end Sphere_13
#guard passes Sphere_13.run

namespace Sphere_14
abbrev R := Float32
def run : Res (List Nat) := do
  let mut bad : List Nat := []
  let v1 : Sphere R := (constSphereOne : Sphere R)
  bad := ck bad 322 (Sphere.contains v1 (Vec3.zero : Vec3 R))
  bad := ck bad 323 (Sphere.contains v1 (Vec3.oneX : Vec3 R))
  bad := ck bad 324 (Sphere.contains v1 (Vec3.oneY : Vec3 R))
  bad := ck bad 325 (Sphere.contains v1 (Vec3.oneZ : Vec3 R))
  bad := ck bad 326 (!(Sphere.contains v1 (⟨(1.01 : R), (0.0 : R), (0.0 : R)⟩ : Vec3 R)))
  bad := ck bad 327 (!(Sphere.contains v1 (⟨(-(1.01 : R)), (0.0 : R), (0.0 : R)⟩ : Vec3 R)))
  bad := ck bad 328 (!(Sphere.contains v1 (⟨(0.0 : R), (1.01 : R), (0.0 : R)⟩ : Vec3 R)))
  bad := ck bad 329 (!(Sphere.contains v1 (⟨(0.0 : R), (-(1.01 : R)), (0.0 : R)⟩ : Vec3 R)))
  bad := ck bad 330 (!(Sphere.contains v1 (⟨(0.0 : R), (0.0 : R), (1.01 : R)⟩ : Vec3 R)))
  bad := ck bad 331 (!(Sphere.contains v1 (⟨(0.0 : R), (0.0 : R), (-(1.01 : R))⟩ : Vec3 R)))
  return bad
end Sphere_14
#guard passes Sphere_14.run

namespace Sphere_15
abbrev R := Float32
def run : Res (List Nat) := do
  let mut bad : List Nat := []
  let v1 : Sphere R := (constSphereOne : Sphere R)
  bad := ck bad 338 (Sphere.containsSphere v1 (constSphereOne : Sphere R))
  bad := ck bad 339 (Sphere.containsSphere v1 (← Sphere.mul (constSphereOne : Sphere R) (0.5 : R)))
  bad := ck bad 340 (Sphere.containsSphere v1 (← Sphere.add (← Sphere.mul (constSphereOne : Sphere R) (0.5 : R)) ((Vec3.oneX : Vec3 R) * (0.5 : R))))
  bad := ck bad 341 (!(Sphere.containsSphere v1 (← Sphere.mul (constSphereOne : Sphere R) (1.01 : R))))
  bad := ck bad 342 (!(Sphere.containsSphere v1 (← Sphere.add (← Sphere.mul (constSphereOne : Sphere R) (0.51 : R)) ((Vec3.oneX : Vec3 R) * (0.5 : R)))))
  bad := ck bad 343 (!(Sphere.containsSphere v1 (← Sphere.add (← Sphere.mul (constSphereOne : Sphere R) (0.5 : R)) ((Vec3.oneX : Vec3 R) * (0.51 : R)))))
  return bad
end Sphere_15
#guard passes Sphere_15.run

namespace Sphere_16
abbrev R := Float32
def run : Res (List Nat) := do
  let mut bad : List Nat := []
  let v1 : Sphere R := (constSphereOne : Sphere R)
  bad := ck bad 395 (Sphere.intersects v1 (constSphereOne : Sphere R))
  bad := ck bad 397 (Sphere.intersects v1 (← Sphere.add (constSphereOne : Sphere R) (Vec3.oneX : Vec3 R)))
  bad := ck bad 399 (Sphere.intersects v1 (← Sphere.add (constSphereOne : Sphere R) ((Vec3.oneX : Vec3 R) * (2.0 : R))))
  bad := ck bad 401 (!(Sphere.intersects v1 (← Sphere.add (constSphereOne : Sphere R) ((Vec3.oneX : Vec3 R) * (2.01 : R)))))
  return bad
end Sphere_16
#guard passes Sphere_16.run

namespace Sphere_17
abbrev R := Float32
def run : Res (List Nat) := do
  let mut bad : List Nat := []
  let v1 : Sphere R := (constSphereOne : Sphere R)
  bad := ck bad 408 (Sphere.intersectsLine v1 (⟨(⟨(-(2.0 : R)), (0.0 : R), (0.0 : R)⟩ : Vec3 R), (⟨(2.0 : R), (0.0 : R), (0.0 : R)⟩ : Vec3 R)⟩ : Line3 R))
  bad := ck bad 410 (Sphere.intersectsLine v1 (⟨(⟨(2.0 : R), (0.0 : R), (0.0 : R)⟩ : Vec3 R), (⟨(-(2.0 : R)), (0.0 : R), (0.0 : R)⟩ : Vec3 R)⟩ : Line3 R))
  bad := ck bad 412 (Sphere.intersectsLine v1 (⟨(⟨(0.0 : R), (-(2.0 : R)), (0.0 : R)⟩ : Vec3 R), (⟨(0.0 : R), (2.0 : R), (0.0 : R)⟩ : Vec3 R)⟩ : Line3 R))
  bad := ck bad 414 (Sphere.intersectsLine v1 (⟨(⟨(0.0 : R), (2.0 : R), (0.0 : R)⟩ : Vec3 R), (⟨(0.0 : R), (-(2.0 : R)), (0.0 : R)⟩ : Vec3 R)⟩ : Line3 R))
  bad := ck bad 416 (Sphere.intersectsLine v1 (⟨(⟨(0.0 : R), (0.0 : R), (-(2.0 : R))⟩ : Vec3 R), (⟨(0.0 : R), (0.0 : R), (2.0 : R)⟩ : Vec3 R)⟩ : Line3 R))
  bad := ck bad 418 (Sphere.intersectsLine v1 (⟨(⟨(0.0 : R), (0.0 : R), (2.0 : R)⟩ : Vec3 R), (⟨(0.0 : R), (0.0 : R), (-(2.0 : R))⟩ : Vec3 R)⟩ : Line3 R))
  bad := ck bad 420 (Sphere.intersectsLine v1 (⟨(⟨(-(2.0 : R)), (0.0 : R), (1.0 : R)⟩ : Vec3 R), (⟨(2.0 : R), (0.0 : R), (1.0 : R)⟩ : Vec3 R)⟩ : Line3 R))
  bad := ck bad 422 (!(Sphere.intersectsLine v1 (⟨(⟨(-(2.0 : R)), (0.0 : R), (1.01 : R)⟩ : Vec3 R), (⟨(2.0 : R), (0.0 : R), (1.01 : R)⟩ : Vec3 R)⟩ : Line3 R)))
  bad := ck bad 423 (!(Sphere.intersectsLine v1 (⟨(⟨(2.0 : R), (0.0 : R), (1.01 : R)⟩ : Vec3 R), (⟨(-(2.0 : R)), (0.0 : R), (1.01 : R)⟩ : Vec3 R)⟩ : Line3 R)))
  bad := ck bad 425 (!(Sphere.intersectsLine v1 (⟨(⟨(0.0 : R), (-(2.0 : R)), (1.01 : R)⟩ : Vec3 R), (⟨(0.0 : R), (2.0 : R), (1.01 : R)⟩ : Vec3 R)⟩ : Line3 R)))
  bad := ck bad 426 (!(Sphere.intersectsLine v1 (⟨(⟨(0.0 : R), (2.0 : R), (1.01 : R)⟩ : Vec3 R), (⟨(0.0 : R), (-(2.0 : R)), (1.01 : R)⟩ : Vec3 R)⟩ : Line3 R)))
  bad := ck bad 428 (!(Sphere.intersectsLine v1 (⟨(⟨(0.0 : R), (1.01 : R), (-(2.0 : R))⟩ : Vec3 R), (⟨(0.0 : R), (1.01 : R), (2.0 : R)⟩ : Vec3 R)⟩ : Line3 R)))
  bad := ck bad 429 (!(Sphere.intersectsLine v1 (⟨(⟨(0.0 : R), (1.01 : R), (2.0 : R)⟩ : Vec3 R), (⟨(0.0 : R), (1.01 : R), (-(2.0 : R))⟩ : Vec3 R)⟩ : Line3 R)))
  return bad
end Sphere_17
#guard passes Sphere_17.run

namespace Sphere_18
abbrev R := Float32
def run : Res (List Nat) := do
  let mut bad : List Nat := []
  let v1 : Sphere R := (constSphereOne : Sphere R)
  let o2 := (Sphere.intersectsHit v1 (constSphereOne : Sphere R))
  bad := ck bad 439 o2.isSome
  bad := ck bad 440 (Vec3.eq (o2.getD (⟨0, 0, 0⟩, 0)).1 (Vec3.zero : Vec3 R))
  bad := ck bad 441 ((o2.getD (⟨0, 0, 0⟩, 0)).2 == (2.0 : R))
  let o3 := (Sphere.intersectsHit v1 (← Sphere.add (constSphereOne : Sphere R) (Vec3.oneX : Vec3 R)))
  bad := ck bad 443 o3.isSome
  bad := ck bad 444 (Vec3.eq (o3.getD (⟨0, 0, 0⟩, 0)).1 (Vec3.zero : Vec3 R))
  bad := ck bad 445 ((o3.getD (⟨0, 0, 0⟩, 0)).2 == (1.0 : R))
  let o4 := (Sphere.intersectsHit v1 (← Sphere.add (constSphereOne : Sphere R) ((Vec3.oneX : Vec3 R) * (2.0 : R))))
  bad := ck bad 447 o4.isSome
  bad := ck bad 448 (Vec3.eq (o4.getD (⟨0, 0, 0⟩, 0)).1 (Vec3.oneX : Vec3 R))
  bad := ck bad 449 ((o4.getD (⟨0, 0, 0⟩, 0)).2 == (0.0 : R))
  let o5 := (Sphere.intersectsHit v1 (← Sphere.add (constSphereOne : Sphere R) ((Vec3.oneX : Vec3 R) * (2.01 : R))))
  bad := ck bad 451 (!o5.isSome)
  return bad
end Sphere_18
#guard passes Sphere_18.run

namespace Sphere_19
abbrev R := Float32
def run : Res (List Nat) := do
  let mut bad : List Nat := []
  let v1 : Sphere R := (constSphereOne : Sphere R)
  let o2 := (Sphere.intersectsLineHit v1 (⟨(⟨(-(2.0 : R)), (0.0 : R), (0.0 : R)⟩ : Vec3 R), (⟨(2.0 : R), (0.0 : R), (0.0 : R)⟩ : Vec3 R)⟩ : Line3 R))
  bad := ck bad 461 o2.isSome
  bad := ck bad 462 (Vec3.eq (o2.getD (⟨0, 0, 0⟩, 0)).1 (⟨(-(1.0 : R)), (0.0 : R), (0.0 : R)⟩ : Vec3 R))
  bad := ck bad 463 ((o2.getD (⟨0, 0, 0⟩, 0)).2 == (0.25 : R))
  let o3 := (Sphere.intersectsLineHit v1 (⟨(⟨(2.0 : R), (0.0 : R), (0.0 : R)⟩ : Vec3 R), (⟨(-(2.0 : R)), (0.0 : R), (0.0 : R)⟩ : Vec3 R)⟩ : Line3 R))
  bad := ck bad 465 o3.isSome
  bad := ck bad 466 (Vec3.eq (o3.getD (⟨0, 0, 0⟩, 0)).1 (⟨(1.0 : R), (0.0 : R), (0.0 : R)⟩ : Vec3 R))
  bad := ck bad 467 ((o3.getD (⟨0, 0, 0⟩, 0)).2 == (0.25 : R))
  let o4 := (Sphere.intersectsLineHit v1 (⟨(⟨(0.0 : R), (-(2.0 : R)), (0.0 : R)⟩ : Vec3 R), (⟨(0.0 : R), (2.0 : R), (0.0 : R)⟩ : Vec3 R)⟩ : Line3 R))
  bad := ck bad 469 o4.isSome
  bad := ck bad 470 (Vec3.eq (o4.getD (⟨0, 0, 0⟩, 0)).1 (⟨(0.0 : R), (-(1.0 : R)), (0.0 : R)⟩ : Vec3 R))
  bad := ck bad 471 ((o4.getD (⟨0, 0, 0⟩, 0)).2 == (0.25 : R))
  let o5 := (Sphere.intersectsLineHit v1 (⟨(⟨(0.0 : R), (2.0 : R), (0.0 : R)⟩ : Vec3 R), (⟨(0.0 : R), (-(2.0 : R)), (0.0 : R)⟩ : Vec3 R)⟩ : Line3 R))
  bad := ck bad 473 o5.isSome
  bad := ck bad 474 (Vec3.eq (o5.getD (⟨0, 0, 0⟩, 0)).1 (⟨(0.0 : R), (1.0 : R), (0.0 : R)⟩ : Vec3 R))
  bad := ck bad 475 ((o5.getD (⟨0, 0, 0⟩, 0)).2 == (0.25 : R))
  let o6 := (Sphere.intersectsLineHit v1 (⟨(⟨(0.0 : R), (0.0 : R), (-(2.0 : R))⟩ : Vec3 R), (⟨(0.0 : R), (0.0 : R), (2.0 : R)⟩ : Vec3 R)⟩ : Line3 R))
  bad := ck bad 477 o6.isSome
  bad := ck bad 478 (Vec3.eq (o6.getD (⟨0, 0, 0⟩, 0)).1 (⟨(0.0 : R), (0.0 : R), (-(1.0 : R))⟩ : Vec3 R))
  bad := ck bad 479 ((o6.getD (⟨0, 0, 0⟩, 0)).2 == (0.25 : R))
  let o7 := (Sphere.intersectsLineHit v1 (⟨(⟨(0.0 : R), (0.0 : R), (2.0 : R)⟩ : Vec3 R), (⟨(0.0 : R), (0.0 : R), (-(2.0 : R))⟩ : Vec3 R)⟩ : Line3 R))
  bad := ck bad 481 o7.isSome
  bad := ck bad 482 (Vec3.eq (o7.getD (⟨0, 0, 0⟩, 0)).1 (⟨(0.0 : R), (0.0 : R), (1.0 : R)⟩ : Vec3 R))
  bad := ck bad 483 ((o7.getD (⟨0, 0, 0⟩, 0)).2 == (0.25 : R))
  let o8 := (Sphere.intersectsLineHit v1 (⟨(⟨(-(2.0 : R)), (0.0 : R), (1.0 : R)⟩ : Vec3 R), (⟨(2.0 : R), (0.0 : R), (1.0 : R)⟩ : Vec3 R)⟩ : Line3 R))
  bad := ck bad 485 o8.isSome
  bad := ck bad 486 (Vec3.eq (o8.getD (⟨0, 0, 0⟩, 0)).1 (⟨(0.0 : R), (0.0 : R), (1.0 : R)⟩ : Vec3 R))
  bad := ck bad 487 ((o8.getD (⟨0, 0, 0⟩, 0)).2 == (0.5 : R))
  let o9 := (Sphere.intersectsLineHit v1 (⟨(⟨(-(2.0 : R)), (0.0 : R), (1.01 : R)⟩ : Vec3 R), (⟨(2.0 : R), (0.0 : R), (1.01 : R)⟩ : Vec3 R)⟩ : Line3 R))
  bad := ck bad 489 (!o9.isSome)
  let o10 := (Sphere.intersectsLineHit v1 (⟨(⟨(2.0 : R), (0.0 : R), (1.01 : R)⟩ : Vec3 R), (⟨(-(2.0 : R)), (0.0 : R), (1.01 : R)⟩ : Vec3 R)⟩ : Line3 R))
  bad := ck bad 490 (!o10.isSome)
  let o11 := (Sphere.intersectsLineHit v1 (⟨(⟨(0.0 : R), (-(2.0 : R)), (1.01 : R)⟩ : Vec3 R), (⟨(0.0 : R), (2.0 : R), (1.01 : R)⟩ : Vec3 R)⟩ : Line3 R))
  bad := ck bad 492 (!o11.isSome)
  let o12 := (Sphere.intersectsLineHit v1 (⟨(⟨(0.0 : R), (2.0 : R), (1.01 : R)⟩ : Vec3 R), (⟨(0.0 : R), (-(2.0 : R)), (1.01 : R)⟩ : Vec3 R)⟩ : Line3 R))
  bad := ck bad 493 (!o12.isSome)
  let o13 := (Sphere.intersectsLineHit v1 (⟨(⟨(0.0 : R), (1.01 : R), (-(2.0 : R))⟩ : Vec3 R), (⟨(0.0 : R), (1.01 : R), (2.0 : R)⟩ : Vec3 R)⟩ : Line3 R))
  bad := ck bad 495 (!o13.isSome)
  let o14 := (Sphere.intersectsLineHit v1 (⟨(⟨(0.0 : R), (1.01 : R), (2.0 : R)⟩ : Vec3 R), (⟨(0.0 : R), (1.01 : R), (-(2.0 : R))⟩ : Vec3 R)⟩ : Line3 R))
  bad := ck bad 496 (!o14.isSome)
  return bad
end Sphere_19
#guard passes Sphere_19.run

namespace Sphere_20
abbrev R := Float32
def run : Res (List Nat) := do
  let mut bad : List Nat := []
  let v1 : Sphere R := (constSphereOne : Sphere R)
  bad := ck bad 522 (Near.near (0.001 : R) v1 v1)
  return bad
end Sphere_20
#guard passes Sphere_20.run

end MathLib.Conformance
