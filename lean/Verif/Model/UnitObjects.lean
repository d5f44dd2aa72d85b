import Verif.Model.Box

/-! # Model of the constants `One` of boxes, circles and spheres -/

namespace MathLib

variable {R : Type} [Zero R] [One R] [NatCast R] [Add R] [Sub R] [Mul R] [Div R] [Neg R]
  [LT R] [LE R] [DecidableLT R] [DecidableLE R] [BEq R] [MathFns R]

/-- `AABB2::One`, impl/aabb2.h:10-13. -/
def AABB2.one : AABB2 R := ⟨⟨-(1 / 2), -(1 / 2)⟩, ⟨1 / 2, 1 / 2⟩⟩
/-- `AABB3::One`, impl/aabb3.h:10-13. -/
def AABB3.one : AABB3 R := ⟨⟨-(1 / 2), -(1 / 2), -(1 / 2)⟩, ⟨1 / 2, 1 / 2, 1 / 2⟩⟩
/-- `CAABB2::One`, impl/caabb2.h:5-8. -/
def CAABB2.one : CAABB2 R := .ofCenterSize ⟨0, 0⟩ ⟨1, 1⟩
/-- `CAABB3::One`, impl/caabb3.h:5-8. -/
def CAABB3.one : CAABB3 R := .ofCenterSize ⟨0, 0, 0⟩ ⟨1, 1, 1⟩
/-- `Circle::One`, impl/circle.h:5-6. -/
def Circle.one : Res (Circle R) := Circle.mk' ⟨0, 0⟩ 1
/-- `Sphere::One`, impl/sphere.h:5-6. -/
def Sphere.one : Res (Sphere R) := Sphere.mk' ⟨0, 0, 0⟩ 1

end MathLib
