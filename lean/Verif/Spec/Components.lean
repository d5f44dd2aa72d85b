import Verif.Model.Vec

/-! # Components of vectors by coordinate -/

namespace MathLib
variable {R : Type}

/-- the component named by a coordinate, if the vector has one -/
def Vec2.comp? (v : Vec2 R) : Coord → Option R
  | .X => some v.x | .Y => some v.y | _ => none
def Vec3.comp? (v : Vec3 R) : Coord → Option R
  | .X => some v.x | .Y => some v.y | .Z => some v.z | _ => none
def Vec4.comp? (v : Vec4 R) : Coord → Option R
  | .X => some v.x | .Y => some v.y | .Z => some v.z | .W => some v.w | _ => none

/-- an absent component is a failed assertion -/
def orAssert {α : Type} : Option α → Res α
  | some a => .ok a
  | none => .error .assertion

end MathLib
