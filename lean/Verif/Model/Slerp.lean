import Verif.Model.Quat

/-! # Model of `Vec3::slerp` and `Vec3::slerpMaxAngle` -/

namespace MathLib
variable {R : Type} [Zero R] [One R] [NatCast R] [Add R] [Sub R] [Mul R] [Div R] [Neg R] [LT R]
  [LE R] [DecidableLT R] [DecidableLE R] [BEq R] [MathFns R]

/-- `Vec3::slerp`, impl/vec3.h:105-149.  The literal `0.05f` is exactly 13421773 / 2^28. -/
def Vec3.slerp (u v : Vec3 R) (ratio : R) : Res (Vec3 R) :=
  if ratio == 0 then .ok u
  else if ratio == 1 then .ok v
  else
    let lengthU := u.length
    let lengthV := v.length
    if lengthU == 0 || lengthV == 0 then
      .ok ⟨u.x + (v.x - u.x) * ratio, u.y + (v.y - u.y) * ratio, u.z + (v.z - u.z) * ratio⟩
    else do
      let n ← (u.cross v).div (lengthU * lengthV)
      let sinAngle := n.dot (n.normalized 1)
      if abs' sinAngle < 13421773 / 268435456 then
        .ok ⟨u.x + (v.x - u.x) * ratio, u.y + (v.y - u.y) * ratio, u.z + (v.z - u.z) * ratio⟩
      else
        let angle := asin' sinAngle
        let q := Quat.ofAxisAngle n (angle * ratio)
        let w := q.rotated u
        .ok (w.normalize (lengthU + (lengthV - lengthU) * ratio)).1

/-- `Vec3::slerpMaxAngle`, impl/vec3.h:151-195. -/
def Vec3.slerpMaxAngle (u v : Vec3 R) (maxAngle : R) : Res (Vec3 R) :=
  if maxAngle ≥ 0 then
    if maxAngle == 0 then .ok u
    else
      let lengthU := u.length
      let lengthV := v.length
      if lengthU == 0 then .ok v
      else if lengthV == 0 then .ok u
      else do
        let n ← (u.cross v).div (lengthU * lengthV)
        let sinAngle := n.dot (n.normalized 1)
        let angle := asin' sinAngle
        if angle == 0 then .ok v
        else
          let actualAngle :=
            if angle ≥ 0 then (if angle > maxAngle then maxAngle else angle)
            else (if angle < -maxAngle then -maxAngle else angle)
          let ratio := actualAngle / angle
          let q := Quat.ofAxisAngle n actualAngle
          let w := q.rotated u
          .ok (w.normalize (lengthU + (lengthV - lengthU) * ratio)).1
  else .error .assertion

end MathLib
