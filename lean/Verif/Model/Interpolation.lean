import Verif.Model.Vec

/-! # Model of `interpolation.h` -/

namespace MathLib

/-- `enum class InterpolationMode`, interpolation.h:5-36. -/
inductive InterpolationMode where
  | Linear | Parabolic | Cubic | Exponential | Cosine
  | QuadraticIn | QuadraticOut | QuadraticInOut
  | CubicIn | CubicOut | CubicInOut
  | QuarticIn | QuarticOut | QuarticInOut
  | QuinticIn | QuinticOut | QuinticInOut
  | SinusoidalIn | SinusoidalOut | SinusoidalInOut
  | ExponentialIn | ExponentialOut | ExponentialInOut
  | Exponential2In | Exponential2Out | Exponential2InOut
  | CircularIn | CircularOut | CircularInOut
  deriving DecidableEq, Repr

variable {R : Type} [Zero R] [One R] [NatCast R] [Add R] [Sub R] [Mul R] [Div R] [Neg R]
  [LT R] [LE R] [DecidableLT R] [DecidableLE R] [BEq R] [MathFns R]

/-- `POW_2_M10 = 0.000976563f`, interpolation.h:38: the `float` nearest to that decimal. -/
def POW_2_M10 : R := 2097153 / 2147483648
/-- `INV_POW_2_0_MINUS_POW_2_M10 = 1.00098f`, interpolation.h:42: the `float` nearest to it. -/
def INV_POW : R := 8396829 / 8388608

/-- `Constants::PI_OVER_2 = PI * 0.5`, impl/constants.h:13-14. -/
def piOver2 : R := MathFns.pi * (1 / 2)
/-- `Constants::PI_TIMES_2 = PI * 2`, impl/constants.h:10-11. -/
def piTimes2 : R := MathFns.pi * 2

/-- The `switch` of `interpolationRatio`, interpolation.h:52-121: reached for `0 < t < 1`.
The `float t0` temporaries of the Quartic/Quintic modes are kept as `Real` here; Model/EaseFloat.lean has them. -/
def interpolationSwitch (t : R) : InterpolationMode → R
  | .Parabolic => t * t
  | .Cubic => t * t * t
  | .Exponential => MathFns.pow 2 t - 1
  | .Cosine => 1 - MathFns.cos (t * piOver2)
  | .Linear => t
  | .QuadraticIn => t * t
  | .QuadraticOut => t * (2 - t)
  | .QuadraticInOut => if t < 1 / 2 then 2 * t * t else (-2 * t + 4) * t - 1
  | .CubicIn => t * t * t
  | .CubicOut => t * (t * (t - 3) + 3)
  | .CubicInOut => if t < 1 / 2 then 4 * t * t * t else ((4 * t - 12) * t + 12) * t - 3
  | .QuarticIn => t * t * t * t
  | .QuarticOut =>
    let t0 := t - 1; -t0 * t0 * t0 * t0 + 1
  | .QuarticInOut =>
    let t0 := 2 * t - 2
    if t < 1 / 2 then 8 * t * t * t * t else -(1 / 2) * (t0 * t0 * t0 * t0 - 2)
  | .QuinticIn => t * t * t * t * t
  | .QuinticOut =>
    let t0 := t - 1
    t0 * t0 * t0 * t0 * t0 + 1
  | .QuinticInOut =>
    let t0 := 2 * t - 2
    if t < 1 / 2 then 16 * t * t * t * t * t else 1 / 2 * (t0 * t0 * t0 * t0 * t0 + 2)
  | .SinusoidalIn => 1 - MathFns.cos (t * piOver2)
  | .SinusoidalOut => MathFns.sin (t * piOver2)
  | .SinusoidalInOut => 1 / 2 * (1 - MathFns.cos (t * MathFns.pi))
  | .ExponentialIn => (MathFns.pow 2 (10 * (t - 1)) - POW_2_M10) * INV_POW
  | .ExponentialOut => 1 - (MathFns.pow 2 (-10 * t) - POW_2_M10) * INV_POW
  | .ExponentialInOut =>
    if t < 1 / 2 then 1 / 2 * ((MathFns.pow 2 (20 * t - 10) - POW_2_M10) * INV_POW)
    else 1 / 2 * (2 - (MathFns.pow 2 (10 - 20 * t) - POW_2_M10) * INV_POW)
  | .Exponential2In => MathFns.pow 2 (20 * (t - 1))
  | .Exponential2Out => 1 - MathFns.pow 2 (-20 * t)
  | .Exponential2InOut =>
    if t < 1 / 2 then 1 / 2 * MathFns.pow 2 (40 * t - 20)
    else 1 / 2 * (2 - MathFns.pow 2 (20 - 40 * t))
  | .CircularIn => 1 - MathFns.sqrt (1 - t * t)
  | .CircularOut => MathFns.sqrt (1 - (t - 1) * (t - 1))
  | .CircularInOut =>
    if t < 1 / 2 then 1 / 2 * (1 - MathFns.sqrt (1 - 4 * t * t))
    else 1 / 2 * (MathFns.sqrt (1 - (4 * t - 8) * t - 4) + 1)

/-- `interpolationRatio`, interpolation.h:44-124. -/
def interpolationRatio (t : R) (mode : InterpolationMode) : R :=
  if t ≤ 0 then 0
  else if t ≥ 1 then 1
  else interpolationSwitch t mode

/-- `lerp(int,int,Real)`, interpolation.h:126-130.  `toR` is the `int` to `Real` conversion. -/
def lerpInt (toR : Int → R) («from» to : Int) (ratio : R) : Res Int := do
  let d ← mkInt (to - «from»)
  let s ← mkInt (MathFns.trunc (ratio * toR d))
  mkInt («from» + s)

/-- `lerp(Real,Real,Real)`, interpolation.h:132-137. -/
def lerp («from» to ratio : R) : R :=
  let delta := to - «from»
  «from» + delta * ratio

/-- `lerp(Vec2,Vec2,Real)`, interpolation.h:139-144. -/
def lerpVec2 («from» to : Vec2 R) (ratio : R) : Vec2 R :=
  ⟨«from».x + (to.x - «from».x) * ratio, «from».y + (to.y - «from».y) * ratio⟩

/-- `lerp(Vec3,Vec3,Real)`, interpolation.h:146-152. -/
def lerpVec3 («from» to : Vec3 R) (ratio : R) : Vec3 R :=
  ⟨«from».x + (to.x - «from».x) * ratio, «from».y + (to.y - «from».y) * ratio,
   «from».z + (to.z - «from».z) * ratio⟩

/-- `lerp(int,int,Real,InterpolationMode)`, interpolation.h:154-158. -/
def lerpIntMode (toR : Int → R) («from» to : Int) (ratio : R) (mode : InterpolationMode) :
    Res Int := lerpInt toR «from» to (interpolationRatio ratio mode)

/-- `lerp(Real,Real,Real,InterpolationMode)`, interpolation.h:160-164. -/
def lerpMode («from» to ratio : R) (mode : InterpolationMode) : R :=
  lerp «from» to (interpolationRatio ratio mode)

/-- `lerp(Vec2,Vec2,Real,InterpolationMode)`, interpolation.h:166-170. -/
def lerpVec2Mode («from» to : Vec2 R) (ratio : R) (mode : InterpolationMode) : Vec2 R :=
  lerpVec2 «from» to (interpolationRatio ratio mode)

/-- `lerp(Vec3,Vec3,Real,InterpolationMode)`, interpolation.h:172-176. -/
def lerpVec3Mode («from» to : Vec3 R) (ratio : R) (mode : InterpolationMode) : Vec3 R :=
  lerpVec3 «from» to (interpolationRatio ratio mode)

/-- The first line of `clerp` and of both `clerpMaxAngle`, interpolation.h:181, 188, 198.
The divisor `2*pi` is a non-zero constant, so the assertion of `fmod` cannot fire. -/
def clerpDelta («from» to : R) : R :=
  MathFns.fmod (to - «from» + MathFns.pi) piTimes2 - MathFns.pi

/-- `clerp`, interpolation.h:178-183. -/
def clerp («from» to ratio : R) : R :=
  «from» + clerpDelta «from» to * ratio

/-- `clerpMaxAngle`, interpolation.h:185-193. -/
def clerpMaxAngle («from» to maxAngle : R) : R :=
  let delta := clerpDelta «from» to
  if delta ≥ 0 then «from» + (if delta > maxAngle then maxAngle else delta)
  else «from» + (if delta < -maxAngle then -maxAngle else delta)

/-- `clerpMaxAngle` with a ratio output, interpolation.h:195-204.  Returns (angle, ratio). -/
def clerpMaxAngleRatio («from» to maxAngle : R) : R × R :=
  let delta := clerpDelta «from» to
  let angle :=
    if delta ≥ 0 then «from» + (if delta > maxAngle then maxAngle else delta)
    else «from» + (if delta < -maxAngle then -maxAngle else delta)
  (angle, angle / delta)

/-- `Vec2::clerp`, impl/vec2.h:115-133. -/
def Vec2.clerp (u v : Vec2 R) (ratio : R) : Res (Vec2 R) :=
  if ¬ (ratio ≥ 0 ∧ ratio ≤ 1) then .error .assertion
  else if ratio == 0 then .ok u
  else if ratio == 1 then .ok v
  else .ok (Vec2.ofAngle (MathLib.clerp u.angle v.angle ratio) (lerp u.length v.length ratio))

/-- `Vec2::clerpMaxAngle`, impl/vec2.h:135-151. -/
def Vec2.clerpMaxAngle (u v : Vec2 R) (maxAngle : R) : Res (Vec2 R) :=
  if ¬ (maxAngle ≥ 0) then .error .assertion
  else if maxAngle == 0 then .ok u
  else
    let (angle, ratio) := clerpMaxAngleRatio u.angle v.angle maxAngle
    .ok (Vec2.ofAngle angle (lerp u.length v.length ratio))

end MathLib
