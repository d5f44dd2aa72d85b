import Verif.Model.Interpolation

/-! # `interpolationRatio<double>` with its `float` temporaries

`Model/Interpolation.lean` keeps the temporaries `t0` of the Quartic/Quintic modes as `Real`, which is what the
code does for `Real = float`.  Here they are narrowed, as for `Real = double`. -/

namespace MathLib

variable {R : Type} [Zero R] [One R] [NatCast R] [Add R] [Sub R] [Mul R] [Div R] [Neg R]
  [LT R] [LE R] [DecidableLT R] [DecidableLE R] [BEq R] [MathFns R]

/-- The `switch` of `interpolationRatio`, interpolation.h:52-121, for `Real = double`.  `narrow` is the conversion
to `float`; `t0` is a `float` (lines 75, 79, 87, 91), so products of `t0`s are `float` products. -/
def interpolationSwitchD (narrow : R → R) (t : R) : InterpolationMode → R
  | .QuarticOut =>
    let t0 := narrow (t - 1)
    narrow (narrow (narrow (-t0 * t0) * t0) * t0) + 1
  | .QuarticInOut =>
    let t0 := narrow (2 * t - 2)
    if t < 1 / 2 then 8 * t * t * t * t
    else -(1 / 2) * (narrow (narrow (narrow (t0 * t0) * t0) * t0) - 2)
  | .QuinticOut =>
    let t0 := narrow (t - 1)
    narrow (narrow (narrow (narrow (t0 * t0) * t0) * t0) * t0) + 1
  | .QuinticInOut =>
    let t0 := narrow (2 * t - 2)
    if t < 1 / 2 then 16 * t * t * t * t * t
    else 1 / 2 * (narrow (narrow (narrow (narrow (t0 * t0) * t0) * t0) * t0) + 2)
  | mode => interpolationSwitch t mode

/-- `interpolationRatio<double>`, interpolation.h:44-124. -/
def interpolationRatioD (narrow : R → R) (t : R) (mode : InterpolationMode) : R :=
  if t ≤ 0 then 0
  else if t ≥ 1 then 1
  else interpolationSwitchD narrow t mode

end MathLib
