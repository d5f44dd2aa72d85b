import Verif.Model.Basic

/-! # Model of `functions.h` -/

namespace MathLib

/-- `next2D`, functions.h:7-15. -/
def next2D : Coord → Coord
  | .X => .Y
  | .Y => .X
  | _ => .Undefined

/-- `next3D`, functions.h:17-26. -/
def next3D : Coord → Coord
  | .X => .Y
  | .Y => .Z
  | .Z => .X
  | _ => .Undefined

/-! ## Code that only compares (functions.h:28-32, 173-210) -/

section Order
variable {R : Type}

/-- `abs(Real)`, functions.h:28-32. -/
def abs' [Zero R] [Neg R] [LT R] [DecidableLT R] (value : R) : R :=
  if value < 0 then -value else value

/-- `min`, functions.h:173-182 (`int` and `Real` overloads have the same body). -/
def min' [LT R] [DecidableLT R] (a b : R) : R := if a < b then a else b

/-- `max`, functions.h:185-194. -/
def max' [LT R] [DecidableLT R] (a b : R) : R := if a > b then a else b

/-- `clippedBetween`, functions.h:197-210. -/
def clippedBetween [LT R] [DecidableLT R] (value a b : R) : R :=
  if value > b then b else if value < a then a else value

end Order

/-! ## Integer random helpers.  `r` is the value returned by `::rand()`.

`int` is 32 bits; every intermediate result outside the range is a fault, as is `% 0`. -/

/-- the least value of a 32-bit `int` (functions.h:66-87) -/
def intMin : Int := -2147483648
/-- the greatest value of a 32-bit `int` (functions.h:66-87) -/
def intMax : Int := 2147483647

/-- An `int` operation whose mathematical result is `x`: fault on overflow (functions.h:71-87). -/
def mkInt (x : Int) : Res Int :=
  if intMin ≤ x ∧ x ≤ intMax then .ok x else .error .intOverflow

/-- C++ `a % b` on `int` (truncating), functions.h:68-84. -/
def intRem (a b : Int) : Res Int :=
  if b = 0 then .error .divByZero else .ok (a.tmod b)

/-- `rand(int n)`, functions.h:66-69. -/
def randInt (r n : Int) : Res Int := intRem r n

/-- `randBetween(int,int)`, functions.h:71-74. -/
def randBetweenInt (r «from» to : Int) : Res Int := do
  let d ← mkInt (to - «from»)
  let m ← intRem r d
  mkInt («from» + m)

/-- `randAmplitude(int)`, functions.h:76-79. -/
def randAmplitudeInt (r n : Int) : Res Int := do
  let d ← mkInt (2 * n)
  let m ← intRem r d
  mkInt (m - n)

/-- `randAmplitude(int,int)`, functions.h:81-86. -/
def randAmplitudeInt2 (r «from» to : Int) : Res Int := do
  let delta ← mkInt (to - «from»)
  let d ← mkInt (2 * delta)
  let m ← intRem r d
  let r' ← mkInt (m - delta)
  if r' ≥ 0 then mkInt («from» + r') else do
    let nf ← mkInt (-«from»)
    mkInt (nf + r')

section Real
variable {R : Type} [Zero R] [One R] [NatCast R] [Add R] [Sub R] [Mul R] [Div R] [Neg R]
  [LT R] [LE R] [DecidableLT R] [DecidableLE R] [BEq R] [MathFns R]

/-- `degreeToRadian`, functions.h:34-38. -/
def degreeToRadian (x : R) : R := x * MathFns.pi / 180

/-- `radianToDegree`, functions.h:40-44. -/
def radianToDegree (x : R) : R := x * 180 / MathFns.pi

/-- `asin`, functions.h:46-54. -/
def asin' (s : R) : R :=
  let s := if s > 1 then 1 else s
  let s := if s < -1 then -1 else s
  MathFns.asin s

/-- `acos`, functions.h:56-64. -/
def acos' (c : R) : R :=
  let c := if c > 1 then 1 else c
  let c := if c < -1 then -1 else c
  MathFns.acos c

/-- `rand(Real)`, functions.h:88-92.  `r` is the value of `::rand()` and `m` is `RAND_MAX`,
both already converted to `Real`. -/
def randReal (m r f : R) : R := r * (f / m)

/-- `randBetween(Real,Real)`, functions.h:94-98. -/
def randBetweenReal (m r «from» to : R) : R := «from» + r * (to - «from») / m

/-- `randAmplitude(Real)`, functions.h:100-104. -/
def randAmplitudeReal (m r f : R) : R := (r * (2 / m) - 1) * f

/-- `randAmplitude(Real,Real)`, functions.h:106-113.  The test `r >= 0` is on the `int`. -/
def randAmplitudeReal2 (m r «from» to : R) : R :=
  if r ≥ 0 then «from» + r * (to - «from») / m
  else -(«from» + r * (to - «from») / m)

/-- `fmod`, functions.h:115-120. -/
def fmod' (x y : R) : Res R :=
  if y == 0 then .error .assertion else .ok (MathFns.fmod x y)

/-- `fmodPositive`, functions.h:122-128. -/
def fmodPositive (x y : R) : Res R :=
  if y > 0 then
    let r := MathFns.fmod x y
    .ok (if r ≥ 0 then r else y + r)
  else .error .assertion

/-- `fmodCentered`, functions.h:130-135 (`Real(0.5)` is `1/2`). -/
def fmodCentered (x y : R) : Res R := do
  let y_2 := y * (1 / 2)
  let r ← fmodPositive (x + y_2) y
  .ok (r - y_2)

/-- `evaluate`, functions.h:212-269.  `1.57079633` is the rational 157079633/100000000. -/
def evaluate (value threshold : R) (curveType : ResponseCurveType) : Res R :=
  if ¬ (threshold ≥ 0 ∧ threshold < 1) then .error .assertion else
  let value :=
    if value ≥ -threshold ∧ value ≤ threshold then 0
    else if value ≥ 0 then (value - threshold) / (1 - threshold)
    else (value + threshold) / (1 - threshold)
  let c : R := 157079633 / 100000000
  match curveType with
  | .Zero => .ok 0
  | .Linear => .ok value
  | .Parabolic => .ok (if value ≥ 0 then value * value else -value * value)
  | .Cubic => .ok (value * value * value)
  | .Exponential => .ok (if value ≥ 0 then MathFns.pow 2 value - 1
      else -(MathFns.pow 2 (-value) - 1))
  | .Cosine => .ok (if value ≥ 0 then
        (if value ≥ 1 then 1
         else (1 - MathFns.cos (value * c)) / (1 - MathFns.cos c))
      else
        (if value ≤ -1 then -1
         else -(1 - MathFns.cos ((-value) * c)) / (1 - MathFns.cos c)))
  | .Undefined => .error .assertion

end Real

end MathLib
