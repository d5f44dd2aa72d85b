import Mathlib.Data.Nat.Cast.Defs
import Mathlib.Order.Defs.LinearOrder

/-!
# Shared vocabulary of the model

Everything is generic in the scalar type `R`, exactly like the C++ code is generic in the
template parameter `Real`.
-/

namespace MathLib

/-- Outcomes of C++ code other than "returns a value" (e.g. `assert`, impl/linearequations.h:7; an uninitialised
matrix, impl/mat2.h:18-22; `% n`, functions.h:68). -/
inductive Fault where
  /-- an `assert` failed (asserts are modelled as compiled in) -/
  | assertion
  /-- an object that was never initialised is used -/
  | uninit
  /-- signed `int` overflow, or a floating point value converted to an `int` it does not fit -/
  | intOverflow
  /-- integer division or remainder by zero -/
  | divByZero
  /-- array access outside the array -/
  | outOfRange
  deriving DecidableEq, Repr

/-- Result of a C++ call: a value or a fault (as in impl/linearequations.h:3-35). -/
abbrev Res (α : Type) := Except Fault α

/-- The C library functions used by the code (`<cmath>`) and the constant pi
(`impl/constants.h:8`, a decimal literal rounded to `Real`; in the exact instance it is pi). -/
class MathFns (R : Type) where
  sqrt : R → R
  sin : R → R
  cos : R → R
  /-- `::asin`, argument in [-1,1] -/
  asin : R → R
  /-- `::acos`, argument in [-1,1] -/
  acos : R → R
  /-- `::atan2(y, x)` -/
  atan2 : R → R → R
  pow : R → R → R
  /-- `::fmod(x, y)`, the remainder of truncating division -/
  fmod : R → R → R
  /-- value of the conversion of a floating point number to an integer (towards zero) -/
  trunc : R → Int
  pi : R

/-- `enum class Coord`, common.h:16-23.  Values outside the enumerators behave like `Undefined`
in every `switch` of the library and are not modelled separately. -/
inductive Coord where
  | X | Y | Z | W | Undefined
  deriving DecidableEq, Repr

/-- `enum class Axis`, common.h:25-34. -/
inductive Axis where
  | X | Y | Z | NX | NY | NZ | Undefined
  deriving DecidableEq, Repr

/-- `enum class ResponseCurveType`, common.h:36-45. -/
inductive ResponseCurveType where
  | Zero | Linear | Parabolic | Cubic | Exponential | Cosine | Undefined
  deriving DecidableEq, Repr

end MathLib
