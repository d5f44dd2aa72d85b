import Mathlib.Algebra.Order.Field.Rat

/-! # Model of `impl/constants.h`

`D` is `double` and `R` the type `Real`.  `lit` is the compiler's conversion of a literal to `double`, `toR`
the conversion `Real(x)` of a `double`, `toD` that of a `Real` operand to `double` in a mixed operation. -/

namespace MathLib
namespace Constants
variable {D R : Type} [Mul D] [Div D]

omit [Mul D] [Div D] in
/-- `Constants::PI`, impl/constants.h:7-8. -/
def PI (lit : ℚ → D) (toR : D → R) : R := toR (lit (31415926535897932384626433832795 / 10000000000000000000000000000000))
/-- `Constants::PI_TIMES_2`, impl/constants.h:10-11. -/
def PI_TIMES_2 (lit : ℚ → D) (toR : D → R) (toD : R → D) : R := toR (toD (PI lit toR) * lit 2)
/-- `Constants::PI_OVER_2`, impl/constants.h:13-14. -/
def PI_OVER_2 (lit : ℚ → D) (toR : D → R) (toD : R → D) : R := toR (toD (PI lit toR) * lit (1 / 2))
/-- `Constants::PI_OVER_4`, impl/constants.h:16-17. -/
def PI_OVER_4 (lit : ℚ → D) (toR : D → R) (toD : R → D) : R := toR (toD (PI lit toR) * lit (1 / 4))
/-- `Constants::PI_OVER_8`, impl/constants.h:19-20. -/
def PI_OVER_8 (lit : ℚ → D) (toR : D → R) (toD : R → D) : R := toR (toD (PI lit toR) * lit (1 / 8))
/-- `Constants::PI_OVER_16`, impl/constants.h:22-23. -/
def PI_OVER_16 (lit : ℚ → D) (toR : D → R) (toD : R → D) : R := toR (toD (PI lit toR) * lit (1 / 16))
/-- `Constants::PI_OVER_3`, impl/constants.h:25-26. -/
def PI_OVER_3 (lit : ℚ → D) (toR : D → R) (toD : R → D) : R := toR (toD (PI lit toR) / lit 3)
/-- `Constants::PI_OVER_6`, impl/constants.h:28-29. -/
def PI_OVER_6 (lit : ℚ → D) (toR : D → R) (toD : R → D) : R := toR (toD (PI lit toR) / lit 6)

/-- `Constants::MIN_VALUE`, impl/constants.h:40-41; `least` is `std::numeric_limits<Real>::min()`. -/
def MIN_VALUE (least : R) : R := least
/-- `Constants::MAX_VALUE`, impl/constants.h:43-44; `greatest` is `std::numeric_limits<Real>::max()`. -/
def MAX_VALUE (greatest : R) : R := greatest
/-- `Constants::MAX_NEG_VALUE`, impl/constants.h:46-47. -/
def MAX_NEG_VALUE [Neg R] (greatest : R) : R := -greatest

end Constants
end MathLib
