import Verif.Spec.Ieee

/-! # The values of an IEEE format, and the conversion to a wider one -/

namespace MathLib
namespace Ieee
variable {K : Type} [Field K] [LinearOrder K] [IsStrictOrderedRing K] [FloorRing K] {p : ℕ} {emax : ℤ}

/-- representable in the format, its upper end left aside -/
def OnFormat (p : ℕ) (emax : ℤ) (v : K) : Prop := grid p emax v = v

/-- Values that a program can hold: finite ones are representable and not too large. -/
def Valid : Ieee K p emax → Prop
  | nan | inf _ | zero _ => True
  | num v => v ≠ 0 ∧ OnFormat p emax v ∧ |v| < 2 ^ (emax + 1)

/-- the conversion to a format that has all the values of the first one, such as `float` to `double` -/
def widen {p' : ℕ} {emax' : ℤ} : Ieee K p emax → Ieee K p' emax'
  | nan => nan
  | inf s => inf s
  | zero s => zero s
  | num v => num v

end Ieee
end MathLib
