import Verif.Proof.Ieee
import Mathlib.Order.WithBot

/-! # Comparing IEEE numbers: apart from NaN a linear preorder -/

namespace MathLib
namespace Ieee

section
variable {K : Type} [Field K] [LinearOrder K] [IsStrictOrderedRing K] [FloorRing K] {p : ℕ} {emax : ℤ}

/-- the value of a number other than NaN on the extended line -/
def ext : Ieee K p emax → WithBot (WithTop K)
  | nan => ⊥
  | inf true => ⊥
  | inf false => ((⊤ : WithTop K) : WithBot (WithTop K))
  | zero _ => (((0 : K) : WithTop K) : WithBot (WithTop K))
  | num v => ((v : WithTop K) : WithBot (WithTop K))

omit [IsStrictOrderedRing K] [FloorRing K] in
theorem le_iff (a b : Ieee K p emax) : a ≤ b ↔ a ≠ nan ∧ b ≠ nan ∧ ext a ≤ ext b := by
  change leB a b = true ↔ _
  rcases a with _ | (_ | _) | _ | _ <;> rcases b with _ | (_ | _) | _ | _ <;> simp [leB, ext, -WithBot.coe_zero, -WithTop.coe_zero, -WithBot.coe_top]

omit [IsStrictOrderedRing K] [FloorRing K] in
theorem lt_iff (a b : Ieee K p emax) : a < b ↔ a ≠ nan ∧ b ≠ nan ∧ ext a < ext b := by
  change ltB a b = true ↔ _
  rcases a with _ | (_ | _) | _ | _ <;> rcases b with _ | (_ | _) | _ | _ <;> simp [ltB, ext, -WithBot.coe_zero, -WithTop.coe_zero, -WithBot.coe_top]

omit [IsStrictOrderedRing K] [FloorRing K] in
theorem not_lt_nan (a : Ieee K p emax) : ¬ a < nan := fun h => ((lt_iff a nan).1 h).2.1 rfl
omit [IsStrictOrderedRing K] [FloorRing K] in
theorem not_nan_lt (a : Ieee K p emax) : ¬ nan < a := fun h => ((lt_iff nan a).1 h).1 rfl
omit [IsStrictOrderedRing K] [FloorRing K] in
theorem not_le_nan (a : Ieee K p emax) : ¬ a ≤ nan := fun h => ((le_iff a nan).1 h).2.1 rfl
omit [IsStrictOrderedRing K] [FloorRing K] in
theorem not_nan_le (a : Ieee K p emax) : ¬ nan ≤ a := fun h => ((le_iff nan a).1 h).1 rfl

end
end Ieee
end MathLib
