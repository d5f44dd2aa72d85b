import Verif.Spec.FloatReal
import Verif.Model.Slerp
import Verif.Model.Mat34
import Verif.Model.Geom

/-! # Finite values: no invalid operation happened

An invalid operation (division by zero, root of a negative number, arc function outside `[-1,1]`)
yields `nan` in `Fl ℝ rnd` and `nan` never goes away, so a finite result shows that none happened in
the computation of that result. -/

namespace MathLib

/-- what the theorems need of the rounding function: it is monotone and fixes zero -/
structure IsRounding (rnd : ℝ → ℝ) : Prop where
  mono : Monotone rnd
  zero : rnd 0 = 0

/-- in addition it is odd, does not round a positive number to zero (no underflow), and fixes the
small integers and one half -/
structure IsAccurate (rnd : ℝ → ℝ) : Prop extends IsRounding rnd where
  odd : ∀ x, rnd (-x) = -rnd x
  pos : ∀ x, 0 < x → 0 < rnd x
  small : ∀ n : ℕ, n ≤ 8 → rnd n = n
  half : rnd (1 / 2) = 1 / 2

/-- not `nan` -/
def Fl.Fin {K : Type} {rnd : K → K} (a : Fl K rnd) : Prop := ∃ v, a = .num v

variable {rnd : ℝ → ℝ}

def Vec2.Fin (v : Vec2 (Fl ℝ rnd)) : Prop := v.x.Fin ∧ v.y.Fin
def Vec3.Fin (v : Vec3 (Fl ℝ rnd)) : Prop := v.x.Fin ∧ v.y.Fin ∧ v.z.Fin
def Vec4.Fin (v : Vec4 (Fl ℝ rnd)) : Prop := v.x.Fin ∧ v.y.Fin ∧ v.z.Fin ∧ v.w.Fin
def Quat.Fin (v : Quat (Fl ℝ rnd)) : Prop := v.x.Fin ∧ v.y.Fin ∧ v.z.Fin ∧ v.w.Fin
def Mat2.Fin (m : Mat2 (Fl ℝ rnd)) : Prop := m.x.Fin ∧ m.y.Fin
def Mat3.Fin (m : Mat3 (Fl ℝ rnd)) : Prop := m.x.Fin ∧ m.y.Fin ∧ m.z.Fin
def Mat34.Fin (m : Mat34 (Fl ℝ rnd)) : Prop := m.rs.Fin ∧ m.t.Fin
def Mat4.Fin (m : Mat4 (Fl ℝ rnd)) : Prop := m.x.Fin ∧ m.y.Fin ∧ m.z.Fin ∧ m.t.Fin

end MathLib
